import Verif.Control.Spec
import Verif.FilterEvents.Model

/-!
# What the sender of an event relies on

A table of the parameters of each event: their names, types, whether they must be there, and what is done with one of the wrong
type.  The meaning of an event is read off this table, member by member, without regard to the order of the members or to members not
in the table.
-/

namespace Lms.FilterEvents

open Lms Lms.Json Lms.Control

/-- Types of parameters. -/
inductive Ty where
  | int | flt | bool | text | ints
  deriving DecidableEq

/-- What becomes of a parameter of the wrong type: it ends the process, it is as good as left out, or the event is refused. -/
inductive Wrong where
  | ends | ignored | refused
  deriving DecidableEq

/-- A parameter. -/
structure Par where
  name : String
  ty : Ty
  need : Bool
  wrong : Wrong

/-- The value of a node for a parameter of this type, if it can be taken for one: `null` is zero, false or the text null, and any
number or boolean is a text. -/
def Ty.value : Ty → Node → Option Val
  | .int, n => (intOf n).map .int
  | .flt, .val .null _ => some (.flt "0".toList)
  | .flt, .val .num s => some (.flt s)
  | .flt, _ => none
  | .bool, .val .null _ => some (.bool false)
  | .bool, .val .bool s => some (.bool (decide (s = "true".toList)))
  | .bool, _ => none
  | .text, n => (textOf n).map .text
  | .ints, .arr l => (allSome (l.map intOf)).map .ints
  | .ints, _ => none

/-- The node is of this JSON type. -/
def Ty.proper : Ty → Node → Bool
  | .int, .val .num _ => true
  | .flt, .val .num _ => true
  | .bool, .val .bool _ => true
  | .text, .val .str _ => true
  | .ints, .arr _ => true
  | _, _ => false

/-- The node counts as given: not a parameter of the wrong type that is ignored. -/
def Par.given (p : Par) (params : Node) : Option Node :=
  match member p.name params with
  | none => none
  | some n => if p.wrong = .ignored ∧ p.ty.proper n = false then none else some n

/-- The event must be refused for this parameter. -/
def Par.refuses (p : Par) (params : Node) : Bool :=
  match member p.name params with
  | none => p.need
  | some n => decide (p.wrong = .refused) && !p.ty.proper n

/-- The process must end for this parameter. -/
def Par.ends (p : Par) (params : Node) : Bool :=
  match p.given params with
  | none => false
  | some n => (p.ty.value n).isNone

/-- The value of this parameter. -/
def Par.read (p : Par) (params : Node) : Option Val := (p.given params).bind p.ty.value

/-- What becomes of an event. -/
inductive Verdict where
  | ends | undefined | refused
  | takes (args : Args)
  deriving DecidableEq

/-- The parameters of an event, what happens when the event has none at all, and what is asked of the values taken together. -/
structure Form where
  pars : List Par
  missing : Verdict
  whole : Args → Option Args

/-- The meaning of parameters by such a table: a missing or refusing parameter refuses the event, even if another one would end the
process. -/
def Form.read (f : Form) : Option Node → Verdict
  | none => f.missing
  | some (.obj l) =>
    if f.pars.any (·.refuses (.obj l)) then .refused
    else if f.pars.any (·.ends (.obj l)) then .ends
    else match f.whole (f.pars.map (·.read (.obj l))) with
      | some args => .takes args
      | none => .refused
  | some _ => .ends

/-- Must be there; the wrong type ends the process. -/
def must (k : String) (t : Ty) : Par := ⟨k, t, true, .ends⟩
/-- Must be there; the wrong type is refused. -/
def mustBe (k : String) (t : Ty) : Par := ⟨k, t, true, .refused⟩
/-- May be there; the wrong type ends the process. -/
def may (k : String) (t : Ty) : Par := ⟨k, t, false, .ends⟩
/-- May be there; the wrong type is ignored. -/
def mayBe (k : String) (t : Ty) : Par := ⟨k, t, false, .ignored⟩

/-- A list of readers is not empty. -/
def someReaders (a : Args) : Option Args := if a.getLast? = some (some (.ints [])) then none else some a

/-- The pixel format is one of -1 to 5. -/
def pixelInRange (a : Args) : Option Args :=
  match a.getLast? with
  | some (some (.int z)) => if -1 ≤ z ∧ z ≤ 5 then some a else none
  | _ => some a

/-- Width and height only together. -/
def bothSizes : Args → Option Args
  | [some w, some h, f] => some [some w, some h, f]
  | [_, _, f] => some [none, none, f]
  | _ => none

/-- The table.  Those not here: events without parameters, `gopReferenceTime` and `addSession`. -/
def forms : Kind → List (String × Form)
  | .audioEncoder => [("configure", ⟨[may "codec" .text, may "sampleRate" .int, may "channels" .int, may "bitrate" .int], .refused, some⟩)]
  | .audioDecoder => [("configure", ⟨[may "sampleRate" .int, may "channels" .int, may "sampleFormat" .text], .refused, some⟩)]
  | .audioMixer =>
    [("changeChannelGain", ⟨[must "id" .int, must "gain" .flt], .refused, some⟩), ("muteChannel", ⟨[must "id" .int], .refused, some⟩),
     ("soloChannel", ⟨[must "id" .int], .refused, some⟩), ("changeMasterGain", ⟨[must "gain" .flt], .refused, some⟩)]
  | .videoMixer =>
    [("configChannel", ⟨[must "id" .int, must "width" .flt, must "height" .flt, must "x" .flt, must "y" .flt, must "layer" .int,
        must "enabled" .bool, must "opacity" .flt], .refused, some⟩),
     ("configure", ⟨[mayBe "width" .int, mayBe "height" .int, mayBe "fps" .int], .refused, bothSizes⟩)]
  | .videoEncoder =>
    [("configure", ⟨[mayBe "bitrate" .int, mayBe "fps" .int, mayBe "gop" .int, mayBe "lookahead" .int, mayBe "bframes" .int,
        mayBe "threads" .int, mayBe "annexb" .bool, may "preset" .text, mayBe "gopTime" .int], .refused, some⟩)]
  | .videoResampler =>
    [("configure", ⟨[may "width" .int, may "height" .int, may "fps" .int, may "pixelFormat" .int], .refused, pixelInRange⟩)]
  | .videoSplitter =>
    [("configCrop", ⟨[mustBe "id" .int, mustBe "width" .int, mustBe "height" .int, mustBe "x" .int, mustBe "y" .int,
        may "degree" .int], .refused, some⟩),
     ("configure", ⟨[mayBe "fTime" .int], .refused, some⟩)]
  | .receiver => [("removeSession", ⟨[must "id" .text], .undefined, some⟩)]
  | .demuxer => [("configure", ⟨[must "uri" .text], .refused, some⟩)]
  | .capture =>
    [("configure", ⟨[must "device" .text, mustBe "width" .int, mustBe "height" .int, mustBe "fps" .int, may "format" .text,
        ⟨"forceformat", .bool, false, .refused⟩], .undefined, some⟩)]
  | .transmitter =>
    [("addRTSPConnection", ⟨[mustBe "id" .int, must "name" .text, must "txFormat" .text, may "info" .text, may "desc" .text,
        mustBe "readers" .ints], .refused, someReaders⟩),
     ("addRTPConnection", ⟨[must "id" .int, must "port" .int, must "ip" .text, must "txFormat" .text, mustBe "readers" .ints],
        .refused, someReaders⟩),
     ("removeConnection", ⟨[mustBe "id" .int], .refused, some⟩)]
  | .dasher =>
    [("configure", ⟨[mayBe "folder" .text, mayBe "baseName" .text, mayBe "segDurInSec" .int, mayBe "maxSeg" .int,
        mayBe "minBuffTime" .int], .refused, some⟩),
     ("setBitrate", ⟨[must "id" .int, must "bitrate" .int], .refused, some⟩)]
  | .videoDecoder | .sharedMemory => []

/-- The actions that are not in the table. -/
def otherActions : Kind → List String
  | .audioMixer => ["muteMaster"]
  | .videoEncoder => ["forceIntra", "gopReferenceTime"]
  | .receiver => ["addSession"]
  | _ => []

/-- The action of an event: a value taken as text, the empty text if there is none; `none` if it cannot be taken for a text. -/
def actionOf (event : Node) : Option Str :=
  match member "action" event with
  | none => some []
  | some n => textOf n

/-- The verdict on an event as what is done with it. -/
def Verdict.taken (a : Str) : Verdict → R Taken
  | .ends => .dies
  | .undefined => .ub
  | .refused => .ok (.refused a)
  | .takes args => .ok (.called a args)

/-- A result and a verdict say the same. -/
def Meets : Res → Verdict → Prop
  | .dies, .ends => True
  | .ub, .undefined => True
  | .ok none, .refused => True
  | .ok (some a), .takes b => a = b
  | _, _ => False

end Lms.FilterEvents
