import Verif.Common.Outcome
import Verif.Common.Mem

/-!
# Model of how the DASH filter joins its streams (src/modules/dasher/Dasher.cpp)

Several readers, each with its segmenter and the segment it finished last; the rounds of the filter, which
hand every new frame to its segmenter and then write the finished segments of all streams of a kind together;
the segments of the audio streams closed along with the video; and the time from which all streams count.

What a segmenter answers (no segment, or a segment with start, duration and bytes) is an input: the areas
`Dash` and `Isoff` model it.  Files are named by kind, reader and time; what stays listed and on disk
afterwards is the area `Mpd`.  A finished segment whose buffer is handed to the segmenter again is taken to
keep its bytes unless the segmenter closes another one (i2libdash.c writes only then).  The value returned by
`Dasher::generateSegment` (210-243), which for audio streams next to video reads the uninitialised pointer
`aSeg` (238), only decides on a debug message (122-124) and is not modelled.  Logs are not modelled.
-/

namespace Lms.DashTop

/-- What a segmenter hands over when it closes a segment: start, duration and bytes. -/
structure Seg where
  ts : Nat
  dur : Nat
  data : Bytes
  deriving DecidableEq, Repr

/-- src/modules/dasher/Dasher.hh:233-339 `DashSegment` of a stream: `complete` with the values set then, and
`lastFrameTimestamp`. -/
structure Slot where
  seg : Option Seg
  last : Nat
  deriving DecidableEq, Repr

/-- src/modules/dasher/Dasher.cpp:690-695. -/
def Slot.new : Slot := { seg := none, last := 0 }

/-- `vSegments` or `aSegments` (Dasher.hh:120-121): a map, in the order of the readers. -/
abbrev Group := List (Nat × Slot)

/-- src/modules/dasher/Dasher.cpp:644-678 `DashSegmenter::generateSegment`, given the segmenter's answer. -/
def Slot.feed (s : Slot) (pts : Nat) : Option Seg → Slot
  | none => { s with last := pts }
  | some g => { s with seg := some g }

/-- Calls `Slot.feed` (src/modules/dasher/Dasher.cpp:644-678). -/
def Group.feed (g : Group) (id pts : Nat) (ans : Option Seg) : Group :=
  g.map fun x => if x.1 = id then (x.1, x.2.feed pts ans) else x

/-- src/modules/dasher/Dasher.cpp:256-260, 320-324. -/
def Group.complete (g : Group) : Bool := g.all fun x => x.2.seg.isSome

/-- A new entry of the map, in the order of the keys. -/
def Group.insert (g : Group) (id : Nat) : Group :=
  match g with
  | [] => [(id, Slot.new)]
  | x :: l => if id < x.1 then (id, Slot.new) :: x :: l else x :: Group.insert l id

inductive Kind where
  | video
  | audio
  deriving DecidableEq, Repr

/-- What can be seen from outside. -/
inductive Eff where
  /-- A segment file (writeToDisk, 712-724), named by kind, reader and time. -/
  | file (k : Kind) (id time : Nat) (data : Bytes)
  /-- A segment entered in the timeline of the adaptation set (287, 340). -/
  | listed (k : Kind) (ts dur : Nat)
  /-- The event `gopReferenceTime` sent to the filter before a reader (298-308). -/
  | reference (id time : Nat)
  deriving DecidableEq, Repr

/-- The bytes in the segment's buffer up to its length (`clear` leaves length 0, 741-747). -/
def Slot.bytes (s : Slot) : Bytes := (s.seg.map Seg.data).getD []

/-- src/modules/dasher/Dasher.cpp:382-396 `writeSegmentsToDisk`; `ok`: the file can be opened. -/
def writeAll (k : Kind) (ok : Nat → Bool) (time : Nat) : Group → Group × List Eff × Bool
  | [] => ([], [], true)
  | (id, s) :: g =>
    if ok id then
      let r := writeAll k ok time g
      ((id, { s with seg := none }) :: r.1, Eff.file k id time s.bytes :: r.2.1, r.2.2)
    else ((id, s) :: g, [], false)

/-- src/modules/dasher/Dasher.cpp:630-635 and setOffset: kind and `tsOffset` of a segmenter. -/
structure Segmenter where
  kind : Kind
  off : Nat
  deriving DecidableEq, Repr

/-- src/modules/dasher/Dasher.hh:119-138. -/
structure State where
  /-- `mpdMngr` exists. -/
  configured : Bool
  /-- `segDur`, in seconds. -/
  segDur : Nat
  /-- `segmenters`. -/
  segs : List (Nat × Segmenter)
  /-- `vSegments`. -/
  v : Group
  /-- `aSegments`. -/
  a : Group
  hasVideo : Bool
  /-- `timestampOffset`, in microseconds. -/
  offset : Nat
  deriving DecidableEq, Repr

/-- src/modules/dasher/Dasher.cpp:38-43 (`segDur` is set by the first `configure`). -/
def State.init : State :=
  { configured := false, segDur := 0, segs := [], v := [], a := [], hasVideo := false, offset := 0 }

/-- A new frame of a round and what the stream's segmenter makes of it. -/
structure Fr where
  /-- The reader. -/
  id : Nat
  /-- Frame.cpp:52-59 `getFrameTime`. -/
  time : Nat
  /-- `manageFrame` (111): none if it gives no frame yet, otherwise its presentation time. -/
  managed : Option Nat
  /-- `generateInitSegment` (117): no initial segment to write, or it could be written. -/
  initOk : Bool
  /-- The answer of the segmenter (`customGenerateSegment`, 659) if it is asked. -/
  made : Option Seg
  deriving DecidableEq, Repr

/-- src/modules/dasher/Dasher.cpp:104-109. -/
def setOffset (s : State) (time : Nat) : State :=
  if s.offset = 0 then
    { s with offset := time, segs := s.segs.map fun x => (x.1, { x.2 with off := time }) }
  else s

/-- src/modules/dasher/Dasher.cpp:210-243 `generateSegment`. -/
def generate (s : State) (k : Kind) (id pts : Nat) (ans : Option Seg) : State :=
  match k with
  | .video => { s with v := s.v.feed id pts ans }
  | .audio => if s.hasVideo then s else { s with a := s.a.feed id pts ans }

/-- src/modules/dasher/Dasher.cpp:97-130: one turn of the loop. -/
def frame (s : State) (f : Fr) : State :=
  match s.segs.lookup f.id with
  | none => s
  | some sg =>
    let s1 := setOffset s f.time
    match f.managed with
    | none => s1
    | some pts => if f.initOk then generate s1 sg.kind f.id pts f.made else s1

/-- src/modules/dasher/Dasher.cpp:351-380 `forceAudioSegmentsGeneration`; `ans`: what each segmenter makes
when told to close its segment. -/
def forceAll (ans : Nat → Option Seg) : Group → Group
  | [] => []
  | (id, s) :: g =>
    match ans id with
    | none => (id, s.feed 0 none) :: g
    | some x => (id, s.feed 0 (some x)) :: forceAll ans g

/-- src/modules/dasher/Dasher.cpp:266-268, 326-327: start and duration of the first stream's segment. -/
def headTime (g : Group) : Nat × Nat :=
  match g with
  | [] => (0, 0)
  | x :: _ => ((x.2.seg.map Seg.ts).getD 0, (x.2.seg.map Seg.dur).getD 0)

/-- src/modules/dasher/Dasher.cpp:267-280, 298-308: the streams are told the time of the next group of
pictures if the last frames of their segments differ. -/
def references (g : Group) (segDur : Nat) : List Eff :=
  match g with
  | [] => []
  | x :: l =>
    if (x :: l).any fun y => y.2.last != x.2.last then
      (x :: l).map fun y => Eff.reference y.1 (x.2.last + segDur * 1000000)
    else []

/-- What follows writing the files (287, 340). -/
def listing (k : Kind) (ok : Bool) (t : Nat × Nat) : List Eff := if ok then [Eff.listed k t.1 t.2] else []

/-- src/modules/dasher/Dasher.cpp:245-296 `writeVideoSegments`. -/
def writeVideo (s : State) (force : Nat → Option Seg) (ok : Nat → Bool) : State × List Eff :=
  if s.v.isEmpty then (s, [])
  else if !s.v.complete then (s, [])
  else
    let t := headTime s.v
    let w := writeAll .video ok t.1 s.v
    ({ s with a := forceAll force s.a, v := w.1 }, references s.v s.segDur ++ w.2.1 ++ listing .video w.2.2 t)

/-- src/modules/dasher/Dasher.cpp:310-349 `writeAudioSegments`. -/
def writeAudio (s : State) (ok : Nat → Bool) : State × List Eff :=
  if s.a.isEmpty then (s, [])
  else if !s.a.complete then (s, [])
  else
    let t := headTime s.a
    let w := writeAll .audio ok t.1 s.a
    ({ s with a := w.1 }, w.2.1 ++ listing .audio w.2.2 t)

/-- One round: its new frames, what the audio segmenters make when told to close, which files can be opened. -/
structure Round where
  frames : List Fr
  force : Nat → Option Seg
  okV : Nat → Bool
  okA : Nat → Bool

/-- src/modules/dasher/Dasher.cpp:87-143 `doProcessFrame`. -/
def round (s : State) (r : Round) : State × List Eff :=
  if !s.configured then (s, [])
  else
    let s1 := r.frames.foldl frame s
    let w := writeVideo s1 r.force r.okV
    let x := writeAudio w.1 r.okA
    (x.1, w.2 ++ x.2)

/-- The queue a reader is connected to. -/
inductive Queue where
  | h264
  | h265
  | otherVideo
  | aac
  | otherAudio
  deriving DecidableEq, Repr

def Queue.kind : Queue → Option Kind
  | .h264 => some .video
  | .h265 => some .video
  | .aac => some .audio
  | _ => none

/-- src/modules/dasher/Dasher.cpp:499-548 `specificReaderConfig`. -/
def addReader (s : State) (id : Nat) (q : Queue) : State × Bool :=
  if !s.configured then (s, false)
  else if (s.segs.lookup id).isSome then (s, false)
  else match q.kind with
    | none => (s, false)
    | some .video =>
      ({ s with segs := (id, { kind := .video, off := s.offset }) :: s.segs, v := s.v.insert id, hasVideo := true }, true)
    | some .audio =>
      ({ s with segs := (id, { kind := .audio, off := s.offset }) :: s.segs, a := s.a.insert id }, true)

/-- src/modules/dasher/Dasher.cpp:550-584 `specificReaderDelete`. -/
def delReader (s : State) (id : Nat) : State × Bool :=
  if (s.segs.lookup id).isSome then
    let v := s.v.filter fun x => x.1 != id
    ({ s with v := v, a := s.a.filter fun x => x.1 != id, segs := s.segs.filter fun x => x.1 != id
              hasVideo := if v.isEmpty then false else s.hasVideo }, true)
  else (s, false)

/-- src/modules/dasher/Dasher.cpp:53-85 `configure` that is accepted (the area `Mpd` has the checks). -/
def configure (s : State) (segDur : Nat) : State := { s with configured := true, segDur := segDur }

inductive Op where
  | configure (segDur : Nat)
  | add (id : Nat) (q : Queue)
  | del (id : Nat)
  | round (r : Round)

/-- Calls `round` (src/modules/dasher/Dasher.cpp:87-143), `addReader` (src/modules/dasher/Dasher.cpp:499-548), `delReader`
(src/modules/dasher/Dasher.cpp:550-584), `configure` (src/modules/dasher/Dasher.cpp:53-85). -/
def step (s : State) : Op → State × List Eff
  | .configure d => (configure s d, [])
  | .add id q => ((addReader s id q).1, [])
  | .del id => ((delReader s id).1, [])
  | .round r => round s r

def run (s : State) : List Op → State × List Eff
  | [] => (s, [])
  | op :: ops =>
    let r := step s op
    let q := run r.1 ops
    (q.1, r.2 ++ q.2)

/-! ## Times -/

/-- src/modules/dasher/Dasher.cpp:680-683 `microsToTimeBase`: the difference times an unsigned 32-bit time base
is a signed 64-bit product (overflow is undefined), divided towards zero, and returned as unsigned 64 bits. -/
def toTimeBase (base off micros : Nat) : Outcome Nat :=
  let p : Int := ((micros : Int) - off) * base
  if p < -2 ^ 63 ∨ 2 ^ 63 ≤ p then .ub
  else .ok ((p.tdiv 1000000) % 2 ^ 64).toNat

end Lms.DashTop
