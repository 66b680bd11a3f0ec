import Verif.Manifest.Stream
import Verif.Record.Model
import Verif.RecordAudio.Model

/-!
# Model of the DASH filter with at most one video and one audio input, down to the files (src/modules/dasher/Dasher.cpp)

The areas `Record` and `RecordAudio` (what the segmenters make of the frames), `Manifest` (the document) and `Mpd` (the window) put
together in the order in which a round of the filter calls them, with everything it does to the folder in the order in which it does
it.  Files of segments can be opened and old ones removed (the areas `DashTop` and `Mpd` have what happens otherwise); those of the
initialisation may fail.  The origin of the times is a parameter (`DashTop`), as is what the segmenters report of codec, size and bit
rate.  Of the two new frames of a round the one of the video is taken first; they go to different segmenters, so that only the order
of the initialisation files depends on it.
-/

namespace Lms.Live

open Lms.Json Lms.Control
open Lms.Manifest (El VRep ARep setId mediaTemplate initTemplate segmentName initName)

/-- What is done to the folder. -/
inductive Eff where
  /-- A file written: DashSegment::writeToDisk (Dasher.cpp:712-724). -/
  | file (name : Str) (data : Bytes)
  /-- The manifest written: MpdManager::writeToDisk (MpdManager.cpp:65-114). -/
  | manifest (doc : El)
  /-- A file removed: Dasher::cleanSegments (Dasher.cpp:398-414). -/
  | gone (name : Str)

/-- The input of the audio: its number, its segmenter, and `timeBase` (Dasher.hh:219). -/
structure Audio where
  id : Nat
  seg : RecordAudio.State
  timeBase : Nat

/-- The segmenters: that of the video with its number, that of the audio. -/
structure Inputs where
  v : Option (Nat × Record.State)
  a : Option Audio

/-- Dasher.hh: `basePath`, `baseName`, `segmenters`, `mpdMngr` (src/modules/dasher/Dasher.hh:119, 124, 127-128). -/
structure State where
  folder : Str
  base : Str
  inputs : Inputs
  mpd : Manifest.State

/-- A round: the new frames, each with whether the initialisation file can be written; what the segmenters report; the time. -/
structure Round where
  unit : Option (Nalu.Nal × Bool)
  sound : Option (RecordAudio.Sound × Bool)
  vrep : VRep
  fps : Int
  arep : ARep
  now : Str

/-- src/modules/dasher/Dasher.cpp:176-208: the initialisation file, if there is a new one. -/
def initFile (path : Str) (id : Nat) (audio : Bool) : Option Bytes → List Eff
  | none => []
  | some b => [.file (initName path id audio) b]

/-- src/modules/dasher/Dasher.cpp:97-130 for the video. -/
def feedVideo (cap : Nat) (off : Int) : Option (Nat × Record.State) → Option (Nalu.Nal × Bool) →
    Outcome (Option (Nat × Record.State) × Record.Out)
  | some x, some u => (Record.step cap off x.2 u).bind fun q => .ok (some (x.1, q.1), q.2)
  | x, _ => .ok (x, ⟨none, none⟩)

/-- src/modules/dasher/Dasher.cpp:97-130 for the audio; DashAudioSegmenter.cpp:74. -/
def feedAudio (cap : Nat) (off : Int) (alone : Bool) : Option Audio → Option (RecordAudio.Sound × Bool) →
    Outcome (Option Audio × RecordAudio.Out)
  | some x, some u => (RecordAudio.step cap off alone x.seg (.frame u.1 u.2)).bind fun q => .ok (some ⟨x.id, q.1, u.1.rate⟩, q.2)
  | x, _ => .ok (x, ⟨none, none⟩)

/-- src/modules/dasher/Dasher.cpp:351-380 `forceAudioSegmentsGeneration`, called (262) when the segment of the video is complete. -/
def cutAudio (cap : Nat) (off : Int) : Option Audio → Bool → Outcome (Option Audio × RecordAudio.Out)
  | some x, true => (RecordAudio.step cap off false x.seg .cut).bind fun q => .ok (some { x with seg := q.1 }, q.2)
  | x, _ => .ok (x, ⟨none, none⟩)

/-- What the segmenters hand over in a round, and the time base of the audio then. -/
structure Took where
  v : Record.Out
  a : RecordAudio.Out
  timeBase : Nat

/-- The number of an input that is there. -/
def number {α : Type} (f : α → Nat) : Option α → Nat
  | none => 0
  | some x => f x

/-- src/modules/dasher/Dasher.cpp:97-130 and 262: the frames go to the segmenters, and the audio is cut with the video. -/
def take (cap : Nat) (off : Int) (x : Inputs) (r : Round) : Outcome (Inputs × Took) :=
  (feedVideo cap off x.v r.unit).bind fun v =>
  (feedAudio cap off x.v.isNone x.a r.sound).bind fun a =>
  (cutAudio cap off a.1 v.2.seg.isSome).bind fun b =>
  .ok (⟨v.1, b.1⟩, ⟨v.2, ⟨a.2.init, if x.v.isNone then a.2.seg else b.2.seg⟩, number Audio.timeBase b.1⟩)

/-- src/modules/dasher/Dasher.cpp:221-223: the calls made of the manager when a segment of the video is closed. -/
def describeVideo (base : Str) (id : Nat) (r : VRep) (fps : Int) : List Manifest.Op :=
  [.videoSet (setId false) Record.BASE (mediaTemplate base false) (initTemplate base false), .videoRep (setId false) (dec id) r fps]

/-- src/modules/dasher/Dasher.cpp:233-235, 374-376: the same for the audio. -/
def describeAudio (base : Str) (id timeBase : Nat) (r : ARep) : List Manifest.Op :=
  [.audioSet (setId true) timeBase (mediaTemplate base true) (initTemplate base true), .audioRep (setId true) (dec id) r]

/-- src/modules/dasher/MpdManager.cpp:116-129, 241-252: what `updateAdaptationSetTimestamp` returns. -/
def removed (m : Manifest.State) (set : Str) (ts dur : Nat) : Outcome Nat :=
  match m.sets.lookup set with
  | none => .ok 0
  | some a => (Mpd.updateTimestamp a.times m.maxSeg ts dur).bind fun r => .ok r.2

/-- src/modules/dasher/Dasher.cpp:282-293, 334-346: the file, the window, the manifest, and the file that left the window. -/
def writeSegment (path : Str) (audio : Bool) (id : Nat) (now : Str) (m : Manifest.State) (s : Dash.Seg) :
    Outcome (Manifest.State × List Eff) :=
  (removed m (setId audio) s.ts s.dur).bind fun t =>
  (Manifest.step m (.time (setId audio) s.ts s.dur)).bind fun m1 =>
  (Manifest.step m1.1 (.write now)).bind fun m2 =>
  .ok (m2.1, [.file (segmentName path id s.ts audio) s.bytes] ++ (m2.2.map Eff.manifest).toList ++
    if t > 0 then [.gone (segmentName path id t audio)] else [])

/-- src/modules/dasher/Dasher.cpp:245-349 for one kind: nothing is done without a complete segment. -/
def write (path : Str) (audio : Bool) (id : Nat) (now : Str) (m : Manifest.State) : Option Dash.Seg → Outcome (Manifest.State × List Eff)
  | none => .ok (m, [])
  | some s => writeSegment path audio id now m s

/-- src/modules/dasher/Dasher.cpp:176-208, 221-236, 245-349: what is done with it.  The calls that describe an input are made before
either segment is written (221-223 in the loop, 374-376 before 282). -/
def publish (folder base : Str) (vid aid : Nat) (r : Round) (m : Manifest.State) (t : Took) : Outcome (Manifest.State × List Eff) :=
  let path := folder ++ base
  let calls := (if t.v.seg.isSome then describeVideo base vid r.vrep r.fps else []) ++
    (if t.a.seg.isSome then describeAudio base aid t.timeBase r.arep else [])
  (runOps Manifest.step m calls).bind fun q =>
  (write path false vid r.now q.1 t.v.seg).bind fun x =>
  (write path true aid r.now x.1 t.a.seg).bind fun y =>
  .ok (y.1, initFile path vid false t.v.init ++ initFile path aid true t.a.init ++ x.2 ++ y.2)

/-- src/modules/dasher/Dasher.cpp:87-143 `doProcessFrame`. -/
def round (cap : Nat) (off : Int) (s : State) (r : Round) : Outcome (State × List Eff) :=
  (take cap off s.inputs r).bind fun x =>
  (publish s.folder s.base (number Prod.fst s.inputs.v) (number Audio.id s.inputs.a) r s.mpd x.2).bind fun y =>
  .ok ({ s with inputs := x.1, mpd := y.1 }, y.2)

/-- src/modules/dasher/Dasher.cpp:53-85, 499-548: after the configuration, with new inputs. -/
def start (folder base : Str) (minBuff maxSegment segDur : Nat) (x : Inputs) : State :=
  { folder := folder, base := base, inputs := x, mpd := Manifest.configure Manifest.State.init minBuff maxSegment segDur }

/-! ## The folder -/

/-- The files by name, and the manifest. -/
structure Fs where
  files : Str → Option Bytes
  doc : Option El

def Fs.empty : Fs := ⟨fun _ => none, none⟩

def Fs.after (f : Fs) : Eff → Fs
  | .file n b => { f with files := fun x => if x = n then some b else f.files x }
  | .manifest d => { f with doc := some d }
  | .gone n => { f with files := fun x => if x = n then none else f.files x }

/-- After several things were done. -/
def Fs.run (f : Fs) (es : List Eff) : Fs := es.foldl Fs.after f

end Lms.Live
