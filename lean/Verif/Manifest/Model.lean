import Verif.Control.Model
import Verif.Mpd.Model

/-!
# The manifest as a document (src/modules/dasher/MpdManager.cpp) and the names of the files it leads to (Dasher.cpp)

`Verif.Mpd` has the sliding window and the files; here is the document that `writeToDisk` builds with the tinyxml2 library, as a tree of
elements with attributes, and the texts in it.  Not modelled: how tinyxml2 turns the tree into characters and whether the file can be
written (`SaveFile`, whose result is not looked at).  A `std::map` is a list in ascending order of its keys; texts compare by
characters.
-/

namespace Lms.Manifest

open Lms Lms.Json Lms.Control

/-- A node of the document: an element with its attributes in the order they are set, or a text. -/
inductive El where
  | el (name : String) (attrs : List (String × Str)) (kids : List El)
  | text (s : Str)

/-! ## Maps -/

/-- `std::string::compare < 0`. -/
def before : Str → Str → Bool
  | _, [] => false
  | [], _ :: _ => true
  | a :: s, b :: t => if a.toNat < b.toNat then true else if b.toNat < a.toNat then false else before s t

/-- `m[k] = v` (src/modules/dasher/MpdManager.cpp:217, 329, 431). -/
def put {α : Type} (k : Str) (v : α) : List (Str × α) → List (Str × α)
  | [] => [(k, v)]
  | e :: l => if k = e.1 then (k, v) :: l else if before k e.1 then (k, v) :: e :: l else e :: put k v l

/-- `m.erase(k)` (src/modules/dasher/MpdManager.cpp:289, 401). -/
def erase {α : Type} (k : Str) (l : List (Str × α)) : List (Str × α) := l.filter fun e => decide (e.1 ≠ k)

/-! ## Contents -/

/-- src/modules/dasher/MpdManager.cpp:489-508, MpdManager.hh `VideoRepresentation`; `sar` is always "1:1". -/
structure VRep where
  codec : Str
  width : Int
  height : Int
  bandwidth : Int
  deriving DecidableEq

/-- src/modules/dasher/MpdManager.cpp:510-531, MpdManager.hh `AudioRepresentation`. -/
structure ARep where
  codec : Str
  rate : Int
  bandwidth : Int
  channels : Int
  deriving DecidableEq

/-- What a video or an audio adaptation set has of its own (MpdManager.hh `VideoAdaptationSet`, `AudioAdaptationSet`).
(src/modules/dasher/MpdManager.hh:271-274, 309-312.) -/
inductive Body where
  | video (reps : List (Str × VRep)) (maxW maxH fps : Int)
  | audio (reps : List (Str × ARep))

/-- MpdManager.hh `AdaptationSet`; the constants set at 224-235 are in `videoSet` and `audioSet`. -/
structure ASet where
  timescale : Int
  media : Str
  init : Str
  times : List (Nat × Nat)
  body : Body

/-- MpdManager.hh `MpdManager`: `start` is `availabilityStartTime` once `started` (src/modules/dasher/MpdManager.hh:157-166). -/
structure State where
  maxSeg : Nat
  minBuf : Nat
  depth : Str
  update : Str
  start : Option Str
  sets : List (Str × ASet)

/-- src/modules/dasher/MpdManager.cpp:29-36. -/
def State.init : State := { maxSeg := 2, minBuf := 2, depth := [], update := [], start := none, sets := [] }

/-- `"PT" + std::to_string(n) + ".0S"` (src/modules/dasher/MpdManager.cpp:61-62, 90). -/
def seconds (n : Nat) : Str := "PT".toList ++ dec n ++ ".0S".toList

/-- src/modules/dasher/MpdManager.cpp:45-63 `configure` (32 bits). -/
def configure (s : State) (minBuff maxSegment segDur : Nat) : State :=
  let maxSeg := if maxSegment ≥ 2 then maxSegment else 2
  let total := maxSeg * segDur % 4294967296
  let two := 2 * segDur % 4294967296
  { s with
    maxSeg := maxSeg
    minBuf := if minBuff ≥ total then total else if minBuff ≥ two then minBuff else two
    depth := seconds total
    update := seconds segDur }

/-- src/modules/dasher/MpdManager.cpp:145-157, 159-171: `updateVideoAdaptationSet`, `updateAudioAdaptationSet`; a set there already is
updated whatever its kind; `fresh`: what a new one has of its own (266-273, 378-385). -/
def setTemplate (s : State) (fresh : Body) (id : Str) (timescale : Int) (media init : Str) : State :=
  let a := match s.sets.lookup id with
    | none => { timescale := timescale, media := media, init := init, times := [], body := fresh : ASet }
    | some a => { a with timescale := timescale, media := media, init := init }
  { s with sets := put id a s.sets }

/-- A change of a set that is there. -/
def change (s : State) (id : Str) (f : ASet → ASet) : State :=
  match s.sets.lookup id with
  | none => s
  | some a => { s with sets := put id (f a) s.sets }

/-- src/modules/dasher/MpdManager.cpp:299-321 `VideoAdaptationSet::updateVideoRepresentation`; MpdManager.hh: in an audio set the call
does nothing. -/
def videoRep (id : Str) (r : VRep) (fps : Int) (a : ASet) : ASet :=
  match a.body with
  | .video reps w h _ =>
    { a with body := .video (put id r reps) (if w < r.width then r.width else w) (if h < r.height then r.height else h) fps }
  | .audio _ => a

/-- src/modules/dasher/MpdManager.cpp:410-423 `AudioAdaptationSet::updateAudioRepresentation`; in a video set the call does nothing. -/
def audioRep (id : Str) (r : ARep) (a : ASet) : ASet :=
  match a.body with
  | .audio reps => { a with body := .audio (put id r reps) }
  | .video .. => a

/-- src/modules/dasher/MpdManager.cpp:282-291, 394-403 `removeRepresentation`. -/
def dropRep (id : Str) (a : ASet) : ASet :=
  match a.body with
  | .video reps w h f => { a with body := .video (erase id reps) w h f }
  | .audio reps => { a with body := .audio (erase id reps) }

/-! ## The document -/

/-- src/modules/dasher/MpdManager.cpp:356-363, 461-468: one `S`. -/
def timeEl (t : Nat × Nat) : El := .el "S" [("t", dec t.1), ("d", dec t.2)] []

/-- src/modules/dasher/MpdManager.cpp:350-365, 454-470. -/
def templateEl (a : ASet) : El :=
  .el "SegmentTemplate" [("timescale", showInt a.timescale), ("media", a.media), ("initialization", a.init)]
    [.el "SegmentTimeline" [] (a.times.map timeEl)]

/-- src/modules/dasher/MpdManager.cpp:367-375. -/
def videoRepEl (r : Str × VRep) : El :=
  .el "Representation" [("id", r.1), ("codecs", r.2.codec), ("width", showInt r.2.width), ("height", showInt r.2.height),
    ("sar", "1:1".toList), ("bandwidth", showInt r.2.bandwidth)] []

/-- src/modules/dasher/MpdManager.cpp:472-485. -/
def audioRepEl (r : Str × ARep) : El :=
  .el "Representation" [("id", r.1), ("codecs", r.2.codec), ("audioSamplingRate", showInt r.2.rate),
    ("bandwidth", showInt r.2.bandwidth)]
    [.el "AudioChannelConfiguration" [("schemeIdUri", "urn:mpeg:dash:23003:3:audio_channel_configuration:2011".toList),
      ("value", showInt r.2.channels)] []]

/-- src/modules/dasher/MpdManager.hh:39-42, MpdManager.cpp:345-348, 444-447. -/
def alignment : List (String × Str) :=
  [("segmentAlignment", "true".toList), ("startWithSAP", "1".toList), ("subsegmentAlignment", "true".toList),
   ("subsegmentStartsWithSAP", "1".toList)]

/-- src/modules/dasher/MpdManager.cpp:104-109, 333-376 and 435-487 `toMpd`. -/
def setEl (e : Str × ASet) : El :=
  match e.2.body with
  | .video reps w h f =>
    .el "AdaptationSet" ([("id", e.1), ("mimeType", "video/mp4".toList), ("maxWidth", showInt w), ("maxHeight", showInt h),
        ("frameRate", showInt f)] ++ alignment)
      (templateEl e.2 :: reps.map videoRepEl)
  | .audio reps =>
    .el "AdaptationSet" ([("id", e.1), ("mimeType", "audio/mp4".toList), ("lang", "eng".toList)] ++ alignment)
      (.el "Role" [("schemeIdUri", "urn:mpeg:dash:role:2011".toList), ("value", "main".toList)] [] ::
       templateEl e.2 :: reps.map audioRepEl)

/-- src/modules/dasher/MpdManager.cpp:80-112; the constants from MpdManager.hh:30-38. -/
def document (s : State) (start : Str) : El :=
  .el "MPD" [("xmlns:xsi", "http://www.w3.org/2001/XMLSchema-instance".toList), ("xmlns", "urn:mpeg:dash:schema:mpd:2011".toList),
      ("xmlns:xlink", "http://www.w3.org/1999/xlink".toList),
      ("xsi:schemaLocation", "urn:mpeg:DASH:schema:MPD:2011 http://standards.iso.org/ittf/PubliclyAvailableStandards/MPEG-DASH_schema_files/DASH-MPD.xsd".toList),
      ("profiles", "urn:mpeg:dash:profile:isoff-live:2011".toList), ("type", "dynamic".toList),
      ("minimumUpdatePeriod", s.update), ("timeShiftBufferDepth", s.depth), ("minBufferTime", seconds s.minBuf),
      ("availabilityStartTime", start)]
    [.el "ProgramInformation" [] [.el "Title" [] [.text "Demo DASH".toList]],
     .el "Period" [("id", "0".toList), ("start", "PT0.0S".toList)] (s.sets.map setEl)]

/-! ## Operations -/

/-- The functions of the manager. -/
inductive Op where
  | configure (minBuff maxSegment segDur : Nat)
  | videoSet (id : Str) (timescale : Int) (media init : Str)
  | audioSet (id : Str) (timescale : Int) (media init : Str)
  | videoRep (set id : Str) (r : VRep) (fps : Int)
  | audioRep (set id : Str) (r : ARep)
  | remove (set id : Str)
  | time (set : Str) (ts dur : Nat)
  | flush (set : Str)
  /-- `now`: the time, as `strftime` prints it (77). -/
  | write (now : Str)

/-- src/modules/dasher/MpdManager.cpp:116-129 `updateAdaptationSetTimestamp`. -/
def time (s : State) (id : Str) (ts dur : Nat) : Outcome State :=
  match s.sets.lookup id with
  | none => .ok s
  | some a =>
    (Mpd.updateTimestamp a.times s.maxSeg ts dur).bind fun r => .ok { s with sets := put id { a with times := r.1 } s.sets }

/-- One call: src/modules/dasher/MpdManager.cpp:45-63, 65-114, 116-202. -/
def step (s : State) : Op → Outcome (State × Option El)
  | .configure mb ms sd => .ok (configure s mb ms sd, none)
  | .videoSet id t m i => .ok (setTemplate s (.video [] 0 0 0) id t m i, none)
  | .audioSet id t m i => .ok (setTemplate s (.audio []) id t m i, none)
  | .videoRep set id r f => .ok (change s set (videoRep id r f), none)
  | .audioRep set id r => .ok (change s set (audioRep id r), none)
  | .remove set id => .ok (change s set (dropRep id), none)
  | .time set ts dur => (time s set ts dur).bind fun s => .ok (s, none)
  | .flush set => .ok (change s set fun a => { a with times := [] }, none)
  | .write now =>
    let start := s.start.getD now
    .ok ({ s with start := some start }, some (document s start))

/-! ## Names of files and templates (Dasher.cpp) -/

/-- Dasher.hh:46-47 `V_EXT`, `A_EXT`. -/
def ext (audio : Bool) : Str := if audio then ".m4a".toList else ".m4v".toList

/-- src/modules/dasher/Dasher.cpp:586-592 `getSegmentName`; `path` is `basePath + baseName`. -/
def segmentName (path : Str) (id ts : Nat) (audio : Bool) : Str :=
  path ++ "_".toList ++ dec id ++ "_".toList ++ dec ts ++ ext audio

/-- src/modules/dasher/Dasher.cpp:594-600 `getInitSegmentName`. -/
def initName (path : Str) (id : Nat) (audio : Bool) : Str := path ++ "_".toList ++ dec id ++ "_init".toList ++ ext audio

/-- src/modules/dasher/Dasher.cpp:71 `mpdPath`. -/
def mpdName (path : Str) : Str := path ++ ".mpd".toList

/-- src/modules/dasher/Dasher.cpp:72-73 `vSegTempl`, `aSegTempl`. -/
def mediaTemplate (base : Str) (audio : Bool) : Str := base ++ "_$RepresentationID$_$Time$".toList ++ ext audio

/-- src/modules/dasher/Dasher.cpp:74-75 `vInitSegTempl`, `aInitSegTempl`. -/
def initTemplate (base : Str) (audio : Bool) : Str := base ++ "_$RepresentationID$_init".toList ++ ext audio

end Lms.Manifest
