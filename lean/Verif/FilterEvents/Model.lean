import Verif.Control.Model

/-!
# The events of the filters (the `…Event` functions under src/modules, src/Filter.cpp:422-467, 810-862, src/Event.cpp:51-69)

An event delivered to a filter has an action, looked up in the filter's event map, and parameters, a JSON node or none.  The
handler of the action reads the parameters and then calls a function of the filter.  This area models the reading: the result is
the list of values handed to that function (`none` at the place of a parameter that was left out, where the code puts the current
setting or a default), refusal (`return false` before anything is changed), the end of the process by an exception nobody catches,
or undefined behaviour.  What the functions called do is in the areas of the filters.  Two handlers read the state of the filter as
well, `addSession` and `gopReferenceTime` being special; the first is in `Verif.FilterEvents.Session`.

Numbers with fractions are not computed: a value `flt` is the text of the number, from which `std::stringstream >> float` reads
(src/Jzon.cpp:299-305).
-/

namespace Lms.FilterEvents

open Lms Lms.Json Lms.Control

/-- A value handed over. -/
inductive Val where
  | int (z : Int)
  | flt (s : Str)
  | bool (b : Bool)
  | text (s : Str)
  | ints (l : List Int)
  deriving DecidableEq

/-- The values handed over, in the order given at each handler. -/
abbrev Args := List (Option Val)

/-! ## Accessors of the JSON library not in `Verif.Control` -/

/-- src/Jzon.cpp:293-309 `Value::ToFloat`; src/Jzon.h:105 for other nodes. -/
def toFlt : Node → R Val
  | .val .null _ => .ok (.flt "0".toList)
  | .val .num s => .ok (.flt s)
  | _ => .dies

/-- src/Jzon.cpp:327-336 `Value::ToBool`; src/Jzon.h:107 for other nodes. -/
def toBool : Node → R Val
  | .val .null _ => .ok (.bool false)
  | .val .bool s => .ok (.bool (decide (s = "true".toList)))
  | _ => .dies

/-- src/Jzon.cpp:269-275 `ToString`. -/
def toText (n : Node) : R Val := (toStr n).bind fun s => .ok (.text s)

/-- src/Jzon.cpp:276-293 `ToInt`. -/
def toNum (n : Node) : R Val := (toInt n).bind fun z => .ok (.int z)

/-- src/Jzon.h:99, 147 `IsString`. -/
def isStr : Node → Bool
  | .val .str _ => true
  | _ => false

/-- src/Jzon.h:101, 149 `IsBool`. -/
def isBool : Node → Bool
  | .val .bool _ => true
  | _ => false

/-- `params->Get(k).ToX()`. -/
def take (p : Node) (k : String) (conv : Node → R Val) : R (Option Val) :=
  (get p k.toList).bind fun n => (conv n).bind fun v => .ok (some v)

/-- `if (params->Has(k)) { x = params->Get(k).ToX(); }`. -/
def opt (p : Node) (k : String) (conv : Node → R Val) : R (Option Val) :=
  (has p k.toList).bind fun h => if h then take p k conv else .ok none

/-- `if (params->Has(k) && params->Get(k).IsX()) { x = params->Get(k).ToX(); }`. -/
def optIf (p : Node) (k : String) (test : Node → Bool) (conv : Node → R Val) : R (Option Val) :=
  (has p k.toList).bind fun h =>
  if h then (get p k.toList).bind fun n => if test n then take p k conv else .ok none else .ok none

/-- `params->Get(k).IsX()`. -/
def is (p : Node) (k : String) (test : Node → Bool) : R Bool := (get p k.toList).bind fun n => .ok (test n)

/-- All tests pass; the first that fails ends the evaluation (`&&`, or `||` of negations). -/
def isAll (p : Node) (test : Node → Bool) : List String → R Bool
  | [] => .ok true
  | k :: ks => (is p k test).bind fun b => if b then isAll p test ks else .ok false

/-- The result of a handler: `none` is `return false`. -/
abbrev Res := R (Option Args)

/-! ## Handlers -/

/-- src/modules/audioEncoder/AudioEncoderLibav.cpp:421-454 `configEvent`: codec, sampleRate, channels, bitrate. -/
def audioEncoderConfigure : Option Node → Res
  | none => .ok none
  | some p =>
    (opt p "codec" toText).bind fun c =>
    (opt p "sampleRate" toNum).bind fun r =>
    (opt p "channels" toNum).bind fun ch =>
    (opt p "bitrate" toNum).bind fun b => .ok (some [c, r, ch, b])

/-- src/modules/audioDecoder/AudioDecoderLibav.cpp:331-354 `configEvent`: sampleRate, channels, sampleFormat. -/
def audioDecoderConfigure : Option Node → Res
  | none => .ok none
  | some p =>
    (opt p "sampleRate" toNum).bind fun r =>
    (opt p "channels" toNum).bind fun ch =>
    (opt p "sampleFormat" toText).bind fun f => .ok (some [r, ch, f])

/-- src/modules/audioMixer/AudioMixer.cpp:311-328 `changeChannelVolumeEvent`: id, gain. -/
def changeChannelGain : Option Node → Res
  | none => .ok none
  | some p =>
    (hasAll p ["id", "gain"]).bind fun h =>
    if !h then .ok none
    else (take p "id" toNum).bind fun i => (take p "gain" toFlt).bind fun g => .ok (some [i, g])

/-- src/modules/audioMixer/AudioMixer.cpp:330-345 `muteChannelEvent`, 347-372 `soloChannelEvent`: id. -/
def oneChannel : Option Node → Res
  | none => .ok none
  | some p =>
    (has p "id".toList).bind fun h => if !h then .ok none else (take p "id" toNum).bind fun i => .ok (some [i])

/-- src/modules/audioMixer/AudioMixer.cpp:374-390 `changeMasterVolumeEvent`: gain. -/
def changeMasterGain : Option Node → Res
  | none => .ok none
  | some p =>
    (has p "gain".toList).bind fun h => if !h then .ok none else (take p "gain" toFlt).bind fun g => .ok (some [g])

/-- src/modules/audioMixer/AudioMixer.cpp:392-396 `muteMasterEvent`; src/modules/videoEncoder/VideoEncoderX264or5.cpp:236-240
`forceIntraEvent`: the parameters are not looked at. -/
def noParams (_ : Option Node) : Res := .ok (some [])

/-- src/modules/videoMixer/VideoMixer.cpp:278-303 `configChannelEvent`: id, width, height, x, y, layer, enabled, opacity. -/
def configChannel : Option Node → Res
  | none => .ok none
  | some p =>
    (hasAll p ["id", "width", "height", "x", "y", "layer", "enabled", "opacity"]).bind fun h =>
    if !h then .ok none
    else
      (take p "id" toNum).bind fun i =>
      (take p "width" toFlt).bind fun w =>
      (take p "height" toFlt).bind fun hh =>
      (take p "x" toFlt).bind fun x =>
      (take p "y" toFlt).bind fun y =>
      (take p "layer" toNum).bind fun l =>
      (take p "enabled" toBool).bind fun e =>
      (take p "opacity" toFlt).bind fun o => .ok (some [i, w, hh, x, y, l, e, o])

/-- src/modules/videoMixer/VideoMixer.cpp:305-327 `configureEvent`: width, height, fps; the size is taken only as a whole (316-320). -/
def mixerConfigure : Option Node → Res
  | none => .ok none
  | some p =>
    (hasAll p ["width", "height"]).bind fun h =>
    (if h then isAll p isNum ["width", "height"] else .ok false).bind fun b =>
    (if b then (take p "width" toNum).bind fun w => (take p "height" toNum).bind fun hh => .ok (w, hh) else .ok (none, none)).bind fun wh =>
    (optIf p "fps" isNum toNum).bind fun f => .ok (some [wh.1, wh.2, f])

/-- src/modules/videoEncoder/VideoEncoderX264or5.cpp:170-234 `configEvent`: bitrate, fps, gop, lookahead, bframes, threads, annexb,
preset, gopTime. -/
def videoEncoderConfigure : Option Node → Res
  | none => .ok none
  | some p =>
    (optIf p "bitrate" isNum toNum).bind fun b =>
    (optIf p "fps" isNum toNum).bind fun f =>
    (optIf p "gop" isNum toNum).bind fun g =>
    (optIf p "lookahead" isNum toNum).bind fun l =>
    (optIf p "bframes" isNum toNum).bind fun bf =>
    (optIf p "threads" isNum toNum).bind fun t =>
    (optIf p "annexb" isBool toBool).bind fun a =>
    (opt p "preset" toText).bind fun pr =>
    (optIf p "gopTime" isNum toNum).bind fun gt => .ok (some [b, f, g, l, bf, t, a, pr, gt])

/-- White space to `strtoull` in the C locale. -/
def isBlank (c : Char) : Bool := c = ' ' ∨ c = '\t' ∨ c = '\n' ∨ c = '\x0b' ∨ c = '\x0c' ∨ c = '\r'

/-- `std::stoull` (VideoEncoderX264or5.cpp:246): leading white space, a sign, digits; what follows is not looked at.  No digits or a
number of 2^64 or more: an exception.  A negative number is taken modulo 2^64. -/
def stoull (s : Str) : R Nat :=
  let t := s.dropWhile isBlank
  let neg := t.head? = some '-'
  let u := if neg || t.head? = some '+' then t.tail else t
  let ds := leadingDigits u
  if ds = [] then .dies
  else if ofDigits ds ≥ 18446744073709551616 then .dies
  else .ok (if neg then (18446744073709551616 - ofDigits ds) % 18446744073709551616 else ofDigits ds)

/-- src/modules/videoEncoder/VideoEncoderX264or5.cpp:242-250 `setGopReferenceTimeEvent`; without parameters a null pointer is
followed.  The number of microseconds is kept in 64 bits with a sign. -/
def gopReferenceTime : Option Node → Res
  | none => .ub
  | some p =>
    (optIf p "referenceTime" isStr toText).bind fun o =>
    match o with
    | some (.text t) =>
      (stoull t).bind fun n =>
      .ok (some [some (.int (if n < 9223372036854775808 then n else n - 18446744073709551616))])
    | _ => .ok none

/-- src/modules/videoResampler/VideoResampler.cpp:183-222 `configEvent`: width, height, fps, pixelFormat; P_NONE is -1 and YUYV422 5
(src/Types.hh:67). -/
def resamplerConfigure : Option Node → Res
  | none => .ok none
  | some p =>
    (opt p "width" toNum).bind fun w =>
    (opt p "height" toNum).bind fun hh =>
    (opt p "fps" toNum).bind fun f =>
    (opt p "pixelFormat" toNum).bind fun x =>
    match x with
    | some (.int z) => if z < -1 ∨ z > 5 then .ok none else .ok (some [w, hh, f, x])
    | _ => .ok (some [w, hh, f, x])

/-- src/modules/videoSplitter/VideoSplitter.cpp:221-249 `configCropEvent`: id, width, height, x, y, degree. -/
def configCrop : Option Node → Res
  | none => .ok none
  | some p =>
    (hasAll p ["id", "width", "height", "x", "y"]).bind fun h =>
    (if h then isAll p isNum ["id", "width", "height", "x", "y"] else .ok false).bind fun b =>
    if !b then .ok none
    else
      (take p "id" toNum).bind fun i =>
      (take p "width" toNum).bind fun w =>
      (take p "height" toNum).bind fun hh =>
      (take p "x" toNum).bind fun x =>
      (take p "y" toNum).bind fun y =>
      (opt p "degree" toNum).bind fun d => .ok (some [i, w, hh, x, y, d])

/-- src/modules/videoSplitter/VideoSplitter.cpp:251-265 `configureEvent`: fTime. -/
def splitterConfigure : Option Node → Res
  | none => .ok none
  | some p => (optIf p "fTime" isNum toNum).bind fun f => .ok (some [f])

/-- src/modules/receiver/SourceManager.cpp:280-290 `removeSessionEvent`: id; without parameters a null pointer is followed. -/
def removeSession : Option Node → Res
  | none => .ub
  | some p =>
    (has p "id".toList).bind fun h => if !h then .ok none else (take p "id" toText).bind fun i => .ok (some [i])

/-- src/modules/headDemuxer/HeadDemuxerLibav.cpp:387-402 `configureEvent`: uri. -/
def demuxerConfigure : Option Node → Res
  | none => .ok none
  | some p =>
    (has p "uri".toList).bind fun h => if !h then .ok none else (take p "uri" toText).bind fun i => .ok (some [i])

/-- src/modules/V4LCapture/V4LCapture.cpp:552-573 `configureEvent`: device, width, height, fps, format, forceformat; without
parameters a null pointer is followed. -/
def captureConfigure : Option Node → Res
  | none => .ub
  | some p =>
    (hasAll p ["device", "width", "height", "fps"]).bind fun h =>
    if !h then .ok none
    else
      (isAll p isNum ["width", "height", "fps"]).bind fun b =>
      (if b then (has p "forceformat".toList).bind fun hf => if hf then is p "forceformat" isBool else .ok true
        else .ok false).bind fun b =>
      if !b then .ok none
      else
        (take p "device" toText).bind fun d =>
        (take p "width" toNum).bind fun w =>
        (take p "height" toNum).bind fun hh =>
        (take p "fps" toNum).bind fun f =>
        (opt p "format" toText).bind fun fm =>
        (opt p "forceformat" toBool).bind fun ff => .ok (some [d, w, hh, f, fm, ff])

/-- src/modules/transmitter/SinkManager.cpp:528-546 `removeConnectionEvent`: id. -/
def removeConnection : Option Node → Res
  | none => .ok none
  | some p =>
    (has p "id".toList).bind fun h =>
    if !h then .ok none
    else (is p "id" isNum).bind fun b => if !b then .ok none else (take p "id" toNum).bind fun i => .ok (some [i])

/-- SinkManager.cpp:587-591, 631-635: the elements of `readers`. -/
def takeInts (p : Node) : R (List Int) :=
  (get p "readers".toList).bind fun n => match n with
    | .arr l => toInts l
    | _ => .dies

/-- src/modules/transmitter/SinkManager.cpp:548-597 `addRTSPConnectionEvent`: id, name, txFormat, info, desc, readers. -/
def addRTSP : Option Node → Res
  | none => .ok none
  | some p =>
    (hasAll p ["id", "txFormat", "name", "readers"]).bind fun h =>
    if !h then .ok none
    else
      (is p "readers" isArr).bind fun b1 =>
      (if b1 then is p "id" isNum else .ok false).bind fun b2 =>
      if !b2 then .ok none
      else
        (take p "id" toNum).bind fun i =>
        (take p "name" toText).bind fun n =>
        (take p "txFormat" toText).bind fun t =>
        (opt p "info" toText).bind fun inf =>
        (opt p "desc" toText).bind fun d =>
        (takeInts p).bind fun l => if l.isEmpty then .ok none else .ok (some [i, n, t, inf, d, some (.ints l)])

/-- src/modules/transmitter/SinkManager.cpp:599-641 `addRTPConnectionEvent`: id, port, ip, txFormat, readers. -/
def addRTP : Option Node → Res
  | none => .ok none
  | some p =>
    (hasAll p ["id", "port", "ip", "txFormat", "readers"]).bind fun h =>
    if !h then .ok none
    else
      (is p "readers" isArr).bind fun b =>
      if !b then .ok none
      else
        (take p "id" toNum).bind fun i =>
        (take p "port" toNum).bind fun po =>
        (take p "ip" toText).bind fun ip =>
        (take p "txFormat" toText).bind fun t =>
        (takeInts p).bind fun l => if l.isEmpty then .ok none else .ok (some [i, po, ip, t, some (.ints l)])

/-- src/modules/dasher/Dasher.cpp:442-479 `configureEvent`: folder, baseName, segDurInSec, maxSeg, minBuffTime. -/
def dasherConfigure : Option Node → Res
  | none => .ok none
  | some p =>
    (optIf p "folder" isStr toText).bind fun f =>
    (optIf p "baseName" isStr toText).bind fun b =>
    (optIf p "segDurInSec" isNum toNum).bind fun s =>
    (optIf p "maxSeg" isNum toNum).bind fun m =>
    (optIf p "minBuffTime" isNum toNum).bind fun t => .ok (some [f, b, s, m, t])

/-- src/modules/dasher/Dasher.cpp:481-497 `setBitrateEvent`: id, bitrate. -/
def setBitrate : Option Node → Res
  | none => .ok none
  | some p =>
    (hasAll p ["id", "bitrate"]).bind fun h =>
    if !h then .ok none
    else (take p "id" toNum).bind fun i => (take p "bitrate" toNum).bind fun b => .ok (some [i, b])

/-! ## Event maps and delivery -/

/-- The filters with an event map of their own; `videoDecoder` and `sharedMemory` have an empty one
(src/modules/videoDecoder/VideoDecoderLibav.cpp:228-231, src/modules/sharedMemory/SharedMemory.cpp:160-163). -/
inductive Kind where
  | audioEncoder | audioDecoder | audioMixer | videoMixer | videoEncoder | videoDecoder | videoResampler | videoSplitter
  | sharedMemory | receiver | demuxer | capture | transmitter | dasher
  deriving DecidableEq

/-- The event maps (`initializeEventMap`): AudioEncoderLibav.cpp:456-459, AudioDecoderLibav.cpp:370-373, AudioMixer.cpp:457-473,
VideoMixer.cpp:272-276, VideoEncoderX264or5.cpp:252-257, VideoResampler.cpp:224-227, VideoSplitter.cpp:215-219,
SourceManager.cpp:274-278, HeadDemuxerLibav.cpp:382-385, V4LCapture.cpp:575-578, SinkManager.cpp:521-526, Dasher.cpp:416-420.
The handler of `addSession` is given by the caller. -/
def eventMap (addSession : Option Node → Res) : Kind → List (String × (Option Node → Res))
  | .audioEncoder => [("configure", audioEncoderConfigure)]
  | .audioDecoder => [("configure", audioDecoderConfigure)]
  | .audioMixer => [("changeChannelGain", changeChannelGain), ("muteChannel", oneChannel), ("soloChannel", oneChannel),
      ("changeMasterGain", changeMasterGain), ("muteMaster", noParams)]
  | .videoMixer => [("configChannel", configChannel), ("configure", mixerConfigure)]
  | .videoEncoder => [("forceIntra", noParams), ("gopReferenceTime", gopReferenceTime), ("configure", videoEncoderConfigure)]
  | .videoDecoder => []
  | .videoResampler => [("configure", resamplerConfigure)]
  | .videoSplitter => [("configCrop", configCrop), ("configure", splitterConfigure)]
  | .sharedMemory => []
  | .receiver => [("addSession", addSession), ("removeSession", removeSession)]
  | .demuxer => [("configure", demuxerConfigure)]
  | .capture => [("configure", captureConfigure)]
  | .transmitter => [("addRTSPConnection", addRTSP), ("addRTPConnection", addRTP), ("removeConnection", removeConnection)]
  | .dasher => [("configure", dasherConfigure), ("setBitrate", setBitrate)]

/-- src/Event.cpp:62-69 `getParams`; `none` is the null pointer. -/
def eventParams (event : Node) : R (Option Node) :=
  (has event "params".toList).bind fun h => if h then (get event "params".toList).bind fun n => .ok (some n) else .ok none

/-- What becomes of an event taken by a filter: no such action, refused, or the action with the values handed over. -/
inductive Taken where
  | unknown
  | refused (action : Str)
  | called (action : Str) (args : Args)
  deriving DecidableEq

/-- src/Filter.cpp:431-445 (an event taken from the queue), 812-827 and 846-861 (`HeadFilter::pushEvent`, `TailFilter::pushEvent`). -/
def execute (addSession : Option Node → Res) (k : Kind) (event : Node) : R Taken :=
  (filterAction event).bind fun a =>
  (eventParams event).bind fun p =>
  if a = [] then .ok .unknown
  else
    match (eventMap addSession k).find? fun e => e.1.toList = a with
    | none => .ok .unknown
    | some e => (e.2 p).bind fun r => .ok (match r with | none => .refused a | some args => .called a args)

/-- The filters derived from `HeadFilter` or `TailFilter` (SourceManager.hh:139, HeadDemuxerLibav.hh:42, V4LCapture.hh:46,
SinkManager.hh:44, Dasher.hh:54). -/
def Kind.atOnce : Kind → Bool
  | .receiver | .demuxer | .capture | .transmitter | .dasher => true
  | _ => false

/-- What `pushEvent` does (src/Filter.cpp:463-467, 810-828, 844-862): the event is put in the queue with its delay, where
`Verif.Events` goes on, or executed by the caller there and then, the delay being ignored. -/
inductive Pushed where
  | queued (event : Node) (delay : Int)
  | executed (t : Taken)

/-- See `Pushed`. -/
def pushEvent (addSession : Option Node → Res) (k : Kind) (event : Node) (delay : Int) : R Pushed :=
  if k.atOnce then (execute addSession k event).bind fun t => .ok (.executed t) else .ok (.queued event delay)

end Lms.FilterEvents
