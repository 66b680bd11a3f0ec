import Verif.AudioDec.Model
import Verif.AudioEnc.Model
import Verif.AudioMixer.Gains
import Verif.Encoder.Model
import Verif.FilterEvents.Api
import Verif.Mpd.Model
import Verif.Names.Model
import Verif.VideoMixer.Model

/-!
# The filters' entries in the state report, and the events that set what they report

An event is read as in `Verif.FilterEvents` and carried out as in the area of the filter; the report is what `doGetState` adds to the
filter's entry.  A `float` is a rational number; the text it is printed as and the number read from a text are parameters (`Floats`).
Receiver and transmitter are in `Verif.NetStats`; the reports of the demuxer, the capture device, the shared memory and the video
decoder, none of which has a setting that an event could restore, are not modelled.
-/

namespace Lms.Reports

open Lms Lms.Json Lms.Control Lms.FilterEvents

/-- src/Jzon.cpp:373-379 (`stringstream <<`) and 293-309 (`stringstream >>`) for `float`. -/
structure Floats where
  show_ : ℚ → Str
  read : Str → ℚ

/-- src/Filter.cpp:469-475 `getState`: type and role, then what the filter adds. -/
def entry (type role : String) (rest : List (String × Node)) : List (String × Node) :=
  ("type", ofString type.toList) :: ("role", ofString role.toList) :: rest

/-- The value of a parameter, if it was given (the types are those of the handlers in `Verif.FilterEvents.Model`). -/
def intArg : Option Val → Option Int
  | some (.int z) => some z
  | _ => none
/-- See `intArg`. -/
def boolArg : Option Val → Option Bool
  | some (.bool b) => some b
  | _ => none
/-- See `intArg`. -/
def textArg : Option Val → Option Str
  | some (.text t) => some t
  | _ => none
/-- See `intArg`. -/
def fltArg (fl : Floats) : Option Val → Option ℚ
  | some (.flt t) => some (fl.read t)
  | _ => none

/-- The event as read by a filter that is not a receiver (src/Filter.cpp:431-445). -/
def taken (k : Kind) (e : Node) : R Taken := execute (fun _ => .ok none) k e

/-! ## Video encoder -/

/-- Settings and `refTime` (src/modules/videoEncoder/VideoEncoderX264or5.hh:73-91). -/
structure Enc where
  cfg : Encoder.Cfg
  ref : Int
  deriving DecidableEq

/-- src/modules/videoEncoder/VideoEncoderX264or5.cpp:24-39, VideoEncoderX264or5.hh:42-49: 2000 kbps, 25 fps, GOP and lookahead 25, 4 threads, 4
B frames. -/
def Enc.init : Enc := ⟨(Encoder.configure0 ⟨0, 0, 0, 0, 0, -1, true, "", 0, 0, false⟩ 2000 25 25 25 4 4 true "ultrafast" 0).1, 0⟩

/-- src/modules/videoEncoder/VideoEncoderX264or5.cpp:196-230. -/
def encParams : Args → Encoder.Params
  | [b, f, g, l, bf, t, a, p, gt] =>
    { bitrate := intArg b, fps := intArg f, gop := intArg g, lookahead := intArg l, bFrames := intArg bf, threads := intArg t
      annexB := boolArg a, preset := (textArg p).map String.ofList, gopTime := intArg gt }
  | _ => {}

/-- src/modules/videoEncoder/VideoEncoderX264or5.cpp:170-257: the three events; what `forceIntra` sets is not reported. -/
def Enc.event (s : Enc) (e : Node) : R (Enc × Bool) :=
  (taken .videoEncoder e).bind fun
    | .called a args =>
      if a = "configure".toList then
        let r := Encoder.configEvent s.cfg (encParams args)
        .ok ({ s with cfg := r.1 }, r.2)
      else if a = "gopReferenceTime".toList then .ok ({ s with ref := ((args.head?.bind intArg).getD s.ref) }, true)
      else .ok (s, true)
    | _ => .ok (s, false)

/-- src/modules/videoEncoder/VideoEncoderX264or5.cpp:259-272 `doGetState`. -/
def Enc.report (s : Enc) : List (String × Node) :=
  [("bitrate", intNode (Encoder.s32 s.cfg.bitrate)), ("fps", intNode (Encoder.s32 s.cfg.fps)), ("gop", intNode (Encoder.s32 s.cfg.gop)),
   ("gopTime", intNode (Encoder.s32 s.cfg.gopTime)), ("refTime", ofString (showInt s.ref)),
   ("lookahead", intNode (Encoder.s32 s.cfg.lookahead)), ("threads", intNode (Encoder.s32 s.cfg.threads)),
   ("annexb", boolNode s.cfg.annexB), ("bframes", intNode s.cfg.bFrames), ("preset", ofString s.cfg.preset.toList)]

/-! ## Audio decoder and encoder -/

/-- src/Types.hh:72. -/
def acName : FrameAlloc.AC → Option Names.ACodec
  | .none => none
  | .g711 => some .g711
  | .pcmu => some .pcmu
  | .opus => some .opus
  | .pcm => some .pcm
  | .aac => some .aac
  | .mp3 => some .mp3

/-- src/Types.hh:72. -/
def acOf : Option Names.ACodec → FrameAlloc.AC
  | none => .none
  | some .g711 => .g711
  | some .pcmu => .pcmu
  | some .opus => .opus
  | some .pcm => .pcm
  | some .aac => .aac
  | some .mp3 => .mp3

/-- src/Types.hh:77. -/
def sfName : FrameAlloc.SF → Option Names.SampleFmt
  | .none => none
  | .u8 => some .u8
  | .s16 => some .s16
  | .flt => some .flt
  | .u8p => some .u8p
  | .s16p => some .s16p
  | .fltp => some .fltp

/-- src/Types.hh:77. -/
def sfOf : Option Names.SampleFmt → FrameAlloc.SF
  | none => .none
  | some .u8 => .u8
  | some .s16 => .s16
  | some .flt => .flt
  | some .u8p => .u8p
  | some .s16p => .s16p
  | some .fltp => .fltp

/-- src/Utils.cpp:233-262. -/
def codecText (c : FrameAlloc.AC) : Str := (Names.aCodecName (acName c)).toList
/-- src/Utils.cpp:98-118. -/
def codecOf (t : Str) : FrameAlloc.AC := acOf (Names.aCodecOf (String.ofList t))
/-- src/Utils.cpp:391-420. -/
def fmtText (f : FrameAlloc.SF) : Str := (Names.sampleFmtName (sfName f)).toList
/-- src/Utils.cpp:55-76. -/
def fmtOf (t : Str) : FrameAlloc.SF := sfOf (Names.sampleFmtOf (String.ofList t))

/-- src/modules/audioDecoder/AudioDecoderLibav.cpp:331-349: rate, channels and format, the first two stored as `unsigned`. -/
def decParams : Args → AudioDec.Params
  | [r, c, f] => { fmt := (textArg f).map fmtOf, ch := (intArg c).map Encoder.u32, rate := (intArg r).map Encoder.u32 }
  | _ => ⟨none, none, none⟩

/-- src/modules/audioDecoder/AudioDecoderLibav.cpp:331-354; `a`: the answers of the resampling library. -/
def decEvent (s : AudioDec.State) (a : AudioDec.SwrAns) (e : Node) : R (AudioDec.State × Bool) :=
  (taken .audioDecoder e).bind fun
    | .called _ args => .ok (s.configEvent (some (decParams args)) a)
    | _ => .ok (s, false)

/-- src/modules/audioDecoder/AudioDecoderLibav.cpp:375-381 `doGetState`. -/
def decReport (s : AudioDec.State) : List (String × Node) :=
  [("codec", ofString (codecText s.key.codec)), ("sampleRate", intNode (Encoder.s32 s.out.rate)),
   ("channels", intNode (Encoder.s32 s.out.ch)), ("sampleFormat", ofString (fmtText s.out.fmt))]

/-- src/modules/audioEncoder/AudioEncoderLibav.cpp:437-451: codec, rate, channels, bit rate. -/
def aencParams : Args → AudioEnc.Params
  | [k, r, c, b] => { codec := (textArg k).map codecOf, ch := (intArg c).map Encoder.u32, rate := (intArg r).map Encoder.u32
                      bitrate := intArg b }
  | _ => ⟨none, none, none, none⟩

/-- An outcome of `Verif.AudioEnc`, which has no loop that could hang. -/
def fromOutcome {α : Type} : Outcome α → R α
  | .ok a => .ok a
  | _ => .ub

/-- src/modules/audioEncoder/AudioEncoderLibav.cpp:421-454; `a`: the answers of the encoding library. -/
def aencEvent (s : AudioEnc.State) (a : AudioEnc.Ans) (e : Node) : R (AudioEnc.State × Bool) :=
  (taken .audioEncoder e).bind fun
    | .called _ args => fromOutcome (s.configEvent (some (aencParams args)) a)
    | _ => .ok (s, false)

/-- src/modules/audioEncoder/AudioEncoderLibav.cpp:363-368 `doGetState`. -/
def aencReport (s : AudioEnc.State) : List (String × Node) :=
  [("codec", ofString (codecText s.info.codec)), ("sampleRate", intNode (Encoder.s32 s.info.rate)),
   ("channels", intNode (Encoder.s32 s.info.channels))]

/-! ## Audio mixer -/

/-- src/modules/audioMixer/AudioMixer.cpp:311-396 (`taken` gives the parameters). -/
def mixCommand (fl : Floats) (a : Str) (args : Args) : Option (AudioMixer.Cmd ℚ) :=
  if a = "changeChannelGain".toList then some (.volume (intArg (args.getD 0 none)) (fltArg fl (args.getD 1 none)))
  else if a = "muteChannel".toList then some (.mute (intArg (args.getD 0 none)))
  else if a = "soloChannel".toList then some (.solo (intArg (args.getD 0 none)))
  else if a = "changeMasterGain".toList then some (.master (fltArg fl (args.getD 0 none)))
  else if a = "muteMaster".toList then some .muteMaster
  else none

/-- src/modules/audioMixer/AudioMixer.cpp:457-473. -/
def mixEvent (fl : Floats) (s : AudioMixer.Ctl ℚ) (e : Node) : R (AudioMixer.Ctl ℚ × Bool) :=
  (taken .audioMixer e).bind fun
    | .called a args =>
      match mixCommand fl a args with
      | some c => let r := AudioMixer.command s c; .ok (r.2, r.1)
      | none => .ok (s, false)
    | _ => .ok (s, false)

/-- What never changes after construction (src/modules/audioMixer/AudioMixer.cpp:33-37), and the readers: the keys of `gains`, in order. -/
structure MixBase where
  channels : Int
  rate : Int
  fmt : FrameAlloc.SF
  maxCh : Int
  ids : List Int

/-- src/modules/audioMixer/AudioMixer.cpp:485-490: one of `gains`. -/
def gainItem (fl : Floats) (s : AudioMixer.Ctl ℚ) (id : Int) : Option (List (String × Node)) :=
  (s.gains id).map fun g => [("id", intNode id), ("gain", fltNode (fl.show_ g))]

/-- src/modules/audioMixer/AudioMixer.cpp:475-493 `doGetState`. -/
def mixReport (fl : Floats) (b : MixBase) (s : AudioMixer.Ctl ℚ) : List (String × Node) :=
  [("channels", intNode b.channels), ("sampleRate", intNode b.rate), ("sampleFormat", ofString (fmtText b.fmt)),
   ("maxChannels", intNode b.maxCh), ("masterGain", fltNode (fl.show_ s.master)),
   ("gains", .arr ((b.ids.filterMap (gainItem fl s)).map object))]

/-! ## Video mixer -/

/-- src/modules/videoMixer/VideoMixer.cpp:278-327: the two events. -/
def vmixEvent (fl : Floats) (s : VideoMixer.St) (e : Node) : R (VideoMixer.St × Bool) :=
  (taken .videoMixer e).bind fun
    | .called a args =>
      if a = "configChannel".toList then
        match args with
        | [some (.int id), some (.flt w), some (.flt h), some (.flt x), some (.flt y), some (.int l), some (.bool en), some (.flt o)] =>
          let r := VideoMixer.configChannel s id (fl.read w) (fl.read h) (fl.read x) (fl.read y) l en (fl.read o)
          .ok (r.2, r.1)
        | _ => .ok (s, false)
      else
        match args with
        | [w, h, f] =>
          let r := VideoMixer.configure s ((intArg w).getD s.outW) ((intArg h).getD s.outH) ((intArg f).getD 0)
          .ok (r.2, r.1)
        | _ => .ok (s, false)
    | _ => .ok (s, false)

/-- src/modules/videoMixer/VideoMixer.cpp:337-348: one of `channels`. -/
def chItem (fl : Floats) (s : VideoMixer.St) (id : Int) : Option (List (String × Node)) :=
  (s.chans id).map fun c =>
    [("id", intNode id), ("width", fltNode (fl.show_ c.width)), ("height", fltNode (fl.show_ c.height)), ("x", fltNode (fl.show_ c.x)),
     ("y", fltNode (fl.show_ c.y)), ("layer", intNode c.layer), ("enabled", boolNode c.enabled), ("opacity", fltNode (fl.show_ c.opacity))]

/-- src/modules/videoMixer/VideoMixer.cpp:329-351 `doGetState`; `ids`: the keys of `channelsConfig`, in order. -/
def vmixReport (fl : Floats) (ids : List Int) (s : VideoMixer.St) : List (String × Node) :=
  [("width", intNode s.outW), ("height", intNode s.outH), ("maxChannels", intNode s.maxCh),
   ("channels", .arr ((ids.filterMap (chItem fl s)).map object))]

/-! ## Video splitter -/

/-- `cropsConfig` and the frame time (src/modules/videoSplitter/VideoSplitter.hh:141-180). -/
structure Split where
  crops : Int → Option VideoMixer.Crop
  frameTime : Int

/-- src/modules/videoSplitter/VideoSplitter.cpp:203-265: the two events; `NULL` in 207 is false. -/
def splitEvent (s : Split) (e : Node) : R (Split × Bool) :=
  (taken .videoSplitter e).bind fun
    | .called a args =>
      if a = "configCrop".toList then
        match args with
        | [some (.int id), some (.int w), some (.int h), some (.int x), some (.int y), d] =>
          let r := VideoMixer.configCrop s.crops id w h x y ((intArg d).getD 0)
          .ok ({ s with crops := r.2 }, r.1)
        | _ => .ok (s, false)
      else
        let t := ((args.head?.bind intArg).getD 0)
        if t < 0 then .ok (s, false) else .ok ({ s with frameTime := t }, true)
    | _ => .ok (s, false)

/-- src/modules/videoSplitter/VideoSplitter.cpp:172-181: one of `crops`. -/
def cropItem (s : Split) (id : Int) : Option (List (String × Node)) :=
  (s.crops id).map fun c =>
    [("id", intNode id), ("width", intNode c.w), ("height", intNode c.h), ("x", intNode c.x), ("y", intNode c.y), ("degree", intNode c.degree)]

/-- src/modules/videoSplitter/VideoSplitter.cpp:168-184 `doGetState`, VideoSplitter.hh:141 `getConfigure`. -/
def splitReport (ids : List Int) (s : Split) : List (String × Node) :=
  [("frameTime", intNode (toI32 s.frameTime)), ("crops", .arr ((ids.filterMap (cropItem s)).map object))]

/-! ## DASH filter -/

/-- src/modules/dasher/Dasher.hh:113-135: `basePath`, `baseName`, `mpdPath`, `segDur`, and of `mpdMngr`, if it exists, `maxSeg` and
`minBufferTime`. -/
structure Dash where
  path : Str
  name : Str
  mpd : Str
  segDur : Nat
  mngr : Option (Nat × Nat)
  deriving DecidableEq

/-- src/modules/dasher/Dasher.cpp:38-43; `segDur` is not initialised: it has some value. -/
def Dash.init (junk : Nat) : Dash := ⟨[], [], [], junk, none⟩

/-- src/modules/dasher/Dasher.cpp:53-85 `configure`, MpdManager.cpp:45-63 by `Verif.Mpd`; `writable`: `access` says the folder may be
written to (no folder with an empty name is). -/
def Dash.configure (writable : Str → Bool) (s : Dash) (folder name : Str) (seg maxSeg minBuf : Nat) : Dash × Bool :=
  if !writable folder then (s, false)
  else
    let folder := if folder.getLast? = some '/' then folder else folder ++ ['/']
    if name = [] ∨ seg = 0 then (s, false)
    else
      let m := Mpd.configure (Mpd.State.init 0) minBuf maxSeg seg
      (⟨folder, name, folder ++ name ++ ".mpd".toList, seg, some (m.maxSeg, m.minBuf)⟩, true)

/-- src/modules/dasher/Dasher.cpp:442-479 `configureEvent` (`setBitrate` sets nothing that is reported); the segment duration is converted to
`unsigned`. -/
def dashEvent (writable : Str → Bool) (s : Dash) (e : Node) : R (Dash × Bool) :=
  (taken .dasher e).bind fun
    | .called a args =>
      if a = "configure".toList then
        match args with
        | [f, b, d, m, t] =>
          .ok (s.configure writable ((textArg f).getD s.path) ((textArg b).getD s.name)
            (((intArg d).map Encoder.u32).getD (s.segDur % 4294967296)) (((intArg m).map Encoder.u32).getD ((s.mngr.map Prod.fst).getD 0))
            (((intArg t).map Encoder.u32).getD ((s.mngr.map Prod.snd).getD 0)))
        | _ => .ok (s, false)
      else .ok (s, true)
    | _ => .ok (s, false)

/-- src/modules/dasher/Dasher.cpp:422-440 `doGetState`; `readers`: the keys of `segmenters`. -/
def dashReport (readers : List Int) (s : Dash) : List (String × Node) :=
  [("folder", ofString s.path), ("baseName", ofString s.name), ("mpdURI", ofString s.mpd), ("segDurInSec", intNode (toI32 s.segDur))] ++
  (match s.mngr with
    | some (a, b) => [("maxSegments", intNode (Encoder.s32 a)), ("minBufferTime", intNode (Encoder.s32 b))]
    | none => []) ++
  [("readers", .arr (readers.map intNode))]

/-- Several events, one after the other; all must be taken by the filter without ending the process. -/
def events {σ : Type} (ev : σ → Node → R (σ × Bool)) (s : σ) : List Node → R (σ × Bool)
  | [] => .ok (s, true)
  | e :: l => (ev s e).bind fun r => (events ev r.1 l).bind fun q => .ok (q.1, r.2 && q.2)

end Lms.Reports
