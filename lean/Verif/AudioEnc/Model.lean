import Verif.AudioDec.Model
import Verif.AudioRing.Model

/-!
# Model of the audio encoder (src/modules/audioEncoder/AudioEncoderLibav.cpp)

Configuration events, the reader, and raw frames: the encoder context, the frame the library encodes from
(`libavFrame`), the resampling context and the coded frame.  The answers of the libraries are inputs; what is
trusted about libswresample is stated in `AudioDec.Model`.  About libavcodec: av_frame_get_buffer fails for a
frame without samples; avcodec_encode_audio2 refuses a packet that is too small and otherwise encodes
`nb_samples` samples of its frame.

Undefined behaviour: encoding with a context that is missing or not open, converting without a context or into
a frame without buffers, handing samples that lie in one buffer over as if they lay in planes (347-357), reading
past the raw frame's planes.  Sample values, the bit rate's effect and logs are not modelled.
-/

namespace Lms.AudioEnc
open Lms.FrameAlloc Lms.AudioDec

/-- `codecCtx` (src/modules/audioEncoder/AudioEncoderLibav.hh:73). -/
inductive Ctx where
  | null
  | unopened
  | opened
  deriving DecidableEq, Repr

/-- src/modules/audioEncoder/AudioEncoderLibav.hh: `info`: `outputStreamInfo->audio`; `internal`:
`internalLibavSampleFmt`; `nb`: `libavFrame->nb_samples`; `buf`: its buffers, by format, channels and samples;
`spf`: `samplesPerFrame`; `inp`: `inputSampleFmt`, `inputChannels`, `inputSampleRate`; `swr`: `resampleCtx`;
`reader`: has the filter's one reader been accepted (src/modules/audioEncoder/AudioEncoderLibav.hh:70-86). -/
structure State where
  info : AInfo
  bitrate : Int
  internal : SF
  ctx : Ctx
  nb : Nat
  buf : Option (SF × Nat × Nat)
  spf : Nat
  inp : Fmt
  swr : Option (Option Opts)
  reader : Bool
  deriving DecidableEq, Repr

/-- src/modules/audioEncoder/AudioEncoderLibav.cpp:32-59. -/
def State.init : State :=
  { info := { codec := .none, rate := 0, channels := 0, fmt := .none }, bitrate := 0, internal := .none
    ctx := .null, nb := 0, buf := none, spf := 0, inp := { fmt := .none, ch := 0, rate := 0 }, swr := none
    reader := false }

/-- The answers of the library to a configuration: is there an encoder, is a context allocated, does the encoder
list the sample format, the rate and the channel layout (370-419; a missing list counts as no), is the context
opened, the encoder's samples per frame, are buffers allocated. -/
structure Ans where
  found : Bool
  alloc : Bool
  fmts : Bool
  rates : Bool
  layouts : Bool
  opens : Bool
  frameSize : Nat
  buf : Bool
  deriving DecidableEq, Repr

/-- AudioEncoderLibav.cpp:167-196: the encoder asked for and the sample formats; `false`: AV_CODEC_ID_NONE. -/
def State.choose (s : State) (c : AC) : State × Bool :=
  match c with
  | .pcm | .pcmu | .opus | .aac => ({ s with internal := .s16, info := { s.info with fmt := .s16 } }, true)
  | .mp3 => ({ s with internal := .s16p, info := { s.info with fmt := .s16p } }, true)
  | _ => (s, false)

/-- AudioEncoderLibav.cpp:237-258: samples per frame and buffers of `libavFrame`. -/
def State.frameSetup (s : State) (a : Ans) : Outcome (State × Bool) :=
  (if a.frameSize ≠ 0 then Outcome.ok a.frameSize else defaultSamples s.inp.rate).bind fun n =>
    let s := { s with nb := n, spf := n }
    if n = 0 ∨ a.buf = false then .ok (s, false)
    else .ok ({ s with buf := some (s.internal, s.info.channels, n) }, true)

/-- src/modules/audioEncoder/AudioEncoderLibav.cpp:201-261 `codingConfig`; `known`: the codec has an id. -/
def State.codingConfig (s : State) (known : Bool) (a : Ans) : Outcome (State × Bool) :=
  if known = false ∨ a.found = false then .ok (s, false)
  else if a.alloc = false then .ok ({ s with ctx := .null }, false)
  else
    let s := { s with ctx := .unopened }
    if (s.info.codec ≠ .pcmu ∧ s.info.codec ≠ .pcm) ∧ ¬ (a.fmts = true ∧ a.rates = true ∧ a.layouts = true) then
      .ok (s, false)
    else if a.opens = false then .ok (s, false)
    else State.frameSetup { s with ctx := .opened } a

/-- The parameters of a `configure` event; a missing one is `none` (src/modules/audioEncoder/AudioEncoderLibav.cpp:437-449). -/
structure Params where
  codec : Option AC
  ch : Option Nat
  rate : Option Nat
  bitrate : Option Int
  deriving DecidableEq, Repr

/-- src/modules/audioEncoder/AudioEncoderLibav.cpp:152-199 `configure0`, src/StreamInfo.hh:97-112. -/
def State.configure0 (s : State) (c : AC) (ch rate : Nat) (bitrate : Int) (a : Ans) : Outcome (State × Bool) :=
  if s.info.codec ≠ .none then .ok (s, false)
  else
    let i := AInfo.defaults { s.info with codec := c }
    let r := State.choose { s with info := { i with channels := ch, rate := rate }, bitrate := bitrate } c
    r.1.codingConfig r.2 a

/-- src/modules/audioEncoder/AudioEncoderLibav.cpp:421-454 `configEvent`. -/
def State.configEvent (s : State) (p : Option Params) (a : Ans) : Outcome (State × Bool) :=
  match p with
  | none => .ok (s, false)
  | some p =>
    s.configure0 (p.codec.getD s.info.codec) (p.ch.getD s.info.channels) (p.rate.getD s.info.rate)
      (p.bitrate.getD s.bitrate) a

/-- src/modules/audioEncoder/AudioEncoderLibav.cpp:131-150 `specificReaderConfig`; `ring`: the queue is an
AudioCircularBuffer; the samples per frame it is told, if any. -/
def State.addReader (s : State) (ring : Bool) : State × Option Nat :=
  if s.spf = 0 then (s, none)
  else if ring = false then (s, none)
  else ({ s with reader := true }, some s.spf)

/-- A raw frame: sample format, channels, rate, samples, room in samples, planar or not, times.
(src/AudioFrame.hh:36-105, src/Frame.hh:37-153.) -/
structure In where
  fmt : Fmt
  samples : Nat
  maxSamples : Nat
  planar : Bool
  pts : Int
  org : Int
  seq : Nat
  deriving DecidableEq, Repr

/-- The library's answers for one frame: to new resampling parameters, the samples converted or an error, the
encoder's result, and the size of what it has made (src/modules/audioEncoder/AudioEncoderLibav.cpp:106, 265, 283-284, 339, 350). -/
structure FAns where
  swr : SwrAns
  out : Int
  ret : Int
  got : Bool
  size : Nat
  deriving DecidableEq, Repr

/-- A coded frame: the conversion made, the samples converted for it (which is what it reports), the samples
encoded into it, its length and times (src/AudioFrame.hh:65-85, src/Frame.hh:37-153). -/
structure Out where
  conv : Opts
  fresh : Nat
  encoded : Nat
  len : Nat
  pts : Int
  org : Int
  seq : Nat
  deriving DecidableEq, Repr

/-- src/modules/audioEncoder/AudioEncoderLibav.cpp:263-291 `resamplingConfig`. -/
def State.resamplingConfig (s : State) (a : SwrAns) : State × Bool :=
  if a.set = false then ({ s with swr := none }, false)
  else
    match s.swr with
    | some (some _) => (s, true)
    | _ =>
      let o : Opts := { src := s.inp, dst := { fmt := s.internal, ch := s.info.channels, rate := s.info.rate } }
      if initOk a o then ({ s with swr := some (some o) }, true) else ({ s with swr := some none }, false)

/-- src/modules/audioEncoder/AudioEncoderLibav.cpp:293-331 `reconfigure`. -/
def State.reconfigure (s : State) (f : Fmt) (a : SwrAns) : State × Bool :=
  if s.inp = f then (s, true) else State.resamplingConfig { s with inp := f } a

/-- Does what is read as `o` lie within a planar raw frame (two planes, AudioFrame.hh:31). -/
def rawReads (o : Fmt) (f : In) : Bool :=
  decide (planes o.fmt o.ch ≤ 2) &&
    decide (planeBytes o.fmt o.ch f.samples ≤ f.maxSamples * bytesPerSample f.fmt.fmt)

/-- AudioEncoderLibav.cpp:104-125: encoding `nb` samples, `k` of which have just been converted. -/
def State.encode (s : State) (f : In) (o : Opts) (k : Nat) (a : FAns) : Outcome (Option Out) :=
  if s.ctx ≠ .opened then .ub
  else if a.ret < 0 then .ok none
  else if a.got = false then .ok none
  else .ok (some { conv := o, fresh := k, encoded := s.nb, len := a.size, pts := f.pts, org := f.org, seq := f.seq })

/-- src/modules/audioEncoder/AudioEncoderLibav.cpp:333-361 `resample` and 93-127. -/
def State.convert (s : State) (f : In) (a : FAns) : Outcome (Option Out) :=
  match s.swr with
  | none => .ub
  | some none => .ok none
  | some (some o) =>
    if f.planar = false then .ub
    else if a.out < 0 then .ok none
    else if s.buf = some (o.dst.fmt, o.dst.ch, s.nb) then
      if rawReads o.src f = false then .ub
      else if min a.out.toNat s.nb = 0 then .ok none
      else s.encode f o (min a.out.toNat s.nb) a
    else .ub

/-- src/modules/audioEncoder/AudioEncoderLibav.cpp:75-128 `doProcessFrame`. -/
def State.process (s : State) (f : In) (a : FAns) : Outcome (State × Option Out) :=
  let r := s.reconfigure f.fmt a.swr
  if r.2 = false then .ok (r.1, none) else (r.1.convert f a).map fun o => (r.1, o)

/-- What happens to the filter; frames only come through an accepted reader. -/
inductive Op where
  | config (p : Option Params) (a : Ans)
  | reader (ring : Bool)
  | frame (f : In) (a : FAns)
  deriving DecidableEq, Repr

inductive Ret where
  | config (b : Bool)
  | reader (spf : Option Nat)
  | frame (o : Option Out)
  deriving DecidableEq, Repr

/-- Calls `State.configEvent` (src/modules/audioEncoder/AudioEncoderLibav.cpp:421-454), `State.addReader`
(src/modules/audioEncoder/AudioEncoderLibav.cpp:131-150), `State.process`
(src/modules/audioEncoder/AudioEncoderLibav.cpp:75-128). -/
def step (s : State) : Op → Outcome (State × Ret)
  | .config p a => (s.configEvent p a).bind fun (s', b) => .ok (s', .config b)
  | .reader ring => .ok ((s.addReader ring).1, .reader (s.addReader ring).2)
  | .frame f a =>
    if s.reader then (s.process f a).bind fun (s', o) => .ok (s', .frame o) else .ok (s, .frame none)

end Lms.AudioEnc
