import Verif.FrameAlloc.Model

/-!
# Model of the audio decoder (src/modules/audioDecoder/AudioDecoderLibav.cpp)

Configuration events and coded frames: the decoder context, the resampling context, the loop that feeds a coded
frame to the library, and the conversion into the destination frame.  What the libraries answer is an input; the
decoder of each codec, channel count and rate has its own answers, so that it shows which one a frame is handed
to.  Trusted about libswresample: a context converts with the parameters it had when swr_init last succeeded;
swr_alloc_set_opts on an existing context changes the parameters to be used by the next swr_init only, and frees
the context if it fails; swr_init fails for unknown sample formats and without channels; swr_convert answers an
error for a context that is not initialised and writes at most as many samples as it is given room for.

Undefined behaviour: decoding with a context that was never allocated, has been freed, or was not opened;
freeing one twice; converting without a context; reading past the decoded frame's planes or writing past the
destination's.  A list of answers used up while the loop goes on is reported as `hang`.  The sample values
themselves and logs are not modelled; `fCodec` is uninitialised (50-72) and a parameter of the initial state.
-/

namespace Lms.AudioDec
open Lms.FrameAlloc

/-- Codec, channels and sample rate: `fCodec`, `inChannels`, `inSampleRate`, and those of a coded frame.
(src/modules/audioDecoder/AudioDecoderLibav.hh:75, 78, 80.) -/
structure Key where
  codec : AC
  ch : Nat
  rate : Nat
  deriving DecidableEq, Repr

/-- Sample format, channels and sample rate of one side of a conversion.
(src/modules/audioDecoder/AudioDecoderLibav.cpp:189-200, 223-234.) -/
structure Fmt where
  fmt : SF
  ch : Nat
  rate : Nat
  deriving DecidableEq, Repr

/-- The parameters of a resampling context (AudioDecoderLibav.cpp:189-200, 223-234). -/
structure Opts where
  src : Fmt
  dst : Fmt
  deriving DecidableEq, Repr

/-- src/modules/audioDecoder/AudioDecoderLibav.hh `codecCtx` (src/modules/audioDecoder/AudioDecoderLibav.hh:67). -/
inductive Ctx where
  | null
  | freed
  | unopened
  | opened (k : Key)
  deriving DecidableEq, Repr

/-- `key`: `fCodec`, `inChannels`, `inSampleRate`; `inFmt`: `inLibavSampleFmt`; `out`: `outSampleFmt`,
`outChannels`, `outSampleRate`; `swr`: `resampleCtx`, NULL, or not initialised, or initialised with parameters.
(src/modules/audioDecoder/AudioDecoderLibav.hh:67-82.) -/
structure State where
  key : Key
  ctx : Ctx
  inFmt : SF
  out : Fmt
  swr : Option (Option Opts)
  deriving DecidableEq, Repr

/-- src/modules/audioDecoder/AudioDecoderLibav.cpp:50-72, src/Types.hh (FLTP, 2 channels, 48000 Hz). -/
def State.init (c : AC) : State :=
  { key := { codec := c, ch := 0, rate := 0 }, ctx := .null, inFmt := .none
    out := { fmt := .fltp, ch := 2, rate := 48000 }, swr := none }

/-- Answers while the resampling context is given parameters: is it allocated, is it initialised.
(src/modules/audioDecoder/AudioDecoderLibav.cpp:189, 207-208, 223, 241-242.) -/
structure SwrAns where
  set : Bool
  init : Bool
  deriving DecidableEq, Repr

/-- Does swr_init succeed with these parameters (src/modules/audioDecoder/AudioDecoderLibav.cpp:208, 242). -/
def initOk (a : SwrAns) (o : Opts) : Bool :=
  a.init && decide (o.src.fmt ≠ .none) && decide (o.dst.fmt ≠ .none) && decide (0 < o.src.ch) && decide (0 < o.dst.ch)

/-- src/modules/audioDecoder/AudioDecoderLibav.cpp:187-215 `inputConfig` (and 223-248). -/
def State.inputConfig (s : State) (a : SwrAns) : State × Bool :=
  if a.set = false then ({ s with swr := none }, false)
  else
    match s.swr with
    | some (some _) => (s, true)
    | _ =>
      let o : Opts := { src := { fmt := s.inFmt, ch := s.key.ch, rate := s.key.rate }, dst := s.out }
      if initOk a o then ({ s with swr := some (some o) }, true) else ({ s with swr := some none }, false)

/-- src/modules/audioDecoder/AudioDecoderLibav.cpp:217-249 `outputConfig`. -/
def State.outputConfig (s : State) (a : SwrAns) : State × Bool :=
  if s.key.ch = 0 ∧ s.key.rate = 0 then (s, true) else s.inputConfig a

/-- The parameters of a `configure` event; a missing one is `none` (src/modules/audioDecoder/AudioDecoderLibav.cpp:341-349). -/
structure Params where
  fmt : Option SF
  ch : Option Nat
  rate : Option Nat
  deriving DecidableEq, Repr

/-- src/modules/audioDecoder/AudioDecoderLibav.cpp:331-354 `configEvent`, 146-185 `configure0`. -/
def State.configEvent (s : State) (p : Option Params) (a : SwrAns) : State × Bool :=
  match p with
  | none => (s, false)
  | some p =>
    State.outputConfig
      { s with out := { fmt := p.fmt.getD s.out.fmt, ch := p.ch.getD s.out.ch, rate := p.rate.getD s.out.rate } } a

/-- The library's answers while a decoder is set up (src/modules/audioDecoder/AudioDecoderLibav.cpp:430, 437, 448). -/
structure Setup where
  found : Bool
  alloc : Bool
  opens : Bool
  deriving DecidableEq, Repr

/-- The library's answer to one call of avcodec_decode_audio4: bytes used or an error, and the decoded frame if
there is one, with its sample format (`none`: one the code does not know), channels, rate and samples; then the
answers of the resampling context: to new parameters, and the samples converted or an error.
(src/modules/audioDecoder/AudioDecoderLibav.cpp:110.) -/
structure Dec where
  len : Int
  got : Bool
  fmt : SF
  ch : Nat
  rate : Nat
  samples : Nat
  swr : SwrAns
  out : Int
  deriving DecidableEq, Repr

/-- A coded frame, with what the decoder of each codec, channel count and rate answers to it.
(src/AudioFrame.hh:65-85, src/Frame.hh:37-153.) -/
structure In where
  key : Key
  size : Int
  pts : Int
  org : Int
  seq : Nat
  setup : Setup
  dec : Key → List Dec

/-- What a destination frame is delivered with: the conversion made, samples, length and times.
(src/AudioFrame.hh:87-105, src/Frame.hh:37-153.) -/
structure Out where
  conv : Opts
  samples : Nat
  len : Nat
  pts : Int
  org : Int
  seq : Nat
  deriving DecidableEq, Repr

/-- Nothing; a frame with samples converted now; a frame with the times set and whatever samples it held. -/
inductive Res where
  | nothing
  | fresh (o : Out)
  | stale (pts org : Int) (seq : Nat)
  deriving DecidableEq, Repr

/-- The codecs with a decoder (AudioDecoderLibav.cpp:400-416). -/
def known : AC → Bool
  | .pcmu | .opus | .aac | .mp3 => true
  | _ => false

/-- src/modules/audioDecoder/AudioDecoderLibav.cpp:383-454 `reconfigureDecoder`. -/
def State.reconfigure (s : State) (k : Key) (a : Setup) : Outcome (State × Bool) :=
  if k.ch = 0 ∨ k.rate = 0 then .ok (s, false)
  else if k = s.key then .ok (s, true)
  else
    let s := { s with key := k }
    if known k.codec = false then .ok (s, false)
    else if s.ctx = .freed then .ub
    else
      let left := if s.ctx = .null then Ctx.null else Ctx.freed
      if a.found = false then .ok ({ s with ctx := left }, false)
      else if a.alloc = false then .ok ({ s with ctx := .null }, false)
      else if a.opens = false then .ok ({ s with ctx := .unopened }, false)
      else .ok ({ s with ctx := .opened k }, true)

/-- src/modules/audioDecoder/AudioDecoderLibav.cpp:294-329 `checkSampleFormat`; the answer of 328 is not used. -/
def State.checkFormat (s : State) (d : Dec) : State :=
  if s.inFmt = d.fmt then s else (State.inputConfig { s with inFmt := d.fmt } d.swr).1

/-- Planar sample formats. -/
def isPlanar : SF → Bool
  | .u8p | .s16p | .fltp => true
  | _ => false

/-- Planes and bytes per plane that `n` samples take. -/
def planes (f : SF) (ch : Nat) : Nat := if isPlanar f then ch else 1
def planeBytes (f : SF) (ch n : Nat) : Nat :=
  if isPlanar f then n * bytesPerSample f else n * ch * bytesPerSample f

/-- Do `n` samples read as `f` lie within a decoded frame. -/
def readsOk (f : Fmt) (d : Dec) : Bool :=
  decide (planes f.fmt f.ch ≤ planes d.fmt d.ch) &&
    decide (planeBytes f.fmt f.ch d.samples ≤ planeBytes d.fmt d.ch d.samples)

/-- Do `n` samples written as `f` lie within the destination (two planes if planar, AudioFrame.hh:31). -/
def writesOk (f : Fmt) (t : AFrame) (n : Nat) : Bool :=
  decide (planes f.fmt f.ch ≤ if t.planar then 2 else 1) && decide (planeBytes f.fmt f.ch n ≤ t.cap)

/-- AudioDecoderLibav.cpp:269, 287: the length set. -/
def State.length (s : State) (t : AFrame) (n : Nat) : Nat :=
  if t.planar then n * bytesPerSample s.out.fmt else s.out.ch * n * bytesPerSample s.out.fmt

/-- src/modules/audioDecoder/AudioDecoderLibav.cpp:251-292 `resample`: the conversion, or failure. -/
def State.resample (s : State) (d : Dec) (t : AFrame) : Outcome (Option (Opts × Nat)) :=
  match s.swr with
  | none => .ub
  | some none => .ok none
  | some (some o) =>
    if d.out < 0 then .ok none
    else
      let n := min d.out.toNat t.maxSamples
      if readsOk o.src d && writesOk o.dst t n then .ok (some (o, n)) else .ub

/-- src/modules/audioDecoder/AudioDecoderLibav.cpp:109-143: the loop, `size` bytes left. -/
def State.loop (s : State) (f : In) (t : AFrame) (size : Int) : List Dec → Outcome (State × Res)
  | [] => if size ≤ 0 then .ok (s, .stale f.pts f.org f.seq) else .hang
  | d :: ds =>
    if size ≤ 0 then .ok (s, .stale f.pts f.org f.seq)
    else if d.len < 0 then .ok (s, .nothing)
    else if d.got = false then s.loop f t (size - d.len) ds
    else
      let s := s.checkFormat d
      (s.resample d t).bind fun
        | none => .ok (s, .nothing)
        | some (o, n) => .ok (s, .fresh { conv := o, samples := n, len := s.length t n
                                          pts := f.pts, org := f.org, seq := f.seq })

/-- The decoder the context belongs to. -/
def State.decoder (s : State) : Option Key :=
  match s.ctx with
  | .opened k => some k
  | _ => none

/-- src/modules/audioDecoder/AudioDecoderLibav.cpp:89-144 `doProcessFrame`. -/
def State.process (s : State) (f : In) (t : AFrame) : Outcome (State × Res) :=
  (s.reconfigure f.key f.setup).bind fun r =>
    if r.2 = false then .ok (r.1, .nothing)
    else if f.size ≤ 0 then .ok (r.1, .nothing)
    else
      match r.1.decoder with
      | none => .ub
      | some k => r.1.loop f t f.size (f.dec k)

/-- What happens to the filter. -/
inductive Op where
  | config (p : Option Params) (a : SwrAns)
  | frame (f : In) (t : AFrame)

/-- The answer to an event, or the frame delivered. -/
inductive Ret where
  | config (b : Bool)
  | frame (r : Res)
  deriving DecidableEq, Repr

/-- Calls `State.configEvent` (src/modules/audioDecoder/AudioDecoderLibav.cpp:331-354), `State.process`
(src/modules/audioDecoder/AudioDecoderLibav.cpp:89-144). -/
def step (s : State) : Op → Outcome (State × Ret)
  | .config p a => .ok ((s.configEvent p a).1, .config (s.configEvent p a).2)
  | .frame f t => (s.process f t).bind fun (s', r) => .ok (s', .frame r)

end Lms.AudioDec
