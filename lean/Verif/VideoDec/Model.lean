import Verif.FrameAlloc.Model

/-!
# Model of the video decoder (src/modules/videoDecoder/VideoDecoderLibav.cpp)

The decoder context through configuration, frames and decoding errors; the loop that feeds a coded frame to the
library; the copy of the decoded picture to the destination frame.  What the library answers is an input: the
decoder of each codec has its own answers, so that it shows which decoder a frame is handed to.  Undefined
behaviour: decoding with a context that was never allocated, has been freed, or was not opened (the library
requires an opened one), freeing a context twice, and a picture larger than the destination frame.  A list of
answers used up while the loop goes on is reported as `hang`.  The extra data shared with the queue's stream
information (165-167), threads of the library, logs and memory of the packet are not modelled.
-/

namespace Lms.VideoDec
open Lms.FrameAlloc

/-- src/modules/videoDecoder/VideoDecoderLibav.hh `codecCtx`: NULL, a pointer to a freed context, allocated but
not opened, or opened for a codec (src/modules/videoDecoder/VideoDecoderLibav.hh:62). -/
inductive Ctx where
  | null
  | freed
  | unopened
  | opened (c : VC)
  deriving DecidableEq, Repr

/-- `psi.fCodec`, `codecCtx`, `psi.inputWidth`, `psi.inputHeight` (src/modules/videoDecoder/VideoDecoderLibav.hh:62, 72-74). -/
structure State where
  codec : VC
  ctx : Ctx
  w : Nat
  h : Nat
  deriving DecidableEq, Repr

/-- src/modules/videoDecoder/VideoDecoderLibav.cpp:30-51. -/
def State.init : State := { codec := .none, ctx := .null, w := 0, h := 0 }

/-- The library's answers while a decoder is set up: is there a decoder, is a context allocated, is it opened.
(src/modules/videoDecoder/VideoDecoderLibav.cpp:142, 149, 170.) -/
structure Setup where
  found : Bool
  alloc : Bool
  opens : Bool
  deriving DecidableEq, Repr

/-- The library's answer to one call of avcodec_decode_video2: bytes used or an error, and the picture if there
is one; `copied`: av_frame_copy succeeds; `setup`: the answers to setting the decoder up again after an error.
(src/modules/videoDecoder/VideoDecoderLibav.cpp:84.) -/
structure Dec where
  len : Int
  got : Bool
  fmt : AV
  w : Nat
  h : Nat
  copied : Bool
  setup : Setup
  deriving DecidableEq, Repr

/-- A coded frame, with what the decoder of each codec answers to it (src/VideoFrame.hh:65-87, src/Frame.hh:37-153). -/
structure In where
  codec : VC
  size : Nat
  pts : Int
  org : Int
  seq : Nat
  setup : Setup
  dec : VC → List Dec

/-- A decoded frame (src/VideoFrame.hh:65-87, src/Frame.hh:37-153). -/
structure Out where
  w : Nat
  h : Nat
  pix : Pix
  len : Nat
  pts : Int
  dts : Int
  org : Int
  seq : Nat
  deriving DecidableEq, Repr

/-- The codecs with a decoder (VideoDecoderLibav.cpp:116-135; RAW falls through to the refusal). -/
def known : VC → Bool
  | .h264 | .h265 | .vp8 | .mjpeg => true
  | .raw | .none => false

/-- src/modules/videoDecoder/VideoDecoderLibav.cpp:114-177 `inputConfig`. -/
def State.inputConfig (s : State) (a : Setup) : Outcome (State × Bool) :=
  if known s.codec = false then .ok (s, false)
  else if s.ctx = .freed then .ub
  else
    let left := if s.ctx = .null then Ctx.null else Ctx.freed
    if a.found = false then .ok ({ s with ctx := left }, false)
    else if a.alloc = false then .ok ({ s with ctx := .null }, false)
    else if a.opens = false then .ok ({ s with ctx := .unopened }, false)
    else .ok ({ s with ctx := .opened s.codec }, true)

/-- src/modules/videoDecoder/VideoDecoderLibav.cpp:212-226 `reconfigure`. -/
def State.reconfigure (s : State) (c : VC) (a : Setup) : Outcome (State × Bool) :=
  if s.codec = c then .ok (s, true) else State.inputConfig { s with codec := c } a

/-- src/modules/videoDecoder/VideoDecoderLibav.cpp:179-208 `toBuffer`; `cap`: room in the destination. -/
def State.toBuffer (s : State) (d : Dec) (cap : Nat) : Outcome (State × Bool) :=
  if d.fmt = .none ∨ d.w = 0 ∨ d.h = 0 then .ok (s, false)
  else if imageSize d.fmt d.w d.h > cap then .ub
  else .ok ({ s with w := d.w, h := d.h }, d.copied)

/-- VideoDecoderLibav.cpp:95-99, 203-205. -/
def deliver (f : In) (d : Dec) : Out :=
  { w := d.w, h := d.h, pix := pixOf d.fmt, len := imageSize d.fmt d.w d.h
    pts := f.pts, dts := f.pts, org := f.org, seq := f.seq }

/-- src/modules/videoDecoder/VideoDecoderLibav.cpp:83-111: the loop, `size` bytes left. -/
def State.loop (s : State) (f : In) (cap : Nat) (size : Int) : List Dec → Outcome (State × Option Out)
  | [] => if size ≤ 0 then .ok (s, none) else .hang
  | d :: ds =>
    if size ≤ 0 then .ok (s, none)
    else if d.len < 0 then (s.inputConfig d.setup).bind fun r => .ok (r.1, none)
    else if d.got = true then
      (s.toBuffer d cap).bind fun r =>
        if r.2 = true then .ok (r.1, some (deliver f d)) else r.1.loop f cap (size - d.len) ds
    else s.loop f cap (size - d.len) ds

/-- The decoder the context belongs to. -/
def State.decoder (s : State) : Option VC :=
  match s.ctx with
  | .opened c => some c
  | _ => none

/-- src/modules/videoDecoder/VideoDecoderLibav.cpp:70-112 `doProcessFrame`; the delivered frame, if any. -/
def State.process (s : State) (f : In) (cap : Nat) : Outcome (State × Option Out) :=
  (s.reconfigure f.codec f.setup).bind fun r =>
    if r.2 = false then .ok (r.1, none)
    else if f.size = 0 then .ok (r.1, none)
    else
      match r.1.decoder with
      | none => .ub
      | some c => r.1.loop f cap f.size (f.dec c)

/-- The frames come one after another, each with a destination of its own room.
Calls `State` (src/modules/videoDecoder/VideoDecoderLibav.hh:62, 72-74), `State.process`
(src/modules/videoDecoder/VideoDecoderLibav.cpp:70-112). -/
def step (s : State) (op : In × Nat) : Outcome (State × Option Out) := s.process op.1 op.2

end Lms.VideoDec
