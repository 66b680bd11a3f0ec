import Verif.FrameAlloc.Model

/-!
# Model of the video resampler (src/modules/videoResampler/VideoResampler.cpp)

Configuration events and frames; the conversion context of libswscale is the geometry and formats it was made
for.  The answers of the libraries are inputs, with what their documentation promises: no context and no
layout for unknown formats and empty pictures.  Undefined behaviour: scaling with a context made for other
pictures than those handed to it, reading past the source frame, writing past the destination frame.  The
constructor reads and `configEvent` keeps the uninitialised `outPixFmt` (41, 199): its value is a parameter of
the initial state.  Contexts replaced at line 93 are never freed (a leak, not modelled); neither are logs.
-/

namespace Lms.Resampler
open Lms.FrameAlloc

/-- What a context was made for (VideoResampler.cpp:93-95). -/
structure Ctx where
  inW : Int
  inH : Int
  inP : AV
  outW : Int
  outH : Int
  outP : AV
  deriving DecidableEq, Repr

/-- src/modules/videoResampler/VideoResampler.hh: `imgConvertCtx`, `needsConfig`, `inFrame->width/height`,
`inPixFmt`, `libavInPixFmt`, `outputWidth`, `outputHeight`, `outPixFmt`, `libavOutPixFmt`; `time`: the frame
time of the filter (Filter.hh:247), in microseconds. -/
structure State where
  ctx : Option Ctx
  needs : Bool
  inW : Int
  inH : Int
  inPix : Pix
  libIn : AV
  outW : Int
  outH : Int
  outPix : Pix
  libOut : AV
  time : Int
  deriving DecidableEq, Repr

/-- src/modules/videoResampler/VideoResampler.cpp:30-50; `p`, `q`, `l`: the uninitialised `outPixFmt`,
`inPixFmt` and `libavInPixFmt`.  libav's fresh frames have size 0. -/
def State.init (p q : Pix) (l : AV) : State :=
  { ctx := none, needs := false, inW := 0, inH := 0, inPix := q, libIn := l
    outW := 0, outH := 0, outPix := p, libOut := libav p, time := 0 }

/-- A frame to convert: size, format, room of its buffer, and the times it carries (src/VideoFrame.hh:65-87, src/Frame.hh:37-153). -/
structure In where
  w : Int
  h : Int
  pix : Pix
  cap : Nat
  pts : Int
  dts : Int
  org : Int
  seq : Nat
  deriving DecidableEq, Repr

/-- The frame delivered (src/VideoFrame.hh:65-87, src/Frame.hh:37-153). -/
structure Out where
  w : Int
  h : Int
  pix : Pix
  len : Nat
  pts : Int
  dts : Int
  org : Int
  seq : Nat
  deriving DecidableEq, Repr

/-- What the libraries answer for one frame: is a context made, are the layouts of source and destination
filled in, how many lines are converted (src/modules/videoResampler/VideoResampler.cpp:93, 143, 268). -/
structure Ans where
  sws : Bool
  fillIn : Bool
  fillOut : Bool
  lines : Int
  deriving DecidableEq, Repr

/-- sws_getContext gives NULL for unknown formats and empty pictures (src/modules/videoResampler/VideoResampler.cpp:93). -/
def swsMade (a : Bool) (c : Ctx) : Bool :=
  a && decide (c.inP ≠ .none) && decide (c.outP ≠ .none) &&
    decide (0 < c.inW) && decide (0 < c.inH) && decide (0 < c.outW) && decide (0 < c.outH)

/-- av_image_fill_arrays is an error for unknown formats and empty pictures (src/modules/videoResampler/VideoResampler.cpp:268). -/
def filled (a : Bool) (p : AV) (w h : Int) : Bool :=
  a && decide (p ≠ .none) && decide (0 < w) && decide (0 < h)

/-- VideoResampler.cpp:80-91 and 123-133. -/
def State.target (s : State) (f : In) : Int × Int :=
  (if s.outW = 0 then f.w else s.outW, if s.outH = 0 then f.h else s.outH)

/-- src/modules/videoResampler/VideoResampler.cpp:66-105 `reconfigure`. -/
def State.reconfigure (s : State) (f : In) (a : Ans) : State × Bool :=
  if s.ctx = none ∨ s.needs = true ∨ f.w ≠ s.inW ∨ f.h ≠ s.inH ∨ f.pix ≠ s.inPix then
    let s1 := { s with inPix := f.pix, libIn := libav f.pix }
    if s1.libIn = .none then (s1, false)
    else
      let c : Ctx := { inW := f.w, inH := f.h, inP := s1.libIn
                       outW := (s1.target f).1, outH := (s1.target f).2, outP := s1.libOut }
      if swsMade a.sws c then ({ s1 with ctx := some c, needs := false }, true)
      else ({ s1 with ctx := none }, false)
  else (s, true)

/-- src/modules/videoResampler/VideoResampler.cpp:143-157: scaling between the two frames; `cap`: room in the
destination. -/
def State.scale (s : State) (f : In) (cap : Nat) (a : Ans) : Outcome (State × Option Out) :=
  let t := s.target f
  if s.ctx = some { inW := f.w, inH := f.h, inP := s.libIn, outW := t.1, outH := t.2, outP := s.libOut } then
    if imageSize s.libIn f.w.toNat f.h.toNat > f.cap ∨ imageSize s.libOut t.1.toNat t.2.toNat > cap then .ub
    else if a.lines ≤ 0 then .ok (s, none)
    else .ok (s, some { w := t.1, h := t.2, pix := s.outPix
                        len := imageSize s.libOut t.1.toNat t.2.toNat
                        pts := f.pts, dts := f.dts, org := f.org, seq := f.seq })
  else .ub

/-- src/modules/videoResampler/VideoResampler.cpp:107-158 `doProcessFrame`, 266-280 `setAVFrame`; the delivered
frame, if any. -/
def State.process (s : State) (f : In) (cap : Nat) (a : Ans) : Outcome (State × Option Out) :=
  let r := s.reconfigure f a
  if r.2 = false then .ok (r.1, none)
  else if filled a.fillIn r.1.libIn f.w f.h = false then .ok (r.1, none)
  else
    let s2 := { r.1 with inW := f.w, inH := f.h }
    if filled a.fillOut s2.libOut (s2.target f).1 (s2.target f).2 = false then .ok (s2, none)
    else s2.scale f cap a

/-- src/Types.hh:67. -/
def pixOfInt (n : Int) : Pix :=
  if n = 0 then .rgb24 else if n = 1 then .rgb32 else if n = 2 then .yuv420p else if n = 3 then .yuv422p
  else if n = 4 then .yuv444p else if n = 5 then .yuyv422 else if n = 6 then .yuvj420p else .none

/-- src/modules/videoResampler/VideoResampler.cpp:161-181 `configure0`. -/
def State.configure0 (s : State) (w h fps : Int) (p : Pix) : State × Bool :=
  ({ s with outW := w, outH := h, outPix := p, libOut := libav p, needs := true
            time := if fps ≤ 0 then 0 else 1000000 / fps },
   decide (libav p ≠ .none))

/-- The parameters of a `configure` event; a missing one is `none` (src/modules/videoResampler/VideoResampler.cpp:201-213). -/
structure Params where
  w : Option Int
  h : Option Int
  fps : Option Int
  pix : Option Int
  deriving DecidableEq, Repr

/-- src/modules/videoResampler/VideoResampler.cpp:192-198: the rate kept when none is given. -/
def State.fps (s : State) : Int := if s.time > 0 then 1000000 / s.time else 0

/-- src/modules/videoResampler/VideoResampler.cpp:183-222 `configEvent`. -/
def State.configEvent (s : State) (p : Option Params) : State × Bool :=
  match p with
  | none => (s, false)
  | some p =>
    match p.pix with
    | none => s.configure0 (p.w.getD s.outW) (p.h.getD s.outH) (p.fps.getD s.fps) s.outPix
    | some n =>
      if n < -1 ∨ n > 5 then (s, false)
      else s.configure0 (p.w.getD s.outW) (p.h.getD s.outH) (p.fps.getD s.fps) (pixOfInt n)

/-- What happens to the filter. -/
inductive Op where
  | config (p : Option Params)
  | frame (f : In) (cap : Nat) (a : Ans)
  deriving DecidableEq, Repr

/-- Did the event succeed; what was delivered. -/
inductive Res where
  | config (b : Bool)
  | frame (o : Option Out)
  deriving DecidableEq, Repr

/-- Calls `State.process` (src/modules/videoResampler/VideoResampler.cpp:107-158), `State.configEvent`
(src/modules/videoResampler/VideoResampler.cpp:183-222). -/
def step (s : State) : Op → Outcome (State × Res)
  | .config p => .ok ((s.configEvent p).1, .config (s.configEvent p).2)
  | .frame f cap a => (s.process f cap a).bind fun (s', o) => .ok (s', .frame o)

end Lms.Resampler
