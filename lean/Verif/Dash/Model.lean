import Verif.Isoff.Spec
import Verif.Isoff.Model

/-!
# Model of the segmenter (src/modules/dasher/i2libdash.c, Dasher.cpp)

Time stamps are in units of the time base (Dasher.cpp:680-683 converts).  Null checks and the check of the
media type are not modelled.  The duration of the newest sample is not initialised by the code until the
next one arrives or the segment is closed; it is not read before, and is 0 here.
-/

namespace Lms.Dash

open Isoff

/-- A frame handed to the segmenter (src/VideoFrame.hh:34-63, src/Frame.hh:37-153). -/
structure Frm where
  data : Bytes
  pts : Nat
  dts : Nat
  intra : Bool
  deriving DecidableEq

/-- src/modules/dasher/Dasher.hh:218-223. -/
structure State where
  ctx : Ctx
  /-- `duration` of the context: the target. -/
  target : Nat
  /-- `sequenceNumber` of the segmenter (Dasher.cpp:670). -/
  nseg : Nat

/-- A finished segment: what is written to disk and what is announced (src/modules/dasher/Dasher.hh:233). -/
structure Seg where
  bytes : Bytes
  ts : Nat
  dur : Nat

/-- src/modules/dasher/i2libdash.c:92-113 `context_refresh`. -/
def refresh (c : Ctx) : Ctx :=
  { c with ept := 0, seq := 0, cur := 0, data := [], samples := [], moofPos := 0, trunPos := 0 }

/-- Storing a duration in the last sample (i2libdash.c:333, 455). -/
def setLast (l : List Smp) (d : Nat) : List Smp :=
  match l.getLast? with
  | none => l
  | some s => l.dropLast ++ [{ s with duration := d }]

/-- src/modules/dasher/i2libdash.c:336-347, 368-377, 396-404: write a segment; Dasher.cpp:661-670. -/
def close (cap : Nat) (s : State) : Outcome (State × Option Seg) :=
  (segmentGenerator cap s.ctx).bind fun
    | .err _ => Outcome.ok (s, none)
    | .out c bytes =>
      Outcome.ok ({ s with ctx := refresh c, nseg := s.nseg + 1 }, some ⟨bytes, s.ctx.ept, s.ctx.cur⟩)

/-- src/modules/dasher/i2libdash.c:330-350: the decision, given the duration of the last sample. -/
def closeIf (cap : Nat) (s : State) (intra : Bool) (last : Nat) : Outcome (State × Option Seg) :=
  if intra = true ∧ (s.target + 2 ^ 32 - last) % 2 ^ 32 ≤ (s.ctx.cur + last) % 2 ^ 32 then
    close cap { s with ctx := { s.ctx with samples := setLast s.ctx.samples last, cur := (s.ctx.cur + last) % 2 ^ 32 } }
  else .ok (s, none)

/-- src/modules/dasher/i2libdash.c:299-350 `generate_video_segment`; `nextPts` is a 32-bit parameter. -/
def generateVideo (cap : Nat) (s : State) (intra : Bool) (nextPts : Nat) : Outcome (State × Option Seg) :=
  match s.ctx.samples.getLast? with
  | none => .ok (s, none)
  | some l => closeIf cap s intra ((nextPts % 2 ^ 32 + 2 ^ 64 - l.pts) % 2 ^ 64 % 2 ^ 32)

/-- src/modules/dasher/i2libdash.c:409-462 `add_video_sample`; the buffers have fixed sizes
(i2context.h:33-34, 64, 75, 92). -/
def addVideo (s : State) (f : Frm) : Outcome (State × Bool) :=
  if f.data.length < 1 then .ok (s, false)
  else if s.ctx.samples.isEmpty ∧ f.intra = false then .ok (s, false)
  else if MAX_DAT < s.ctx.data.length + f.data.length ∨ MAX_MDAT_SAMPLE ≤ s.ctx.samples.length then .ub
  else
    let new : Smp := ⟨f.data.length, 0, f.pts, f.dts, f.intra⟩
    match s.ctx.samples.getLast? with
    | none =>
      .ok ({ s with ctx := { s.ctx with
        data := s.ctx.data ++ f.data, samples := [new], ept := f.pts, seq := s.nseg, cur := 0 } }, true)
    | some l =>
      let d := (f.dts + 2 ^ 64 - l.dts) % 2 ^ 64 % 2 ^ 32
      .ok ({ s with ctx := { s.ctx with
        data := s.ctx.data ++ f.data, samples := setLast s.ctx.samples d ++ [new], cur := (s.ctx.cur + d) % 2 ^ 32 } }, true)

/-- src/modules/dasher/Dasher.cpp:117-129: one frame: maybe close the segment, then append
(DashVideoSegmenter.cpp:118-154). -/
def videoFrame (cap : Nat) (s : State) (f : Frm) : Outcome (State × Option Seg) :=
  (generateVideo cap s f.intra f.pts).bind fun r =>
    (addVideo r.1 f).bind fun q => Outcome.ok (q.1, r.2)

/-- src/modules/dasher/i2libdash.c:352-380 `generate_audio_segment`. -/
def generateAudio (cap : Nat) (s : State) : Outcome (State × Option Seg) :=
  if s.target ≤ s.ctx.cur then close cap s else .ok (s, none)

/-- src/modules/dasher/i2libdash.c:464-506 `add_audio_sample`, called with a 32-bit time stamp for both
times (DashAudioSegmenter.cpp:135-148); `dur` is the duration of a frame. -/
def addAudio (s : State) (f : Frm) (dur : Nat) : Outcome (State × Bool) :=
  if f.data.length < 1 then .ok (s, false)
  else if dur < 1 then .ok (s, false)
  else if MAX_DAT < s.ctx.data.length + f.data.length ∨ MAX_MDAT_SAMPLE ≤ s.ctx.samples.length then .ub
  else
    let t := f.pts % 2 ^ 32
    .ok ({ s with ctx := { s.ctx with
      data := s.ctx.data ++ f.data
      ept := if s.ctx.samples.isEmpty then t else s.ctx.ept
      seq := if s.ctx.samples.isEmpty then s.nseg else s.ctx.seq
      cur := (s.ctx.cur + dur) % 2 ^ 32
      samples := s.ctx.samples ++ [⟨f.data.length, dur, t, t, true⟩] } }, true)

inductive AOp where
  /-- A frame of a stream without video: Dasher.cpp:117-129, 227-231. -/
  | frame (f : Frm) (dur : Nat)
  /-- A frame when there is video too: only appended. -/
  | append (f : Frm) (dur : Nat)
  /-- src/modules/dasher/i2libdash.c:382-407 `force_generate_audio_segment`, when the video segment is
  complete (Dasher.cpp:245-296). -/
  | force

/-- Calls `close` (src/modules/dasher/i2libdash.c:336-347, 368-377, 396-404), `generateAudio`
(src/modules/dasher/i2libdash.c:352-380), `addAudio` (src/modules/dasher/i2libdash.c:464-506). -/
def audioStep (cap : Nat) (s : State) : AOp → Outcome (State × Option Seg)
  | .frame f dur =>
    (generateAudio cap s).bind fun r => (addAudio r.1 f dur).bind fun q => Outcome.ok (q.1, r.2)
  | .append f dur => (addAudio s f dur).bind fun q => Outcome.ok (q.1, none)
  | .force => close cap s

end Lms.Dash
