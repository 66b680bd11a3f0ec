import Verif.Common.Outcome
import Verif.Common.Bytes

/-!
# Model of the NAL-unit handling of the DASH video segmenters
(src/modules/dasher/DashVideoSegmenter.cpp, DashVideoSegmenterAVC.cpp, DashVideoSegmenterHEVC.cpp)

A frame buffer has a fixed size; a frame under assembly is represented by the bytes written so far.  Times are
integers of microseconds; a missing decode time is -1 (Frame.hh:32).
-/

namespace Lms.Nalu

/-- src/modules/dasher/DashVideoSegmenterAVC.hh:49, src/modules/dasher/DashVideoSegmenterHEVC.hh:75. -/
inductive Codec where
  | avc | hevc
  deriving DecidableEq, Repr

/-- A NAL unit as received: a whole buffer, of which `len` bytes are valid (src/VideoFrame.hh:65-87, src/Frame.hh:37-153). -/
structure Nal where
  buf : Bytes
  len : Nat
  pts : Int
  dts : Int
  width : Nat
  height : Nat

/-- src/Frame.cpp:52-59 `getFrameTime`. -/
def frameTime (pts dts : Int) : Int := if dts ≠ -1 ∧ dts ≤ pts then dts else pts

/-- A frame under assembly (src/VideoFrame.hh:65-87, src/Frame.hh:37-153). -/
structure Fr where
  data : Bytes
  pts : Int
  dts : Int
  width : Nat
  height : Nat
  deriving DecidableEq

/-- src/Frame.cpp:52-59. -/
def Fr.time (f : Fr) : Int := frameTime f.pts f.dts

/-- The segmenter: both frames have `max` bytes.
(src/modules/dasher/DashVideoSegmenter.hh:112-113, DashVideoSegmenterAVC.hh:93-97, DashVideoSegmenterHEVC.hh:120-125, Dasher.hh:224.) -/
structure State where
  codec : Codec
  max : Nat
  tmp : Fr
  out : Fr
  cur : Bool
  prev : Bool
  vps : Bytes
  sps : Bytes
  pps : Bytes
  extra : Bytes

/-- src/modules/dasher/DashVideoSegmenter.cpp:181-193 `detectStartCode`: reads three or four bytes. -/
def detectStartCode (b : Bytes) : Outcome Nat :=
  match b with
  | b0 :: b1 :: b2 :: r =>
    if b0.toNat * 2 ^ 16 + b1.toNat * 2 ^ 8 + b2.toNat = 1 then .ok 3
    else
      match r with
      | b3 :: _ =>
        if b0.toNat * 2 ^ 24 + b1.toNat * 2 ^ 16 + b2.toNat * 2 ^ 8 + b3.toNat = 1 then .ok 4 else .ok 0
      | [] => .ub
  | _ => .ub

/-- src/modules/dasher/DashVideoSegmenter.cpp:156-178 `appendNalToFrame`; the check is in unsigned 32-bit
arithmetic, `src` is what is readable from the data pointer on. -/
def appendNal (max : Nat) (f : Fr) (src : Bytes) (n : Nat) (nal : Nal) : Outcome (Fr × Bool) :=
  if max < (f.data.length + n + 4) % 2 ^ 32 then .ok (f, false)
  else if max < f.data.length + 4 + n ∨ src.length < n then .ub
  else .ok (⟨f.data ++ be32 n ++ src.take n, nal.pts, nal.dts, nal.width, nal.height⟩, true)

inductive Kind where
  | aud | vps | sps | pps | sei | key | slice | other
  deriving DecidableEq, Repr

/-- src/modules/dasher/DashVideoSegmenterAVC.cpp:83-110 with DashVideoSegmenterAVC.hh:31-43, and
DashVideoSegmenterHEVC.cpp:85-120 with DashVideoSegmenterHEVC.hh:31, 59-69. -/
def kind (c : Codec) (b : UInt8) : Kind :=
  match c with
  | .avc =>
    match b.toNat % 32 with
    | 1 => .slice
    | 5 => .key
    | 6 => .sei
    | 7 => .sps
    | 8 => .pps
    | 9 => .aud
    | _ => .other
  | .hevc =>
    match b.toNat / 2 % 64 with
    | 0 | 1 => .slice
    | 19 | 20 | 21 => .key
    | 32 => .vps
    | 33 => .sps
    | 34 => .pps
    | 35 => .aud
    | 39 | 40 => .sei
    | _ => .other

/-- DashVideoSegmenterAVC.cpp:87-110, DashVideoSegmenterHEVC.cpp:89-120, 142-158: parameter sets are stored, and the
kind of the newest unit is remembered. -/
def note (s : State) (k : Kind) (d : Bytes) : State :=
  match k with
  | .aud | .other => s
  | .vps => { s with vps := d, cur := false }
  | .sps => { s with sps := d, cur := false }
  | .pps => { s with pps := d, cur := false }
  | .sei | .slice => { s with cur := false }
  | .key => { s with cur := true }

/-- DashVideoSegmenterAVC.cpp:112, DashVideoSegmenterHEVC.cpp:122: does this unit end the frame under assembly? -/
def ends (s : State) (k : Kind) (nal : Nal) : Bool :=
  (k == .aud || decide (s.tmp.time < frameTime nal.pts nal.dts)) &&
    (match s.codec with | .avc => decide (0 < s.tmp.data.length) | .hevc => true)

/-- src/modules/dasher/DashVideoSegmenterAVC.cpp:66-130 and DashVideoSegmenterHEVC.cpp:68-140 `parseNal`.  A unit
shorter than its start code has a huge unsigned length for AVC, a negative one for HEVC. -/
def parseNal (s : State) (nal : Nal) : Outcome (State × Option Fr) :=
  (detectStartCode nal.buf).bind fun off =>
    if nal.len = off ∨ (s.codec = .hevc ∧ nal.len < off) then .ok (s, none)
    else
      let n := (nal.len + 2 ^ 32 - off) % 2 ^ 32
      let src := nal.buf.drop off
      match src with
      | [] => Outcome.ub
      | b :: _ =>
        let k := kind s.codec b
        let s := { s with prev := s.cur }
        if k = .other then Outcome.ok (s, none)
        else if (k = .vps ∨ k = .sps ∨ k = .pps) ∧ src.length < n then Outcome.ub
        else
          let s := note s k (src.take n)
          let e := ends s k nal
          let s := if e then { s with tmp := { s.out with data := [] }, out := s.tmp } else s
          if k = .key ∨ k = .slice then
            (appendNal s.max s.tmp src n nal).bind fun r =>
              Outcome.ok ({ s with tmp := r.1 }, if e then some s.out else none)
          else Outcome.ok (s, if e then some s.out else none)

/-- src/modules/dasher/DashVideoSegmenterAVC.cpp:144-162 `createExtradata`. -/
def avcExtra (sps pps : Bytes) : Outcome Bytes :=
  if sps.length < 3 then .ub
  else
    .ok ([1] ++ sps.take 3 ++ [0xFC + 3] ++ [0xE0 + 1] ++ be16 sps.length ++ sps ++ [1] ++ be16 pps.length ++ pps)

/-- src/modules/dasher/DashVideoSegmenterHEVC.cpp:160-212 `createExtradata`, with DashVideoSegmenterHEVC.hh:32-57. -/
def hevcExtra (vps sps pps : Bytes) : Bytes :=
  [1, 1, 0x60, 0, 0, 0, 0x90, 0, 0, 0, 0, 0, 0x5D, 0xF0, 0, 0xFC, 0xF8 + 1, 0xF8, 0xF8, 0, 0, 0x0F, 3] ++
    ([32] ++ be16 1 ++ be16 vps.length ++ vps) ++
    ([33] ++ be16 1 ++ be16 sps.length ++ sps) ++
    ([34] ++ be16 1 ++ be16 pps.length ++ pps)

/-- src/modules/dasher/DashVideoSegmenterAVC.cpp:44-54, DashVideoSegmenterHEVC.cpp:45-56 `updateExtradata`. -/
def updateExtra (s : State) : Outcome State :=
  match s.codec with
  | .avc =>
    if s.sps = [] ∨ s.pps = [] then .ok s
    else (avcExtra s.sps s.pps).bind fun x => Outcome.ok { s with extra := x, sps := [], pps := [] }
  | .hevc =>
    if s.vps = [] ∨ s.sps = [] ∨ s.pps = [] then .ok s
    else .ok { s with extra := hevcExtra s.vps s.sps s.pps, vps := [], sps := [], pps := [] }

/-- What is handed on: the frame and whether it is reported as intra (DashVideoSegmenter.cpp:125, 146). -/
structure Au where
  data : Bytes
  pts : Int
  dts : Int
  width : Nat
  height : Nat
  intra : Bool
  deriving DecidableEq

/-- src/modules/dasher/DashVideoSegmenter.cpp:40-66 `manageFrame`; the setup of the context (line 60) is taken to
succeed. -/
def manageFrame (s : State) (nal : Nal) : Outcome (State × Option Au) :=
  (parseNal s nal).bind fun r =>
    (updateExtra r.1).bind fun s =>
      Outcome.ok (s, match r.2 with
        | none => none
        | some f => if f.data.length = 0 then none else some ⟨f.data, f.pts, f.dts, f.width, f.height, s.prev⟩)

end Lms.Nalu
