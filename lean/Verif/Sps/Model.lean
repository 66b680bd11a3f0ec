import Verif.BitStream.Model
import Verif.Rbsp.Model

/-!
# Reading a sequence parameter set, and what the sampler makes of it

Simplifications: `int` members that only ever receive flags, fixed-width values or unsigned codes are naturals (the reader
has no defined outcome for codes from 2^31 - 1 on, see `BitStream.readUe`).  The members of `sps_t` that are never read again
after parsing are kept all the same; the flags for default scaling matrices are left out because the code passes them by
value and never sets them.
-/

namespace Lms.Sps

open Lms BitStream

/-- A step of the parser: C code that reads from a `bs_t`. -/
def P (α : Type) : Type := BS → Outcome (α × BS)

instance : Monad P where
  pure a := fun b => .ok (a, b)
  bind p f := fun b => (p b).bind fun r => f r.1 r.2

/-- The reading primitives of bs.h (see `BitStream`) (bs.h:193). -/
def ue : P Nat := readUe
/-- bs.h:207. -/
def se : P Int := readSe
/-- bs.h:158. -/
def u (n : Nat) : P Nat := fun b => readU b n
/-- bs.h:124. -/
def u1 : P Nat := fun b => .ok (readU1 b)
/-- bs.h:180. -/
def u8 : P Nat := fun b => .ok (readU8 b)
/-- Undefined behaviour. -/
def undefined {α : Type} : P α := fun _ => .ub

/-- A 32-bit unsigned value stored into an `int`. -/
def i32 (v : Nat) : Int := if v < 2 ^ 31 then v else (v : Int) - 2 ^ 32

/-- h264_stream.h:124-136 `hrd`. -/
structure Hrd where
  cpbCntMinus1 : Nat := 0
  bitRateScale : Nat := 0
  cpbSizeScale : Nat := 0
  /-- the three arrays, as far as they have been written -/
  entries : List (Nat × Nat × Nat) := []
  initialDelayLen : Nat := 0
  removalDelayLen : Nat := 0
  outputDelayLen : Nat := 0
  timeOffsetLen : Nat := 0
  deriving DecidableEq

/-- h264_stream.h:88-122 `vui`. -/
structure Vui where
  aspectPresent : Nat := 0
  aspectIdc : Nat := 0
  sarWidth : Nat := 0
  sarHeight : Nat := 0
  overscanPresent : Nat := 0
  overscanAppropriate : Nat := 0
  signalPresent : Nat := 0
  videoFormat : Nat := 0
  fullRange : Nat := 0
  colourPresent : Nat := 0
  primaries : Nat := 0
  transfer : Nat := 0
  matrix : Nat := 0
  locPresent : Nat := 0
  locTop : Nat := 0
  locBottom : Nat := 0
  timingPresent : Nat := 0
  unitsInTick : Int := 0
  timeScale : Int := 0
  fixedRate : Nat := 0
  nalHrd : Nat := 0
  vclHrd : Nat := 0
  lowDelay : Nat := 0
  picStruct : Nat := 0
  restriction : Nat := 0
  mvOverBoundaries : Nat := 0
  maxBytesDenom : Nat := 0
  maxBitsDenom : Nat := 0
  mvLenH : Nat := 0
  mvLenV : Nat := 0
  reorder : Nat := 0
  maxDec : Nat := 0
  deriving DecidableEq

/-- h264_stream.h:55-61: the members read for the high profiles. -/
structure High where
  chroma : Nat := 1
  residual : Nat := 0
  depthLuma : Nat := 0
  depthChroma : Nat := 0
  bypass : Nat := 0
  scaling : Nat := 0
  lists : List Nat := []
  deriving DecidableEq

/-- h264_stream.h:67-73. -/
structure PocInfo where
  type : Nat := 0
  lsb : Nat := 0
  alwaysZero : Nat := 0
  nonRef : Int := 0
  topBottom : Int := 0
  cycle : Nat := 0
  offsets : List Int := []
  deriving DecidableEq

/-- h264_stream.h:82-85. -/
structure CropInfo where
  left : Nat := 0
  right : Nat := 0
  top : Nat := 0
  bottom : Nat := 0
  deriving DecidableEq

/-- h264_stream.h:43-138 `sps_t`. -/
structure Sps where
  profile : Nat
  constraints : List Nat
  reserved : Nat
  level : Nat
  id : Nat
  high : High
  frameNum : Nat
  poc : PocInfo
  refFrames : Nat
  gaps : Nat
  mbsMinus1 : Nat
  unitsMinus1 : Nat
  frameMbsOnly : Nat
  mbAdaptive : Nat
  direct8x8 : Nat
  cropping : Nat
  crop : CropInfo
  vuiPresent : Nat
  vui : Vui
  hrd : Hrd
  deriving DecidableEq

/-- h264_stream.c:303-308: the loop over the buffers; the arrays have 32 elements (h264_stream.h:129-131).  `n` more are to
be read into position `i`. -/
def hrdLoop : Nat → Nat → P (List (Nat × Nat × Nat))
  | 0, _ => pure []
  | n + 1, i => if 32 ≤ i then undefined else do
    let a ← ue
    let b ← ue
    let c ← u1
    let l ← hrdLoop n (i + 1)
    pure ((a, b, c) :: l)

/-- h264_stream.c:296-313 `read_hrd_parameters` on what an earlier call left. -/
def readHrd (old : Hrd) : P Hrd := do
  let n ← ue
  let rs ← u 4
  let ss ← u 4
  let l ← hrdLoop (n + 1) 0
  let a ← u 5
  let b ← u 5
  let c ← u 5
  let d ← u 5
  pure ⟨n, rs, ss, l ++ old.entries.drop l.length, a, b, c, d⟩

/-- h264_stream.c:225-234. -/
def readAspect (v : Vui) : P Vui := do
  let f ← u1
  if f = 1 then do
    let i ← u8
    if i = 255 then do
      let w ← u 16
      let h ← u 16
      pure { v with aspectPresent := f, aspectIdc := i, sarWidth := w, sarHeight := h }
    else pure { v with aspectPresent := f, aspectIdc := i }
  else pure { v with aspectPresent := f }

/-- h264_stream.c:235-239. -/
def readOverscan (v : Vui) : P Vui := do
  let f ← u1
  if f = 1 then do
    let a ← u1
    pure { v with overscanPresent := f, overscanAppropriate := a }
  else pure { v with overscanPresent := f }

/-- h264_stream.c:240-252. -/
def readSignal (v : Vui) : P Vui := do
  let f ← u1
  if f = 1 then do
    let vf ← u 3
    let fr ← u1
    let cp ← u1
    if cp = 1 then do
      let a ← u8
      let b ← u8
      let c ← u8
      pure { v with signalPresent := f, videoFormat := vf, fullRange := fr, colourPresent := cp,
                    primaries := a, transfer := b, matrix := c }
    else pure { v with signalPresent := f, videoFormat := vf, fullRange := fr, colourPresent := cp }
  else pure { v with signalPresent := f }

/-- h264_stream.c:253-258. -/
def readLoc (v : Vui) : P Vui := do
  let f ← u1
  if f = 1 then do
    let a ← ue
    let b ← ue
    pure { v with locPresent := f, locTop := a, locBottom := b }
  else pure { v with locPresent := f }

/-- h264_stream.c:259-265. -/
def readTiming (v : Vui) : P Vui := do
  let f ← u1
  if f = 1 then do
    let a ← u 32
    let b ← u 32
    let c ← u1
    pure { v with timingPresent := f, unitsInTick := i32 a, timeScale := i32 b, fixedRate := c }
  else pure { v with timingPresent := f }

/-- h264_stream.c:266-270 and 271-275: a present flag and, if set, one more HRD into the same place. -/
def readHrdIf (h : Hrd) : P (Nat × Hrd) := do
  let f ← u1
  if f = 1 then do
    let h' ← readHrd h
    pure (f, h')
  else pure (f, h)

/-- h264_stream.c:266-280. -/
def readHrds (v : Vui) (h : Hrd) : P (Vui × Hrd) := do
  let n ← readHrdIf h
  let c ← readHrdIf n.2
  let low ← (if n.1 = 1 ∨ c.1 = 1 then u1 else pure 0)
  let ps ← u1
  pure ({ v with nalHrd := n.1, vclHrd := c.1, lowDelay := low, picStruct := ps }, c.2)

/-- h264_stream.c:281-291. -/
def readRestriction (v : Vui) : P Vui := do
  let f ← u1
  if f = 1 then do
    let m ← u1
    let a ← ue
    let b ← ue
    let c ← ue
    let d ← ue
    let e ← ue
    let g ← ue
    pure { v with restriction := f, mvOverBoundaries := m, maxBytesDenom := a, maxBitsDenom := b, mvLenH := c, mvLenV := d,
                  reorder := e, maxDec := g }
  else pure { v with restriction := f }

/-- h264_stream.c:222-292 `read_vui_parameters` after the structure was cleared (104). -/
def readVui : P (Vui × Hrd) := do
  let v ← readAspect {}
  let v ← readOverscan v
  let v ← readSignal v
  let v ← readLoc v
  let v ← readTiming v
  let r ← readHrds v {}
  let v ← readRestriction r.1
  pure (v, r.2)

/-- h264_stream.c:132-148: the loop over the eight scaling lists.  The list pointers were cleared (104), so that
`read_scaling_list` (201-204) returns without reading anything: only the flags are read. -/
def listFlags : Nat → P (List Nat)
  | 0 => pure []
  | n + 1 => do
    let f ← u1
    let l ← listFlags n
    pure (f :: l)

/-- h264_stream.c:121-149. -/
def readHigh : P High := do
  let c ← ue
  let r ← (if c = 3 then u1 else pure 0)
  let dl ← ue
  let dc ← ue
  let b ← u1
  let s ← u1
  let l ← (if s = 1 then listFlags 8 else pure [])
  pure ⟨c, r, dl, dc, b, s, l⟩

/-- h264_stream.c:163-166: the array has 256 elements (h264_stream.h:73). -/
def offsetLoop : Nat → Nat → P (List Int)
  | 0, _ => pure []
  | n + 1, i => if 256 ≤ i then undefined else do
    let o ← se
    let l ← offsetLoop n (i + 1)
    pure (o :: l)

/-- h264_stream.c:152-167. -/
def readPoc : P PocInfo := do
  let t ← ue
  if t = 0 then do
    let l ← ue
    pure { type := t, lsb := l }
  else if t = 1 then do
    let z ← u1
    let n ← se
    let tb ← se
    let c ← ue
    let o ← offsetLoop c 0
    pure { type := t, alwaysZero := z, nonRef := n, topBottom := tb, cycle := c, offsets := o }
  else pure { type := t }

/-- h264_stream.c:179-185. -/
def readCrop : P CropInfo := do
  let l ← ue
  let r ← ue
  let t ← ue
  let b ← ue
  pure ⟨l, r, t, b⟩

/-- h264_stream.c:100-194 `read_seq_parameter_set_rbsp`; the trailing bits (191, 315-326) change nothing that is used. -/
def readSps : P Sps := do
  let profile ← u8
  let c0 ← u1
  let c1 ← u1
  let c2 ← u1
  let c3 ← u1
  let c4 ← u1
  let c5 ← u1
  let res ← u 2
  let level ← u8
  let id ← ue
  let high ← (if profile = 100 ∨ profile = 110 ∨ profile = 122 ∨ profile = 144 then readHigh else pure {})
  let fnum ← ue
  let poc ← readPoc
  let refs ← ue
  let gaps ← u1
  let w ← ue
  let h ← ue
  let only ← u1
  let mb ← (if only = 0 then u1 else pure 0)
  let d8 ← u1
  let cf ← u1
  let crop ← (if cf = 1 then readCrop else pure {})
  let vf ← u1
  let vh ← (if vf = 1 then readVui else pure ({}, {}))
  pure ⟨profile, [c0, c1, c2, c3, c4, c5], res, level, id, high, fnum, poc, refs, gaps, w, h, only, mb, d8, cf, crop, vf,
    vh.1, vh.2⟩

/-- src/modules/transmitter/H264VideoStreamSampler.hh:63-65: width, height and frame rate (`none`: never set; the constructor
does not initialise it). -/
structure Info where
  width : Nat
  height : Nat
  rate : Option Int
  deriving DecidableEq

def INT_MAX : Int := 2 ^ 31 - 1

/-- src/modules/transmitter/H264VideoStreamSampler.cpp:146-168: what is taken from the parsed set.  The products are `int`
arithmetic, undefined on overflow; the subtraction of the cropping is modulo 2^32. -/
def dims (s : Sps) (st : Info) : Outcome Info :=
  let w : Int := ((s.mbsMinus1 : Int) + 1) * 16
  let h : Int := (2 - (s.frameMbsOnly : Int)) * ((s.unitsMinus1 : Int) + 1) * 16
  let cw : Int := (s.crop.left : Int) * 2 + s.crop.right * 2
  let ch : Int := (s.crop.top : Int) * 2 + s.crop.bottom * 2
  if INT_MAX < w ∨ INT_MAX < h then .ub
  else if s.cropping = 1 ∧ (INT_MAX < cw ∨ INT_MAX < ch) then .ub
  else if 0 < s.vui.unitsInTick ∧ INT_MAX < 2 * s.vui.unitsInTick then .ub
  else
    let w' : Nat := if s.cropping = 1 then ((w - cw) % 2 ^ 32).toNat else w.toNat
    let h' : Nat := if s.cropping = 1 then ((h - ch) % 2 ^ 32).toNat else h.toNat
    .ok ⟨if 0 < w' then w' else st.width, if 0 < h' then h' else st.height,
      if 0 < s.vui.unitsInTick then some (s.vui.timeScale.tdiv (2 * s.vui.unitsInTick)) else st.rate⟩

/-- H264VideoStreamSampler.cpp:121-173 `updateSPSInfo` (both size pointers are the same variable; the buffer is as long as the
unit). -/
def update (st : Info) (nal : Bytes) : Outcome Info :=
  match Rbsp.nalToRbsp nal nal.length with
  | none => .ok st
  | some (rbsp, _) => (readSps (init rbsp)).bind fun r => dims r.1 st

end Lms.Sps
