import Verif.BitStream.Props

/-!
# Sequence parameter sets as the standard writes them (H.264 7.3.2.1.1, E.1.1, E.1.2)
-/

namespace Lms.Sps

open Lms BitStream

/-- Bounds of the values a reader can represent. -/
def UeOk (v : Nat) : Prop := v + 1 < 2 ^ 31
def SeOk (v : Int) : Prop := seIndex v + 1 < 2 ^ 31

structure HrdSyn where
  bitRateScale : Nat
  cpbSizeScale : Nat
  cpbs : List (Nat × Nat × Bool)
  initialDelayLen : Nat
  removalDelayLen : Nat
  outputDelayLen : Nat
  timeOffsetLen : Nat

def HrdSyn.enc (h : HrdSyn) : List Bool :=
  ueBits (h.cpbs.length - 1) ++ (bitsN 4 h.bitRateScale ++ (bitsN 4 h.cpbSizeScale ++
    (h.cpbs.flatMap (fun c => ueBits c.1 ++ (ueBits c.2.1 ++ [c.2.2])) ++
      (bitsN 5 h.initialDelayLen ++ (bitsN 5 h.removalDelayLen ++ (bitsN 5 h.outputDelayLen ++ bitsN 5 h.timeOffsetLen))))))

structure HrdSyn.Legal (h : HrdSyn) : Prop where
  count : 1 ≤ h.cpbs.length ∧ h.cpbs.length ≤ 32
  scales : h.bitRateScale < 16 ∧ h.cpbSizeScale < 16
  lens : h.initialDelayLen < 32 ∧ h.removalDelayLen < 32 ∧ h.outputDelayLen < 32 ∧ h.timeOffsetLen < 32
  cpbs : ∀ c ∈ h.cpbs, UeOk c.1 ∧ UeOk c.2.1

structure RestrictionSyn where
  mvOver : Bool
  maxBytes : Nat
  maxBits : Nat
  mvH : Nat
  mvV : Nat
  reorder : Nat
  maxDec : Nat

structure VuiSyn where
  /-- the identifier and, for 255, the ratio -/
  aspect : Option (Nat × Nat × Nat)
  overscan : Option Bool
  /-- format, range, colour description -/
  signal : Option (Nat × Bool × Option (Nat × Nat × Nat))
  loc : Option (Nat × Nat)
  /-- units in a tick, time scale, fixed rate -/
  timing : Option (Nat × Nat × Bool)
  nalHrd : Option HrdSyn
  vclHrd : Option HrdSyn
  lowDelay : Bool
  picStruct : Bool
  restriction : Option RestrictionSyn

def optBits {α : Type} (o : Option α) (f : α → List Bool) : List Bool :=
  match o with
  | none => [false]
  | some a => true :: f a

def VuiSyn.enc (v : VuiSyn) : List Bool :=
  optBits v.aspect (fun a => bitsN 8 a.1 ++ if a.1 = 255 then bitsN 16 a.2.1 ++ bitsN 16 a.2.2 else []) ++
  (optBits v.overscan (fun b => [b]) ++
  (optBits v.signal (fun s => bitsN 3 s.1 ++ (s.2.1 :: optBits s.2.2 (fun c => bitsN 8 c.1 ++ (bitsN 8 c.2.1 ++ bitsN 8 c.2.2)))) ++
  (optBits v.loc (fun l => ueBits l.1 ++ ueBits l.2) ++
  (optBits v.timing (fun t => bitsN 32 t.1 ++ (bitsN 32 t.2.1 ++ [t.2.2])) ++
  ((optBits v.nalHrd HrdSyn.enc ++ (optBits v.vclHrd HrdSyn.enc ++
    ((if v.nalHrd.isSome ∨ v.vclHrd.isSome then [v.lowDelay] else []) ++ [v.picStruct]))) ++
  optBits v.restriction (fun r => r.mvOver :: (ueBits r.maxBytes ++ (ueBits r.maxBits ++ (ueBits r.mvH ++ (ueBits r.mvV ++
    (ueBits r.reorder ++ ueBits r.maxDec))))))))))) 

structure VuiSyn.Legal (v : VuiSyn) : Prop where
  aspect : ∀ a, v.aspect = some a → a.1 < 256 ∧ a.2.1 < 2 ^ 16 ∧ a.2.2 < 2 ^ 16
  signal : ∀ s, v.signal = some s → s.1 < 8 ∧ ∀ c, s.2.2 = some c → c.1 < 256 ∧ c.2.1 < 256 ∧ c.2.2 < 256
  loc : ∀ l, v.loc = some l → UeOk l.1 ∧ UeOk l.2
  timing : ∀ t, v.timing = some t → t.1 < 2 ^ 32 ∧ t.2.1 < 2 ^ 32
  nalHrd : ∀ h, v.nalHrd = some h → h.Legal
  vclHrd : ∀ h, v.vclHrd = some h → h.Legal
  restriction : ∀ r, v.restriction = some r → UeOk r.maxBytes ∧ UeOk r.maxBits ∧ UeOk r.mvH ∧ UeOk r.mvV ∧ UeOk r.reorder ∧
    UeOk r.maxDec

/-- Extension for the high profiles: each scaling list is absent or a list of scale differences. -/
structure HighSyn where
  chroma : Nat
  separate : Bool
  depthLuma : Nat
  depthChroma : Nat
  bypass : Bool
  scaling : Option (List (Option (List Int)))

def listBits (l : Option (List Int)) : List Bool := optBits l (fun d => d.flatMap fun x => ueBits (seIndex x))

def HighSyn.enc (h : HighSyn) : List Bool :=
  ueBits h.chroma ++ ((if h.chroma = 3 then [h.separate] else []) ++ (ueBits h.depthLuma ++ (ueBits h.depthChroma ++
    ([h.bypass] ++ optBits h.scaling (fun l => l.flatMap listBits)))))

structure HighSyn.Legal (h : HighSyn) : Prop where
  chroma : h.chroma ≤ 3
  depths : UeOk h.depthLuma ∧ UeOk h.depthChroma
  lists : ∀ l, h.scaling = some l → l.length = if h.chroma = 3 then 12 else 8

inductive PocSyn where
  | t0 (lsb : Nat)
  | t1 (alwaysZero : Bool) (nonRef topBottom : Int) (offsets : List Int)
  | t2

def PocSyn.enc : PocSyn → List Bool
  | .t0 l => ueBits 0 ++ ueBits l
  | .t1 z n t o => ueBits 1 ++ ([z] ++ (ueBits (seIndex n) ++ (ueBits (seIndex t) ++ (ueBits o.length ++
      o.flatMap fun x => ueBits (seIndex x)))))
  | .t2 => ueBits 2

def PocSyn.Legal : PocSyn → Prop
  | .t0 l => UeOk l
  | .t1 _ n t o => SeOk n ∧ SeOk t ∧ o.length ≤ 255 ∧ ∀ x ∈ o, SeOk x
  | .t2 => True

structure SpsSyn where
  profile : Nat
  constraints : List Bool
  level : Nat
  id : Nat
  high : Option HighSyn
  frameNum : Nat
  poc : PocSyn
  refFrames : Nat
  gaps : Bool
  widthMbs : Nat
  heightUnits : Nat
  frameMbsOnly : Bool
  mbAdaptive : Bool
  direct8x8 : Bool
  /-- left, right, top, bottom -/
  crop : Option (Nat × Nat × Nat × Nat)
  vui : Option VuiSyn

/-- The profiles whose sets carry the extension (7.3.2.1.1). -/
def highProfiles : List Nat := [100, 110, 122, 244, 44, 83, 86, 118, 128, 138, 139, 134, 135]

def SpsSyn.enc (s : SpsSyn) : List Bool :=
  bitsN 8 s.profile ++ (s.constraints ++ (bitsN 2 0 ++ (bitsN 8 s.level ++ (ueBits s.id ++
  ((match s.high with | none => [] | some h => h.enc) ++
  (ueBits s.frameNum ++ (s.poc.enc ++ (ueBits s.refFrames ++ ([s.gaps] ++
  (ueBits (s.widthMbs - 1) ++ (ueBits (s.heightUnits - 1) ++ ([s.frameMbsOnly] ++
  ((if s.frameMbsOnly then [] else [s.mbAdaptive]) ++ ([s.direct8x8] ++
  (optBits s.crop (fun c => ueBits c.1 ++ (ueBits c.2.1 ++ (ueBits c.2.2.1 ++ ueBits c.2.2.2))) ++
  optBits s.vui VuiSyn.enc)))))))))))))))

structure SpsSyn.Legal (s : SpsSyn) : Prop where
  profile : s.profile < 256
  level : s.level < 256
  constraints : s.constraints.length = 6
  high : s.high.isSome = true ↔ s.profile ∈ highProfiles
  highLegal : ∀ h, s.high = some h → h.Legal
  codes : UeOk s.id ∧ UeOk s.frameNum ∧ UeOk s.refFrames
  poc : s.poc.Legal
  size : 1 ≤ s.widthMbs ∧ s.widthMbs ≤ 2 ^ 16 ∧ 1 ≤ s.heightUnits ∧ s.heightUnits ≤ 2 ^ 16
  vui : ∀ v, s.vui = some v → v.Legal
  /-- cropping leaves something (7.4.2.1.1), whatever the crop unit -/
  crop : ∀ c, s.crop = some c → c.1 + c.2.1 < 16 * s.widthMbs ∧ c.2.2.1 + c.2.2.2 < 32 * s.heightUnits

/-! ### Dimensions (equations 7-19 to 7-22) -/

def SpsSyn.chroma (s : SpsSyn) : Nat := match s.high with | none => 1 | some h => if h.chroma = 3 ∧ h.separate then 0 else h.chroma

def SpsSyn.fields (s : SpsSyn) : Nat := if s.frameMbsOnly then 1 else 2

def SpsSyn.cropUnitX (s : SpsSyn) : Nat := match s.chroma with | 1 => 2 | 2 => 2 | _ => 1
def SpsSyn.cropUnitY (s : SpsSyn) : Nat := (match s.chroma with | 1 => 2 | _ => 1) * s.fields

def SpsSyn.cropX (s : SpsSyn) : Nat := match s.crop with | none => 0 | some c => c.1 + c.2.1
def SpsSyn.cropY (s : SpsSyn) : Nat := match s.crop with | none => 0 | some c => c.2.2.1 + c.2.2.2

/-- The picture as displayed. -/
def SpsSyn.width (s : SpsSyn) : Int := 16 * s.widthMbs - s.cropUnitX * s.cropX
def SpsSyn.height (s : SpsSyn) : Int := 16 * (s.fields * s.heightUnits) - s.cropUnitY * s.cropY

end Lms.Sps
