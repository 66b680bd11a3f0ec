import Verif.Resampler.Model

/-!
# C70: what the video resampler delivers
-/

namespace Lms.Resampler
open Lms.FrameAlloc

/-! ## The specification: a configuration, and pictures converted to it -/

/-- What has been asked for: size (0: that of the frame), format, frame time in microseconds. -/
structure Cfg where
  w : Int
  h : Int
  pix : Pix
  time : Int
  deriving DecidableEq, Repr

/-- The size of the picture made from a frame. -/
def Cfg.size (c : Cfg) (f : In) : Int × Int :=
  (if c.w = 0 then f.w else c.w, if c.h = 0 then f.h else c.h)

/-- A picture that can be converted. -/
def Cfg.Valid (c : Cfg) (f : In) : Prop :=
  f.pix ≠ .none ∧ c.pix ≠ .none ∧ 0 < f.w ∧ 0 < f.h ∧ 0 < (c.size f).1 ∧ 0 < (c.size f).2

instance (c : Cfg) (f : In) : Decidable (c.Valid f) := by unfold Cfg.Valid; infer_instance

/-- Both frames have the room their pictures take. -/
def Cfg.Room (c : Cfg) (f : In) (cap : Nat) : Prop :=
  imageSize (libav f.pix) f.w.toNat f.h.toNat ≤ f.cap ∧
  imageSize (libav c.pix) (c.size f).1.toNat (c.size f).2.toNat ≤ cap

/-- The picture wanted: the size and format asked for, all times those of the frame. -/
def Cfg.convert (c : Cfg) (f : In) : Out :=
  { w := (c.size f).1, h := (c.size f).2, pix := c.pix
    len := imageSize (libav c.pix) (c.size f).1.toNat (c.size f).2.toNat
    pts := f.pts, dts := f.dts, org := f.org, seq := f.seq }

/-- The format numbers a configuration may name. -/
def formatNumber (n : Int) : Option Pix :=
  if n = -1 then some .none
  else if n = 0 then some .rgb24 else if n = 1 then some .rgb32 else if n = 2 then some .yuv420p
  else if n = 3 then some .yuv422p else if n = 4 then some .yuv444p else if n = 5 then some .yuyv422
  else none

/-- A configuration event: every parameter given replaces the old one, the others stay. -/
def Cfg.update (c : Cfg) (p : Params) (pix : Pix) : Cfg :=
  { w := p.w.getD c.w, h := p.h.getD c.h, pix := pix
    time := match p.fps with
      | none => c.time
      | some f => if f ≤ 0 then 0 else 1000000 / f }

def Cfg.config (c : Cfg) (p : Option Params) : Cfg × Bool :=
  match p with
  | none => (c, false)
  | some p =>
    match p.pix with
    | none => (c.update p c.pix, decide (c.pix ≠ .none))
    | some n =>
      match formatNumber n with
      | none => (c, false)
      | some q => (c.update p q, decide (q ≠ .none))

/-- All library calls succeed. -/
def Ans.Good (a : Ans) : Prop := a.sws = true ∧ a.fillIn = true ∧ a.fillOut = true ∧ 0 < a.lines

/-- A result allowed by the specification: the picture wanted or none; it is there if it can be converted and
the libraries do their work. -/
def Allowed (c : Cfg) : Op → Res → Prop
  | .config p, r => r = .config (c.config p).2
  | .frame f _ a, r =>
    (r = .frame none ∧ ¬ (c.Valid f ∧ a.Good)) ∨ (r = .frame (some (c.convert f)) ∧ c.Valid f)

def Cfg.next (c : Cfg) : Op → Cfg
  | .config p => (c.config p).1
  | .frame _ _ _ => c

/-- The configuration in force after a history. -/
def Cfg.after (c : Cfg) (ops : List Op) : Cfg := ops.foldl Cfg.next c

/-- Every result of a history is allowed. -/
def AllAllowed : Cfg → List Op → List Res → Prop
  | _, [], [] => True
  | c, op :: ops, r :: rs => Allowed c op r ∧ AllAllowed (c.next op) ops rs
  | _, _, _ => False

/-- Frames that fit their buffers, and a library that lays out every source it made a context for. -/
def Fine (c : Cfg) : Op → Prop
  | .config _ => True
  | .frame f cap a => c.Room f cap ∧ (a.sws = true → a.fillIn = true)

def AllFine : Cfg → List Op → Prop
  | _, [] => True
  | c, op :: ops => Fine c op ∧ AllFine (c.next op) ops

/-! ## The invariant -/

/-- Frame times that come from a whole number of frames per second. -/
def Rate (t : Int) : Prop := t = 0 ∨ ∃ f : Int, 0 < f ∧ t = 1000000 / f

/-- The state agrees with the configuration, and a context that is not to be replaced was made for the last
frame and this configuration. -/
structure Inv (s : State) (c : Cfg) : Prop where
  w : s.outW = c.w
  h : s.outH = c.h
  pix : s.outPix = c.pix
  lib : s.libOut = libav c.pix
  time : s.time = c.time
  rate : Rate c.time
  ctx : ∀ k, s.ctx = some k → s.libIn = libav s.inPix ∧ (s.needs = false → s.inPix ≠ .none →
    k = { inW := s.inW, inH := s.inH, inP := libav s.inPix
          outW := if c.w = 0 then s.inW else c.w, outH := if c.h = 0 then s.inH else c.h, outP := libav c.pix })

theorem libav_none {p : Pix} : libav p = .none ↔ p = .none := by cases p <;> simp [libav]

theorem target_eq {s : State} {c : Cfg} (hw : s.outW = c.w) (hh : s.outH = c.h) (f : In) :
    s.target f = c.size f := by
  unfold State.target Cfg.size; rw [hw, hh]

theorem swsMade_iff {a : Bool} {k : Ctx} : swsMade a k = true ↔ a = true ∧ k.inP ≠ .none ∧ k.outP ≠ .none ∧
    0 < k.inW ∧ 0 < k.inH ∧ 0 < k.outW ∧ 0 < k.outH := by
  unfold swsMade; simp [and_assoc]

theorem filled_iff {a : Bool} {p : AV} {w h : Int} :
    filled a p w h = true ↔ a = true ∧ p ≠ .none ∧ 0 < w ∧ 0 < h := by
  unfold filled; simp [and_assoc]

/-- Scaling in a state whose context is the right one. -/
theorem scale_spec {s : State} {c : Cfg} {f : In} {cap : Nat} {a : Ans}
    (hw : s.outW = c.w) (hh : s.outH = c.h) (hp : s.outPix = c.pix) (hl : s.libOut = libav c.pix)
    (hi : s.libIn = libav f.pix)
    (hc : s.ctx = some { inW := f.w, inH := f.h, inP := libav f.pix
                         outW := (c.size f).1, outH := (c.size f).2, outP := libav c.pix }) :
    s.scale f cap a =
      if imageSize (libav f.pix) f.w.toNat f.h.toNat > f.cap ∨
         imageSize (libav c.pix) (c.size f).1.toNat (c.size f).2.toNat > cap then .ub
      else if a.lines ≤ 0 then .ok (s, none)
      else .ok (s, some (c.convert f)) := by
  unfold State.scale
  rw [target_eq hw hh, hi, hl, hc]
  simp only [if_true, hp]
  rfl

/-- The state after a context was made for a frame and the frame laid out. -/
def made (s : State) (f : In) (k : Ctx) : State :=
  { s with inPix := f.pix, libIn := libav f.pix, ctx := some k, needs := false, inW := f.w, inH := f.h }

/-- One frame: either nothing is delivered, or both pictures can be laid out and are scaled in a state that
agrees with the configuration. -/
theorem process_spec {s : State} {c : Cfg} (hinv : Inv s c) (f : In) (cap : Nat) (a : Ans)
    (hfill : a.sws = true → a.fillIn = true) :
    (∃ s', Inv s' c ∧ s.process f cap a = .ok (s', none) ∧ ¬ (c.Valid f ∧ a.Good)) ∨
    (∃ s', Inv s' c ∧ c.Valid f ∧ s.process f cap a =
      if imageSize (libav f.pix) f.w.toNat f.h.toNat > f.cap ∨
         imageSize (libav c.pix) (c.size f).1.toNat (c.size f).2.toNat > cap then .ub
      else if a.lines ≤ 0 then .ok (s', none)
      else .ok (s', some (c.convert f))) := by
  obtain ⟨hw, hh, hp, hl, ht, hrt, hctx⟩ := hinv
  unfold State.process
  by_cases hre : s.ctx = none ∨ s.needs = true ∨ f.w ≠ s.inW ∨ f.h ≠ s.inH ∨ f.pix ≠ s.inPix
  · unfold State.reconfigure
    rw [if_pos hre]
    simp only
    by_cases hn : libav f.pix = .none
    · rw [if_pos hn]
      simp only [if_true]
      refine Or.inl ⟨{ s with inPix := f.pix, libIn := libav f.pix },
        ⟨hw, hh, hp, hl, ht, hrt, fun k hk => ⟨rfl, fun _ h => absurd (libav_none.1 hn) h⟩⟩, rfl, ?_⟩
      exact fun h => h.1.1 (libav_none.1 hn)
    · rw [if_neg hn]
      have htg : ({ s with inPix := f.pix, libIn := libav f.pix } : State).target f = c.size f :=
        target_eq (by exact hw) (by exact hh) f
      rw [htg]
      have htg2 : ∀ t : State, t.outW = c.w → t.outH = c.h → t.target f = c.size f :=
        fun t h1 h2 => target_eq h1 h2 f
      obtain ⟨k, hk⟩ : ∃ k : Ctx, k = { inW := f.w, inH := f.h, inP := libav f.pix
                                        outW := (c.size f).1, outH := (c.size f).2, outP := s.libOut } := ⟨_, rfl⟩
      rw [← hk]
      by_cases hm : swsMade a.sws k = true
      · rw [if_pos hm]
        have hm' := swsMade_iff.1 hm
        rw [hk] at hm'
        obtain ⟨h1, h2, h3, h4, h5, h6, h7⟩ := hm'
        simp only at h2 h3 h4 h5 h6 h7
        simp only [Bool.true_eq_false, if_false]
        have hf1 : filled a.fillIn (libav f.pix) f.w f.h = true := filled_iff.2 ⟨hfill h1, h2, h4, h5⟩
        rw [hf1]
        simp only [Bool.true_eq_false, if_false]
        rw [htg2 _ (by exact hw) (by exact hh)]
        have hinv' : Inv (made s f k) c := by
          refine ⟨hw, hh, hp, hl, ht, hrt, fun k' hk' => ⟨rfl, fun _ _ => ?_⟩⟩
          have : k = k' := Option.some.inj hk'
          rw [← this, hk, hl]; rfl
        have hvalid : c.Valid f := ⟨fun e => h2 (libav_none.2 e), fun e => h3 (by rw [hl]; exact libav_none.2 e), h4, h5, h6, h7⟩
        by_cases hfo : filled a.fillOut s.libOut (c.size f).1 (c.size f).2 = true
        · rw [hfo]
          simp only [Bool.true_eq_false, if_false]
          refine Or.inr ⟨made s f k, hinv', hvalid, ?_⟩
          exact scale_spec (s := made s f k) hw hh hp hl rfl (by rw [← hl, ← hk]; rfl)
        · rw [if_pos (by simpa using hfo)]
          refine Or.inl ⟨made s f k, hinv', rfl, ?_⟩
          rintro ⟨_, hg⟩
          exact hfo (filled_iff.2 ⟨hg.2.2.1, h3, h6, h7⟩)
      · rw [if_neg hm]
        simp only [if_true]
        refine Or.inl ⟨{ s with inPix := f.pix, libIn := libav f.pix, ctx := none },
          ⟨hw, hh, hp, hl, ht, hrt, fun k' hk' => by cases hk'⟩, rfl, ?_⟩
        rintro ⟨hv, hg⟩
        apply hm
        rw [swsMade_iff, hk]
        exact ⟨hg.1, hn, by show s.libOut ≠ .none; rw [hl]; exact fun e => hv.2.1 (libav_none.1 e), hv.2.2⟩
  · have hrec : s.reconfigure f a = (s, true) := by unfold State.reconfigure; rw [if_neg hre]
    rw [hrec]
    simp only [Bool.true_eq_false, if_false]
    simp only [not_or, Decidable.not_not] at hre
    obtain ⟨hc, hnd, hfw, hfh, hfp⟩ := hre
    obtain ⟨k, hk⟩ : ∃ k, s.ctx = some k := by
      cases h : s.ctx with
      | none => exact absurd h hc
      | some k => exact ⟨k, rfl⟩
    obtain ⟨hli, hmatch⟩ := hctx k hk
    have hnd' : s.needs = false := by simpa using hnd
    by_cases hfi : filled a.fillIn s.libIn f.w f.h = true
    · rw [hfi]
      simp only [Bool.true_eq_false, if_false]
      obtain ⟨g1, g2, g3, g4⟩ := filled_iff.1 hfi
      have hpn : s.inPix ≠ .none := fun e => g2 (by rw [hli]; exact libav_none.2 e)
      have hmt := hmatch hnd' hpn
      have hs' : ({ s with inW := f.w, inH := f.h } : State) = s := by rw [hfw, hfh]
      rw [hs', target_eq hw hh]
      by_cases hfo : filled a.fillOut s.libOut (c.size f).1 (c.size f).2 = true
      · rw [hfo]
        simp only [Bool.true_eq_false, if_false]
        obtain ⟨o1, o2, o3, o4⟩ := filled_iff.1 hfo
        refine Or.inr ⟨s, ⟨hw, hh, hp, hl, ht, hrt, hctx⟩,
          ⟨by rw [hfp]; exact hpn, fun e => o2 (by rw [hl]; exact libav_none.2 e), g3, g4, o3, o4⟩, ?_⟩
        refine scale_spec hw hh hp hl (by rw [hli, hfp]) ?_
        rw [hk, hmt]
        unfold Cfg.size
        rw [hfw, hfh, hfp]
      · rw [if_pos (by simpa using hfo)]
        refine Or.inl ⟨s, ⟨hw, hh, hp, hl, ht, hrt, hctx⟩, rfl, ?_⟩
        rintro ⟨hv, hg⟩
        exact hfo (filled_iff.2 ⟨hg.2.2.1, by rw [hl]; exact fun e => hv.2.1 (libav_none.1 e), hv.2.2.2.2⟩)
    · rw [if_pos (by simpa using hfi)]
      refine Or.inl ⟨s, ⟨hw, hh, hp, hl, ht, hrt, hctx⟩, rfl, ?_⟩
      rintro ⟨hv, hg⟩
      exact hfi (filled_iff.2 ⟨hg.2.1, by rw [hli, ← hfp]; exact fun e => hv.1 (libav_none.1 e), hv.2.2.1, hv.2.2.2.1⟩)

/-! ## Configuration -/

/-- A frame time made from a rate gives the same frame time when the rate is read back from it. -/
theorem rate_back {t : Int} (h : Rate t) :
    (if (if t > 0 then 1000000 / t else 0) ≤ 0 then 0 else 1000000 / (if t > 0 then 1000000 / t else (0 : Int))) = t := by
  rcases h with rfl | ⟨f, hf, rfl⟩
  · simp
  · obtain ⟨t, ht⟩ : ∃ t : Int, t = 1000000 / f := ⟨_, rfl⟩
    rw [← ht]
    have h0 : 0 ≤ t := by rw [ht]; exact Int.ediv_nonneg (by omega) (by omega)
    by_cases hp : t > 0
    · rw [if_pos hp]
      obtain ⟨g, hg⟩ : ∃ g : Int, g = 1000000 / t := ⟨_, rfl⟩
      rw [← hg]
      have h1 : t * f ≤ 1000000 := by rw [ht]; exact Int.ediv_mul_le _ (by omega)
      have h2 : f ≤ g := by rw [hg]; exact (Int.le_ediv_iff_mul_le hp).2 (by rw [Int.mul_comm]; exact h1)
      have hgp : 0 < g := by omega
      have h3 : g * t ≤ 1000000 := by rw [hg]; exact Int.ediv_mul_le _ (by omega)
      rw [if_neg (by omega)]
      apply Int.le_antisymm
      · rw [ht]
        exact (Int.le_ediv_iff_mul_le hf).2 (Int.le_trans
          (Int.mul_le_mul_of_nonneg_left h2 (Int.ediv_nonneg (by omega) (by omega)))
          (Int.ediv_mul_le _ (by omega)))
      · exact (Int.le_ediv_iff_mul_le hgp).2 (by rw [Int.mul_comm]; exact h3)
    · have : t = 0 := by omega
      rw [this]; simp

theorem configure0_inv {s : State} {c : Cfg} (hinv : Inv s c) (p : Params) (q : Pix) :
    Inv (s.configure0 (p.w.getD s.outW) (p.h.getD s.outH) (p.fps.getD s.fps) q).1 (c.update p q) ∧
    (s.configure0 (p.w.getD s.outW) (p.h.getD s.outH) (p.fps.getD s.fps) q).2 = decide (q ≠ .none) := by
  obtain ⟨hw, hh, hp, hl, ht, hrt, hctx⟩ := hinv
  unfold State.configure0 Cfg.update
  refine ⟨⟨by rw [hw], by rw [hh], rfl, rfl, ?_, ?_, fun k hk => ⟨(hctx k hk).1, fun h => by cases h⟩⟩, ?_⟩
  · cases hf : p.fps with
    | some f => rfl
    | none =>
      show (if s.fps ≤ 0 then 0 else 1000000 / s.fps) = c.time
      unfold State.fps
      rw [ht]
      exact rate_back hrt
  · cases hf : p.fps with
    | none => exact hrt
    | some f =>
      show Rate (if f ≤ 0 then 0 else 1000000 / f)
      by_cases h0 : f ≤ 0
      · rw [if_pos h0]; exact Or.inl rfl
      · rw [if_neg h0]; exact Or.inr ⟨f, by omega, rfl⟩
  · exact decide_eq_decide.2 (not_congr libav_none)

theorem formatNumber_eq (n : Int) :
    formatNumber n = if n < -1 ∨ n > 5 then none else some (pixOfInt n) := by
  unfold formatNumber pixOfInt
  by_cases h : n < -1 ∨ n > 5
  · rw [if_pos h]
    repeat' rw [if_neg (by omega)]
  · rw [if_neg h]
    have : n = -1 ∨ n = 0 ∨ n = 1 ∨ n = 2 ∨ n = 3 ∨ n = 4 ∨ n = 5 := by omega
    rcases this with rfl | rfl | rfl | rfl | rfl | rfl | rfl <;> rfl

theorem config_spec {s : State} {c : Cfg} (hinv : Inv s c) (p : Option Params) :
    Inv (s.configEvent p).1 (c.config p).1 ∧ (s.configEvent p).2 = (c.config p).2 := by
  cases p with
  | none => exact ⟨hinv, rfl⟩
  | some p =>
    unfold State.configEvent Cfg.config
    simp only
    cases hq : p.pix with
    | none =>
      simp only
      rw [hinv.pix]
      exact configure0_inv hinv p c.pix
    | some n =>
      simp only
      rw [formatNumber_eq]
      by_cases h : n < -1 ∨ n > 5
      · rw [if_pos h, if_pos h]; exact ⟨hinv, rfl⟩
      · rw [if_neg h, if_neg h]; exact configure0_inv hinv p _

/-! ## Theorems -/

theorem step_spec {s : State} {c : Cfg} (hinv : Inv s c) (op : Op) (hf : Fine c op) :
    ∃ s' r, step s op = .ok (s', r) ∧ Allowed c op r ∧ Inv s' (c.next op) := by
  cases op with
  | config p =>
    obtain ⟨h1, h2⟩ := config_spec hinv p
    exact ⟨_, _, rfl, by unfold Allowed; rw [h2], h1⟩
  | frame f cap a =>
    obtain ⟨⟨r1, r2⟩, hfill⟩ := hf
    simp only [step]
    rcases process_spec hinv f cap a hfill with ⟨s', hi, hp, hno⟩ | ⟨s', hi, hv, hp⟩
    · rw [hp]; exact ⟨s', _, rfl, Or.inl ⟨rfl, hno⟩, hi⟩
    · rw [if_neg (by omega)] at hp
      by_cases hl : a.lines ≤ 0
      · rw [if_pos hl] at hp
        rw [hp]
        exact ⟨s', _, rfl, Or.inl ⟨rfl, fun h => by have := h.2.2.2.2; omega⟩, hi⟩
      · rw [if_neg hl] at hp
        rw [hp]
        exact ⟨s', _, rfl, Or.inr ⟨rfl, hv⟩, hi⟩

theorem inv_init (p q : Pix) (l : AV) : Inv (State.init p q l) { w := 0, h := 0, pix := p, time := 0 } :=
  ⟨rfl, rfl, rfl, rfl, rfl, Or.inl rfl, fun k hk => by cases hk⟩

/-- Every history of configurations and frames: nothing goes wrong, every frame is answered as the
configuration then in force demands, and the filter's frame time is the one asked for last. -/
theorem conversion (p q : Pix) (l : AV) (ops : List Op)
    (h : AllFine { w := 0, h := 0, pix := p, time := 0 } ops) :
    ∃ s' rs, runOps step (State.init p q l) ops = .ok (s', rs) ∧
      AllAllowed { w := 0, h := 0, pix := p, time := 0 } ops rs ∧
      s'.time = (Cfg.after { w := 0, h := 0, pix := p, time := 0 } ops).time := by
  have main : ∀ (ops : List Op) (s : State) (c : Cfg), Inv s c → AllFine c ops →
      ∃ s' rs, runOps step s ops = .ok (s', rs) ∧ AllAllowed c ops rs ∧ Inv s' (c.after ops) := by
    intro ops
    induction ops with
    | nil => intro s c hi _; exact ⟨s, [], rfl, trivial, hi⟩
    | cons op ops ih =>
      intro s c hi hf
      obtain ⟨s1, r, h1, h2, h3⟩ := step_spec hi op hf.1
      obtain ⟨s2, rs, h4, h5, h6⟩ := ih s1 _ h3 hf.2
      exact ⟨s2, r :: rs, by simp [runOps, h1, h4], ⟨h2, h5⟩, h6⟩
  obtain ⟨s', rs, h1, h2, h3⟩ := main ops _ _ (inv_init p q l) h
  exact ⟨s', rs, h1, h2, h3.time⟩

/-- One frame that can be converted and for which the libraries do their work. -/
theorem process_overrun {s : State} {c : Cfg} (hinv : Inv s c) (f : In) (cap : Nat) (a : Ans) (hv : c.Valid f)
    (hg : a.Good) : s.process f cap a = .ub ↔ ¬ c.Room f cap := by
  have hl : ¬ a.lines ≤ 0 := by have := hg.2.2.2; omega
  rcases process_spec hinv f cap a (fun _ => hg.2.1) with ⟨s', _, _, hno⟩ | ⟨s', _, _, hp⟩
  · exact absurd ⟨hv, hg⟩ hno
  · rw [hp]
    unfold Cfg.Room
    by_cases hb : imageSize (libav f.pix) f.w.toNat f.h.toNat > f.cap ∨
        imageSize (libav c.pix) (c.size f).1.toNat (c.size f).2.toNat > cap
    · rw [if_pos hb]
      exact ⟨fun _ h => by omega, fun _ => rfl⟩
    · rw [if_neg hb, if_neg hl]
      exact ⟨fun h => (by cases h), fun h => absurd ⟨by omega, by omega⟩ h⟩

/-- Recorded: after any history, a picture that can be converted overruns a frame exactly when one of the two
frames lacks the room: nothing compares the sizes. -/
theorem overrun (p q : Pix) (l : AV) (ops : List Op)
    (h : AllFine { w := 0, h := 0, pix := p, time := 0 } ops) (f : In) (cap : Nat) (a : Ans)
    (hv : (Cfg.after { w := 0, h := 0, pix := p, time := 0 } ops).Valid f) (hg : a.Good) :
    runOps step (State.init p q l) (ops ++ [.frame f cap a]) = .ub ↔
      ¬ (Cfg.after { w := 0, h := 0, pix := p, time := 0 } ops).Room f cap := by
  have main : ∀ (ops : List Op) (s : State) (c : Cfg), Inv s c → AllFine c ops → (c.after ops).Valid f →
      (runOps step s (ops ++ [.frame f cap a]) = .ub ↔ ¬ (c.after ops).Room f cap) := by
    intro ops
    induction ops with
    | nil =>
      intro s c hi _ hv
      show _ ↔ ¬ c.Room f cap
      rw [← process_overrun hi f cap a hv hg]
      simp only [List.nil_append, runOps, step]
      cases s.process f cap a <;> simp
    | cons op ops ih =>
      intro s c hi hf hv
      obtain ⟨s1, r, h1, _, h3⟩ := step_spec hi op hf.1
      show _ ↔ ¬ ((c.next op).after ops).Room f cap
      rw [← ih s1 (c.next op) h3 hf.2 hv]
      simp only [List.cons_append, runOps, h1, Outcome.bind_ok]
      cases runOps step s1 (ops ++ [.frame f cap a]) <;> simp
  exact main ops _ _ (inv_init p q l) h hv

/-- A frame of full size, big enough for its own picture. -/
def hd : In := { w := 1920, h := 1080, pix := .yuv420p, cap := 6220800, pts := 7, dts := 6, org := 5, seq := 4 }
def good : Ans := { sws := true, fillIn := true, fillOut := true, lines := 1080 }
def set (w h fps pix : Int) : Op := .config (some { w := some w, h := some h, fps := some fps, pix := some pix })

/-- Recorded: configured to RGB32 the filter overruns the frames of its own queue with full pictures (the
queue is announced as RGB24), and likewise for larger pictures of any format. -/
theorem overrun_rgb32 (p q : Pix) (l : AV) :
    runOps step (State.init p q l) [set 0 0 25 1, .frame hd 6220800 good] = .ub ∧
    runOps step (State.init p q l) [set 3840 2160 25 2, .frame hd 6220800 good] = .ub := by
  have e1 : Cfg.after { w := 0, h := 0, pix := p, time := 0 } [set 0 0 25 1]
      = { w := 0, h := 0, pix := .rgb32, time := 40000 } := rfl
  have e2 : Cfg.after { w := 0, h := 0, pix := p, time := 0 } [set 3840 2160 25 2]
      = { w := 3840, h := 2160, pix := .yuv420p, time := 40000 } := rfl
  have h1 := overrun p q l [set 0 0 25 1] ⟨trivial, trivial⟩ hd 6220800 good
  have h2 := overrun p q l [set 3840 2160 25 2] ⟨trivial, trivial⟩ hd 6220800 good
  rw [e1] at h1
  rw [e2] at h2
  have hg : good.Good := by unfold Ans.Good; decide
  exact ⟨(h1 (by decide +kernel) hg).2 (by unfold Cfg.Room; decide +kernel),
    (h2 (by decide +kernel) hg).2 (by unfold Cfg.Room; decide +kernel)⟩

/-- A small frame. -/
def tiny : In := { w := 8, h := 4, pix := .yuv420p, cap := 48, pts := 7, dts := 6, org := 5, seq := 4 }

/-- Recorded: before a format is configured the filter works with an uninitialised value. -/
theorem uninitialised_format (q : Pix) (l : AV) :
    (∃ s, runOps step (State.init .rgb24 q l) [.frame tiny 96 good] =
      .ok (s, [.frame (some { w := 8, h := 4, pix := .rgb24, len := 96, pts := 7, dts := 6, org := 5, seq := 4 })])) ∧
    (∃ s, runOps step (State.init .none q l) [.frame tiny 96 good] = .ok (s, [.frame none])) ∧
    runOps step (State.init .rgb32 q l) [.frame tiny 96 good] = .ub := by
  cases q <;> exact ⟨⟨_, rfl⟩, ⟨_, rfl⟩, rfl⟩

/-- Recorded: were a context made for a picture that cannot be laid out, the next frame of the former size
would be scaled with it. -/
theorem stale_context :
    runOps step (State.init .none .none .none)
      [set 0 0 25 0, .frame { tiny with w := 4, h := 2 } 96 good,
       .frame tiny 96 { good with fillIn := false },
       .frame { tiny with w := 4, h := 2 } 96 good] = .ub := by decide +kernel

/-- Recorded: pictures of the format YUVJ420P are converted, but the format cannot be asked for: the whole
configuration event is refused. -/
theorem yuvj420p_refused (s : State) (p : Params) (h : p.pix = some 6) :
    s.configEvent (some p) = (s, false) ∧
    ∀ (c : Cfg) (f : In), f.pix = .yuv420p → c.Valid f → c.Valid { f with pix := .yuvj420p } := by
  refine ⟨by simp only [State.configEvent, h]; rfl, fun c f hf hx => ?_⟩
  exact ⟨by simp, hx.2.1, hx.2.2.1, hx.2.2.2.1, hx.2.2.2.2.1, hx.2.2.2.2.2⟩

/-- Recorded: asking for no format is answered with failure, but takes effect: after any history nothing is
delivered any more until a format is configured. -/
theorem no_format_takes_effect (p q : Pix) (l : AV) (ops : List Op) (pr : Params) (h : pr.pix = some (-1))
    (f : In) (cap : Nat) (a : Ans)
    (hf : AllFine { w := 0, h := 0, pix := p, time := 0 } (ops ++ [.config (some pr), .frame f cap a])) :
    ∃ s rs, runOps step (State.init p q l) (ops ++ [.config (some pr), .frame f cap a]) =
      .ok (s, rs ++ [.config false, .frame none]) := by
  obtain ⟨s', rs, h1, h2, _⟩ := conversion p q l _ hf
  refine ⟨s', ?_⟩
  have main : ∀ (ops : List Op) (c : Cfg) (rs : List Res), AllAllowed c (ops ++ [.config (some pr), .frame f cap a]) rs →
      ∃ rs', rs = rs' ++ [.config false, .frame none] := by
    intro ops
    induction ops with
    | nil =>
      intro c rs hr
      match rs, hr with
      | [r1, r2], ⟨g1, g2, _⟩ =>
        refine ⟨[], ?_⟩
        have hv : ¬ ((c.next (.config (some pr))).Valid f) := by
          simp only [Cfg.next, Cfg.config, h]
          exact fun hv => hv.2.1 rfl
        have e1 : r1 = .config false := by
          have : r1 = .config (c.config (some pr)).2 := g1
          rw [this]; simp only [Cfg.config, h]; rfl
        have e2 : r2 = .frame none := by
          rcases g2 with ⟨g, _⟩ | ⟨_, g⟩
          · exact g
          · exact absurd g hv
        rw [e1, e2]; rfl
      | [], hr => cases hr
      | [_], hr => cases hr.2
      | _ :: _ :: _ :: _, hr => cases hr.2.2
    | cons op ops ih =>
      intro c rs hr
      cases rs with
      | nil => cases hr
      | cons r rs =>
        obtain ⟨rs', e⟩ := ih _ rs hr.2
        exact ⟨r :: rs', by rw [e]; rfl⟩
  obtain ⟨rs', e⟩ := main ops _ rs h2
  exact ⟨rs', by rw [h1, e]⟩

/-- Non-trivial history: the frame is scaled to 4×2 with its times; then to its own size after a second
configuration that keeps the format. -/
example : (runOps step (State.init .none .none .none)
    [set 4 2 25 0, .frame tiny 96 good, .config (some ⟨some 0, some 0, none, none⟩), .frame tiny 96 good]).map
      (fun x => (x.1.time, x.2)) = .ok (40000,
    [.config true,
     .frame (some { w := 4, h := 2, pix := .rgb24, len := 24, pts := 7, dts := 6, org := 5, seq := 4 }),
     .config true,
     .frame (some { w := 8, h := 4, pix := .rgb24, len := 96, pts := 7, dts := 6, org := 5, seq := 4 })]) := by
  decide +kernel

example : AllFine { w := 0, h := 0, pix := .rgb32, time := 0 } [set 4 2 25 0, .frame tiny 96 good] := by
  refine ⟨trivial, ⟨⟨by decide, by decide⟩, fun _ => rfl⟩, trivial⟩

/-- 30 frames per second: 33333 µs, kept by an event that names no rate. -/
example : (Cfg.config { w := 0, h := 0, pix := .rgb24, time := 1000000 / 30 } (some ⟨some 640, none, none, none⟩)).1
    = { w := 640, h := 0, pix := .rgb24, time := 33333 } := rfl

end Lms.Resampler
