import Verif.Encoder.Times

/-!
# C44: intra pictures on a common time grid
-/

namespace Lms.Encoder

/-! ## Specification -/

/-- The picture at time `t`, following one at `prev`, is the first at or after some point of the grid
`r, r + g, r + 2 g, …`. -/
def FirstAfterPoint (r : Int) (g : Nat) (prev : Option Int) (t : Int) : Prop :=
  ∃ k : Nat, r + k * g ≤ t ∧ ∀ p ∈ prev, p < r + k * g

/-- The requests are right for a sequence of pictures. -/
inductive OnGrid (r : Int) (g : Nat) : Option Int → List Int → List (Option Bool) → Prop where
  | nil {prev} : OnGrid r g prev [] []
  | cons {prev t ts b bs} : (b = true ↔ FirstAfterPoint r g prev t) → OnGrid r g (some t) ts bs →
      OnGrid r g prev (t :: ts) (some b :: bs)

/-- Pictures in time order, no gap larger than the GOP time; the first less than a GOP time after the
reference. -/
def Steps (r : Int) (g : Nat) : Option Int → List Int → Prop
  | _, [] => True
  | none, t :: ts => t < r + g ∧ Steps r g (some t) ts
  | some p, t :: ts => p ≤ t ∧ t ≤ p + g ∧ Steps r g (some t) ts

/-- The events of pictures all given to the encoder (which may answer anything). -/
def pics (l : List (FTP × Ans)) : List Ev := l.map fun x => .pic x.1 true x.2

/-! ## Proofs -/

theorem asked_cons (s : St) (p : FTP) (ans : Ans) (r : List Ev) :
    asked s (.pic p true ans :: r) = (step s (.pic p true ans)).2.1 :: asked (step s (.pic p true ans)).1 r := by rw [asked]

/-- What a picture given to the encoder asks for, and what it leaves. -/
theorem process_asks (s : St) (p : FTP) (ans : Ans) (h : ans ≠ .noEncoder) :
    (step s (.pic p true ans)).2.1 = some (grid s p.pTime).forceIntra ∧
    (step s (.pic p true ans)).1.forceIntra = false ∧ (step s (.pic p true ans)).1.refTime = (grid s p.pTime).refTime ∧
    (step s (.pic p true ans)).1.gopTime = s.gopTime := by
  have hg : (grid s p.pTime).gopTime = s.gopTime := by
    unfold grid; split
    · split <;> rfl
    · rfl
  cases ans with
  | noEncoder => exact absurd rfl h
  | fail => exact ⟨rfl, rfl, rfl, hg⟩
  | buffered => exact ⟨rfl, rfl, rfl, hg⟩
  | out pts dts fits => cases fits <;> exact ⟨rfl, rfl, rfl, hg⟩

theorem grid_eq (s : St) (t : Int) (hg : 0 < s.gopTime) (hr : s.refTime ≠ 0) :
    (grid s t).forceIntra = (decide (s.refTime ≤ t) || s.forceIntra) ∧
    (grid s t).refTime = if s.refTime ≤ t then s.refTime + s.gopTime else s.refTime := by
  unfold grid refOf
  rw [if_pos (show s.gopTime > 0 from hg), if_neg hr]
  by_cases h : s.refTime ≤ t
  · rw [if_pos (by omega), if_pos h]; simp [h]
  · rw [if_neg (by omega), if_neg h]; simp [h]

/-- The reference stands at the first grid point after the last picture. -/
theorem on_grid_from (r : Int) (g : Nat) (hg : 0 < g) (hr : 0 < r) : ∀ (l : List (FTP × Ans)), (∀ x ∈ l, x.2 ≠ .noEncoder) →
    ∀ (s : St) (m : Nat) (prev : Option Int), s.gopTime = g → s.forceIntra = false → s.refTime = r + m * g →
    (∀ p ∈ prev, p < r + m * g ∧ (m = 0 ∨ r + m * g ≤ p + g)) → (prev = none → m = 0) →
    Steps r g prev (l.map (·.1.pTime)) → OnGrid r g prev (l.map (·.1.pTime)) (asked s (pics l)) := by
  intro l
  induction l with
  | nil => intro _ s m prev _ _ _ _ _ _; exact .nil
  | cons x l ih =>
    intro ha s m prev hsg hsf hsr hprev hnone hsteps
    obtain ⟨p, ans⟩ := x
    obtain ⟨a1, a2, a3, a4⟩ := process_asks s p ans (ha (p, ans) (by simp))
    have hpos : (0 : Int) ≤ m * g := Int.mul_nonneg (by omega) (by omega)
    obtain ⟨g1, g2⟩ := grid_eq s p.pTime (by omega) (by rw [hsr]; omega)
    rw [hsr, hsg] at g2
    rw [hsr, hsf, Bool.or_false] at g1
    have hlt : p.pTime < r + m * g + g ∧ (∀ q ∈ prev, q ≤ p.pTime) ∧ Steps r g (some p.pTime) (l.map (·.1.pTime)) := by
      cases hp : prev with
      | none =>
        rw [hp] at hsteps
        obtain ⟨h1, h2⟩ := hsteps
        have h1 : p.pTime < r + g := h1
        exact ⟨by omega, by simp, h2⟩
      | some q =>
        rw [hp] at hsteps
        obtain ⟨h1, h2, h3⟩ := hsteps
        have h1 : q ≤ p.pTime := h1
        have h2 : p.pTime ≤ q + g := h2
        obtain ⟨h4, _⟩ := hprev q (by simp [hp])
        exact ⟨by omega, by simp [h1], h3⟩
    obtain ⟨hlt, hge, hst⟩ := hlt
    show OnGrid r g prev (p.pTime :: l.map (·.1.pTime)) (asked s (.pic p true ans :: pics l))
    rw [asked_cons, a1, g1]
    refine .cons ?_ ?_
    · simp only [decide_eq_true_eq]
      constructor
      · intro h; exact ⟨m, h, fun q hq => (hprev q hq).1⟩
      · rintro ⟨k, hk1, hk2⟩
        have hkm : m ≤ k := by
          cases hp : prev with
          | none => have := hnone hp; omega
          | some q =>
            obtain ⟨_, h5⟩ := hprev q (by simp [hp])
            have h6 := hk2 q (by simp [hp])
            rcases h5 with h5 | h5
            · omega
            · rcases Nat.lt_or_ge k m with h | h
              · have : ((k + 1 : Nat) : Int) * g ≤ m * g := Int.mul_le_mul_of_nonneg_right (by omega) (by omega)
                rw [show ((k + 1 : Nat) : Int) * g = k * g + g by rw [Int.natCast_add, Int.add_mul]; omega] at this
                omega
              · exact h
        have : (m : Int) * g ≤ k * g := Int.mul_le_mul_of_nonneg_right (by omega) (by omega)
        omega
    · by_cases h : r + m * g ≤ p.pTime
      · rw [if_pos h] at g2
        have he : r + ((m + 1 : Nat) : Int) * g = r + m * g + g := by rw [Int.natCast_add, Int.add_mul]; omega
        refine ih (fun y hy => ha y (by simp [hy])) _ (m + 1) (some p.pTime) (by rw [a4, hsg]) a2 (by rw [a3, g2, he]) ?_ (by simp) hst
        intro q hq; simp at hq; subst hq; rw [he]; exact ⟨by omega, Or.inr (by omega)⟩
      · rw [if_neg h] at g2
        refine ih (fun y hy => ha y (by simp [hy])) _ m (some p.pTime) (by rw [a4, hsg]) a2 (by rw [a3, g2]) ?_ (by simp) hst
        intro q hq; simp at hq; subst hq
        refine ⟨by omega, ?_⟩
        cases hp : prev with
        | none => exact Or.inl (hnone hp)
        | some q =>
          obtain ⟨_, h5⟩ := hprev q (by simp [hp])
          have := hge q (by simp [hp])
          rcases h5 with h5 | h5
          · exact Or.inl h5
          · exact Or.inr (by omega)

/-- **C44**: with a reference set, an intra picture is asked for exactly at the first picture at or
after each grid point. -/
theorem intra_on_grid (r : Int) (g : Nat) (hg : 0 < g) (hr : 0 < r) (l : List (FTP × Ans)) (ha : ∀ x ∈ l, x.2 ≠ .noEncoder)
    (s : St) (hsg : s.gopTime = g) (hsf : s.forceIntra = false) (hsr : s.refTime = r) (hst : Steps r g none (l.map (·.1.pTime))) :
    OnGrid r g none (l.map (·.1.pTime)) (asked s (pics l)) :=
  on_grid_from r g hg hr l ha s 0 none hsg hsf (by rw [hsr]; simp) (by simp) (by simp) hst

/-- **C44**: without a reference the first picture's time is the reference. -/
theorem intra_on_own_grid (g : Nat) (hg : 0 < g) (x : FTP × Ans) (l : List (FTP × Ans)) (ha : ∀ y ∈ x :: l, y.2 ≠ .noEncoder)
    (hx : 0 < x.1.pTime) (s : St) (hsg : s.gopTime = g) (hsf : s.forceIntra = false) (hsr : s.refTime = 0)
    (hst : Steps x.1.pTime g none ((x :: l).map (·.1.pTime))) :
    OnGrid x.1.pTime g none ((x :: l).map (·.1.pTime)) (asked s (pics (x :: l))) := by
  have := intra_on_grid x.1.pTime g hg hx (x :: l) ha { s with refTime := x.1.pTime } hsg hsf rfl hst
  have he : asked s (pics (x :: l)) = asked { s with refTime := x.1.pTime } (pics (x :: l)) := by
    obtain ⟨p, ans⟩ := x
    have hgr : grid s p.pTime = grid { s with refTime := p.pTime } p.pTime := by
      have hx : 0 < p.pTime := hx
      have h1 : refOf s p.pTime = p.pTime := by unfold refOf; rw [if_pos hsr]
      have h2 : refOf { s with refTime := p.pTime } p.pTime = p.pTime := by
        unfold refOf
        by_cases h : p.pTime = 0
        · rw [if_pos h]
        · rw [if_neg h]
      unfold grid; rw [h1, h2]
      by_cases h : s.gopTime > 0
      · rw [if_pos h, if_pos h, if_pos (by omega)]
      · omega
    have hst : step s (.pic p true ans) = step { s with refTime := p.pTime } (.pic p true ans) := by
      show process s p true ans = process { s with refTime := p.pTime } p true ans
      unfold process; rw [if_pos rfl, if_pos rfl, hgr]
    show asked s (.pic p true ans :: pics l) = asked { s with refTime := p.pTime } (.pic p true ans :: pics l)
    rw [asked_cons, asked_cons, hst]
  rw [he]; exact this

/-- Requests on a grid are determined by the times. -/
theorem onGrid_unique {r : Int} {g : Nat} {prev : Option Int} {ts : List Int} {a b : List (Option Bool)}
    (ha : OnGrid r g prev ts a) (hb : OnGrid r g prev ts b) : a = b := by
  induction ha generalizing b with
  | nil => cases hb; rfl
  | @cons prev t ts x xs hx _ ih =>
    cases hb with
    | @cons _ _ _ y ys hy hr =>
      have hxy : x = y := by
        have hb : (x = true ↔ y = true) := hx.trans hy.symm
        cases x <;> cases y <;> simp at hb ⊢
      rw [hxy, ih hr]

/-- **C44**: two encoders with the same reference ask for intra pictures at the same pictures, whatever
else differs between them (codec, answers, counters). -/
theorem same_pictures (r : Int) (g : Nat) (hg : 0 < g) (hr : 0 < r) (l l' : List (FTP × Ans)) (ha : ∀ x ∈ l, x.2 ≠ .noEncoder)
    (ha' : ∀ x ∈ l', x.2 ≠ .noEncoder) (hts : l.map (·.1.pTime) = l'.map (·.1.pTime)) (s s' : St)
    (h : s.gopTime = g ∧ s.forceIntra = false ∧ s.refTime = r) (h' : s'.gopTime = g ∧ s'.forceIntra = false ∧ s'.refTime = r)
    (hst : Steps r g none (l.map (·.1.pTime))) : asked s (pics l) = asked s' (pics l') := by
  have h1 := intra_on_grid r g hg hr l ha s h.1 h.2.1 h.2.2 hst
  have h2 := intra_on_grid r g hg hr l' ha' s' h'.1 h'.2.1 h'.2.2 (hts ▸ hst)
  rw [← hts] at h2
  exact onGrid_unique h1 h2

/-- Three pictures a quarter of a second apart, GOP time one second. -/
def demoTimes : List (FTP × Ans) :=
  [(⟨5000000, 0, 0⟩, .buffered), (⟨5400000, 0, 1⟩, .out 0 0 true), (⟨5800000, 0, 2⟩, .fail), (⟨6200000, 0, 3⟩, .out 1 1 true),
   (⟨6400000, 0, 4⟩, .buffered)]

example : asked { init 1000000 with refTime := 5300000 } (pics demoTimes) =
    [some false, some true, some false, some false, some true] := by decide
example : Steps 5300000 1000000 none (demoTimes.map (·.1.pTime)) := by simp [Steps, demoTimes]
example : asked (init 1000000) (pics demoTimes) = [some true, some false, some false, some true, some false] := by decide

/-- An encoder joining later with a reference on the same grid agrees from its second picture on. -/
theorem late_joiner (r : Int) (g k0 : Nat) (t0 : Int) (h0 : r + k0 * g ≤ t0 + g) : ∀ (ts : List Int) (a b : List (Option Bool)) (p : Int),
    t0 ≤ p → Steps r g (some p) ts → OnGrid r g (some p) ts a → OnGrid (r + k0 * g) g (some p) ts b → a = b := by
  intro ts
  induction ts with
  | nil => intro a b p _ _ ha hb; cases ha; cases hb; rfl
  | cons t ts ih =>
    intro a b p hp hst ha hb
    cases ha with
    | @cons _ _ _ x xs hx hxr =>
      cases hb with
      | @cons _ _ _ y ys hy hyr =>
        obtain ⟨h1, _, h3⟩ := hst
        have hiff : FirstAfterPoint r g (some p) t ↔ FirstAfterPoint (r + k0 * g) g (some p) t := by
          constructor
          · rintro ⟨k, hk1, hk2⟩
            have hk2 := hk2 p (by simp)
            have hkk : k0 ≤ k := by
              rcases Nat.lt_or_ge k k0 with h | h
              · have : ((k + 1 : Nat) : Int) * g ≤ k0 * g := Int.mul_le_mul_of_nonneg_right (by omega) (by omega)
                rw [show ((k + 1 : Nat) : Int) * g = k * g + g by rw [Int.natCast_add, Int.add_mul]; omega] at this
                omega
              · exact h
            have he : (r + k0 * g) + ((k - k0 : Nat) : Int) * g = r + k * g := by
              rw [Int.natCast_sub hkk, Int.sub_mul]; omega
            exact ⟨k - k0, by rw [he]; exact hk1, fun q hq => by simp at hq; subst hq; rw [he]; exact hk2⟩
          · rintro ⟨k, hk1, hk2⟩
            have he : r + ((k0 + k : Nat) : Int) * g = (r + k0 * g) + k * g := by
              rw [Int.natCast_add, Int.add_mul]; omega
            exact ⟨k0 + k, by rw [he]; exact hk1, fun q hq => by rw [he]; exact hk2 q hq⟩
        have hxy : x = y := by
          have hb : (x = true ↔ y = true) := hx.trans (hiff.trans hy.symm)
          cases x <;> cases y <;> simp at hb ⊢
        have h1 : p ≤ t := h1
        rw [hxy, ih xs ys t (by omega) h3 hxr hyr]

/-- The event `forceIntra` makes the next picture given to the encoder an intra picture, once. -/
theorem force_next (s : St) (p : FTP) (ans : Ans) (h : ans ≠ .noEncoder) :
    (step (step s .force).1 (.pic p true ans)).2.1 = some true ∧ (step (step s .force).1 (.pic p true ans)).1.forceIntra = false := by
  obtain ⟨a1, a2, _, _⟩ := process_asks (step s .force).1 p ans h
  refine ⟨?_, a2⟩
  rw [a1]
  show some (grid { s with forceIntra := true } p.pTime).forceIntra = some true
  unfold grid; split
  · split <;> rfl
  · rfl

/-- Without GOP time nothing is asked for but on request. -/
theorem no_gop_time (s : St) (p : FTP) (ans : Ans) (h : ans ≠ .noEncoder) (hg : s.gopTime = 0) (hf : s.forceIntra = false) :
    (step s (.pic p true ans)).2.1 = some false := by
  obtain ⟨a1, _, _, _⟩ := process_asks s p ans h
  rw [a1]; unfold grid; rw [if_neg (by omega)]; rw [hf]

/-! ## The recorded exceptions -/

/-- **A reference long past floods**: as many pictures are intra pictures as grid points have passed,
because the reference advances once a picture. -/
theorem old_reference_floods (g : Nat) (hg : 0 < g) : ∀ (l : List (FTP × Ans)), (∀ x ∈ l, x.2 ≠ .noEncoder) → ∀ (s : St), s.gopTime = g →
    0 < s.refTime → (∀ x ∈ l, s.refTime + (l.length : Int) * g ≤ x.1.pTime) → asked s (pics l) = l.map fun _ => some true := by
  intro l
  induction l with
  | nil => intro _ s _ _ _; rfl
  | cons x l ih =>
    intro ha s hsg hr ht
    obtain ⟨p, ans⟩ := x
    obtain ⟨a1, a2, a3, a4⟩ := process_asks s p ans (ha (p, ans) (by simp))
    obtain ⟨g1, g2⟩ := grid_eq s p.pTime (by omega) (by omega)
    have he : ((((p, ans) :: l).length : Nat) : Int) * g = (l.length : Int) * g + g := by
      rw [List.length_cons, Int.natCast_add, Int.add_mul]; omega
    have hnn : (0 : Int) ≤ (l.length : Int) * g := Int.mul_nonneg (by omega) (by omega)
    have h0 := ht (p, ans) (by simp)
    have h0 : s.refTime + ((((p, ans) :: l).length : Nat) : Int) * g ≤ p.pTime := h0
    rw [he] at h0
    have hle : s.refTime ≤ p.pTime := by omega
    rw [if_pos hle, hsg] at g2
    show asked s (.pic p true ans :: pics l) = _
    rw [asked_cons, a1, g1, ih (fun y hy => ha y (by simp [hy])) _ (by rw [a4, hsg]) (by rw [a3, g2]; omega) (by
      intro y hy
      have := ht y (by simp [hy])
      rw [he] at this
      rw [a3, g2]; omega)]
    simp [hle]

example : asked { init 1000000 with refTime := 1 } (pics demoTimes) = [some true, some true, some true, some true, some true] := by decide

/-- Two encoders without reference that start at different pictures do not agree. -/
theorem unset_reference_differs : asked (init 1000000) (pics (demoTimes.drop 1)) ≠ (asked (init 1000000) (pics demoTimes)).drop 1 := by decide

/-- A request is lost when the encoder fails on the picture. -/
theorem failed_request_lost : asked { init 1000000 with refTime := 5000000 }
    (pics [(⟨5000000, 0, 0⟩, .fail), (⟨5400000, 0, 1⟩, .buffered)]) = [some true, some false] := by decide

end Lms.Encoder
