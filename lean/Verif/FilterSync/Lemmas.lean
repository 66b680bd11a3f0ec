import Verif.FilterSync.Model

/-!
# Helper lemmas for input selection
-/

namespace Lms.FilterSync

/-! ## What a round sees -/

/-- The reader shows a new frame of time `t`. -/
def Shows (r : RV) (t : Int) : Prop := r.present = true ∧ r.connected = true ∧ r.got = some (true, t)

/-- A new frame within one frame time of the clock. -/
def SomeOnTime (syncTs frameTime : Int) (rs : List RV) : Prop :=
  ∃ r ∈ rs, ∃ t, Shows r t ∧ syncTs ≤ t ∧ t ≤ syncTs + frameTime

/-- A new frame older than the clock. -/
def SomeOld (syncTs : Int) (rs : List RV) : Prop := ∃ r ∈ rs, ∃ t, Shows r t ∧ t < syncTs

/-- A new frame of any time. -/
def SomeNew (rs : List RV) : Prop := ∃ r ∈ rs, ∃ t, Shows r t

/-- Lemma: what the loop computes. -/
theorem visit_spec (syncTs frameTime : Int) (hf : 0 < frameTime) (rs : List RV) (a0 : Acc)
    (h0 : a0.oos = -1 ∨ syncTs + frameTime < a0.oos) :
    let a := rs.foldl (visit syncTs frameTime) a0
    (a.valid = true ↔ a0.valid = true ∨ SomeOnTime syncTs frameTime rs) ∧
    (a.outDated = true ↔ a0.outDated = true ∨ SomeOld syncTs rs) ∧
    (a.newFrames = [] ↔ a0.newFrames = [] ∧ ¬ SomeNew rs) ∧
    (a.oos = -1 ∨ syncTs + frameTime < a.oos) := by
  induction rs generalizing a0 with
  | nil => simp [SomeOnTime, SomeOld, SomeNew, h0]
  | cons r rs ih =>
    have hsplit1 : SomeOnTime syncTs frameTime (r :: rs) ↔
        (∃ t, Shows r t ∧ syncTs ≤ t ∧ t ≤ syncTs + frameTime) ∨ SomeOnTime syncTs frameTime rs := by
      simp [SomeOnTime]
    have hsplit2 : SomeOld syncTs (r :: rs) ↔ (∃ t, Shows r t ∧ t < syncTs) ∨ SomeOld syncTs rs := by
      simp [SomeOld]
    have hsplit3 : SomeNew (r :: rs) ↔ (∃ t, Shows r t) ∨ SomeNew rs := by simp [SomeNew]
    simp only [List.foldl_cons]
    rw [hsplit1, hsplit2, hsplit3]
    by_cases hp : r.present = true ∧ r.connected = true
    · have hpc : (!r.present || !r.connected) = false := by simp [hp.1, hp.2]
      cases hg : r.got with
      | none =>
        have hno : ∀ t, ¬ Shows r t := by rintro t ⟨_, _, h⟩; rw [hg] at h; cases h
        have hv : visit syncTs frameTime a0 r = a0 := by
          simp only [visit, hpc, hg]; simp
        rw [hv]
        have := ih a0 h0
        simp only [hno, false_and, exists_false, false_or]
        exact this
      | some x =>
        obtain ⟨isNew, t⟩ := x
        cases isNew with
        | false =>
          have hno : ∀ t, ¬ Shows r t := by rintro t ⟨_, _, h⟩; rw [hg] at h; simp at h
          have hv : visit syncTs frameTime a0 r = { a0 with oFrames := a0.oFrames ++ [(r.id, false, t)] } := by
            simp only [visit, hpc, hg]; simp
          rw [hv]
          have := ih { a0 with oFrames := a0.oFrames ++ [(r.id, false, t)] } h0
          simp only [hno, false_and, exists_false, false_or]
          exact this
        | true =>
          have hyes : ∀ t', Shows r t' ↔ t' = t := by
            intro t'
            constructor
            · rintro ⟨_, _, h⟩; rw [hg] at h
              simp only [Option.some.injEq, Prod.mk.injEq, true_and] at h; exact h.symm
            · rintro rfl; exact ⟨hp.1, hp.2, hg⟩
          simp only [hyes, exists_eq_left, exists_eq, true_or, not_true_eq_false, and_false, iff_false]
          by_cases h1 : t > syncTs + frameTime
          · have hv : visit syncTs frameTime a0 r =
                { a0 with oFrames := a0.oFrames ++ [(r.id, true, t)], newFrames := a0.newFrames ++ [r.id]
                          oos := if a0.oos < 0 then t else min t a0.oos } := by
              simp only [visit, hpc, hg]; simp [h1]
            rw [hv]
            obtain ⟨i1, i2, i3, i4⟩ := ih
              { a0 with oFrames := a0.oFrames ++ [(r.id, true, t)], newFrames := a0.newFrames ++ [r.id]
                        oos := if a0.oos < 0 then t else min t a0.oos } (by
                right
                show syncTs + frameTime < if a0.oos < 0 then t else min t a0.oos
                split
                · exact h1
                · rename_i hge
                  rcases h0 with h0 | h0
                  · omega
                  · omega)
            refine ⟨?_, ?_, ?_, i4⟩
            · rw [i1]; simp only
              constructor
              · rintro (x | x)
                · exact Or.inl x
                · exact Or.inr (Or.inr x)
              · rintro (x | x | x)
                · exact Or.inl x
                · omega
                · exact Or.inr x
            · rw [i2]; simp only
              constructor
              · rintro (x | x)
                · exact Or.inl x
                · exact Or.inr (Or.inr x)
              · rintro (x | x | x)
                · exact Or.inl x
                · omega
                · exact Or.inr x
            · rw [i3]; simp
          · by_cases h2 : t < syncTs
            · have hv : visit syncTs frameTime a0 r =
                  { a0 with oFrames := a0.oFrames ++ [(r.id, true, t)], newFrames := a0.newFrames ++ [r.id]
                            outDated := true } := by
                simp only [visit, hpc, hg]; simp [h1, h2]
              rw [hv]
              obtain ⟨i1, i2, i3, i4⟩ := ih
                { a0 with oFrames := a0.oFrames ++ [(r.id, true, t)], newFrames := a0.newFrames ++ [r.id]
                          outDated := true } h0
              refine ⟨?_, ?_, ?_, i4⟩
              · rw [i1]; simp only
                constructor
                · rintro (x | x)
                  · exact Or.inl x
                  · exact Or.inr (Or.inr x)
                · rintro (x | x | x)
                  · exact Or.inl x
                  · omega
                  · exact Or.inr x
              · rw [i2]; simp [h2]
              · rw [i3]; simp
            · have hv : visit syncTs frameTime a0 r =
                  { a0 with oFrames := a0.oFrames ++ [(r.id, true, t)], newFrames := a0.newFrames ++ [r.id]
                            valid := true } := by
                simp only [visit, hpc, hg]; simp [h1, h2]
              rw [hv]
              obtain ⟨i1, i2, i3, i4⟩ := ih
                { a0 with oFrames := a0.oFrames ++ [(r.id, true, t)], newFrames := a0.newFrames ++ [r.id]
                          valid := true } h0
              refine ⟨?_, ?_, ?_, i4⟩
              · rw [i1]
                have : syncTs ≤ t ∧ t ≤ syncTs + frameTime := by omega
                simp [this]
              · rw [i2]; simp only
                constructor
                · rintro (x | x)
                  · exact Or.inl x
                  · exact Or.inr (Or.inr x)
                · rintro (x | x | x)
                  · exact Or.inl x
                  · omega
                  · exact Or.inr x
              · rw [i3]; simp
    · have hpc : (!r.present || !r.connected) = true := by
        cases h1 : r.present <;> cases h2 : r.connected <;> simp_all
      have hno : ∀ t, ¬ Shows r t := by rintro t ⟨a, b, _⟩; exact hp ⟨a, b⟩
      have hv : visit syncTs frameTime a0 r = { a0 with deleted := a0.deleted ++ [r.id] } := by
        simp only [visit, hpc]; simp
      rw [hv]
      have := ih { a0 with deleted := a0.deleted ++ [r.id] } h0
      simp only [hno, false_and, exists_false, false_or]
      exact this

/-- The reader shows a new frame beyond one frame time after the clock. -/
def Beyond (syncTs frameTime : Int) (r : RV) (t : Int) : Prop := Shows r t ∧ syncTs + frameTime < t

theorem visit_oos (syncTs frameTime : Int) (a : Acc) (r : RV) :
    (∃ t, Beyond syncTs frameTime r t ∧
      (visit syncTs frameTime a r).oos = if a.oos < 0 then t else min t a.oos) ∨
    ((∀ t, ¬ Beyond syncTs frameTime r t) ∧ (visit syncTs frameTime a r).oos = a.oos) := by
  unfold visit
  by_cases hp : r.present = true ∧ r.connected = true
  · have hpc : (!r.present || !r.connected) = false := by simp [hp.1, hp.2]
    rw [hpc]
    simp only [Bool.false_eq_true, if_false]
    cases hg : r.got with
    | none => right; exact ⟨by rintro t ⟨⟨_, _, h⟩, _⟩; rw [hg] at h; exact absurd h (by simp), rfl⟩
    | some x =>
      obtain ⟨isNew, t⟩ := x
      cases isNew with
      | false =>
        right
        exact ⟨by rintro t ⟨⟨_, _, h⟩, _⟩; rw [hg] at h; simp at h, by simp⟩
      | true =>
        simp only [Bool.not_true, Bool.false_eq_true, if_false]
        by_cases h1 : t > syncTs + frameTime
        · left
          refine ⟨t, ⟨⟨hp.1, hp.2, hg⟩, h1⟩, ?_⟩
          simp [h1]
        · right
          constructor
          · rintro t' ⟨⟨_, _, h⟩, hb⟩
            rw [hg] at h
            simp only [Option.some.injEq, Prod.mk.injEq, true_and] at h
            omega
          · simp only [h1, if_false]; split <;> rfl
  · have hpc : (!r.present || !r.connected) = true := by
      cases h1 : r.present <;> cases h2 : r.connected <;> simp_all
    rw [hpc]
    simp only [if_true]
    right
    exact ⟨by rintro t ⟨⟨a, b, _⟩, _⟩; exact hp ⟨a, b⟩, trivial⟩

/-- The re-anchoring time is beyond the clock as soon as some frame is. -/
theorem oos_beyond (syncTs frameTime : Int) (rs : List RV) (a0 : Acc)
    (h : syncTs + frameTime < a0.oos ∨ ∃ r ∈ rs, ∃ t, Beyond syncTs frameTime r t)
    (h0 : a0.oos < 0 ∨ syncTs + frameTime < a0.oos) :
    syncTs + frameTime < (rs.foldl (visit syncTs frameTime) a0).oos := by
  induction rs generalizing a0 with
  | nil =>
    rcases h with h | ⟨r, hr, _⟩
    · exact h
    · simp at hr
  | cons r rs ih =>
    simp only [List.foldl_cons]
    rcases visit_oos syncTs frameTime a0 r with ⟨t, hb, he⟩ | ⟨hno, he⟩
    · have : syncTs + frameTime < (visit syncTs frameTime a0 r).oos := by
        rw [he]
        split
        · exact hb.2
        · rcases h0 with h0 | h0
          · omega
          · have := hb.2; omega
      exact ih _ (Or.inl this) (Or.inr this)
    · refine ih _ ?_ ?_
      · rcases h with h | ⟨x, hx, t, hb⟩
        · left; rw [he]; exact h
        · rcases List.mem_cons.1 hx with rfl | hx
          · exact absurd hb (hno t)
          · exact Or.inr ⟨x, hx, t, hb⟩
      · rw [he]; exact h0

/-- The re-anchoring time is the earliest of the frames beyond the clock (for a non-negative clock). -/
theorem oos_least (syncTs frameTime : Int) (hs : 0 ≤ syncTs) (hf : 0 < frameTime) (rs : List RV) (a0 : Acc)
    (h0 : a0.oos = -1 ∨ 0 ≤ a0.oos) :
    let o := (rs.foldl (visit syncTs frameTime) a0).oos
    (∀ r ∈ rs, ∀ t, Beyond syncTs frameTime r t → o ≤ t) ∧
    (0 ≤ a0.oos → 0 ≤ o ∧ o ≤ a0.oos) ∧
    (o = a0.oos ∨ ∃ r ∈ rs, Beyond syncTs frameTime r o) := by
  induction rs generalizing a0 with
  | nil => simp
  | cons r rs ih =>
    simp only [List.foldl_cons]
    rcases visit_oos syncTs frameTime a0 r with ⟨t, hb, he⟩ | ⟨hno, he⟩
    · have ht := hb.2
      have hpos : 0 ≤ (visit syncTs frameTime a0 r).oos := by rw [he]; split <;> omega
      obtain ⟨i1, i2, i3⟩ := ih (visit syncTs frameTime a0 r) (Or.inr hpos)
      obtain ⟨i2a, i2b⟩ := i2 hpos
      have hle : (visit syncTs frameTime a0 r).oos ≤ t := by rw [he]; split <;> omega
      refine ⟨?_, ?_, ?_⟩
      · intro x hx t' hb'
        rcases List.mem_cons.1 hx with rfl | hx
        · have : t' = t := by
            have h1 := hb'.1.2.2; have h2 := hb.1.2.2
            rw [h1] at h2; simpa using h2
          subst this; omega
        · exact i1 x hx t' hb'
      · intro hge
        refine ⟨i2a, ?_⟩
        have : (visit syncTs frameTime a0 r).oos ≤ a0.oos := by
          rw [he, if_neg (by omega)]; omega
        omega
      · rcases i3 with i3 | ⟨x, hx, hb'⟩
        · by_cases hv : (visit syncTs frameTime a0 r).oos = a0.oos
          · left; rw [i3, hv]
          · right
            refine ⟨r, by simp, ?_⟩
            have : (visit syncTs frameTime a0 r).oos = t := by
              rw [he] at hv ⊢; split at hv <;> split <;> omega
            rw [i3, this]; exact hb
        · exact Or.inr ⟨x, List.mem_cons_of_mem _ hx, hb'⟩
    · obtain ⟨i1, i2, i3⟩ := ih (visit syncTs frameTime a0 r) (by rw [he]; exact h0)
      rw [he] at i2 i3
      refine ⟨?_, i2, ?_⟩
      · intro x hx t' hb'
        rcases List.mem_cons.1 hx with rfl | hx
        · exact absurd hb' (hno t')
        · exact i1 x hx t' hb'
      · rcases i3 with i3 | ⟨x, hx, hb'⟩
        · exact Or.inl i3
        · exact Or.inr ⟨x, List.mem_cons_of_mem _ hx, hb'⟩

/-- The frames handed on, as the readers show them. -/
theorem visit_frames (syncTs frameTime : Int) (rs : List RV) (a0 : Acc) :
    let a := rs.foldl (visit syncTs frameTime) a0
    a.oFrames = a0.oFrames ++
      rs.filterMap (fun r => if r.present ∧ r.connected then r.got.map (fun x => (r.id, x.1, x.2)) else none) ∧
    a.newFrames = a0.newFrames ++
      rs.filterMap (fun r => if r.present ∧ r.connected ∧ (r.got.map (·.1)) = some true then some r.id else none) ∧
    a.deleted = a0.deleted ++ rs.filterMap (fun r => if r.present ∧ r.connected then none else some r.id) := by
  induction rs generalizing a0 with
  | nil => simp
  | cons r rs ih =>
    simp only [List.foldl_cons]
    obtain ⟨i1, i2, i3⟩ := ih (visit syncTs frameTime a0 r)
    rw [i1, i2, i3]
    have hv : visit syncTs frameTime a0 r = visit syncTs frameTime a0 r := rfl
    by_cases hp : r.present = true ∧ r.connected = true
    · have hpc : (!r.present || !r.connected) = false := by simp [hp.1, hp.2]
      cases hg : r.got with
      | none => simp [visit, hg, hp.1, hp.2]
      | some x =>
        obtain ⟨isNew, t⟩ := x
        cases isNew with
        | false => simp [visit, hg, hp.1, hp.2]
        | true =>
          by_cases h1 : t > syncTs + frameTime
          · have h1' : syncTs + frameTime < t := h1
            simp [visit, hg, hp.1, hp.2, h1']
          · have h1' : ¬ syncTs + frameTime < t := h1
            by_cases h2 : t < syncTs
            · simp [visit, hg, hp.1, hp.2, h1', h2]
            · simp [visit, hg, hp.1, hp.2, h1', h2]
    · have hpc : (!r.present || !r.connected) = true := by
        cases h1 : r.present <;> cases h2 : r.connected <;> simp_all
      have hx : visit syncTs frameTime a0 r = { a0 with deleted := a0.deleted ++ [r.id] } := by
        simp only [visit, hpc]; simp
      have hp' : ¬ (r.present = true ∧ r.connected = true ∧ r.got.map (·.1) = some true) := fun x => hp ⟨x.1, x.2.1⟩
      rw [hx]
      simp only [List.filterMap_cons, if_neg hp, if_neg hp', List.append_assoc, List.cons_append, List.nil_append]
      simp

end Lms.FilterSync
