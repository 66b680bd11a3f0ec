import Verif.Paths.Props

/-! C95: rounds. -/

namespace Lms.Paths
open FilterConn
variable {mr mw : Nat → Nat}

/-! ### Rounds -/

/-- A round leaves readers that are fed alone, and gives none a queue. -/
theorem sweepListR_rdr {strict : Bool} : ∀ (l : List RE) {s t : St}, sweepListR s strict l = .ok t → Inv s → (∀ e ∈ l, e ∈ s.rs) →
    (l.Pairwise fun a b => ¬ (a.f = b.f ∧ a.id = b.id)) →
    (∀ p, fed s p → t.rdr p = s.rdr p) ∧ ∀ p, (t.rdr p).queue = (s.rdr p).queue ∨ (t.rdr p).queue = none := by
  intro l
  induction l with
  | nil => intro s t h _ _ _; cases h; exact ⟨fun _ _ => rfl, fun _ => .inl rfl⟩
  | cons x l ih =>
    intro s t h hi hl hp
    obtain ⟨hx, hpl⟩ := List.pairwise_cons.1 hp
    obtain ⟨f, id, ob⟩ := x
    have hxm := hl _ List.mem_cons_self
    cases ob with
    | none =>
      unfold sweepListR at h
      split at h
      · cases h
      · exact ih h hi (fun e he => hl e (List.mem_cons_of_mem _ he)) hpl
    | some o =>
      obtain ⟨c, hc, hcs⟩ := rConnected_ok hi (o := o) ⟨_, hxm, rfl⟩
      unfold sweepListR at h
      rw [hc] at h
      simp only [Outcome.bind_ok] at h
      cases c with
      | true => exact ih (by simpa using h) hi (fun e he => hl e (List.mem_cons_of_mem _ he)) hpl
      | false =>
        have hnf : ¬ fed s o := fun hf => by have := hcs.2 hf; cases this
        obtain ⟨u, d1, d2, d3, d4, d5, _, _, _, _, _, d6, _⟩ := deleteReader_ok hi hxm true
        rw [d1] at h
        simp only [Bool.false_eq_true, if_false, Outcome.bind_ok] at h
        obtain ⟨k1, k2⟩ := ih h d2 (fun e he => by
          rw [d3]
          exact (filter_mem_iff e).2 ⟨hl e (List.mem_cons_of_mem _ he), fun hh => hx e he ⟨hh.1.symm, hh.2.symm⟩⟩) hpl
        refine ⟨fun p hf => ?_, fun p => ?_⟩
        · have hpo : p ≠ o := fun e => hnf (e ▸ hf)
          rw [k1 p, d5 p hpo]
          obtain ⟨q, q1, q2⟩ := hf
          refine ⟨q, by rw [d5 p hpo]; exact q1, ?_⟩
          unfold hasW
          rw [d4]
          exact q2
        · rcases k2 p with e | e
          · by_cases hpo : p = o
            · subst hpo
              rcases d6 with e' | e'
              · exact .inl (e.trans e')
              · exact .inr (e.trans e')
            · rw [d5 p hpo] at e; exact .inl e
          · exact .inr e

/-- **C95.** A filter's round, in which it drops the ends that lost their other end, changes nothing about who is joined. -/
theorem rounds_change_nothing {s t : St} {f : Nat} (h : Hist mr mw s) (hr : sweepW s f = .ok t ∨ ∃ strict, sweepR s f strict = .ok t) :
    ∀ u w v r, Joined t u w v r ↔ Joined s u w v r := by
  have hg := hist_good h
  intro u w v r
  rcases hr with hr | ⟨strict, hr⟩
  · obtain ⟨t', h1, hi, h2, h3, h4, _⟩ := sweepW_ok hg.inv f
    rw [h1] at hr
    cases hr
    constructor
    · rintro ⟨q, o, j1, _, j3, j4, j5⟩
      rw [h3] at j3
      rw [h4] at j4 j5
      exact joined_of hg.inv ((h2 _).1 j1).1 j3 j4 j5
    · rintro ⟨q, o, j1, _, j3, j4, j5⟩
      exact joined_of hi ((h2 _).2 ⟨j1, fun _ => ⟨o, ⟨_, j3, rfl⟩, j4⟩⟩) (by rw [h3]; exact j3) (by rw [h4]; exact j4) (by rw [h4]; exact j5)
  · obtain ⟨hi, h2, _, _, _, h3, _⟩ := sweepR_any hr hg.inv
    obtain ⟨k1, k2⟩ := sweepListR_rdr _ hr hg.inv (fun e he => (List.mem_filter.1 he).1) (hg.inv.rKey.filter _)
    constructor
    · rintro ⟨q, o, j1, _, j3, j4, _⟩
      rw [h3] at j1
      have j3' := ((h2 _).1 j3).1
      refine joined_of hg.inv j1 j3' ?_ (hg.reg.reg _ j3' o rfl).1
      rcases k2 o with e | e
      · rw [← e]; exact j4
      · rw [e] at j4; cases j4
    · rintro ⟨q, o, j1, _, j3, j4, j5⟩
      have hf : fed s o := ⟨q, j4, _, j1, rfl⟩
      exact joined_of hi (by rw [h3]; exact j1) ((h2 _).2 ⟨j3, fun _ o' ho => by cases ho; exact hf⟩) (by rw [k1 o hf]; exact j4) (by rw [k1 o hf]; exact j5)

end Lms.Paths
