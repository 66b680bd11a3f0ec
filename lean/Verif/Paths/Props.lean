import Verif.Paths.Lemmas

/-! C95: paths are connected and deleted as a whole, and nobody else notices. -/

namespace Lms.Paths

open FilterConn

variable {mr mw : Nat → Nat}

theorem hist_good {s : St} (h : Hist mr mw s) : Good mr mw s := by
  induction h with
  | init => exact ⟨.init, fun e he => (by cases he), fun e he => (by cases he)⟩
  | connect _ hf hc ih =>
    obtain ⟨t, b, h1, h2, _⟩ := path_ok hf ih
    rw [h1] at hc
    cases hc
    exact h2
  | delete _ hc ih =>
    rename_i s t d x y p b _
    obtain ⟨t, b, h1, h2, _⟩ := delete_ok d x y ih p
    rw [h1] at hc
    cases hc
    exact h2
  | roundW _ hc ih =>
    rename_i s t f _
    obtain ⟨t', h1, _, _, h4, _⟩ := sweepW_ok ih.inv f
    rw [h1] at hc
    cases hc
    exact ⟨.step ih.reach (op := .roundW f) (b := true) trivial (by simp only [step, h1, Outcome.map_ok]), by unfold NoNull; rw [h4]; exact ih.nn, by rw [h4]; exact ih.ids⟩
  | roundR _ hc ih =>
    rename_i s t f strict _
    have hs := (sweepR_any hc ih.inv).2.1
    exact ⟨.step ih.reach (op := .roundR f strict) (b := true) trivial (by simp only [step, hc, Outcome.map_ok]), fun e he => ih.nn e ((hs e).1 he).1, fun e he => ih.ids e ((hs e).1 he).1⟩

/-- **C95.** Whatever paths were connected, however far, and deleted before, connecting one more and deleting any comes to an end
without anything undefined. -/
theorem path_calls_are_safe {s : St} (h : Hist mr mw s) :
    (∀ e p, Fit e p → ∃ t b, connectPath e s p = .ok (t, b)) ∧ ∀ d x y p, ∃ t b, deletePath d x y s p = .ok (t, b) := by
  refine ⟨fun e p hf => ?_, fun d x y p => ?_⟩
  · obtain ⟨t, b, h1, _⟩ := path_ok hf (hist_good h)
    exact ⟨t, b, h1⟩
  · obtain ⟨t, b, h1, _⟩ := delete_ok d x y (hist_good h) p
    exact ⟨t, b, h1⟩

/-- **C95.** Among paths no filter is ever given a reader it already holds, and no map has a null entry. -/
theorem no_reader_given_twice {s : St} (h : Hist mr mw s) : Reach mr mw s ∧ NoNull s ∧ Reg s :=
  ⟨(hist_good h).reach, (hist_good h).nn, (hist_good h).reg⟩

/-- **C95.** When connecting a path succeeds, it leads from its origin's writer through all its filters to the reader of its
destination. -/
theorem connected_path_leads {s t : St} {e : Env} {p : Path} (h : Hist mr mw s) (hf : Fit e p) (hc : connectPath e s p = .ok (t, true)) :
    Leads t p.org p.orgW p.mid p.dst p.dstR := by
  obtain ⟨t', b, h1, _, _, h4⟩ := path_ok hf (hist_good h)
  rw [h1] at hc
  cases hc
  exact h4 rfl

/-- **C95.** Whether it succeeds or not, connecting a path cuts nobody off, and joins none but filters that follow each other on
the path, the destination under its reader. -/
theorem connecting_changes_only_the_path {s t : St} {e : Env} {p : Path} {b : Bool} (h : Hist mr mw s) (hf : Fit e p)
    (hc : connectPath e s p = .ok (t, b)) :
    (∀ u w v r, Joined s u w v r → Joined t u w v r) ∧
      ∀ u w v r, Joined t u w v r → Joined s u w v r ∨ Next (p.org :: p.mid ++ [p.dst]) u v ∧ (v = p.dst → r = p.dstR) := by
  obtain ⟨t', b, h1, _, h3, _⟩ := path_ok hf (hist_good h)
  rw [h1] at hc
  cases hc
  exact h3

/-- **C95.** A path can be connected when its own filters have no connections, its destination has room, its hooks agree, and it begins
at a writer that is free or connected already but not to the path's first filter. -/
theorem free_path_is_connected {s : St} {e : Env} {p : Path} (h : Hist mr mw s) (hf : Fit e p) (hy : ∀ a b, e.hook a b = ⟨true, true, true⟩)
    (hm : ∀ m ∈ p.mid, Bare s m) (hd : Takes s p.dst p.dstR) (hb : Begins s p.org p.orgW (p.mid.headD p.dst)) :
    ∃ t, connectPath e s p = .ok (t, true) := path_free hf hy (hist_good h) hm hd hb

/-- **C95.** When deleting a path succeeds, its filters, and its ends if they go with it, have no readers and writers left, the
destination's reader is gone, and otherwise the same filters are joined as before. -/
theorem deleted_path_is_gone {s t : St} {d : Nat → Bool} {x y : Bool} {p : Path} (h : Hist mr mw s) (hc : deletePath d x y s p = .ok (t, true)) :
    (∀ e, e ∈ t.rs ↔ e ∈ s.rs ∧ ¬ Doomed p x y e.f ∧ ¬ (e.f = p.dst ∧ e.id = p.dstR)) ∧
    (∀ e, e ∈ t.ws ↔ e ∈ s.ws ∧ ¬ Doomed p x y e.f) ∧
    ∀ u w v r, Joined t u w v r ↔ Joined s u w v r ∧ ¬ Doomed p x y u ∧ ¬ Doomed p x y v ∧ ¬ (v = p.dst ∧ r = p.dstR) := by
  obtain ⟨t', b, h1, _, h3, _⟩ := delete_ok d x y (hist_good h) p
  rw [h1] at hc
  cases hc
  have c := h3 rfl
  refine ⟨fun e => (c.rs e).trans ?_, c.ws, fun u w v r => ⟨fun hj => ?_, fun ⟨hj, a1, a2, a3⟩ => c.keep _ _ _ _ hj a1 fun hh => hh.elim a3 a2⟩⟩
  · exact ⟨fun ⟨a, b⟩ => ⟨a, fun hh => b (.inr hh), fun hh => b (.inl hh)⟩, fun ⟨a, b, c⟩ => ⟨a, fun hh => hh.elim c b⟩⟩
  · obtain ⟨q, o, j1, _, j3, _⟩ := id hj
    have k1 := ((c.ws _).1 j1).2
    have k2 := ((c.rs _).1 j3).2
    exact ⟨c.back _ _ _ _ hj, k1, fun hh => k2 (.inr hh), fun hh => k2 (.inl hh)⟩

/-- **C95.** Deleting a path fails only when the destination refuses to let its reader go; the reader is gone all the same, and
nothing else. -/
theorem refused_deletion_cuts_the_end {s t : St} {d : Nat → Bool} {x y : Bool} {p : Path} (h : Hist mr mw s) (hc : deletePath d x y s p = .ok (t, false)) :
    d p.dst = false ∧ (∀ e, e ∈ t.rs ↔ e ∈ s.rs ∧ ¬ (e.f = p.dst ∧ e.id = p.dstR)) ∧ (∀ e, e ∈ t.ws ↔ e ∈ s.ws) ∧
    ∀ u w v r, Joined t u w v r ↔ Joined s u w v r ∧ ¬ (v = p.dst ∧ r = p.dstR) := by
  obtain ⟨t', b, h1, _, _, h3⟩ := delete_ok d x y (hist_good h) p
  rw [h1] at hc
  cases hc
  obtain ⟨a, _, c⟩ := h3 rfl
  refine ⟨a, c.rs, fun e => (c.ws e).trans (by simp), fun u w v r => ⟨fun hj => ⟨c.back _ _ _ _ hj, ?_⟩, fun ⟨hj, a1⟩ => c.keep _ _ _ _ hj id a1⟩⟩
  obtain ⟨q, o, _, _, j3, _⟩ := hj
  exact ((c.rs _).1 j3).2

/-- **C95.** A path connected and deleted again leaves all connections of others as they were before it came. -/
theorem path_comes_and_goes {s t x : St} {e : Env} {p : Path} {b : Bool} {d : Nat → Bool} (h : Hist mr mw s) (hf : Fit e p) (hm : ∀ m ∈ p.mid, Bare s m)
    (hc : connectPath e s p = .ok (t, b)) (hd : deletePath d false false t p = .ok (x, true)) {u v : Nat} {w r : Int} (hn : ¬ (v = p.dst ∧ r = p.dstR)) :
    Joined x u w v r ↔ Joined s u w v r := by
  have hdel := (deleted_path_is_gone (.connect h hf hc) hd).2.2 u w v r
  obtain ⟨a1, a2⟩ := connecting_changes_only_the_path h hf hc
  have hdm : ∀ f, Doomed p false false f → f ∈ p.mid := fun f hh => by simpa [Doomed] using hh
  rw [hdel]
  constructor
  · rintro ⟨c1, k1, k2, _⟩
    have m1 : u ∉ p.mid := fun hh => k1 (.inl hh)
    have m2 : v ∉ p.mid := fun hh => k2 (.inl hh)
    rcases a2 u w v r c1 with hs | ⟨⟨a, b, hab⟩, hr⟩
    · exact hs
    · exfalso
      have hv : v ∈ p.mid ++ [p.dst] := by
        cases a with
        | nil =>
          simp only [List.nil_append, List.cons_append, List.cons.injEq] at hab
          rw [hab.2]
          exact List.mem_cons_self
        | cons z a =>
          simp only [List.cons_append, List.cons.injEq] at hab
          rw [hab.2]
          simp
      rcases List.mem_append.1 hv with hv | hv
      · exact m2 hv
      · rw [List.mem_singleton] at hv
        exact hn ⟨hv, hr hv⟩
  · intro hs
    refine ⟨a1 _ _ _ _ hs, fun hh => ?_, fun hh => ?_, hn⟩
    · obtain ⟨q, o, j1, _⟩ := hs
      exact (hm u (hdm u hh)).ws _ j1 rfl
    · obtain ⟨q, o, _, _, j3, _⟩ := hs
      exact (hm v (hdm v hh)).rs _ j3 rfl

/-- **C95.** A filter of the path may be where another path begins: when the path is deleted the other is cut all the same. -/
theorem deleted_filter_is_cut_from_others {s t : St} {d : Nat → Bool} {x y : Bool} {p : Path} (h : Hist mr mw s) (hc : deletePath d x y s p = .ok (t, true))
    {m : Nat} (hm : m ∈ p.mid) : ∀ u w v r, Joined t u w v r → u ≠ m ∧ v ≠ m := by
  intro u w v r hj
  obtain ⟨_, k1, k2, _⟩ := ((deleted_path_is_gone h hc).2.2 u w v r).1 hj
  exact ⟨fun hh => k1 (.inl (hh ▸ hm)), fun hh => k2 (.inl (hh ▸ hm))⟩

end Lms.Paths
