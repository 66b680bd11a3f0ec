import Verif.Net.Round

/-! C89: frames of a queue are handled by the filters that read it only, and committed to it by the one that
writes it only. -/

namespace Lms.Net

variable {α : Type}

theorem ofQueue_mem (s : S α) {q : Nat} {got : List (Nat × Nat)} (h : ofQueue q (s.frames got) ≠ []) :
    q ∈ got.map Prod.fst := by
  obtain ⟨x, hx⟩ := List.exists_mem_of_ne_nil _ h
  unfold ofQueue S.frames at hx
  obtain ⟨y, hy, _⟩ := List.mem_map.1 hx
  obtain ⟨h1, h2⟩ := List.mem_filter.1 hy
  obtain ⟨z, hz, rfl⟩ := List.mem_map.1 h1
  have : z.1 = q := by simpa using h2
  exact List.mem_map.2 ⟨z, hz, this⟩

theorem inner_ends {g : Graph} {s s' : S α} {gh : Ghost α} {w k : Nat} {a : Act α} {op : Op α} {o : Out α}
    (hg : Good g s.rd gh k a) (hs : s.inner g w k a op = .ok (s', o)) :
    (∀ q j, handled q j [o] ≠ [] → q ∈ g.ins j) ∧ ∀ q, made q [o] ≠ [] → q ∈ g.outs k := by
  have quiet : o = .quiet → (∀ q j, handled q j [o] ≠ [] → q ∈ g.ins j) ∧ ∀ q, made q [o] ≠ [] → q ∈ g.outs k := by
    rintro rfl; simp [handled, made]
  have gives : ∀ got : List (Nat × Nat), (∀ q ∈ got.map Prod.fst, q ∈ a.held) →
      (o = .ran k (s.frames got) ∨ o = .skipped k (s.frames got)) →
      (∀ q j, handled q j [o] ≠ [] → q ∈ g.ins j) ∧ ∀ q, made q [o] ≠ [] → q ∈ g.outs k := by
    intro got hgot ho
    refine ⟨fun q j hh => ?_, fun q hm => by rcases ho with rfl | rfl <;> simp [made] at hm⟩
    have : k = j ∧ ofQueue q (s.frames got) ≠ [] := by
      rcases ho with rfl | rfl <;>
      · simp only [handled] at hh
        split at hh
        · exact ⟨by assumption, by simpa using hh⟩
        · simp at hh
    obtain ⟨rfl, hne⟩ := this
    exact (hg.held q (hgot q (ofQueue_mem s hne))).1
  unfold S.inner at hs
  split at hs
  · simp at hs; exact quiet hs.2.symm
  · rename_i q' todo got
    cases hr : (s.rd q').getFrame k with
    | ub => rw [hr] at hs; simp at hs
    | hang => rw [hr] at hs; simp at hs
    | ok r =>
    obtain ⟨r, d⟩ := r
    rw [hr] at hs
    simp only [Outcome.bind_ok] at hs
    split at hs <;> (simp at hs; exact quiet hs.2.symm)
  · simp at hs; exact quiet hs.2.symm
  · simp at hs; exact gives _ (fun q hq => hq) (Or.inr hs.2.symm)
  · rename_i q' todo got ds
    cases hr : (s.ring q').writerSlot true with
    | ok r =>
      obtain ⟨r, d⟩ := r
      rw [hr] at hs
      rcases d with _ | d
      · simp at hs
      · simp at hs; exact quiet hs.2.symm
    | ub => rw [hr] at hs; simp at hs
    | hang => rw [hr] at hs; simp at hs
  · simp at hs; exact gives _ (fun q hq => hq) (Or.inl hs.2.symm)
  · rename_i q' i v todo got en
    cases hr : ((s.ring q').write i v).addFrame with
    | ok r =>
      rw [hr] at hs
      simp at hs
      rw [← hs.2]
      refine ⟨by simp [handled], fun q hm => ?_⟩
      simp only [made] at hm
      split at hm
      · rename_i e
        subst e
        exact (hg.dst (q', i) (by simp [Act.dests])).1
      · simp at hm
    | ub => rw [hr] at hs; simp at hs
    | hang => rw [hr] at hs; simp at hs
  · simp at hs; exact quiet hs.2.symm
  · rename_i q' todo en
    cases hr : (s.rd q').removeFrame k with
    | ok r => rw [hr] at hs; simp at hs; exact quiet hs.2.symm
    | ub => rw [hr] at hs; simp at hs
    | hang => rw [hr] at hs; simp at hs
  · simp at hs; exact quiet hs.2.symm

theorem step_ends {L : Nat → Nat → Prop} {g : Graph} {s s' : S α} {gh : Ghost α} {outs : List (Out α)} {op : Op α} {o : Out α}
    (h : InvL L g s gh outs) (hs : s.step g op = .ok (s', o)) :
    (∀ q j, handled q j [o] ≠ [] → q ∈ g.ins j) ∧ ∀ q, made q [o] ≠ [] → ∃ k, q ∈ g.outs k := by
  have quiet : o = .quiet → (∀ q j, handled q j [o] ≠ [] → q ∈ g.ins j) ∧ ∀ q, made q [o] ≠ [] → ∃ k, q ∈ g.outs k := by
    rintro rfl; simp [handled, made]
  cases op with
  | add k =>
    simp only [S.step] at hs
    obtain ⟨_, _, _, _, h1⟩ := onPool_ok hs
    exact quiet h1
  | pick w n =>
    simp only [S.step] at hs
    obtain ⟨_, _, _, _, h1⟩ := onPool_ok hs
    exact quiet h1
  | done w t =>
    simp only [S.step] at hs
    split at hs
    · obtain ⟨_, _, _, _, h1⟩ := onPool_ok hs
      exact quiet h1
    · simp at hs; exact quiet hs.2.symm
  | post w =>
    simp only [S.step] at hs
    split at hs
    · obtain ⟨_, _, _, _, h1⟩ := onPool_ok hs
      exact quiet h1
    · simp at hs; exact quiet hs.2.symm
  | begin w | look w | go w | skip w | slot w | work w | commit w | drop w =>
    simp only [S.step, Op.by] at hs
    split at hs
    · rename_i k hk
      obtain ⟨h1, h2⟩ := inner_ends (h.run w k hk) hs
      exact ⟨h1, fun q hq => ⟨k, h2 q hq⟩⟩
    · simp at hs; exact quiet hs.2.symm

/-- **C89.** Nobody gets frames that are not for it: a filter only ever processes or passes over frames of
queues it reads, and nothing is ever committed to a queue that no filter writes. -/
theorem only_the_ends_take_part (g : Graph) (ok : g.Ok) (size : Nat → Nat) (hs : ∀ q, 3 ≤ size q)
    (d : Nat → Nat → α) (time : Nat → Nat) (ops : List (Op α)) (s : S α)
    (outs : List (Out α)) (hr : runOps (S.step g) (S.init g size d time) ops = .ok (s, outs)) (q : Nat) :
    (∀ k, q ∉ g.ins k → handled q k outs = []) ∧ ((∀ k, q ∉ g.outs k) → made q outs = []) := by
  obtain ⟨g0, h0⟩ := init_inv g ok size hs d time
  have key : ∀ (ops : List (Op α)) {s0 s : S α} {gh : Ghost α} {before outs : List (Out α)}, Inv g s0 gh before →
      runOps (S.step g) s0 ops = .ok (s, outs) →
      (∀ k, q ∉ g.ins k → handled q k outs = []) ∧ ((∀ k, q ∉ g.outs k) → made q outs = []) := by
    intro ops
    induction ops with
    | nil => intro s0 s gh before outs _ hr; simp [runOps] at hr; rw [hr.2]; simp [handled, made]
    | cons op ops ih =>
      intro s0 s gh before outs h hr
      obtain ⟨s1, o, os, h1, h2, rfl⟩ := runOps_cons_ok hr
      obtain ⟨e1, e2⟩ := step_ends h h1
      obtain ⟨s1', o', gh', h3, h4⟩ := step_inv ok h op
      rw [h1] at h3
      cases h3
      obtain ⟨i1, i2⟩ := ih h4 h2
      have happ : ∀ k, handled q k (o :: os) = handled q k [o] ++ handled q k os := by
        intro k; rw [← handled_append]; rfl
      have hmapp : made q (o :: os) = made q [o] ++ made q os := by rw [← made_append]; rfl
      refine ⟨fun k hk => ?_, fun hk => ?_⟩
      · rw [happ, i1 k hk, List.append_nil]
        apply Classical.byContradiction
        exact fun hne => hk (e1 q k hne)
      · rw [hmapp, i2 hk, List.append_nil]
        apply Classical.byContradiction
        intro hne
        obtain ⟨k, hk'⟩ := e2 q hne
        exact hk k hk'
  exact key ops h0 hr

end Lms.Net
