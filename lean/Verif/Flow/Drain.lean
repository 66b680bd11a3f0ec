import Verif.Flow.Props

/-! C88: a run processes a frame, and a silent source lets the path drain. -/

namespace Lms.Flow

open Pool (P)
open FrameQueue (Ring)

variable {σ α : Type}

theorem pool_other {p p' : P} {op : Pool.Op} {o : Pool.Out} {w w' : Nat} (hne : w ≠ w')
    (hop : (∃ n, op = .pick w' n) ∨ (∃ t, op = .done w' t) ∨ (∃ i b, op = .post w' i b) ∨ ∃ k, op = .add k)
    (h : p.step op = .ok (p', o)) : p'.ph w = p.ph w := by
  have hpick : ∀ n, p.step (.pick w' n) = .ok (p', o) → p'.ph w = p.ph w := by
    intro n h
    simp only [P.step] at h
    split at h
    · simp at h; rw [← h.1]
    · split at h
      · rcases hp : p.pick w' n with ⟨s1, o1⟩ | _ | _
        · rw [hp] at h
          simp at h
          rw [← h.1]
          rcases Pool.pick_ok hp with ⟨rfl, rfl, _⟩ | ⟨x, a, l, rfl, _, _, _, _, rfl⟩
          · rfl
          · simp only [Pool.set_ne _ _ hne]
        · rw [hp] at h; simp at h
        · rw [hp] at h; simp at h
      · simp at h; rw [← h.1]
  rcases hop with ⟨n, rfl⟩ | ⟨t, rfl⟩ | ⟨i, b, rfl⟩ | ⟨k, rfl⟩
  · exact hpick n h
  · simp only [P.step] at h
    (repeat' split at h) <;> simp at h <;> rw [← h.1]
    simp only [Pool.set_ne _ _ hne]
  · simp only [P.step] at h
    split at h
    · split at h
      · simp at h
      · rename_i x _ _
        rcases hp : p.pushAll (if b = true then i ++ [p.ident x] else i) with s1 | _ | _
        · rw [hp] at h
          simp at h
          rw [← h.1]
          obtain ⟨q, hq⟩ := Pool.pushAll_ok _ _ _ hp
          subst hq
          simp only [Pool.set_ne _ _ hne]
        · rw [hp] at h; simp at h
        · rw [hp] at h; simp at h
    · simp at h; rw [← h.1]
  · simp only [P.step] at h
    (repeat' split at h) <;> simp at h <;> rw [← h.1]

theorem onPool_ok {s s' : S σ α} {op : Pool.Op} {f : P → Pool.Out → S σ α} {o : Out α}
    (h : s.onPool op f = .ok (s', o)) : ∃ p po, s.pool.step op = .ok (p, po) ∧ s' = f p po ∧ o = .quiet := by
  unfold S.onPool at h
  cases hp : s.pool.step op with
  | ok r =>
    rw [hp] at h
    simp at h
    exact ⟨r.1, r.2, rfl, h.1.symm, h.2.symm⟩
  | ub => rw [hp] at h; simp at h
  | hang => rw [hp] at h; simp at h

theorem commit_ok {s s' : S σ α} {w k : Nat} {a b : Option Nat} {x y : Option α} {o : Out α}
    (h : s.commit w k a b x y = .ok (s', o)) :
    s'.pool = s.pool ∧ (∃ en, s'.act = Pool.set s.act w (.worked a en)) ∧
      (∃ y', o = .ran k x y' ∧ (y = none → y' = none)) ∧ ∀ j, (s.ring j).lost = (s'.ring j).lost := by
  unfold S.commit at h
  split at h
  · rename_i i v
    cases hr : ((s.ring k).write i v).addFrame with
    | ok r =>
      rw [hr] at h
      simp at h
      rw [← h.1, ← h.2]
      refine ⟨rfl, ⟨_, rfl⟩, ⟨_, rfl, by simp⟩, ?_⟩
      intro j
      by_cases e : j = k
      · subst e
        simp only [set_eq]
        unfold Ring.addFrame at hr
        (repeat' split at hr) <;> simp at hr <;> rw [← hr] <;> rfl
      · simp only [Pool.set_ne _ _ e]
    | ub => rw [hr] at h; simp at h
    | hang => rw [hr] at h; simp at h
  · simp at h
    rw [← h.1, ← h.2]
    exact ⟨rfl, ⟨_, rfl⟩, ⟨none, rfl, fun _ => rfl⟩, fun _ => rfl⟩

theorem work_ok {c : Chain σ α} {s s' : S σ α} {w k : Nat} {a b : Option Nat} {x : Option α} {o : Out α}
    (h : s.work c w k a b x = .ok (s', o)) :
    s'.pool = s.pool ∧ (∃ en, s'.act = Pool.set s.act w (.worked a en)) ∧
      (∃ v y, o = .ran k v y ∧ (k = 0 → x = none → y = none) ∧ (0 < k → v ≠ none)) ∧
      ∀ j, (s.ring j).lost = (s'.ring j).lost := by
  unfold S.work at h
  split at h
  · obtain ⟨h1, h2, ⟨y, h3, h4⟩, h5⟩ := commit_ok h
    exact ⟨h1, h2, ⟨none, y, h3, fun _ => h4, by omega⟩, h5⟩
  · obtain ⟨h1, h2, ⟨y, h3, h4⟩, h5⟩ := commit_ok h
    exact ⟨h1, h2, ⟨_, y, h3, by omega, by simp⟩, h5⟩
  · simp at h

/-- Another worker's steps leave a worker where it is. -/
theorem other_keeps {c : Chain σ α} {s s' : S σ α} {op : Op α} {o : Out α} {w : Nat}
    (h : s.step c op = .ok (s', o)) (hw : op.by ≠ some w) :
    s'.pool.ph w = s.pool.ph w ∧ s'.act w = s.act w := by
  have hne : ∀ w', op.by = some w' → w ≠ w' := by rintro w' h1 rfl; exact hw h1
  cases op with
  | add k =>
    simp only [S.step] at h
    split at h
    · simp at h; rw [← h.1]; exact ⟨rfl, rfl⟩
    · obtain ⟨p, po, h1, rfl, _⟩ := onPool_ok h
      exact ⟨pool_other (w' := w + 1) (by omega) (Or.inr (Or.inr (Or.inr ⟨k, rfl⟩))) h1, rfl⟩
  | pick w' n =>
    have e := hne w' rfl
    simp only [S.step] at h
    obtain ⟨p, po, h1, rfl, _⟩ := onPool_ok h
    have := pool_other e (Or.inl ⟨n, rfl⟩) h1
    split
    · exact ⟨this, Pool.set_ne _ _ e⟩
    · exact ⟨this, rfl⟩
  | look w' =>
    have e := hne w' rfl
    simp only [S.step] at h
    split at h
    · simp at h
      rw [← h.1]
      unfold S.look
      (repeat' split) <;> exact ⟨rfl, Pool.set_ne _ _ e⟩
    · simp at h; rw [← h.1]; exact ⟨rfl, rfl⟩
  | slot w' =>
    have e := hne w' rfl
    simp only [S.step] at h
    split at h
    · unfold S.slot at h
      split at h
      · simp at h; rw [← h.1]; exact ⟨rfl, Pool.set_ne _ _ e⟩
      · rename_i k _ _ _ _
        cases hr : (s.ring k).writerSlot true with
        | ok r => rw [hr] at h; simp at h; rw [← h.1]; exact ⟨rfl, Pool.set_ne _ _ e⟩
        | ub => rw [hr] at h; simp at h
        | hang => rw [hr] at h; simp at h
    · simp at h; rw [← h.1]; exact ⟨rfl, rfl⟩
  | work w' x =>
    have e := hne w' rfl
    simp only [S.step] at h
    split at h
    · obtain ⟨h1, ⟨en, h2⟩, _⟩ := work_ok h
      rw [h1, h2]
      exact ⟨rfl, Pool.set_ne _ _ e⟩
    · simp at h; rw [← h.1]; exact ⟨rfl, rfl⟩
  | drop w' =>
    have e := hne w' rfl
    simp only [S.step] at h
    split at h
    · unfold S.drop at h
      split at h
      · simp at h; rw [← h.1]; exact ⟨rfl, Pool.set_ne _ _ e⟩
      · rename_i j _
        cases hr : (s.ring j).removeFrame with
        | ok r => rw [hr] at h; simp at h; rw [← h.1]; exact ⟨rfl, Pool.set_ne _ _ e⟩
        | ub => rw [hr] at h; simp at h
        | hang => rw [hr] at h; simp at h
    · simp at h; rw [← h.1]; exact ⟨rfl, rfl⟩
  | done w' t =>
    have e := hne w' rfl
    simp only [S.step] at h
    split at h
    · obtain ⟨p, po, h1, rfl, _⟩ := onPool_ok h
      exact ⟨pool_other e (Or.inr (Or.inl ⟨t, rfl⟩)) h1, rfl⟩
    · simp at h; rw [← h.1]; exact ⟨rfl, rfl⟩
  | post w' =>
    have e := hne w' rfl
    simp only [S.step] at h
    split at h
    · obtain ⟨p, po, h1, rfl, _⟩ := onPool_ok h
      exact ⟨pool_other e (Or.inr (Or.inr (Or.inl ⟨_, _, rfl⟩))) h1, Pool.set_ne _ _ e⟩
    · simp at h; rw [← h.1]; exact ⟨rfl, rfl⟩

/-- Who produces an output, and what a silent source produces. -/
theorem step_out {c : Chain σ α} {s s' : S σ α} {op : Op α} {k : Nat} {x y : Option α}
    (h : s.step c op = .ok (s', .ran k x y)) :
    ∃ w v, op = .work w v ∧ s.pool.ph w = .run k ∧ (k = 0 → v = none → y = none) ∧ (0 < k → x ≠ none) := by
  cases op with
  | add k =>
    simp only [S.step] at h
    split at h
    · simp at h
    · obtain ⟨p, po, _, _, h2⟩ := onPool_ok h; cases h2
  | pick w' n =>
    simp only [S.step] at h
    obtain ⟨p, po, _, _, h2⟩ := onPool_ok h; cases h2
  | look w' =>
    simp only [S.step] at h
    split at h <;> simp at h
  | slot w' =>
    simp only [S.step] at h
    split at h
    · unfold S.slot at h
      split at h
      · simp at h
      · rename_i k _ _ _ _
        cases hr : (s.ring k).writerSlot true with
        | ok r => rw [hr] at h; simp at h
        | ub => rw [hr] at h; simp at h
        | hang => rw [hr] at h; simp at h
    · simp at h
  | work w' v =>
    simp only [S.step] at h
    split at h
    · rename_i hph _
      obtain ⟨_, _, ⟨v', y', h1, h2, h3⟩, _⟩ := work_ok h
      injection h1 with e1 e2 e3
      subst e1; subst e2; subst e3
      exact ⟨w', v, rfl, hph, h2, h3⟩
    · simp at h
  | drop w' =>
    simp only [S.step] at h
    split at h
    · unfold S.drop at h
      split at h
      · simp at h
      · rename_i j _
        cases hr : (s.ring j).removeFrame with
        | ok r => rw [hr] at h; simp at h
        | ub => rw [hr] at h; simp at h
        | hang => rw [hr] at h; simp at h
    · simp at h
  | done w' t =>
    simp only [S.step] at h
    split at h
    · obtain ⟨p, po, _, _, h2⟩ := onPool_ok h; cases h2
    · simp at h
  | post w' =>
    simp only [S.step] at h
    split at h
    · obtain ⟨p, po, _, _, h2⟩ := onPool_ok h; cases h2
    · simp at h

theorem run_out {c : Chain σ α} (ops : List (Op α)) : ∀ {s s' : S σ α} {outs : List (Out α)} {k : Nat}
    {x y : Option α}, runOps (S.step c) s ops = .ok (s', outs) → Out.ran k x y ∈ outs → (0 < k → x ≠ none) ∧
      (Silent ops → k = 0 → y = none) := by
  induction ops with
  | nil => intro s s' outs k x y h hm; simp [runOps] at h; rw [h.2] at hm; cases hm
  | cons op ops ih =>
    intro s s' outs k x y h hm
    obtain ⟨s1, o, os, h1, h2, rfl⟩ := runOps_cons_ok h
    rcases List.mem_cons.1 hm with e | hm
    · subst e
      obtain ⟨w, v, rfl, _, h3, h4⟩ := step_out h1
      exact ⟨h4, fun hs hk => h3 hk (hs w v (by simp))⟩
    · obtain ⟨g1, g2⟩ := ih h2 hm
      exact ⟨g1, fun hs => g2 fun w x hx => hs w x (List.mem_cons_of_mem _ hx)⟩

theorem made_silent (k : Nat) (outs : List (Out α)) (h : ∀ x y, Out.ran k x y ∈ outs → y = none) :
    made k outs = [] := by
  induction outs with
  | nil => rfl
  | cons o os ih =>
    have ih := ih fun x y hm => h x y (List.mem_cons_of_mem _ hm)
    rcases o with _ | ⟨k', x, _ | y⟩
    · simpa [made] using ih
    · simpa [made] using ih
    · simp only [made]
      split
      · rename_i e
        subst e
        have := h x (some y) (by simp)
        cases this
      · exact ih

theorem made_le_seen (k : Nat) (outs : List (Out α)) (h : ∀ x y, Out.ran k x y ∈ outs → x ≠ none) :
    (made k outs).length ≤ (seen k outs).length := by
  induction outs with
  | nil => simp [made, seen]
  | cons o os ih =>
    have ih := ih fun x y hm => h x y (List.mem_cons_of_mem _ hm)
    rcases o with _ | ⟨k', _ | x, _ | y⟩
    · simpa [made, seen] using ih
    · simpa [made, seen] using ih
    · by_cases e : k' = k
      · subst e; exact absurd rfl (h none (some y) (by simp))
      · simpa [made, seen, e] using ih
    · by_cases e : k' = k
      · simp only [made, seen, e, if_true, List.length_cons]; omega
      · simpa [made, seen, e] using ih
    · by_cases e : k' = k
      · simp only [made, seen, e, if_true, List.length_cons]; omega
      · simpa [made, seen, e] using ih

/-- The loss counters never go down. -/
theorem lost_mono {c : Chain σ α} {m0 : Nat → σ} {s s' : S σ α} {g : Ghost α} {outs : List (Out α)}
    (hi : Inv c m0 s g outs) {op : Op α} {o : Out α} (h : s.step c op = .ok (s', o)) (j : Nat) :
    (s.ring j).lost ≤ (s'.ring j).lost := by
  cases op with
  | add k =>
    simp only [S.step] at h
    split at h
    · simp at h; rw [← h.1]; exact Nat.le_refl _
    · obtain ⟨p, po, _, rfl, _⟩ := onPool_ok h; exact Nat.le_refl _
  | pick w' n =>
    simp only [S.step] at h
    obtain ⟨p, po, _, rfl, _⟩ := onPool_ok h
    split <;> exact Nat.le_refl _
  | look w' =>
    simp only [S.step] at h
    split at h
    · simp at h
      rw [← h.1]
      unfold S.look
      (repeat' split) <;> exact Nat.le_refl _
    · simp at h; rw [← h.1]; exact Nat.le_refl _
  | slot w' =>
    simp only [S.step] at h
    split at h
    · unfold S.slot at h
      split at h
      · simp at h; rw [← h.1]; exact Nat.le_refl _
      · rename_i k _ _ _ _
        have hrel := (hi.ring k).1
        obtain ⟨r', hr', hrel', _⟩ := hrel.writerSlot_true
        rw [hr'] at h
        simp at h
        rw [← h.1]
        by_cases e : j = k
        · subst e
          simp only [set_eq]
          rw [hrel.hlost, hrel'.hlost]
          unfold FrameQueue.Spec.makeRoom
          split
          · exact Nat.le_refl _
          · simp
        · simp only [Pool.set_ne _ _ e]; exact Nat.le_refl _
    · simp at h; rw [← h.1]; exact Nat.le_refl _
  | work w' v =>
    simp only [S.step] at h
    split at h
    · obtain ⟨_, _, _, h4⟩ := work_ok h
      rw [h4 j]; exact Nat.le_refl _
    · simp at h; rw [← h.1]; exact Nat.le_refl _
  | drop w' =>
    simp only [S.step] at h
    split at h
    · unfold S.drop at h
      split at h
      · simp at h; rw [← h.1]; exact Nat.le_refl _
      · rename_i i _
        cases hr : (s.ring i).removeFrame with
        | ok r =>
          rw [hr] at h; simp at h; rw [← h.1]
          by_cases e : j = i
          · subst e
            simp only [set_eq]
            unfold Ring.removeFrame at hr
            (repeat' split at hr) <;> simp at hr <;> rw [← hr] <;> exact Nat.le_refl _
          · simp only [Pool.set_ne _ _ e]; exact Nat.le_refl _
        | ub => rw [hr] at h; simp at h
        | hang => rw [hr] at h; simp at h
    · simp at h; rw [← h.1]; exact Nat.le_refl _
  | done w' t =>
    simp only [S.step] at h
    split at h
    · obtain ⟨p, po, _, rfl, _⟩ := onPool_ok h; exact Nat.le_refl _
    · simp at h; rw [← h.1]; exact Nat.le_refl _
  | post w' =>
    simp only [S.step] at h
    split at h
    · obtain ⟨p, po, _, rfl, _⟩ := onPool_ok h; exact Nat.le_refl _
    · simp at h; rw [← h.1]; exact Nat.le_refl _

theorem run_inv' {c : Chain σ α} {m0 : Nat → σ} (ops : List (Op α)) :
    ∀ {s s' : S σ α} {g : Ghost α} {outs os : List (Out α)}, Inv c m0 s g outs →
    runOps (S.step c) s ops = .ok (s', os) →
    (∃ g', Inv c m0 s' g' (outs ++ os)) ∧ ∀ j, (s.ring j).lost ≤ (s'.ring j).lost := by
  induction ops with
  | nil =>
    intro s s' g outs os h hr
    simp [runOps] at hr
    rw [← hr.1, hr.2]
    exact ⟨⟨g, by simpa using h⟩, fun _ => Nat.le_refl _⟩
  | cons op ops ih =>
    intro s s' g outs os h hr
    obtain ⟨s1, o, os', h1, h2, rfl⟩ := runOps_cons_ok hr
    obtain ⟨s2, o2, g2, h3, h4⟩ := step_inv h op
    rw [h1] at h3
    injection h3 with h3
    injection h3 with e1 e2
    subst e1; subst e2
    obtain ⟨⟨g', h5⟩, h6⟩ := ih h4 h2
    exact ⟨⟨g', by simpa using h5⟩, fun j => Nat.le_trans (lost_mono h h1 j) (h6 j)⟩

/-- **C88.** When the source falls silent the path drains: however long it goes on, a filter processes
from then on at most as many frames as were waiting before it. -/
theorem silent_path_drains (c : Chain σ α) (size : Nat → Nat) (hs : ∀ k, 3 ≤ size k)
    (d : Nat → Nat → α) (m : Nat → σ) (time : Nat → Nat) (ops ops' : List (Op α)) (s s' : S σ α)
    (outs outs' : List (Out α)) (hr : runOps (S.step c) (S.init size d m time) ops = .ok (s, outs))
    (hr' : runOps (S.step c) s ops' = .ok (s', outs')) (hsil : Silent ops') :
    ∀ k, k < c.last → (seen (k + 1) outs').length ≤ waitingBefore s (k + 1) := by
  obtain ⟨g0, h0⟩ := init_inv c size hs d m time
  obtain ⟨⟨g, h⟩, _⟩ := run_inv' ops h0 hr
  rw [List.nil_append] at h
  obtain ⟨⟨g', h'⟩, hl⟩ := run_inv' ops' h hr'
  have hop : ∀ k, k < c.last → (seen (k + 1) outs').length ≤ (made k outs').length + (s.ring k).getElements := by
    intro k hk
    have e1 := (h.hist k hk).2
    have e2 := (h'.hist k hk).2
    have e3 := hl k
    rw [(h.ring k).1.hlost, (h'.ring k).1.hlost] at e3
    rw [seen_append, made_append] at e2
    simp only [List.length_append] at e1 e2
    have e4 : (g.rest k).length ≤ (s.ring k).getElements := by
      rw [(h.ring k).1.getElements_eq]
      unfold Ghost.rest
      split
      · rw [List.length_tail]; omega
      · exact Nat.le_refl _
    omega
  intro k
  induction k with
  | zero =>
    intro hk
    have e := hop 0 hk
    rw [made_silent 0 outs' (fun x y hm => (run_out ops' hr' hm).2 hsil rfl)] at e
    simpa [waitingBefore] using e
  | succ k ih =>
    intro hk
    have e := hop (k + 1) hk
    have e2 := made_le_seen (k + 1) outs' (fun x y hm => (run_out ops' hr' hm).1 (by omega))
    have e3 := ih (by omega)
    simp only [waitingBefore] at e3 ⊢
    omega

theorem others_keep {c : Chain σ α} {m0 : Nat → σ} (ops : List (Op α)) :
    ∀ {s : S σ α} {g : Ghost α} {outs : List (Out α)} {w k : Nat}, Inv c m0 s g outs →
    (∀ op ∈ ops, op.by ≠ some w) → s.pool.ph w = .run k →
    ∃ s' os g', runOps (S.step c) s ops = .ok (s', os) ∧ Inv c m0 s' g' (outs ++ os) ∧
      s'.pool.ph w = .run k ∧ s'.act w = s.act w ∧ seen k os = [] := by
  induction ops with
  | nil =>
    intro s g outs w k h _ hp
    exact ⟨s, [], g, rfl, by simpa using h, hp, rfl, rfl⟩
  | cons op ops ih =>
    intro s g outs w k h hw hp
    obtain ⟨s1, o, g1, h1, h2⟩ := step_inv h op
    obtain ⟨k1, k2⟩ := other_keeps h1 (hw op (by simp))
    obtain ⟨s2, os, g2, h3, h4, h5, h6, h7⟩ := ih h2 (fun op' hm => hw op' (List.mem_cons_of_mem _ hm)) (k1.trans hp)
    refine ⟨s2, o :: os, g2, by simp [runOps, h1, h3], by simpa using h4, h5, h6.trans k2, ?_⟩
    rcases o with _ | ⟨k', _ | x, y⟩
    · exact h7
    · exact h7
    · have hne : k' ≠ k := by
        rintro rfl
        obtain ⟨w', v, rfl, hw', _⟩ := step_out h1
        have := h.pinv.excl _ _ _ hw' hp
        subst this
        exact hw (.work w' v) (by simp) rfl
      simp only [seen, if_neg hne]
      exact h7

/-- **C88.** A worker that finds a frame before its filter processes exactly one, whatever the other
workers do meanwhile. -/
theorem run_processes_one_frame (c : Chain σ α) (size : Nat → Nat) (hs : ∀ k, 3 ≤ size k)
    (d : Nat → Nat → α) (m : Nat → σ) (time : Nat → Nat) (ops o1 o2 : List (Op α)) (s : S σ α)
    (outs : List (Out α)) (hr : runOps (S.step c) (S.init size d m time) ops = .ok (s, outs))
    (w k : Nat) (x : Option α) (hp : s.pool.ph w = .run (k + 1)) (ha : s.act w = .start)
    (hq : 0 < (s.ring k).getElements) (h1 : ∀ op ∈ o1, op.by ≠ some w) (h2 : ∀ op ∈ o2, op.by ≠ some w) :
    ∃ s' os, runOps (S.step c) s (.look w :: o1 ++ .slot w :: o2 ++ [.work w x]) = .ok (s', os) ∧
      (seen (k + 1) os).length = 1 := by
  obtain ⟨g0, h0⟩ := init_inv c size hs d m time
  obtain ⟨⟨g, h⟩, _⟩ := run_inv' ops h0 hr
  rw [(h.ring k).1.getElements_eq] at hq
  have hne := List.length_pos_iff.1 hq
  -- look
  have hfr : (s.ring k).getFront = some (s.ring k).front := by
    unfold Ring.getFront
    rw [if_neg fun e => hne ((h.ring k).1.empty_iff.1 e)]
  have hlook : s.step c (.look w) =
      .ok ({ s with act := Pool.set s.act w (.origin (some (s.ring k).front)) }, .quiet) := by
    simp only [S.step, hp, ha, S.look, hfr]
  obtain ⟨sa, oa, ga, ea, ia⟩ := step_inv h (.look w)
  rw [hlook] at ea
  injection ea with ea
  injection ea with ea1 ea2
  subst ea2
  have pa : sa.pool.ph w = .run (k + 1) := by rw [← ea1]; exact hp
  have aa : sa.act w = .origin (some (s.ring k).front) := by rw [← ea1]; exact set_eq _ _ _
  rw [ea1] at hlook
  obtain ⟨sb, ob, gb, eb, ib, pb, ab, nb⟩ := others_keep o1 ia h1 pa
  rw [aa] at ab
  -- slot
  obtain ⟨sc, oc, gc, ec, ic⟩ := step_inv ib (.slot w)
  have hc : (∃ dd, sc.act w = .both (some (s.ring k).front) dd) ∧ sc.pool.ph w = .run (k + 1) ∧ oc = .quiet := by
    have ec' := ec
    simp only [S.step, pb, ab, S.slot] at ec'
    split at ec'
    · simp at ec'
      rw [← ec'.1, ← ec'.2]
      exact ⟨⟨_, set_eq _ _ _⟩, pb, rfl⟩
    · cases hw : (sb.ring (k + 1)).writerSlot true with
      | ok r =>
        rw [hw] at ec'; simp at ec'
        rw [← ec'.1, ← ec'.2]
        exact ⟨⟨_, set_eq _ _ _⟩, pb, rfl⟩
      | ub => rw [hw] at ec'; simp at ec'
      | hang => rw [hw] at ec'; simp at ec'
  obtain ⟨⟨dd, ac⟩, pc, rfl⟩ := hc
  obtain ⟨sd, od, gd, ed, id, pd, ad, nd⟩ := others_keep o2 ic h2 pc
  rw [ac] at ad
  -- work
  obtain ⟨se, oe, ge, ee, ie⟩ := step_inv id (.work w x)
  have hwk : ∃ v y, oe = .ran (k + 1) (some v) y := by
    have ee' := ee
    simp only [S.step, pd, ad] at ee'
    obtain ⟨_, _, ⟨v, y, h3, _, h4⟩, _⟩ := work_ok ee'
    have := h4 (by omega)
    rcases v with _ | v
    · exact absurd rfl this
    · exact ⟨v, y, h3⟩
  obtain ⟨v, y, rfl⟩ := hwk
  refine ⟨se, .quiet :: ob ++ .quiet :: od ++ [.ran (k + 1) (some v) y], ?_, ?_⟩
  · rw [List.append_assoc, runOps_append]
    simp only [List.cons_append, runOps, hlook, Outcome.bind_ok, eb, ec]
    rw [runOps_append, ed]
    simp only [Outcome.bind_ok, runOps, ee]
    simp
  · simp [seen_append, seen, nb, nd]

end Lms.Flow
