import Verif.Net.Props

/-! C89: a frame found by a round of a filter is dealt with in that round. -/

namespace Lms.Net

open Pool (P)
open FrameQueue (Ring)
open Flow (set_eq pool_other)

variable {α : Type}

theorem onPool_ok {s s' : S α} {op : Pool.Op} {f : P → Pool.Out → S α} {o : Out α}
    (h : s.onPool op f = .ok (s', o)) : ∃ p po, s.pool.step op = .ok (p, po) ∧ s' = f p po ∧ o = .quiet := by
  unfold S.onPool at h
  cases hp : s.pool.step op with
  | ok r =>
    rw [hp] at h
    simp at h
    exact ⟨r.1, r.2, rfl, h.1.symm, h.2.symm⟩
  | ub => rw [hp] at h; simp at h
  | hang => rw [hp] at h; simp at h

/-- What a step inside `processFrame` leaves alone. -/
theorem inner_ok {g : Graph} {s s' : S α} {w k : Nat} {a : Act α} {op : Op α} {o : Out α}
    (h : s.inner g w k a op = .ok (s', o)) : s'.pool = s.pool ∧ (s' = s ∨ ∃ b, s'.act = Pool.set s.act w b) := by
  unfold S.inner at h
  split at h
  · simp at h; rw [← h.1]; exact ⟨rfl, Or.inr ⟨_, rfl⟩⟩
  · rename_i q todo got
    cases hr : (s.rd q).getFrame k with
    | ok r =>
      obtain ⟨r, d⟩ := r
      rw [hr] at h
      simp only [Outcome.bind_ok] at h
      split at h <;> (simp at h; rw [← h.1]; exact ⟨rfl, Or.inr ⟨_, rfl⟩⟩)
    | ub => rw [hr] at h; simp at h
    | hang => rw [hr] at h; simp at h
  · simp at h; rw [← h.1]; exact ⟨rfl, Or.inr ⟨_, rfl⟩⟩
  · simp at h; rw [← h.1]; exact ⟨rfl, Or.inr ⟨_, rfl⟩⟩
  · rename_i q todo got ds
    cases hr : (s.ring q).writerSlot true with
    | ok r =>
      obtain ⟨r, d⟩ := r
      rw [hr] at h
      rcases d with _ | d
      · simp at h
      · simp at h; rw [← h.1]; exact ⟨rfl, Or.inr ⟨_, rfl⟩⟩
    | ub => rw [hr] at h; simp at h
    | hang => rw [hr] at h; simp at h
  · simp at h; rw [← h.1]; exact ⟨rfl, Or.inr ⟨_, rfl⟩⟩
  · rename_i q i v todo got en
    cases hr : ((s.ring q).write i v).addFrame with
    | ok r => rw [hr] at h; simp at h; rw [← h.1]; exact ⟨rfl, Or.inr ⟨_, rfl⟩⟩
    | ub => rw [hr] at h; simp at h
    | hang => rw [hr] at h; simp at h
  · simp at h; rw [← h.1]; exact ⟨rfl, Or.inr ⟨_, rfl⟩⟩
  · rename_i q todo en
    cases hr : (s.rd q).removeFrame k with
    | ok r => rw [hr] at h; simp at h; rw [← h.1]; exact ⟨rfl, Or.inr ⟨_, rfl⟩⟩
    | ub => rw [hr] at h; simp at h
    | hang => rw [hr] at h; simp at h
  · simp at h; rw [← h.1]; exact ⟨rfl, Or.inl rfl⟩

/-- Another worker's steps leave a worker where it is. -/
theorem other_keeps {g : Graph} {s s' : S α} {op : Op α} {o : Out α} {w : Nat}
    (h : s.step g op = .ok (s', o)) (hw : op.by ≠ some w) :
    s'.pool.ph w = s.pool.ph w ∧ s'.act w = s.act w := by
  have hne : ∀ w', op.by = some w' → w ≠ w' := by rintro w' h1 rfl; exact hw h1
  cases op with
  | add k =>
    simp only [S.step] at h
    obtain ⟨p, po, h1, rfl, _⟩ := onPool_ok h
    exact ⟨pool_other (w' := w + 1) (by omega) (Or.inr (Or.inr (Or.inr ⟨k, rfl⟩))) h1, rfl⟩
  | pick w' n =>
    have e := hne w' rfl
    simp only [S.step] at h
    obtain ⟨p, po, h1, rfl, _⟩ := onPool_ok h
    have := pool_other e (Or.inl ⟨n, rfl⟩) h1
    split
    · exact ⟨this, Pool.set_ne _ _ e⟩
    · exact ⟨this, rfl⟩
  | done w' t =>
    have e := hne w' rfl
    simp only [S.step] at h
    split at h
    · obtain ⟨p, po, h1, rfl, _⟩ := onPool_ok h
      exact ⟨pool_other e (Or.inr (Or.inl ⟨t, rfl⟩)) h1, rfl⟩
    · simp at h; rw [← h.1]; exact ⟨rfl, rfl⟩
  | post w' =>
    have e := hne w' rfl
    simp only [S.step] at h
    split at h
    · obtain ⟨p, po, h1, rfl, _⟩ := onPool_ok h
      exact ⟨pool_other e (Or.inr (Or.inr (Or.inl ⟨_, _, rfl⟩))) h1, Pool.set_ne _ _ e⟩
    · simp at h; rw [← h.1]; exact ⟨rfl, rfl⟩
  | begin w' | look w' | go w' | skip w' | slot w' | work w' | commit w' | drop w' =>
    have e := hne w' rfl
    simp only [S.step, Op.by] at h
    split at h
    · obtain ⟨h1, h2 | ⟨b, h2⟩⟩ := inner_ok h
      · rw [h2]; exact ⟨rfl, rfl⟩
      · rw [h1, h2]; exact ⟨rfl, Pool.set_ne _ _ e⟩
    · simp at h; rw [← h.1]; exact ⟨rfl, rfl⟩

theorem ofQueue_ne (s : S α) {q i : Nat} {got : List (Nat × Nat)} (h : (q, i) ∈ got) :
    ofQueue q (s.frames got) ≠ [] := by
  intro hc
  have : (q, (s.ring q).slots i) ∈ (s.frames got).filter (fun x => x.1 == q) := by
    rw [List.mem_filter]
    refine ⟨?_, by simp⟩
    unfold S.frames
    exact List.mem_map.2 ⟨(q, i), h, rfl⟩
  unfold ofQueue at hc
  rw [List.map_eq_nil_iff] at hc
  rw [hc] at this
  simp at this

/-- A worker running filter `k` has a frame of queue `q` in hand and has not dealt with it. -/
def Has (s : S α) (w k q : Nat) : Prop :=
  s.pool.ph w = .run k ∧ ∃ i, (q, i) ∈ (s.act w).origins

theorem has_step {g : Graph} {s s' : S α} {op : Op α} {o : Out α} {w k q : Nat} (h : Has s w k q)
    (hs : s.step g op = .ok (s', o)) : Has s' w k q ∨ handled q k [o] ≠ [] := by
  obtain ⟨hk, i, hi⟩ := h
  have same : s' = s → Has s' w k q ∨ handled q k [o] ≠ [] := by
    rintro rfl; exact Or.inl ⟨hk, i, hi⟩
  by_cases hw : op.by = some w
  · have hinner : ∀ a, s.act w = a → s.inner g w k a op = .ok (s', o) → Has s' w k q ∨ handled q k [o] ≠ [] := by
      intro a ha hs
      have hpool := (inner_ok hs).1
      rw [ha] at hi
      unfold S.inner at hs
      split at hs
      · simp [Act.origins] at hi
      · rename_i q' todo got _
        cases hr : (s.rd q').getFrame k with
        | ub => rw [hr] at hs; simp at hs
        | hang => rw [hr] at hs; simp at hs
        | ok r =>
        obtain ⟨r, d⟩ := r
        rw [hr] at hs
        simp only [Outcome.bind_ok] at hs
        split at hs
        · simp at hs
          refine Or.inl ⟨by rw [hpool]; exact hk, i, ?_⟩
          rw [← hs.1]
          simp only [S.at, set_eq, Act.origins] at hi ⊢
          exact List.mem_append_left _ hi
        · simp at hs
          refine Or.inl ⟨by rw [hpool]; exact hk, i, ?_⟩
          rw [← hs.1]
          simp only [S.at, set_eq, Act.origins] at hi ⊢
          exact hi
      · simp at hs
        refine Or.inl ⟨by rw [hpool]; exact hk, i, ?_⟩
        rw [← hs.1]
        simp only [S.at, set_eq, Act.origins] at hi ⊢
        exact hi
      · simp at hs
        right
        rw [← hs.2]
        simp only [handled, if_true, List.append_nil]
        exact ofQueue_ne s hi
      · rename_i q' todo got ds _
        cases hr : (s.ring q').writerSlot true with
        | ok r =>
          obtain ⟨r, d⟩ := r
          rw [hr] at hs
          rcases d with _ | d
          · simp at hs
          · simp at hs
            refine Or.inl ⟨by rw [hpool]; exact hk, i, ?_⟩
            rw [← hs.1]
            simp only [S.at, set_eq, Act.origins] at hi ⊢
            exact hi
        | ub => rw [hr] at hs; simp at hs
        | hang => rw [hr] at hs; simp at hs
      · simp at hs
        right
        rw [← hs.2]
        simp only [handled, if_true, List.append_nil]
        exact ofQueue_ne s hi
      · simp [Act.origins] at hi
      · simp [Act.origins] at hi
      · simp [Act.origins] at hi
      · simp at hs; exact same hs.1.symm
    cases op with
    | add k => simp [Op.by] at hw
    | pick w' n =>
      simp only [Op.by, Option.some.injEq] at hw
      subst hw
      simp only [S.step] at hs
      obtain ⟨p, po, h1, rfl, _⟩ := onPool_ok hs
      simp only [P.step, hk] at h1
      split at h1 <;> (simp at h1; rw [← h1.1, ← h1.2]; exact Or.inl ⟨hk, i, hi⟩)
    | done w' t =>
      simp only [Op.by, Option.some.injEq] at hw
      subst hw
      simp only [S.step] at hs
      split at hs
      · rename_i ha
        rw [ha] at hi
        simp [Act.origins] at hi
      · simp at hs; exact same hs.1.symm
    | post w' =>
      simp only [Op.by, Option.some.injEq] at hw
      subst hw
      simp only [S.step, hk] at hs
      simp at hs; exact same hs.1.symm
    | begin w' | look w' | go w' | skip w' | slot w' | work w' | commit w' | drop w' =>
      simp only [Op.by, Option.some.injEq] at hw
      subst hw
      simp only [S.step, Op.by, hk] at hs
      exact hinner _ rfl hs
  · obtain ⟨e1, e2⟩ := other_keeps hs hw
    exact Or.inl ⟨by rw [e1]; exact hk, i, by rw [e2]; exact hi⟩

theorem has_run {g : Graph} {w k q : Nat} (ops : List (Op α)) : ∀ {s s' : S α} {outs : List (Out α)},
    Has s w k q → runOps (S.step g) s ops = .ok (s', outs) → Has s' w k q ∨ handled q k outs ≠ [] := by
  induction ops with
  | nil => intro s s' outs h hr; simp [runOps] at hr; rw [← hr.1]; exact Or.inl h
  | cons op ops ih =>
    intro s s' outs h hr
    obtain ⟨s1, o, os, h1, h2, rfl⟩ := runOps_cons_ok hr
    have happ : handled q k (o :: os) = handled q k [o] ++ handled q k os := by
      rw [← handled_append]; rfl
    rw [happ]
    rcases has_step h h1 with h | h
    · rcases ih h h2 with h | h
      · exact Or.inl h
      · right; intro hc; exact h (List.append_eq_nil_iff.1 hc).2
    · right; intro hc; exact h (List.append_eq_nil_iff.1 hc).1

/-- A filter that is the only one on a reader, or to which all of the queue is still to come, has not dealt
with the frame in front. -/
theorem not_past {g : Graph} {s : S α} {gh : Ghost α} {outs : List (Out α)} (ok : g.Ok) (h : Inv g s gh outs)
    {w k q : Nat} {todo : List Nat} {got : List (Nat × Nat)} (hk : s.pool.ph w = .run k)
    (ha : s.act w = .look (q :: todo) got)
    (hn : g.dst q = [k] ∨ (made q outs).length = (handled q k outs).length + (s.ring q).getElements + (s.ring q).lost) :
    ¬ gh.Past q k := by
  have hg := h.run w k hk
  rw [ha] at hg
  intro hp
  rcases hn with hn | hn
  · obtain ⟨s1, s2, _, s4⟩ := (h.rd q).1.sub hp.1
    rw [h.members q, hn] at s1 s2
    rcases s4 with s4 | s4
    · obtain ⟨f, hf⟩ := List.exists_mem_of_ne_nil _ s4
      have := s1 f hf
      simp at this
      subst this
      exact hp.2.1 hf
    · obtain ⟨f, hf⟩ := List.exists_mem_of_ne_nil _ s4
      have := s2 f hf
      simp at this
      subst this
      have hh := hp.2.2 hf
      rw [hg.claim q] at hh
      simp [Act.claimed] at hh
  · have hq : k ∈ g.dst q := ok.ins _ _ (hg.asks q (by simp [Act.asks]))
    have b := (h.hist q k hq).2
    have hl := past_length h hp
    unfold S.ring at hn
    rw [(h.rd q).1.ring.getElements_eq, (h.rd q).1.ring.hlost] at hn
    rw [List.length_append] at b
    omega

/-- **C89.** A frame found is dealt with: when a worker running a filter asks a reader whose queue is not
empty — the filter having the reader for itself, or having yet to deal with all the queue holds — then by
the time it has gone on to committing its results, let alone left the filter, a frame of that queue has been
processed or passed over by that filter, whatever the others do meanwhile. -/
theorem frame_found_is_handled (g : Graph) (ok : g.Ok) (size : Nat → Nat) (hs : ∀ q, 3 ≤ size q)
    (d : Nat → Nat → α) (time : Nat → Nat) (ops : List (Op α)) (s : S α)
    (outs : List (Out α)) (hr : runOps (S.step g) (S.init g size d time) ops = .ok (s, outs))
    (w k q : Nat) (todo : List Nat) (got : List (Nat × Nat)) (hk : s.pool.ph w = .run k)
    (ha : s.act w = .look (q :: todo) got) (hq : 0 < (s.ring q).getElements)
    (hn : g.dst q = [k] ∨ (made q outs).length = (handled q k outs).length + (s.ring q).getElements + (s.ring q).lost)
    (more : List (Op α)) (s' : S α) (outs' : List (Out α))
    (hm : runOps (S.step g) s (.look w :: more) = .ok (s', outs'))
    (hend : (s'.act w).origins = []) : handled q k outs' ≠ [] := by
  obtain ⟨gh, h⟩ := reach_inv ok hs hr
  have hnp := not_past ok h hk ha hn
  have hg := h.run w k hk
  rw [ha] at hg
  by_cases hnh : gh.Holds q k
  · have hhas : Has s w k q := by
      obtain ⟨x, hx, rfl⟩ := List.mem_map.1 (hg.only q hnh)
      exact ⟨hk, x.2, by rw [ha]; exact hx⟩
    rcases has_run _ hhas hm with ⟨_, i, hi⟩ | h
    · rw [hend] at hi; simp at hi
    · exact h
  obtain ⟨s1, o, os, h1, h2, rfl⟩ := runOps_cons_ok hm
  have hkm : k ∈ (gh.t q).members := by rw [h.members q]; exact ok.ins _ _ (hg.asks q (by simp [Act.asks]))
  unfold S.ring at hq
  rw [(h.rd q).1.ring.getElements_eq] at hq
  rcases hl : (gh.t q).q.q with _ | ⟨x, l⟩
  · rw [hl] at hq; simp at hq
  · have hin : k ∈ (if (gh.t q).active then (gh.t q).todo else (gh.t q).members) := by
      cases hact : (gh.t q).active with
      | false => simpa using hkm
      | true =>
        simp only [if_true]
        apply Decidable.byContradiction
        intro hnt
        exact hnp ⟨hact, hnt, fun hh => absurd ⟨hact, hh⟩ hnh⟩
    obtain ⟨hf, _⟩ := (h.rd q).1.announce k hkm x l hl
    have hget : ((gh.t q).get k).2 = some (x, true) := by
      unfold SharedReader.Spec.get
      rw [if_pos hkm, hl]
      simp only
      rw [if_pos hin]
    rw [hget] at hf
    simp only [S.step, Op.by, hk, ha, S.inner, hf, Outcome.bind_ok] at h1
    simp at h1
    have hhas : Has s1 w k q := by
      rw [← h1.1]
      exact ⟨hk, (s.rd q).ring.front, by simp [S.at, Act.origins, Pool.set]⟩
    rw [← h1.2]
    simp only [handled]
    rcases has_run more hhas h2 with ⟨_, i, hi⟩ | h
    · rw [hend] at hi; simp at hi
    · exact h

end Lms.Net
