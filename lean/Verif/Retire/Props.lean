import Verif.Retire.Lemmas

/-! C94: filters are made and removed while frames flow. -/

namespace Lms.Retire

open Rewire (D committed seen newcomer unwoken)
open Net (S Notifies)

variable {α : Type}

theorem reach_inv {d : α} {time : Nat → Nat} {ops : List (Op α)} (ha : AllowedRun (R.init d time) ops)
    {r : R α} {outs : List (Out α)} (hr : runOps R.step (R.init d time) ops = .ok (r, outs)) : ∃ gh fo, RI r gh fo outs := by
  obtain ⟨g0, h0⟩ := init_inv d time
  obtain ⟨r', outs', gh, fo, h1, h⟩ := run_inv ops h0 ha
  rw [hr] at h1
  cases h1
  exact ⟨gh, fo, by simpa using h⟩

/-- **C94.** Filters may be made, given to the pool, connected, disconnected, removed from the pool and deleted
while all others run, as long as none is deleted that is still queued, in a worker's hands, registered or
connected: nothing undefined happens (no filter and no queue is used that has been deleted), and for every queue
there then is and each filter that reads it: the frames it has processed or passed over since it began to read,
followed by those still to come, are frames committed since the queue was made, in the same order and none of
them twice; the only ones missing are those the queue counts as lost and, if the filter has begun to share the
reader of another, those gone by `before`. -/
theorem frames_flow_while_filters_go (d : α) (time : Nat → Nat) (ops : List (Op α)) (ha : AllowedRun (R.init d time) ops) :
    ∃ r outs, runOps R.step (R.init d time) ops = .ok (r, outs) ∧ ∃ before : Nat → Nat → List α,
      ∀ q, ∀ k ∈ r.x.g.dst q,
        (newcomer q k (nets outs) = false → before q k = []) ∧
        (∃ waiting : List α, (before q k ++ seen q k (nets outs) ++ waiting).Sublist (committed q (nets outs)) ∧
          (committed q (nets outs)).length = (before q k).length + (seen q k (nets outs)).length + waiting.length + (r.x.s.ring q).lost ∧
          (waiting.length = (r.x.s.ring q).getElements ∨
            waiting.length + 1 = (r.x.s.ring q).getElements ∧
              ∃ f ∈ r.x.g.dst q, (∃ w, r.x.s.pool.ph w = .run f) ∨
                (before q f ++ seen q f (nets outs)).length + 1 = (before q k ++ seen q k (nets outs)).length)) ∧
        ∀ j ∈ r.x.g.dst q, before q j ++ seen q j (nets outs) = before q k ++ seen q k (nets outs) ∨
          ∃ y, before q j ++ seen q j (nets outs) = before q k ++ seen q k (nets outs) ++ [y] ∨
            before q k ++ seen q k (nets outs) = before q j ++ seen q j (nets outs) ++ [y] := by
  obtain ⟨g0, h0⟩ := init_inv d time
  obtain ⟨r, outs, gh, fo, h1, h⟩ := run_inv ops h0 ha
  rw [List.nil_append] at h
  exact ⟨r, outs, h1, Rewire.flow_of_inv h.di⟩

/-- **C94.** No frame is left behind when others go: as long as there is a frame before a registered filter, that
filter waits in the task queue, or a worker has it in hand, or the worker of the filter that wrote the frame has
yet to deliver its notification -- unless it has begun to share the reader of another and no frame has been
committed since. -/
theorem no_frame_left_behind (d : α) (time : Nat → Nat) (ops : List (Op α)) (ha : AllowedRun (R.init d time) ops) (r : R α)
    (outs : List (Out α)) (hr : runOps R.step (R.init d time) ops = .ok (r, outs)) (k q : Nat) (hk : q ∈ r.x.g.ins k)
    (hu : unwoken q k (nets outs) = false) (hreg : r.x.s.pool.reg (k : Int) = some k) (hq : 0 < (r.x.s.ring q).getElements) :
    k ∈ r.x.s.pool.q.queue ∨ (∃ w, r.x.s.pool.ph w = .run k ∨ r.x.s.pool.ph w = .post k) ∨ Notifies r.x.g r.x.s q k := by
  obtain ⟨gh, fo, h⟩ := reach_inv ha hr
  unfold S.ring at hq
  rw [(h.di.inv.rd q).1.ring.getElements_eq] at hq
  rcases h.di.inv.wake q k hk (by rw [hu]; simp) hreg (List.length_pos_iff.1 hq) with ha | hn
  · exact ha.awake.imp id Or.inl
  · exact Or.inr (Or.inr hn)

/-- **C94.** A periodic filter stays scheduled as long as it is registered, whatever others come and go. -/
theorem periodic_stays_scheduled (d : α) (time : Nat → Nat) (ops : List (Op α)) (ha : AllowedRun (R.init d time) ops) (r : R α)
    (outs : List (Out α)) (hr : runOps R.step (R.init d time) ops = .ok (r, outs)) (k : Nat) (hp : r.x.g.periodic k = true)
    (hreg : r.x.s.pool.reg (k : Int) = some k) :
    k ∈ r.x.s.pool.q.queue ∨ ∃ w, r.x.s.pool.ph w = .run k ∨ r.x.s.pool.ph w = .post k := by
  obtain ⟨gh, fo, h⟩ := reach_inv ha hr
  exact (h.di.inv.head k hp hreg).awake

/-- **C94.** What has been deleted is nowhere: not registered, not queued, in no worker's hands, and at no end of
a queue. -/
theorem deleted_filter_is_nowhere (d : α) (time : Nat → Nat) (ops : List (Op α)) (ha : AllowedRun (R.init d time) ops) (r : R α)
    (outs : List (Out α)) (hr : runOps R.step (R.init d time) ops = .ok (r, outs)) (k : Nat) (hg : r.gone k = true) :
    r.x.s.pool.reg (k : Int) = none ∧ k ∉ r.x.s.pool.q.queue ∧
      (∀ w, r.x.s.pool.ph w ≠ .run k ∧ r.x.s.pool.ph w ≠ .post k) ∧ r.x.g.ins k = [] ∧ r.x.g.outs k = [] := by
  obtain ⟨gh, fo, h⟩ := reach_inv ha hr
  obtain ⟨h1, h2, h3⟩ := h.off k hg
  refine ⟨?_, h2, h3, ?_, ?_⟩
  · cases e : r.x.s.pool.reg (k : Int) with
    | none => rfl
    | some j =>
      have := h.di.inv.pinv.reg _ _ e
      rw [h.di.inv.ident] at this
      have : j = k := by omega
      rw [this] at e
      exact absurd e h1
  · apply List.eq_nil_iff_forall_not_mem.2
    intro q hq
    exact (h.loose k hg q (h.di.live q k (.inl hq))).2 (h.di.ok.ins _ _ hq)
  · apply List.eq_nil_iff_forall_not_mem.2
    intro q hq
    exact (h.loose k hg q (h.di.live q k (.inr (.inl hq)))).1 (h.di.ok.outs _ _ hq)

/-- **C94.** Once the pool has nothing to do with a filter it stays so, whatever the others do, until it is given
to the pool again: what holds when `removeTask` has returned and no job of it is queued still holds when it is
disconnected and deleted. -/
theorem removed_stays_out (d : α) (time : Nat → Nat) (ops ops' : List (Op α)) (ha : AllowedRun (R.init d time) (ops ++ ops'))
    (r r' : R α) (outs outs' : List (Out α)) (hr : runOps R.step (R.init d time) ops = .ok (r, outs))
    (hr' : runOps R.step r ops' = .ok (r', outs')) (k : Nat) (ho : Off r.x.s.pool k) (hn : ∀ op ∈ ops', ∀ j, op = .net (.flow (.add j)) → j ≠ k) :
    Off r'.x.s.pool k := by
  obtain ⟨g0, h0⟩ := init_inv d time
  have split : ∀ (ops : List (Op α)) (a b : R α) (os : List (Out α)), AllowedRun a (ops ++ ops') → runOps R.step a ops = .ok (b, os) →
      AllowedRun a ops ∧ AllowedRun b ops' := by
    intro ops
    induction ops with
    | nil => intro a b os h hr; simp [runOps] at hr; rw [← hr.1]; exact ⟨trivial, h⟩
    | cons op ops ih =>
      intro a b os h hr
      obtain ⟨c, o, os', h1, h2, _⟩ := runOps_cons_ok hr
      obtain ⟨h3, h4⟩ := ih c b os' (h.2 c o h1) h2
      refine ⟨⟨h.1, fun c' o' e => ?_⟩, h4⟩
      rw [h1] at e
      cases e
      exact h3
  obtain ⟨ha1, ha2⟩ := split ops _ r outs ha hr
  obtain ⟨gh, fo, h⟩ := reach_inv ha1 hr
  clear ha hr h0 ha1 split
  induction ops' generalizing r gh fo outs outs' with
  | nil => simp [runOps] at hr'; rw [← hr'.1]; exact ho
  | cons op ops' ih =>
    obtain ⟨c, o, os', h1, h2, _⟩ := runOps_cons_ok hr'
    obtain ⟨c', o', gh', fo', h3, h4⟩ := step_inv h op ha2.1
    rw [h1] at h3
    cases h3
    refine ih c (outs ++ [o]) os' h2 ?_ (fun op' hm => hn op' (List.mem_cons_of_mem _ hm)) (ha2.2 c o h1) gh' fo' h4
    cases op with
    | net op =>
      simp only [R.step] at h1
      split at h1
      · simp at h1
      · cases hc : r.x.step op with
        | ub => rw [hc] at h1; simp at h1
        | hang => rw [hc] at h1; simp at h1
        | ok y =>
          rw [hc] at h1
          simp at h1
          rw [← h1.1]
          exact off_net h.di ho (fun e => hn _ List.mem_cons_self k (by rw [e]) rfl) hc
    | create j t b =>
      simp only [R.step] at h1
      split at h1 <;> cases h1 <;> exact ho
    | remove j =>
      simp only [R.step] at h1
      cases hc : r.x.s.pool.step (.remove (j : Int)) with
      | ub => rw [hc] at h1; simp at h1
      | hang => rw [hc] at h1; simp at h1
      | ok y =>
        rw [hc] at h1
        simp at h1
        rw [← h1.1]
        exact off_step h.di.inv.pinv h.di.inv.ident ho (by simp) hc
    | delete j =>
      simp only [R.step] at h1
      split at h1 <;> cases h1 <;> exact ho

/-- **C94.** When nobody is at work and only sources wait for their turn, all queues before registered filters
are empty, whoever has come and gone before -- except for newcomers no frame has been committed for since. -/
theorem network_at_rest_is_empty (d : α) (time : Nat → Nat) (ops : List (Op α)) (ha : AllowedRun (R.init d time) ops) (r : R α)
    (outs : List (Out α)) (hr : runOps R.step (R.init d time) ops = .ok (r, outs)) (hrest : Net.AtRest r.x.g r.x.s) (k q : Nat)
    (hk : q ∈ r.x.g.ins k) (hu : unwoken q k (nets outs) = false) (hreg : r.x.s.pool.reg (k : Int) = some k) :
    (r.x.s.ring q).getElements = 0 ∧ (newcomer q k (nets outs) = false →
      (seen q k (nets outs)).Sublist (committed q (nets outs)) ∧
        (committed q (nets outs)).length = (seen q k (nets outs)).length + (r.x.s.ring q).lost) := by
  have hz : (r.x.s.ring q).getElements = 0 := by
    rcases Nat.eq_zero_or_pos (r.x.s.ring q).getElements with e | e
    · exact e
    · exfalso
      rcases no_frame_left_behind d time ops ha r outs hr k q hk hu hreg e with h | ⟨w, h⟩ | ⟨w, h, _⟩
      · have := (hrest.2 _ h).2
        rw [this] at hk
        simp at hk
      · rw [hrest.1 w] at h; simp at h
      · rw [hrest.1 w] at h; simp at h
  refine ⟨hz, fun hn => ?_⟩
  obtain ⟨r', outs', h1, before, h2⟩ := frames_flow_while_filters_go d time ops ha
  rw [hr] at h1
  cases h1
  obtain ⟨gh, fo, h⟩ := reach_inv ha hr
  obtain ⟨a, ⟨wt, b1, b2, b3⟩, _⟩ := h2 q k (h.di.ok.ins _ _ hk)
  rw [a hn] at b1 b2
  have hl : wt = [] := by
    apply List.length_eq_zero_iff.1
    rcases b3 with e | ⟨e, _⟩ <;> omega
  subst hl
  exact ⟨by simpa using b1, by simpa using b2⟩

/-- **C94 (recorded).** A periodic filter nobody is at work on is queued, and removing it from the pool does not
change that: `removeTask` returns at once, it is registered no more, but the job is still there for a worker to
look at.  To delete the filter then, as `removeFilter` and `deletePath` do, is not safe. -/
theorem removed_source_is_still_queued (d : α) (time : Nat → Nat) (ops : List (Op α)) (ha : AllowedRun (R.init d time) ops) (r r' : R α)
    (outs : List (Out α)) (o : Out α) (hr : runOps R.step (R.init d time) ops = .ok (r, outs)) (k : Nat) (hp : r.x.g.periodic k = true)
    (hreg : r.x.s.pool.reg (k : Int) = some k) (hw : ∀ w j, r.x.s.pool.ph w ≠ .post j) (hl : r.x.s.pool.lock = none)
    (hk : ∀ w, r.x.s.pool.ph w ≠ .run k) (hs : r.step (.remove k) = .ok (r', o)) :
    r'.x.s.pool.reg (k : Int) = none ∧ r'.x.s.pool.running k = false ∧ k ∈ r'.x.s.pool.q.queue := by
  have hq := periodic_stays_scheduled d time ops ha r outs hr k hp hreg
  obtain ⟨gh, fo, h⟩ := reach_inv ha hr
  simp only [R.step, Pool.P.step] at hs
  rw [hl] at hs
  simp [hreg] at hs
  rw [← hs.1]
  refine ⟨by simp [Pool.set], ?_, ?_⟩
  · cases e : r.x.s.pool.running k with
    | false => rfl
    | true =>
      obtain ⟨w, hw'⟩ := (h.di.inv.pinv.run k).1 e
      exact absurd hw' (hk w)
  · rcases hq with e | ⟨w, e | e⟩
    · exact e
    · exact absurd e (hk w)
    · exact absurd e (hw w k)

end Lms.Retire
