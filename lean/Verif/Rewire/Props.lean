import Verif.Rewire.Steps

/-! C92: frames flow in order while connections are made and cut. -/

namespace Lms.Rewire

open Net (Graph S Ghost InvL handled made Notifies)

variable {α : Type}

theorem reach_inv {periodic : Nat → Bool} {d : α} {time : Nat → Nat} {ops : List (Op α)} (ha : AllowedRun (D.init periodic d time) ops)
    {x : D α} {outs : List (Out α)} (hr : runOps D.step (D.init periodic d time) ops = .ok (x, outs)) : ∃ gh fo, DI x gh fo outs := by
  obtain ⟨g0, h0⟩ := init_inv periodic d time
  obtain ⟨x', outs', gh, fo, h1, h⟩ := run_inv ops h0 ha
  rw [hr] at h1
  cases h1
  exact ⟨gh, fo, by simpa using h⟩

theorem flow_of_inv {x : D α} {gh : Ghost α} {fo : List (Net.Out α)} {outs : List (Out α)} (h : DI x gh fo outs) :
    ∃ before : Nat → Nat → List α,
      ∀ q, ∀ k ∈ x.g.dst q,
        (newcomer q k outs = false → before q k = []) ∧
        (∃ waiting : List α, (before q k ++ seen q k outs ++ waiting).Sublist (committed q outs) ∧
          (committed q outs).length = (before q k).length + (seen q k outs).length + waiting.length + (x.s.ring q).lost ∧
          (waiting.length = (x.s.ring q).getElements ∨
            waiting.length + 1 = (x.s.ring q).getElements ∧
              ∃ f ∈ x.g.dst q, (∃ w, x.s.pool.ph w = .run f) ∨
                (before q f ++ seen q f outs).length + 1 = (before q k ++ seen q k outs).length)) ∧
        ∀ j ∈ x.g.dst q, before q j ++ seen q j outs = before q k ++ seen q k outs ∨
          ∃ y, before q j ++ seen q j outs = before q k ++ seen q k outs ++ [y] ∨
            before q k ++ seen q k outs = before q j ++ seen q j outs ++ [y] := by
  have ex : ∀ q k, ∃ before, k ∈ x.g.dst q → handled q k fo = before ++ seen q k outs ∧ (newcomer q k outs = false → before = []) := by
    intro q k
    by_cases hk : k ∈ x.g.dst q
    · obtain ⟨b, hb⟩ := h.tie q k hk
      exact ⟨b, fun _ => hb⟩
    · exact ⟨[], fun hh => absurd hh hk⟩
  refine ⟨fun q k => (ex q k).choose, ?_⟩
  have hb : ∀ q k, k ∈ x.g.dst q → handled q k fo = (ex q k).choose ++ seen q k outs ∧ (newcomer q k outs = false → (ex q k).choose = []) :=
    fun q k => (ex q k).choose_spec
  intro q k hk
  have hm := h.made q (h.live q k (.inr (.inr hk)))
  refine ⟨(hb q k hk).2, ?_, fun j hj => ?_⟩
  · obtain ⟨wt, f1, f2, f3⟩ := Net.inv_flow h.inv q k hk
    rw [(hb q k hk).1, hm] at f1
    rw [(hb q k hk).1, hm, List.length_append] at f2
    refine ⟨wt, f1, f2, ?_⟩
    rcases f3 with f3 | ⟨f3, f, hf, f4⟩
    · exact .inl f3
    · refine .inr ⟨f3, f, hf, f4.imp id fun f4 => ?_⟩
      rw [(hb q k hk).1, (hb q f hf).1] at f4
      exact f4
  · have := Net.inv_same h.inv hk hj
    rw [(hb q k hk).1, (hb q j hj).1] at this
    exact this

/-- **C92.** Filters may be connected, begin and cease to share readers and be disconnected while all others
run, as long as none of those concerned is at work: nothing undefined happens (no queue is used that has been
deleted), and for every queue there then is and each filter that reads it: the frames it has processed or
passed over since it began to read, followed by those still to come, are frames committed since the queue was
made, in the same order and none of them twice; the only ones missing are those the queue counts as lost and,
if the filter has begun to share the reader of another, those gone by `before`.  Those still to come are all in
the queue; when the queue has one more, some sharing filter is at work or has yet to deal with it. -/
theorem frames_flow_while_connections_change (periodic : Nat → Bool) (d : α) (time : Nat → Nat) (ops : List (Op α))
    (ha : AllowedRun (D.init periodic d time) ops) :
    ∃ x outs, runOps D.step (D.init periodic d time) ops = .ok (x, outs) ∧ ∃ before : Nat → Nat → List α,
      ∀ q, ∀ k ∈ x.g.dst q,
        (newcomer q k outs = false → before q k = []) ∧
        (∃ waiting : List α, (before q k ++ seen q k outs ++ waiting).Sublist (committed q outs) ∧
          (committed q outs).length = (before q k).length + (seen q k outs).length + waiting.length + (x.s.ring q).lost ∧
          (waiting.length = (x.s.ring q).getElements ∨
            waiting.length + 1 = (x.s.ring q).getElements ∧
              ∃ f ∈ x.g.dst q, (∃ w, x.s.pool.ph w = .run f) ∨
                (before q f ++ seen q f outs).length + 1 = (before q k ++ seen q k outs).length)) ∧
        ∀ j ∈ x.g.dst q, before q j ++ seen q j outs = before q k ++ seen q k outs ∨
          ∃ y, before q j ++ seen q j outs = before q k ++ seen q k outs ++ [y] ∨
            before q k ++ seen q k outs = before q j ++ seen q j outs ++ [y] := by
  obtain ⟨g0, h0⟩ := init_inv periodic d time
  obtain ⟨x, outs, gh, fo, h1, h⟩ := run_inv ops h0 ha
  rw [List.nil_append] at h
  exact ⟨x, outs, h1, flow_of_inv h⟩

/-- **C92.** No frame is left behind by the changes: as long as there is a frame before a registered filter,
that filter waits in the task queue, or a worker has it in hand, or the worker of the filter that wrote the
frame has yet to deliver its notification -- unless it has begun to share the reader of another and no frame
has been committed since. -/
theorem no_frame_left_behind (periodic : Nat → Bool) (d : α) (time : Nat → Nat) (ops : List (Op α))
    (ha : AllowedRun (D.init periodic d time) ops) (x : D α) (outs : List (Out α))
    (hr : runOps D.step (D.init periodic d time) ops = .ok (x, outs)) (k q : Nat) (hk : q ∈ x.g.ins k)
    (hu : unwoken q k outs = false) (hreg : x.s.pool.reg (k : Int) = some k) (hq : 0 < (x.s.ring q).getElements) :
    k ∈ x.s.pool.q.queue ∨ (∃ w, x.s.pool.ph w = .run k ∨ x.s.pool.ph w = .post k) ∨ Notifies x.g x.s q k := by
  obtain ⟨gh, fo, h⟩ := reach_inv ha hr
  unfold S.ring at hq
  rw [(h.inv.rd q).1.ring.getElements_eq] at hq
  rcases h.inv.wake q k hk (by rw [hu]; simp) hreg (List.length_pos_iff.1 hq) with ha | hn
  · exact ha.awake.imp id Or.inl
  · exact Or.inr (Or.inr hn)

/-- **C92.** A periodic filter stays scheduled whatever becomes of its connections. -/
theorem periodic_stays_scheduled (periodic : Nat → Bool) (d : α) (time : Nat → Nat) (ops : List (Op α))
    (ha : AllowedRun (D.init periodic d time) ops) (x : D α) (outs : List (Out α))
    (hr : runOps D.step (D.init periodic d time) ops = .ok (x, outs)) (k : Nat) (hp : x.g.periodic k = true)
    (hreg : x.s.pool.reg (k : Int) = some k) :
    k ∈ x.s.pool.q.queue ∨ ∃ w, x.s.pool.ph w = .run k ∨ x.s.pool.ph w = .post k := by
  obtain ⟨gh, fo, h⟩ := reach_inv ha hr
  exact (h.inv.head k hp hreg).awake

/-- **C92.** Frames go only along connections as they are at the time: whatever a step processes or passes over
comes from a queue the filter then reads, and whatever it commits goes to a queue its filter then writes; both
are there. -/
theorem frames_go_along_connections (periodic : Nat → Bool) (d : α) (time : Nat → Nat) (ops : List (Op α))
    (ha : AllowedRun (D.init periodic d time) ops) (x x' : D α) (outs : List (Out α))
    (hr : runOps D.step (D.init periodic d time) ops = .ok (x, outs)) (op : Op α) (o : Net.Out α)
    (hs : x.step op = .ok (x', .flow o)) :
    (∀ q k, handled q k [o] ≠ [] → q ∈ x.g.ins k ∧ x.live q = true) ∧
      ∀ q, made q [o] ≠ [] → q ∈ x.g.outs (x.g.src q) ∧ x.live q = true := by
  obtain ⟨gh, fo, h⟩ := reach_inv ha hr
  cases op with
  | flow op =>
    simp only [D.step] at hs
    split at hs
    · cases hc : x.s.step x.g op with
      | ub => rw [hc] at hs; simp at hs
      | hang => rw [hc] at hs; simp at hs
      | ok y =>
        obtain ⟨s', o'⟩ := y
        rw [hc] at hs
        simp at hs
        obtain ⟨_, rfl⟩ := hs
        obtain ⟨e1, e2⟩ := Net.step_ends h.inv hc
        refine ⟨fun q k hk => ⟨e1 q k hk, h.live q k (.inl (e1 q k hk))⟩, fun q hq => ?_⟩
        obtain ⟨k, hk⟩ := e2 q hq
        rw [h.ok.outs k q hk]
        exact ⟨hk, h.live q k (.inr (.inl hk))⟩
    · simp at hs
  | connect w r q size d => simp [D.step] at hs
  | share q k => simp only [D.step] at hs; split at hs <;> simp at hs
  | leave q k => simp only [D.step] at hs; split at hs <;> simp at hs
  | cut q => simp only [D.step] at hs; split at hs <;> simp at hs

/-- **C92.** The ends of every queue fit at all times: who reads it is who it waits for and notifies, who
writes it is the one it was made for, and a queue that is there has a reader. -/
theorem connections_fit (periodic : Nat → Bool) (d : α) (time : Nat → Nat) (ops : List (Op α))
    (ha : AllowedRun (D.init periodic d time) ops) (x : D α) (outs : List (Out α))
    (hr : runOps D.step (D.init periodic d time) ops = .ok (x, outs)) :
    x.g.Ok ∧ (∀ q k, q ∈ x.g.ins k ∨ q ∈ x.g.outs k ∨ k ∈ x.g.dst q → x.live q = true) ∧
      (∀ q, x.live q = true → x.g.dst q ≠ []) ∧ ∀ q, ((x.s.rd q).filters.map (·.1)) = x.g.dst q := by
  obtain ⟨gh, fo, h⟩ := reach_inv ha hr
  refine ⟨h.ok, h.live, h.fed, fun q => ?_⟩
  rw [(h.inv.rd q).1.mem, h.inv.members]

/-- **C92.** When nobody is at work and only sources wait for their turn, all queues before registered filters
are empty, whatever was connected and cut before -- except for newcomers no frame has been committed for since. -/
theorem changed_network_at_rest_is_empty (periodic : Nat → Bool) (d : α) (time : Nat → Nat) (ops : List (Op α))
    (ha : AllowedRun (D.init periodic d time) ops) (x : D α) (outs : List (Out α))
    (hr : runOps D.step (D.init periodic d time) ops = .ok (x, outs)) (hrest : Net.AtRest x.g x.s) (k q : Nat) (hk : q ∈ x.g.ins k)
    (hu : unwoken q k outs = false) (hreg : x.s.pool.reg (k : Int) = some k) :
    (x.s.ring q).getElements = 0 ∧ (newcomer q k outs = false →
      (seen q k outs).Sublist (committed q outs) ∧ (committed q outs).length = (seen q k outs).length + (x.s.ring q).lost) := by
  have hz : (x.s.ring q).getElements = 0 := by
    rcases Nat.eq_zero_or_pos (x.s.ring q).getElements with e | e
    · exact e
    · exfalso
      rcases no_frame_left_behind periodic d time ops ha x outs hr k q hk hu hreg e with h | ⟨w, h⟩ | ⟨w, h, _⟩
      · have := (hrest.2 _ h).2
        rw [this] at hk
        simp at hk
      · rw [hrest.1 w] at h; simp at h
      · rw [hrest.1 w] at h; simp at h
  refine ⟨hz, fun hn => ?_⟩
  obtain ⟨x', outs', h1, before, h2⟩ := frames_flow_while_connections_change periodic d time ops ha
  rw [hr] at h1
  cases h1
  obtain ⟨gh, fo, h⟩ := reach_inv ha hr
  obtain ⟨a, ⟨wt, b1, b2, b3⟩, _⟩ := h2 q k (h.ok.ins _ _ hk)
  rw [a hn] at b1 b2
  have hl : wt = [] := by
    apply List.length_eq_zero_iff.1
    rcases b3 with e | ⟨e, _⟩ <;> omega
  subst hl
  exact ⟨by simpa using b1, by simpa using b2⟩

end Lms.Rewire
