import Verif.Flow.Lemmas

/-! C88: frames flow along a path in order, every one is accounted for, and none gets stuck. -/

namespace Lms.Flow

open Pool (P)
open FrameQueue (Ring)

variable {σ α : Type}

/-- **C88.** Whatever the workers do and in whatever order, nothing undefined happens, and between any
two neighbours: the frames the second has processed, followed by those it has still to process, are
frames the first has committed, in the same order and none of them twice; the only ones missing are
those the queue counts as lost.  Every filter between has turned the frames it has processed into those
it has committed as if it had been given them one by one. -/
theorem frames_flow_in_order (c : Chain σ α) (size : Nat → Nat) (hs : ∀ k, 3 ≤ size k)
    (d : Nat → Nat → α) (m : Nat → σ) (time : Nat → Nat) (ops : List (Op α)) :
    ∃ s outs, runOps (S.step c) (S.init size d m time) ops = .ok (s, outs) ∧
      (∀ k, k < c.last → ∃ waiting : List α,
        (seen (k + 1) outs ++ waiting).Sublist (made k outs) ∧
        (made k outs).length = (seen (k + 1) outs).length + waiting.length + (s.ring k).lost ∧
        (waiting.length = (s.ring k).getElements ∨
          waiting.length + 1 = (s.ring k).getElements ∧ ∃ w, s.pool.ph w = .run (k + 1))) ∧
      ∀ k, 0 < k → k ≤ c.last → (feed (c.work k) (m k) (seen k outs)).1 = s.mem k ∧
        (k < c.last → (feed (c.work k) (m k) (seen k outs)).2 = made k outs) := by
  obtain ⟨g0, h0⟩ := init_inv c size hs d m time
  obtain ⟨s, outs, g, h1, h⟩ := run_inv ops h0
  rw [List.nil_append] at h
  refine ⟨s, outs, h1, ?_, h.mem⟩
  intro k hk
  obtain ⟨a, b⟩ := h.hist k hk
  refine ⟨g.rest k, a, ?_, ?_⟩
  · rw [b, List.length_append, (h.ring k).1.hlost]
  · rw [(h.ring k).1.getElements_eq]
    unfold Ghost.rest
    cases hc : g.c (k + 1) with
    | false => left; simp
    | true =>
      right
      have := List.length_pos_iff.2 (h.front k hc)
      refine ⟨by simp; omega, ?_⟩
      by_cases hw : ∃ w, s.pool.ph w = .run (k + 1)
      · exact hw
      · rw [h.free (k + 1) (fun w hh => hw ⟨w, hh⟩)] at hc
        cases hc

/-- **C88.** No frame is left behind: as long as there is a frame before a registered filter, that
filter waits in the task queue, or a worker has it in hand, or the worker of the filter before it has
yet to deliver its notification — although the pool takes the wrong task out of its queue at times. -/
theorem no_frame_left_behind (c : Chain σ α) (size : Nat → Nat) (hs : ∀ k, 3 ≤ size k)
    (d : Nat → Nat → α) (m : Nat → σ) (time : Nat → Nat) (ops : List (Op α)) (s : S σ α)
    (outs : List (Out α)) (hr : runOps (S.step c) (S.init size d m time) ops = .ok (s, outs))
    (k : Nat) (hk : k < c.last) (hreg : s.pool.reg ((k : Int) + 1) = some (k + 1))
    (hq : 0 < (s.ring k).getElements) :
    k + 1 ∈ s.pool.q.queue ∨ (∃ w, s.pool.ph w = .run (k + 1) ∨ s.pool.ph w = .post (k + 1)) ∨
      Notifies s k := by
  obtain ⟨g0, h0⟩ := init_inv c size hs d m time
  obtain ⟨s', outs', g, h1, h⟩ := run_inv ops h0
  rw [hr] at h1
  injection h1 with h1
  injection h1 with e1 e2
  subst e1; subst e2
  rw [(h.ring k).1.getElements_eq] at hq
  rcases h.wake k hk hreg (List.length_pos_iff.1 hq) with ha | hn
  · exact ha.awake.imp id Or.inl
  · exact Or.inr (Or.inr hn)

/-- **C88.** The source itself never falls asleep: once registered it waits in the task queue or a
worker has it in hand. -/
theorem source_stays_scheduled (c : Chain σ α) (size : Nat → Nat) (hs : ∀ k, 3 ≤ size k)
    (d : Nat → Nat → α) (m : Nat → σ) (time : Nat → Nat) (ops : List (Op α)) (s : S σ α)
    (outs : List (Out α)) (hr : runOps (S.step c) (S.init size d m time) ops = .ok (s, outs))
    (hreg : s.pool.reg 0 = some 0) :
    0 ∈ s.pool.q.queue ∨ ∃ w, s.pool.ph w = .run 0 ∨ s.pool.ph w = .post 0 := by
  obtain ⟨g0, h0⟩ := init_inv c size hs d m time
  obtain ⟨s', outs', g, h1, h⟩ := run_inv ops h0
  rw [hr] at h1
  injection h1 with h1
  injection h1 with e1 e2
  subst e1
  exact (h.head hreg).awake

/-- **C88.** When nobody is at work and only the source waits for its turn, all queues between
registered filters are empty: every frame committed has been processed by the next filter or is counted
as lost. -/
theorem path_at_rest_is_empty (c : Chain σ α) (size : Nat → Nat) (hs : ∀ k, 3 ≤ size k)
    (d : Nat → Nat → α) (m : Nat → σ) (time : Nat → Nat) (ops : List (Op α)) (s : S σ α)
    (outs : List (Out α)) (hr : runOps (S.step c) (S.init size d m time) ops = .ok (s, outs))
    (hrest : AtRest s) (k : Nat) (hk : k < c.last) (hreg : s.pool.reg ((k : Int) + 1) = some (k + 1)) :
    (s.ring k).getElements = 0 ∧ (seen (k + 1) outs).Sublist (made k outs) ∧
      (made k outs).length = (seen (k + 1) outs).length + (s.ring k).lost := by
  have hz : (s.ring k).getElements = 0 := by
    rcases Nat.eq_zero_or_pos (s.ring k).getElements with e | e
    · exact e
    · exfalso
      rcases no_frame_left_behind c size hs d m time ops s outs hr k hk hreg e with h | ⟨w, h⟩ | ⟨w, h, _⟩
      · have := hrest.2 _ h; omega
      · rw [hrest.1 w] at h; simp at h
      · rw [hrest.1 w] at h; simp at h
  obtain ⟨s', outs', h1, h2, _⟩ := frames_flow_in_order c size hs d m time ops
  rw [hr] at h1
  injection h1 with h1
  injection h1 with e1 e2
  subst e1; subst e2
  obtain ⟨l, a, b, e⟩ := h2 k hk
  have hl : l = [] := by
    apply List.length_eq_zero_iff.1
    rcases e with e | ⟨e, _⟩ <;> omega
  subst hl
  exact ⟨hz, by simpa using a, by simpa using b⟩

theorem feed_map (f : σ → α → σ × Option α) (g : α → α) (hf : ∀ m x, (f m x).2 = some (g x)) :
    ∀ (l : List α) (m : σ), (feed f m l).2 = l.map g := by
  intro l
  induction l with
  | nil => intro m; rfl
  | cons x l ih => intro m; simp [feed, hf, ih]

/-- **C88.** From end to end: if every filter between turns each frame into one frame, the frames that
reach a filter are frames of the source, in order, each worked on once by all the filters before, and
those missing are all accounted for in the queues: waiting or lost (at most one per queue is counted as
waiting although its reader has just processed it). -/
theorem frames_arrive_in_order (c : Chain σ α) (f : Nat → α → α)
    (hf : ∀ k m x, (c.work k m x).2 = some (f k x)) (size : Nat → Nat) (hs : ∀ k, 3 ≤ size k)
    (d : Nat → Nat → α) (m : Nat → σ) (time : Nat → Nat) (ops : List (Op α)) (s : S σ α)
    (outs : List (Out α)) (hr : runOps (S.step c) (S.init size d m time) ops = .ok (s, outs)) :
    ∀ k, k < c.last → (seen (k + 1) outs).Sublist ((made 0 outs).map (through f k)) ∧
      (made 0 outs).length ≤ (seen (k + 1) outs).length + gone s (k + 1) ∧
      (seen (k + 1) outs).length + gone s (k + 1) ≤ (made 0 outs).length + (k + 1) := by
  obtain ⟨s', outs', h1, h2, h3⟩ := frames_flow_in_order c size hs d m time ops
  rw [hr] at h1
  injection h1 with h1
  injection h1 with e1 e2
  subst e1; subst e2
  intro k
  induction k with
  | zero =>
    intro hk
    obtain ⟨l, a, b, e⟩ := h2 0 hk
    have hm : (made 0 outs).map (through f 0) = made 0 outs := by
      have : through f 0 = id := rfl
      rw [this, List.map_id]
    refine ⟨?_, ?_, ?_⟩
    · rw [hm]; exact (List.sublist_append_left _ _).trans a
    · simp only [gone]; rcases e with e | ⟨e, _⟩ <;> omega
    · simp only [gone]; rcases e with e | ⟨e, _⟩ <;> omega
  | succ k ih =>
    intro hk
    obtain ⟨i1, i2, i3⟩ := ih (by omega)
    obtain ⟨l, a, b, e⟩ := h2 (k + 1) hk
    have hmade := (h3 (k + 1) (by omega) (by omega)).2 hk
    rw [feed_map _ (f (k + 1)) (hf (k + 1))] at hmade
    rw [← hmade] at a b
    rw [List.length_map] at b
    refine ⟨?_, ?_, ?_⟩
    · refine ((List.sublist_append_left _ _).trans a).trans ?_
      have := i1.map (f (k + 1))
      rw [List.map_map] at this
      exact this
    · simp only [gone] at i2 i3 ⊢; rcases e with e | ⟨e, _⟩ <;> omega
    · simp only [gone] at i2 i3 ⊢; rcases e with e | ⟨e, _⟩ <;> omega

end Lms.Flow
