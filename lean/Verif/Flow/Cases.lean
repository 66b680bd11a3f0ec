import Verif.Flow.Drain

/-! C88: a concrete path, meeting the hypotheses of the theorems. -/

namespace Lms.Flow

/-- A source, a filter that adds up what it sees, and a sink that remembers the last frame. -/
def path : Chain Nat Nat where
  last := 2
  work := fun k m x => if k = 1 then (m + x, some (m + x)) else (x, none)

/-- Queues of three buffers, hence of two frames. -/
def path0 : S Nat Nat := S.init (fun _ => 3) (fun _ _ => 0) (fun _ => 0) (fun _ => 0)

/-- A worker runs a filter from the beginning to the end. -/
def turn (w now : Nat) (x : Option Nat) : List (Op Nat) :=
  [.pick w now, .look w, .slot w, .work w x, .drop w, .done w 0, .post w]

/-- The source delivers 5 and worker 0 takes the second filter; while it works on that frame, worker 1
finds the sink without work and runs the source three times. -/
def opening : List (Op Nat) :=
  [.add 0, .add 1, .add 2] ++ turn 0 1 (some 5) ++ [.pick 0 1, .look 0] ++ turn 1 1 none ++
  turn 1 1 (some 6) ++ turn 1 1 (some 7) ++ turn 1 1 (some 8)

/-- Worker 0 finishes and both go on until nothing is left to do. -/
def ending : List (Op Nat) :=
  [.slot 0, .work 0 none, .drop 0, .done 0 0, .post 0] ++ turn 0 1 none ++ turn 1 1 none ++ turn 0 1 none ++
  turn 0 1 none ++ turn 1 1 none ++ turn 0 1 none ++ turn 1 1 none

/-- What an execution has to show: frames made by the source and the filter, frames seen by the filter
and the sink, frames waiting and lost, tasks queued. -/
def shows (ops : List (Op Nat)) : Option (List (List Nat)) :=
  match runOps (S.step path) path0 ops with
  | .ok (s, outs) => some [made 0 outs, seen 1 outs, made 1 outs, seen 2 outs,
      [(s.ring 0).getElements, (s.ring 1).getElements], [(s.ring 0).lost, (s.ring 1).lost], s.pool.q.queue]
  | _ => none

/-- The source has run while the second filter was busy: the queue of two frames has overflowed twice,
and the notification for the busy filter, thrown out of the task queue once, is back. -/
theorem opening_shows : shows opening = some [[5, 6, 7, 8], [], [], [], [2, 0], [2, 0], [1, 0]] := by
  decide +kernel

/-- Everything that was not lost has arrived. -/
theorem all_shows :
    shows (opening ++ ending) = some [[5, 6, 7, 8], [5, 8], [5, 13], [5, 13], [0, 0], [2, 0], [0]] := by
  decide +kernel

theorem idle_keeps {σ α : Type} {c : Chain σ α} {w : Nat} (ops : List (Op α)) : ∀ {s s' : S σ α}
    {outs : List (Out α)}, runOps (S.step c) s ops = .ok (s', outs) → (∀ op ∈ ops, op.by ≠ some w) →
    s'.pool.ph w = s.pool.ph w := by
  induction ops with
  | nil => intro s s' outs h _; simp [runOps] at h; rw [h.1]
  | cons op ops ih =>
    intro s s' outs h hw
    obtain ⟨s1, o, os, h1, h2, rfl⟩ := runOps_cons_ok h
    rw [ih h2 (fun o ho => hw o (List.mem_cons_of_mem _ ho))]
    exact (other_keeps h1 (hw op (by simp))).1

/-- The hypotheses of `path_at_rest_is_empty`, and what it says here. -/
example : ∃ s outs, runOps (S.step path) path0 (opening ++ ending) = .ok (s, outs) ∧ AtRest s ∧
    s.pool.reg 1 = some 1 ∧ s.pool.reg 2 = some 2 ∧
    (s.ring 0).getElements = 0 ∧ (made 0 outs).length = (seen 1 outs).length + 2 := by
  obtain ⟨s, outs, h, _⟩ := frames_flow_in_order path (fun _ => 3) (fun _ => by omega) (fun _ _ => 0)
    (fun _ => 0) (fun _ => 0) (opening ++ ending)
  have key : (match runOps (S.step path) path0 (opening ++ ending) with
      | .ok (s, _) => decide (s.pool.ph 0 = .idle ∧ s.pool.ph 1 = .idle ∧ s.pool.q.queue = [0] ∧
          s.pool.reg 1 = some 1 ∧ s.pool.reg 2 = some 2 ∧ (s.ring 0).lost = 2)
      | _ => false) = true := by decide +kernel
  have h' : runOps (S.step path) path0 (opening ++ ending) = .ok (s, outs) := h
  rw [h'] at key
  simp only [decide_eq_true_eq] at key
  obtain ⟨k0, k1, k2, k3, k4, k5⟩ := key
  have hrest : AtRest s := by
    refine ⟨?_, by rw [k2]; simp⟩
    intro w
    by_cases e0 : w = 0
    · subst e0; exact k0
    · by_cases e1 : w = 1
      · subst e1; exact k1
      · have hall : ((opening ++ ending).map Op.by).all (fun o => o == none || o == some 0 || o == some 1) = true := by
          decide +kernel
        rw [idle_keeps (opening ++ ending) h' (w := w)]
        · rfl
        · intro op hm
          have := List.all_eq_true.1 hall op.by (List.mem_map.2 ⟨op, hm, rfl⟩)
          intro hc
          rw [hc] at this
          simp at this
          omega
  obtain ⟨r1, _, r3⟩ := path_at_rest_is_empty path (fun _ => 3) (fun _ => by omega) (fun _ _ => 0)
    (fun _ => 0) (fun _ => 0) (opening ++ ending) s outs h hrest 0 (by decide) k3
  exact ⟨s, outs, h', hrest, k3, k4, r1, by rw [r3, k5]⟩

/-- The hypotheses of `no_frame_left_behind`, `source_stays_scheduled` and `silent_path_drains`: two
frames wait for the second filter when the source falls silent; the sink then gets two. -/
example : ∃ s outs s' outs', runOps (S.step path) path0 opening = .ok (s, outs) ∧
    runOps (S.step path) s ending = .ok (s', outs') ∧ Silent ending ∧
    s.pool.reg 0 = some 0 ∧ s.pool.reg 1 = some 1 ∧ 0 < (s.ring 0).getElements ∧
    waitingBefore s 2 = 2 ∧ seen 2 outs' = [5, 13] := by
  have hsil : Silent ending := by
    intro w x hm
    have hall : ending.all (fun o => match o with | .work _ x => x == none | _ => true) = true := by
      decide +kernel
    simpa using List.all_eq_true.1 hall _ hm
  have key : (match runOps (S.step path) path0 opening with
      | .ok (s, _) => decide (s.pool.reg 0 = some 0 ∧ s.pool.reg 1 = some 1 ∧ 0 < (s.ring 0).getElements ∧
          waitingBefore s 2 = 2) && (match runOps (S.step path) s ending with
            | .ok (_, outs') => decide (seen 2 outs' = [5, 13]) | _ => false)
      | _ => false) = true := by decide +kernel
  rcases h : runOps (S.step path) path0 opening with ⟨s, outs⟩ | _ | _
  · rw [h] at key
    simp only [Bool.and_eq_true, decide_eq_true_eq] at key
    obtain ⟨⟨k1, k2, k3, k4⟩, k5⟩ := key
    rcases h' : runOps (S.step path) s ending with ⟨s', outs'⟩ | _ | _
    · rw [h'] at k5
      simp only [decide_eq_true_eq] at k5
      exact ⟨s, outs, s', outs', rfl, h', hsil, k1, k2, k3, k4, k5⟩
    · rw [h'] at k5; cases k5
    · rw [h'] at k5; cases k5
  · rw [h] at key; cases key
  · rw [h] at key; cases key

/-- The hypotheses of `run_processes_one_frame`: worker 0 has just taken the second filter, and worker 1
runs the source before and after it asks for its destination frame. -/
example : ∃ s outs, runOps (S.step path) path0 ([.add 0, .add 1, .add 2] ++ turn 0 1 (some 5) ++ [.pick 0 1]) =
      .ok (s, outs) ∧ s.pool.ph 0 = .run 1 ∧ s.act 0 = .start ∧ 0 < (s.ring 0).getElements ∧
    ∃ s' os, runOps (S.step path) s (.look 0 :: (turn 1 1 none ++ turn 1 1 (some 6)) ++ .slot 0 ::
      turn 1 1 (some 7) ++ [.work 0 none]) = .ok (s', os) ∧ (seen 1 os).length = 1 := by
  have key : (match runOps (S.step path) path0 ([.add 0, .add 1, .add 2] ++ turn 0 1 (some 5) ++ [.pick 0 1]) with
      | .ok (s, _) => decide (s.pool.ph 0 = .run 1 ∧ s.act 0 = .start ∧ 0 < (s.ring 0).getElements)
      | _ => false) = true := by decide +kernel
  rcases h : runOps (S.step path) path0 ([.add 0, .add 1, .add 2] ++ turn 0 1 (some 5) ++ [.pick 0 1]) with ⟨s, outs⟩ | _ | _
  · rw [h] at key
    simp only [decide_eq_true_eq] at key
    obtain ⟨k1, k2, k3⟩ := key
    refine ⟨s, outs, h, k1, k2, k3, ?_⟩
    exact run_processes_one_frame path (fun _ => 3) (fun _ => by omega) (fun _ _ => 0) (fun _ => 0) (fun _ => 0)
      _ (turn 1 1 none ++ turn 1 1 (some 6)) (turn 1 1 (some 7)) s outs h 0 0 none k1 k2 k3
      (by simp [turn, Op.by]) (by simp [turn, Op.by])
  · rw [h] at key; cases key
  · rw [h] at key; cases key

/-- The hypotheses of `frames_arrive_in_order`: filters that double and add three. -/
def plain : Chain Nat Nat where
  last := 3
  work := fun k m x => (m, some (if k = 1 then 2 * x else x + 3))

example : ∀ k m x, (plain.work k m x).2 = some ((fun k x => if k = 1 then 2 * x else x + 3) k x) :=
  fun _ _ _ => rfl

/-- Two frames go all the way. -/
example : (match runOps (S.step plain) path0 ([.add 0, .add 1, .add 2, .add 3] ++ turn 0 1 (some 5) ++
      turn 0 1 none ++ turn 0 1 none ++ turn 0 1 none ++ turn 0 1 (some 6) ++ turn 0 1 none ++ turn 0 1 none ++
      turn 0 1 none ++ turn 0 1 none ++ turn 0 1 none ++ turn 0 1 none) with
    | .ok (s, outs) => some (made 0 outs, seen 3 outs, gone s 3)
    | _ => none) = some ([5, 6], [13, 15], 0) := by decide +kernel

/-- Recorded (C88): with a queue of two buffers the frame a filter is busy with is thrown away and counted
as lost although it is processed: two frames made, one processed, one waiting, and one counted as lost. -/
theorem two_buffers_miscount :
    (match runOps (S.step path) (S.init (fun _ => 2) (fun _ _ => 0) (fun _ => 0) (fun _ => 0))
        ([.add 0, .add 1] ++ turn 0 1 (some 5) ++
          [.pick 1 1, .look 1, .slot 1, .work 1 none, .pick 0 1, .look 0, .slot 0, .drop 1, .work 0 (some 6)]) with
    | .ok (s, outs) => some (made 0 outs, seen 1 outs, (s.ring 0).getElements, (s.ring 0).lost)
    | _ => none) = some ([5, 6], [5], 1, 1) := by decide +kernel

end Lms.Flow
