import Verif.Net.Round

/-! C89: a concrete network, meeting the hypotheses of the theorems. -/

namespace Lms.Net

/-- Two sources (0 and 1), a mixer (2) of their queues 0 and 1 with two writers, a sink (4) of its queue 3
and two sinks (3 and 5) that share the reader of its queue 2. -/
def mix : Graph where
  ins := fun k => match k with | 2 => [0, 1] | 3 => [2] | 4 => [3] | 5 => [2] | _ => []
  outs := fun k => match k with | 0 => [0] | 1 => [1] | 2 => [2, 3] | _ => []
  src := fun q => match q with | 0 => 0 | 1 => 1 | _ => 2
  dst := fun q => match q with | 0 => [2] | 1 => [2] | 2 => [3, 5] | _ => [4]
  periodic := fun k => decide (k < 2)

theorem mix_ok : mix.Ok where
  ins := by
    intro k q h
    rcases k with _ | _ | _ | _ | _ | _ | k <;> simp [mix] at h
    · rcases h with rfl | rfl <;> decide
    all_goals (subst h; decide)
  outs := by
    intro k q h
    rcases k with _ | _ | _ | k <;> simp [mix] at h
    · subst h; rfl
    · subst h; rfl
    · rcases h with rfl | rfl <;> rfl
  outsOnce := by
    intro k
    rcases k with _ | _ | _ | k <;> simp [mix]
  dstOnce := by
    intro q
    rcases q with _ | _ | _ | q <;> simp [mix]

/-- Queues of three buffers, hence of two frames. -/
def mix0 : S Nat := S.init mix (fun _ => 3) (fun _ _ => 0) (fun _ => 0)

/-- A source has its turn and delivers a frame. -/
def source (w now q x : Nat) : List (Op Nat) :=
  [.pick w now, .begin w [], .go w, .slot w, .work w (fun p => if p = q then some x else none),
   .commit w, .commit w, .done w 0, .post w]

/-- A turn that finds nothing: a filter with `n` readers. -/
def nothing (w now n : Nat) : List (Op Nat) :=
  [.pick w now, .begin w [0, 1, 2, 3]] ++ List.replicate n (.look w) ++ [.skip w, .done w 0, .post w]

/-- A turn of a sink that gets one frame. -/
def sink (w now : Nat) : List (Op Nat) :=
  [.pick w now, .begin w [0, 1, 2, 3], .look w, .go w, .work w (fun _ => none), .commit w, .drop w, .done w 0, .post w]

/-- Both sources deliver, then worker 0 takes the mixer and asks its first reader. -/
def opening : List (Op Nat) :=
  [.add 0, .add 1, .add 2, .add 3, .add 4, .add 5] ++ source 0 1 0 5 ++ source 0 1 1 6 ++
  [.pick 0 1, .begin 0 [0, 1]]

/-- The rest of the turn of the mixer: the sum of both frames is sent both ways; meanwhile worker 1 finds
the sinks without work and runs a source. -/
def ending : List (Op Nat) :=
  [.look 0, .look 0, .go 0] ++ nothing 1 1 1 ++ nothing 1 1 1 ++ nothing 1 1 1 ++ source 1 1 0 7 ++
  [.slot 0, .slot 0, .work 0 (fun q => if q = 2 then some 11 else some 12), .commit 0, .commit 0, .commit 0,
   .drop 0, .drop 0, .done 0 0, .post 0]

/-- The mixer passes over the last frame, two sinks get theirs, the other source delivers nothing. -/
def middle : List (Op Nat) :=
  [.pick 0 1, .begin 0 [], .go 0, .slot 0, .work 0 (fun _ => none), .commit 0, .done 0 0, .post 0] ++
  [.pick 0 1, .begin 0 [0, 1], .look 0, .look 0, .skip 0, .drop 0, .done 0 0, .post 0] ++
  [.pick 0 1, .begin 0 [], .go 0, .slot 0, .work 0 (fun _ => none), .commit 0, .done 0 0, .post 0] ++
  sink 0 1 ++ sink 0 1

/-- The third sink is about to ask the reader it shares. -/
def shared : List (Op Nat) := [.pick 0 1, .begin 0 [2]]

/-- It gets the frame; the two sources and the sink that shares the reader find nothing. -/
def last : List (Op Nat) :=
  [.look 0, .go 0, .work 0 (fun _ => none), .commit 0, .drop 0, .done 0 0, .post 0] ++
  [.pick 0 1, .begin 0 [], .go 0, .slot 0, .work 0 (fun _ => none), .commit 0, .done 0 0, .post 0] ++
  [.pick 0 1, .begin 0 [], .go 0, .slot 0, .work 0 (fun _ => none), .commit 0, .done 0 0, .post 0] ++
  nothing 0 1 1

/-- What an execution has to show: frames made for and taken from the queues, frames waiting, tasks queued. -/
def shows (ops : List (Op Nat)) : Option (List (List Nat)) :=
  match runOps (S.step mix) mix0 ops with
  | .ok (s, outs) => some [made 0 outs, handled 0 2 outs, made 1 outs, handled 1 2 outs, made 2 outs, handled 2 3 outs,
      handled 2 5 outs, made 3 outs, handled 3 4 outs, [0, 1, 2, 3].map (fun q => (s.ring q).getElements), s.pool.q.queue]
  | _ => none

theorem opening_shows :
    shows opening = some [[5], [], [6], [], [], [], [], [], [], [1, 1, 0, 0], [3, 4, 5, 0, 1]] := by decide +kernel

/-- Both frames have been processed in one round; a frame that came meanwhile waits. -/
theorem ending_shows : shows (opening ++ ending) =
    some [[5, 7], [5], [6], [6], [11], [], [], [12], [], [1, 0, 1, 1], [1, 2, 0, 4, 3, 5]] := by decide +kernel

/-- One of the sinks that share a reader has dealt with the frame; it stays for the other. -/
theorem middle_shows : shows (opening ++ ending ++ middle) =
    some [[5, 7], [5, 7], [6], [6], [11], [11], [], [12], [12], [0, 0, 1, 0], [5, 1, 0, 3]] := by decide +kernel

/-- Everything has arrived. -/
theorem all_shows : shows (opening ++ ending ++ middle ++ shared ++ last) =
    some [[5, 7], [5, 7], [6], [6], [11], [11], [11], [12], [12], [0, 0, 0, 0], [1, 0]] := by decide +kernel

/-- The hypotheses of `frame_found_is_handled`, `no_frame_left_behind` and `periodic_stays_scheduled`. -/
example : ∃ s outs s' outs', runOps (S.step mix) mix0 opening = .ok (s, outs) ∧
    runOps (S.step mix) s ending = .ok (s', outs') ∧ s.pool.ph 0 = .run 2 ∧ s.act 0 = .look [0, 1] [] ∧
    0 < (s.ring 0).getElements ∧ (s'.act 0).origins = [] ∧ handled 0 2 outs' ≠ [] ∧
    s'.pool.reg 2 = some 2 ∧ 0 < (s'.ring 0).getElements ∧ mix.periodic 0 = true ∧ s'.pool.reg 0 = some 0 := by
  have key : (match runOps (S.step mix) mix0 opening with
      | .ok (s, _) => (match s.act 0 with | .look [0, 1] [] => true | _ => false) &&
          decide (s.pool.ph 0 = .run 2 ∧ 0 < (s.ring 0).getElements) &&
          (match runOps (S.step mix) s ending with
            | .ok (s', _) => decide ((s'.act 0).origins = [] ∧ s'.pool.reg 2 = some 2 ∧
                0 < (s'.ring 0).getElements ∧ s'.pool.reg 0 = some 0)
            | _ => false)
      | _ => false) = true := by decide +kernel
  rcases h : runOps (S.step mix) mix0 opening with ⟨s, outs⟩ | _ | _
  · rw [h] at key
    simp only [Bool.and_eq_true, decide_eq_true_eq] at key
    obtain ⟨⟨k0, k1, k2⟩, k3⟩ := key
    have ha : s.act 0 = .look [0, 1] [] := by
      split at k0
      · assumption
      · cases k0
    rcases h' : runOps (S.step mix) s ending with ⟨s', outs'⟩ | _ | _
    · rw [h'] at k3
      simp only [decide_eq_true_eq] at k3
      refine ⟨s, outs, s', outs', rfl, h', k1, ha, k2, k3.1, ?_, k3.2.1, k3.2.2.1, rfl, k3.2.2.2⟩
      exact frame_found_is_handled mix mix_ok (fun _ => 3) (fun _ => by omega) (fun _ _ => 0) (fun _ => 0)
        opening s outs h 0 2 0 [1] [] k1 ha k2 (Or.inl rfl) _ s' outs' h' k3.1
    · rw [h'] at k3; cases k3
    · rw [h'] at k3; cases k3
  · rw [h] at key; cases key
  · rw [h] at key; cases key

/-- The hypotheses of `frame_found_is_handled` for a shared reader. -/
example : ∃ s outs s' outs', runOps (S.step mix) mix0 (opening ++ ending ++ middle ++ shared) = .ok (s, outs) ∧
    runOps (S.step mix) s last = .ok (s', outs') ∧ s.pool.ph 0 = .run 5 ∧ s.act 0 = .look [2] [] ∧
    0 < (s.ring 2).getElements ∧ handled 2 3 outs = [11] ∧ handled 2 5 outs = [] ∧ handled 2 5 outs' ≠ [] := by
  have key : (match runOps (S.step mix) mix0 (opening ++ ending ++ middle ++ shared) with
      | .ok (s, outs) => (match s.act 0 with | .look [2] [] => true | _ => false) &&
          decide (s.pool.ph 0 = .run 5 ∧ 0 < (s.ring 2).getElements ∧ handled 2 3 outs = [11] ∧ handled 2 5 outs = [] ∧
            (made 2 outs).length = (handled 2 5 outs).length + (s.ring 2).getElements + (s.ring 2).lost) &&
          (match runOps (S.step mix) s last with
            | .ok (s', _) => decide ((s'.act 0).origins = [])
            | _ => false)
      | _ => false) = true := by decide +kernel
  rcases h : runOps (S.step mix) mix0 (opening ++ ending ++ middle ++ shared) with ⟨s, outs⟩ | _ | _
  · rw [h] at key
    simp only [Bool.and_eq_true, decide_eq_true_eq] at key
    obtain ⟨⟨k0, k1, k2, k3, k4, k5⟩, k6⟩ := key
    have ha : s.act 0 = .look [2] [] := by
      split at k0
      · assumption
      · cases k0
    rcases h' : runOps (S.step mix) s last with ⟨s', outs'⟩ | _ | _
    · rw [h'] at k6
      simp only [decide_eq_true_eq] at k6
      refine ⟨s, outs, s', outs', rfl, h', k1, ha, k2, k3, k4, ?_⟩
      exact frame_found_is_handled mix mix_ok (fun _ => 3) (fun _ => by omega) (fun _ _ => 0) (fun _ => 0)
        (opening ++ ending ++ middle ++ shared) s outs h 0 5 2 [] [] k1 ha k2 (Or.inr k5) _ s' outs' h' k6
    · rw [h'] at k6; cases k6
    · rw [h'] at k6; cases k6
  · rw [h] at key; cases key
  · rw [h] at key; cases key

/-- The hypotheses of `sharers_get_the_same_frames`: one of the two is a frame ahead. -/
example : ∃ s outs, runOps (S.step mix) mix0 (opening ++ ending ++ middle) = .ok (s, outs) ∧
    3 ∈ mix.dst 2 ∧ 5 ∈ mix.dst 2 ∧ ∃ x, handled 2 3 outs = handled 2 5 outs ++ [x] := by
  have key : (match runOps (S.step mix) mix0 (opening ++ ending ++ middle) with
      | .ok (_, outs) => decide (handled 2 3 outs = [11] ∧ handled 2 5 outs = [])
      | _ => false) = true := by decide +kernel
  rcases h : runOps (S.step mix) mix0 (opening ++ ending ++ middle) with ⟨s, outs⟩ | _ | _
  · rw [h] at key
    simp only [decide_eq_true_eq] at key
    exact ⟨s, outs, rfl, by decide, by decide, 11, by rw [key.1, key.2]; rfl⟩
  · rw [h] at key; cases key
  · rw [h] at key; cases key

theorem idle_keeps {α : Type} {g : Graph} {w : Nat} (ops : List (Op α)) : ∀ {s s' : S α}
    {outs : List (Out α)}, runOps (S.step g) s ops = .ok (s', outs) → (∀ op ∈ ops, op.by ≠ some w) →
    s'.pool.ph w = s.pool.ph w := by
  induction ops with
  | nil => intro s s' outs h _; simp [runOps] at h; rw [h.1]
  | cons op ops ih =>
    intro s s' outs h hw
    obtain ⟨s1, o, os, h1, h2, rfl⟩ := runOps_cons_ok h
    rw [ih h2 (fun o ho => hw o (List.mem_cons_of_mem _ ho))]
    exact (other_keeps h1 (hw op (by simp))).1

/-- The hypotheses of `network_at_rest_is_empty`, and what it says here. -/
example : ∃ s outs, runOps (S.step mix) mix0 (opening ++ ending ++ middle ++ shared ++ last) = .ok (s, outs) ∧ AtRest mix s ∧
    s.pool.reg 2 = some 2 ∧ (s.ring 0).getElements = 0 ∧ (made 0 outs).length = (handled 0 2 outs).length + 0 := by
  obtain ⟨s, outs, h, _⟩ := frames_flow_in_order mix mix_ok (fun _ => 3) (fun _ => by omega) (fun _ _ => 0)
    (fun _ => 0) (opening ++ ending ++ middle ++ shared ++ last)
  have key : (match runOps (S.step mix) mix0 (opening ++ ending ++ middle ++ shared ++ last) with
      | .ok (s, _) => decide (s.pool.ph 0 = .idle ∧ s.pool.ph 1 = .idle ∧ s.pool.q.queue = [1, 0] ∧
          s.pool.reg 2 = some 2 ∧ (s.ring 0).lost = 0)
      | _ => false) = true := by decide +kernel
  have h' : runOps (S.step mix) mix0 (opening ++ ending ++ middle ++ shared ++ last) = .ok (s, outs) := h
  rw [h'] at key
  simp only [decide_eq_true_eq] at key
  obtain ⟨k0, k1, k2, k3, k5⟩ := key
  have hrest : AtRest mix s := by
    refine ⟨?_, by rw [k2]; simp [mix]⟩
    intro w
    by_cases e0 : w = 0
    · subst e0; exact k0
    · by_cases e1 : w = 1
      · subst e1; exact k1
      · have hall : ((opening ++ ending ++ middle ++ shared ++ last).map Op.by).all (fun o => o == none || o == some 0 || o == some 1) = true := by
          decide +kernel
        rw [idle_keeps (opening ++ ending ++ middle ++ shared ++ last) h' (w := w)]
        · rfl
        · intro op hm
          have := List.all_eq_true.1 hall op.by (List.mem_map.2 ⟨op, hm, rfl⟩)
          intro hc
          rw [hc] at this
          simp at this
          omega
  obtain ⟨r1, _, r3⟩ := network_at_rest_is_empty mix mix_ok (fun _ => 3) (fun _ => by omega) (fun _ _ => 0)
    (fun _ => 0) (opening ++ ending ++ middle ++ shared ++ last) s outs h hrest 2 0 (by decide) k3
  exact ⟨s, outs, h', hrest, k3, r1, by rw [r3, k5]⟩

end Lms.Net
