import Verif.Flow.Model

/-! What is said about a path, in terms of the frames its filters have processed and committed. -/

namespace Lms.Flow

variable {σ α : Type}

/-- The frames filter `k` has processed, in order. -/
def seen (k : Nat) : List (Out α) → List α
  | [] => []
  | .ran k' (some x) _ :: os => if k' = k then x :: seen k os else seen k os
  | _ :: os => seen k os

/-- The frames filter `k` has committed, in order. -/
def made (k : Nat) : List (Out α) → List α
  | [] => []
  | .ran k' _ (some y) :: os => if k' = k then y :: made k os else made k os
  | _ :: os => made k os

/-- A filter fed with a list of frames by hand: its final state and its frames. -/
def feed (f : σ → α → σ × Option α) : σ → List α → σ × List α
  | m, [] => (m, [])
  | m, x :: l => ((feed f (f m x).1 l).1, (f m x).2.toList ++ (feed f (f m x).1 l).2)

/-- The worker of filter `k` is about to notify filter `k + 1`. -/
def Notifies (s : S σ α) (k : Nat) : Prop :=
  ∃ w, (s.pool.ph w = .run k ∨ s.pool.ph w = .post k) ∧
    ∃ en, ((∃ o, s.act w = .worked o en) ∨ s.act w = .fin en) ∧ ((k : Int) + 1) ∈ en

/-- Nobody is at work, and only the source waits for its turn. -/
def AtRest (s : S σ α) : Prop :=
  (∀ w, s.pool.ph w = .idle) ∧ ∀ k ∈ s.pool.q.queue, k = 0

/-- The frames queued or lost in the queues 0 … `n`. -/
def gone (s : S σ α) : Nat → Nat
  | 0 => 0
  | n + 1 => gone s n + ((s.ring n).getElements + (s.ring n).lost)

/-- The frames waiting in the queues 0 … `n`. -/
def waitingBefore (s : S σ α) : Nat → Nat
  | 0 => 0
  | n + 1 => waitingBefore s n + (s.ring n).getElements

/-- The worker that takes a step, if a worker takes it. -/
def Op.by : Op α → Option Nat
  | .add _ => none
  | .pick w _ | .look w | .slot w | .work w _ | .drop w | .done w _ | .post w => some w

/-- The source delivers nothing. -/
def Silent (ops : List (Op α)) : Prop := ∀ w x, Op.work w x ∈ ops → x = none

/-- What filters that turn every frame into one frame make of a frame up to filter `n`. -/
def through (f : Nat → α → α) : Nat → α → α
  | 0, x => x
  | n + 1, x => f (n + 1) (through f n x)

end Lms.Flow
