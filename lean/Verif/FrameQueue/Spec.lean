import Verif.FrameQueue.Model

/-! Specification of the frame queue: a bounded first-in first-out list.  It shares only the
operation and output types with the model. -/

namespace Lms.FrameQueue

/-- Specification state: the committed, unreleased frames (oldest first), the last released frame,
the number of discarded frames, the capacity. -/
structure Spec (α : Type) where
  cap : Nat
  q : List α
  last : α
  lost : Nat

variable {α : Type}

/-- Make room by discarding the most recent frame. -/
def Spec.makeRoom (t : Spec α) : Spec α :=
  if t.q.length < t.cap then t else { t with q := t.q.dropLast, lost := t.lost + 1 }

/-- The abstract bounded queue. -/
def Spec.step (t : Spec α) : Op α → Spec α × Out α
  | .fill _ => (t, if t.q.length < t.cap then .done else .refused)
  | .put x => if t.q.length < t.cap then ({ t with q := t.q ++ [x] }, .done) else (t, .refused)
  | .forceFill _ => (t.makeRoom, .done)
  | .forcePut x => ({ t.makeRoom with q := t.makeRoom.q ++ [x] }, .done)
  | .peek => (t, .frame t.q.head?)
  | .take => match t.q with
    | [] => (t, .frame none)
    | x :: q => ({ t with q := q, last := x }, .frame (some x))
  | .old => (t, .frame (some t.last))
  | .count => (t, .num t.q.length)

/-- The abstract queue of a freshly created ring. -/
def Spec.init (maxFrames : Nat) (d : Nat → α) : Spec α :=
  { cap := min maxFrames MAX_FRAMES - 1, q := [], last := d (min maxFrames MAX_FRAMES - 1), lost := 0 }

end Lms.FrameQueue
