import Verif.SharedReader.Model

/-! Specification of a shared reader: a queue whose head stays until every sharing filter has
released it. -/

namespace Lms.SharedReader

/-- `members`: sharing filters.  When `active`, the head of the queue has been announced; `todo` are
the filters not yet told about it, `hold` those told that have not released it. -/
structure Spec (α : Type) where
  q : FrameQueue.Spec α
  members : List Nat
  active : Bool
  todo : List Nat
  hold : List Nat

variable {α : Type}

def Spec.get (t : Spec α) (f : Nat) : Spec α × Option (α × Bool) :=
  if f ∈ t.members then
    match t.q.q with
    | [] => (t, some (t.q.last, false))
    | x :: _ =>
      let todo := if t.active then t.todo else t.members
      let hold := if t.active then t.hold else []
      if f ∈ todo then
        ({ t with active := true, todo := todo.filter (· ≠ f), hold := f :: hold }, some (x, true))
      else ({ t with active := true, todo := todo, hold := hold }, some (x, false))
  else (t, none)

def Spec.remove (t : Spec α) (f : Nat) : Spec α × Bool :=
  let hold := t.hold.filter (· ≠ f)
  if t.todo = [] ∧ hold = [] then
    match t.q.q with
    | [] => ({ t with active := false, hold := [] }, false)
    | x :: q => ({ t with q := { t.q with q := q, last := x }, active := false, hold := [] }, true)
  else ({ t with hold := hold }, false)

def Spec.step (t : Spec α) : Op α → Spec α × Out α
  | .put x => if t.q.q.length < t.q.cap then ({ t with q := { t.q with q := t.q.q ++ [x] } }, .wrote true)
              else (t, .wrote false)
  | .forcePut x => ({ t with q := { t.q.makeRoom with q := t.q.makeRoom.q ++ [x] } }, .wrote true)
  | .get f => ((t.get f).1, .frame (t.get f).2)
  | .remove f => ((t.remove f).1, .advanced (t.remove f).2)
  | .join f => if f ∈ t.members then (t, .bool false)
               else ({ t with members := t.members ++ [f] }, .bool true)
  | .leave f => if f ∈ t.members then
      ({ t with members := t.members.filter (· ≠ f), todo := t.todo.filter (· ≠ f)
                hold := t.hold.filter (· ≠ f) }, .bool true)
    else (t, .bool false)

/-- What the code relies on: a filter releases only a frame it was told about and still holds; a
leaving filter is not the only one the current frame waits for, nor the last filter; forced writes
need a queue created for at least three frames. -/
def Safe (t : Spec α) : Op α → Prop
  | .put _ => True
  | .forcePut _ => 2 ≤ t.q.cap
  | .get _ => True
  | .remove f => t.active = true ∧ f ∈ t.hold
  | .join _ => True
  | .leave f => (f ∈ t.members → ∃ g ∈ t.members, g ≠ f) ∧
      (t.active = true → f ∈ t.members → ∃ g, g ≠ f ∧ (g ∈ t.todo ∨ g ∈ t.hold))

def Spec.init (q : FrameQueue.Spec α) (f : Nat) : Spec α :=
  { q := q, members := [f], active := false, todo := [], hold := [] }

end Lms.SharedReader
