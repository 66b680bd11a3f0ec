import Verif.Retire.Model

/-! What is said of filters that come and go, in terms of what there is to be seen. -/

namespace Lms.Retire

open Rewire (D)
open Pool (P)

variable {α : Type}

/-- The pool has nothing to do with filter `k`: it is not registered, not queued and in no worker's hands. -/
def Off (p : P) (k : Nat) : Prop :=
  p.reg (k : Int) ≠ some k ∧ k ∉ p.q.queue ∧ ∀ w, p.ph w ≠ .run k ∧ p.ph w ≠ .post k

/-- Filter `k` is at neither end of a queue there is. -/
def Loose (x : D α) (k : Nat) : Prop := ∀ q, x.live q = true → x.g.src q ≠ k ∧ k ∉ x.g.dst q

/-- What may be done: connections change as in `Rewire`; a filter that is named is there; it is deleted when
the pool has nothing to do with it any more and it is disconnected. -/
def Allowed (r : R α) : Op α → Prop
  | .net (.flow (.add k)) => r.gone k = false
  | .net (.connect w k q size d) => Rewire.Allowed r.x (.connect w k q size d) ∧ r.gone w = false ∧ r.gone k = false
  | .net (.share q k) => Rewire.Allowed r.x (.share q k) ∧ r.gone k = false
  | .net op => Rewire.Allowed r.x op
  | .create _ _ _ => True
  | .remove _ => True
  | .delete k => r.gone k = false ∧ Off r.x.s.pool k ∧ Loose r.x k

/-- All that is done in a run may be done when it is. -/
def AllowedRun (r : R α) : List (Op α) → Prop
  | [] => True
  | op :: ops => Allowed r op ∧ ∀ r' o, r.step op = .ok (r', o) → AllowedRun r' ops

/-- What there is to be seen of the frames and connections. -/
def nets (outs : List (Out α)) : List (Rewire.Out α) :=
  outs.filterMap fun o => match o with | .net o => some o | _ => none

end Lms.Retire
