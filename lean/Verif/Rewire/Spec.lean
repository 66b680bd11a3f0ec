import Verif.Rewire.Model

/-! What is said of frames and changing connections, in terms of what there is to be seen. -/

namespace Lms.Rewire

variable {α : Type}

/-- No worker runs the filter. -/
def Idle (x : D α) (k : Nat) : Prop := ∀ w, x.s.pool.ph w ≠ .run k

/-- The changes that may be made: no filter concerned is at work.  A new queue is new and has at least three
buffers.  A filter begins to share what it does not yet read.  It leaves a reader that others share, not
being the only one the frame announced still waits for. -/
def Allowed (x : D α) : Op α → Prop
  | .flow _ => True
  | .connect w r q size _ => w ≠ r ∧ x.live q = false ∧ 3 ≤ size ∧ Idle x w ∧ Idle x r
  | .share q k => x.live q = true ∧ k ∉ x.g.dst q ∧ Idle x k
  | .leave q k => x.live q = true ∧ k ∈ x.g.dst q ∧ (∃ j ∈ x.g.dst q, j ≠ k) ∧ Idle x k ∧
      ((x.s.rd q).ready = false → ∃ e ∈ (x.s.rd q).filters, e.1 ≠ k ∧ (e.2.1 || e.2.2) = true)
  | .cut q => x.live q = true ∧ Idle x (x.g.src q) ∧ ∀ k ∈ x.g.dst q, Idle x k

/-- All changes of a run may be made when they are. -/
def AllowedRun (x : D α) : List (Op α) → Prop
  | [] => True
  | op :: ops => Allowed x op ∧ ∀ x' o, x.step op = .ok (x', o) → AllowedRun x' ops

/-- The frames committed to queue `q` since it was made, in order. -/
def committed (q : Nat) (outs : List (Out α)) : List α :=
  outs.foldl (fun l o => match o with
    | .linked p => if p = q then [] else l
    | .flow o => l ++ Net.made q [o]
    | _ => l) []

/-- The frames of queue `q` filter `k` has processed or passed over since it began to read it, in order. -/
def seen (q k : Nat) (outs : List (Out α)) : List α :=
  outs.foldl (fun l o => match o with
    | .linked p => if p = q then [] else l
    | .joined p j => if p = q ∧ j = k then [] else l
    | .flow o => l ++ Net.handled q k [o]
    | _ => l) []

/-- Filter `k` has begun to read queue `q` by sharing the reader of another. -/
def newcomer (q k : Nat) (outs : List (Out α)) : Bool :=
  outs.foldl (fun b o => match o with
    | .linked p => if p = q then false else b
    | .joined p j => if p = q ∧ j = k then true else b
    | _ => b) false

/-- Filter `k` has begun to share the reader of queue `q` and no frame has been committed since. -/
def unwoken (q k : Nat) (outs : List (Out α)) : Bool :=
  outs.foldl (fun b o => match o with
    | .linked p => if p = q then false else b
    | .joined p j => if p = q ∧ j = k then true else b
    | .flow (.put p _) => if p = q then false else b
    | _ => b) false

end Lms.Rewire
