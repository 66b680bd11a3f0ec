import Verif.QueueLife.Model

/-! Specification: a queue belongs to at most one writer and one reader and is deleted when both have
let go.  No connection flag. -/

namespace Lms.QueueLife

/-- `w`: the queue (and its first filter) of a writer; `r`: the queue of a reader and the filters
sharing it; `wAt q`, `rAt q`: the writer, the reader of queue `q`; `used q`: the queue has
been connected; `next`: number of queues created;
`log`: deleted queues in order. -/
structure Spec where
  w : Nat → Option (Nat × Nat)
  r : Nat → Option (Nat × List Nat)
  wAt : Nat → Option Nat
  rAt : Nat → Option Nat
  used : Nat → Bool
  next : Nat
  log : List Nat

def Spec.init : Spec :=
  { w := fun _ => none, r := fun _ => none, wAt := fun _ => none, rAt := fun _ => none
    used := fun _ => false, next := 0, log := [] }

def Spec.dropReader (t : Spec) (r q : Nat) : Spec :=
  { t with r := upd t.r r none, rAt := upd t.rAt q none
           log := if (t.wAt q).isNone then t.log ++ [q] else t.log }

def Spec.dropWriter (t : Spec) (w q : Nat) : Spec :=
  { t with w := upd t.w w none, wAt := upd t.wAt q none
           log := if (t.rAt q).isNone then t.log ++ [q] else t.log }

def Spec.step (t : Spec) : Op → Spec × Bool
  | .give w f => ({ t with w := upd t.w w (some (t.next, f)), wAt := upd t.wAt t.next (some w)
                           next := t.next + 1 }, true)
  | .connect w r => match t.w w with
    | none => (t, false)
    | some (q, f) => ({ t with r := upd t.r r (some (q, [f])), rAt := upd t.rAt q (some r),
                                   used := upd t.used q true }, true)
  | .share r f => match t.r r with
    | none => (t, false)
    | some (q, fs) => if (t.wAt q).isNone ∨ f ∈ fs then (t, false)
                      else ({ t with r := upd t.r r (some (q, fs ++ [f])) }, true)
  | .leave r f => match t.r r with
    | none => (t, false)
    | some (q, fs) =>
      if f ∉ fs then (t, false)
      else if fs.filter (· ≠ f) = [] then (t.dropReader r q, true)
      else ({ t with r := upd t.r r (some (q, fs.filter (· ≠ f))) }, true)
  | .drop r => match t.r r with
    | none => (t, false)
    | some (q, _) => (t.dropReader r q, true)
  | .wdisc w => match t.w w with
    | none => (t, false)
    | some (q, _) => (t.dropWriter w q, true)
  | .rget r f => match t.r r with
    | none => (t, false)
    | some (q, fs) => (t, (t.wAt q).isSome && decide (f ∈ fs))
  | .wget w => match t.w w with
    | none => (t, false)
    | some (q, _) => (t, (t.rAt q).isSome)

/-- What `BaseFilter::connect` guarantees (src/Filter.cpp:321-364): a queue is given to a writer that
has none; it is connected once, to a reader that has none (a fresh one).  A writer without queue is
not asked for a frame. -/
def Safe (t : Spec) : Op → Prop
  | .give w _ => t.w w = none
  | .connect w r => ∀ q f, t.w w = some (q, f) → t.used q = false ∧ t.r r = none
  | .wget w => t.w w ≠ none
  | _ => True

end Lms.QueueLife
