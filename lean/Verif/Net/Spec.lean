import Verif.Net.Model

/-! What is said about a network, in terms of the frames committed to, processed and passed over in each
queue. -/

namespace Lms.Net

variable {α : Type}

/-- The frames of queue `q` in a list of frames. -/
def ofQueue (q : Nat) (xs : List (Nat × α)) : List α := (xs.filter fun x => x.1 == q).map Prod.snd

/-- The frames of queue `q` filter `k` has processed or passed over, in order. -/
def handled (q k : Nat) : List (Out α) → List α
  | [] => []
  | .ran k' xs :: os | .skipped k' xs :: os => if k' = k then ofQueue q xs ++ handled q k os else handled q k os
  | _ :: os => handled q k os

/-- The frames committed to queue `q`, in order. -/
def made (q : Nat) : List (Out α) → List α
  | [] => []
  | .put q' y :: os => if q' = q then y :: made q os else made q os
  | _ :: os => made q os

/-- A network: the ends of the queues fit the filters. -/
structure Graph.Ok (g : Graph) : Prop where
  ins : ∀ k q, q ∈ g.ins k → k ∈ g.dst q
  outs : ∀ k q, q ∈ g.outs k → g.src q = k
  outsOnce : ∀ k, (g.outs k).Nodup
  dstOnce : ∀ q, (g.dst q).Nodup

/-- The ids a worker is about to hand to the pool. -/
def Act.notes : Act α → List Int
  | .commit _ _ en | .drop _ en => en
  | _ => []

/-- A worker is about to notify filter `k` of a frame in queue `q`. -/
def Notifies (g : Graph) (s : S α) (q k : Nat) : Prop :=
  ∃ w, (s.pool.ph w = .run (g.src q) ∨ s.pool.ph w = .post (g.src q)) ∧ (k : Int) ∈ (s.act w).notes

/-- Nobody is at work and none but periodic filters without readers wait for their turn. -/
def AtRest (g : Graph) (s : S α) : Prop :=
  (∀ w, s.pool.ph w = .idle) ∧ ∀ k ∈ s.pool.q.queue, g.periodic k = true ∧ g.ins k = []

end Lms.Net
