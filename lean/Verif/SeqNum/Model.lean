import Verif.Common.Outcome

/-!
# Model of sequence numbering (src/Filter.cpp:201-217, 286-319, 766-808, 863-879)

A filter's counters `seqNums` and one round of `regularProcessFrame`/`serverProcessFrame` (501-546) from
the point where the destination frames have been demanded: what the specific `doProcessFrame` did is an
input (its result and the frames it marked as consumed), every combination of which is considered.  A
writer is taken to stay connected during a round.  `size_t` is 64 bits.
-/

namespace Lms.SeqNum

/-- A destination frame of a round: its writer, whether the filter marked it (`setConsumed(true)`), and
the sequence number left in the buffer by an earlier use. -/
structure DF where
  w : Int
  marked : Bool
  stale : Nat
  deriving DecidableEq, Repr

/-- `seqNums`; `none`: no entry (src/Filter.hh:242). -/
abbrev Seqs := Int → Option Nat

/-- src/Filter.cpp:299, 303, 314, 803, 877. -/
def set (f : Seqs) (w : Int) (v : Option Nat) : Seqs := fun x => if x = w then v else f x

/-- src/Filter.cpp:286-308 `setWriter`: a new writer starts at 0. -/
def setWriter (f : Seqs) (w : Int) : Seqs := set f w (some 0)

/-- src/Filter.cpp:310-319 `deleteWriter`. -/
def deleteWriter (f : Seqs) (w : Int) : Seqs := set f w none

/-- `seqNums[w]++` (803, 877): the old value and the new map; a missing entry is created as 0. -/
def bump (f : Seqs) (w : Int) : Seqs × Nat :=
  let v := (f w).getD 0
  (set f w (some ((v + 1) % 2 ^ 64)), v)

/-- src/Filter.cpp:800-805: numbers given by a head filter, with the numbers ending up in the frames. -/
def headNumbers : Seqs → List DF → Seqs × List (DF × Nat)
  | f, [] => (f, [])
  | f, d :: ds =>
    if d.marked then
      let r := headNumbers (bump f d.w).1 ds
      (r.1, (d, (bump f d.w).2) :: r.2)
    else
      let r := headNumbers f ds
      (r.1, (d, d.stale) :: r.2)

/-- src/Filter.cpp:792-808 `HeadFilter::runDoProcessFrame`; `ok` is the result of `doProcessFrame`. -/
def headRound (f : Seqs) (ok : Bool) (ds : List DF) : Seqs × List (DF × Nat) :=
  if !ok then (f, ds.map fun d => (d, d.stale)) else headNumbers f ds

/-- src/Filter.cpp:868-879 `ManyToOneFilter::runDoProcessFrame`; using the first of no frames is
undefined behaviour. -/
def manyToOneRound (f : Seqs) (ok : Bool) : List DF → Outcome (Seqs × List (DF × Nat))
  | [] => .ub
  | d :: ds =>
    if !ok then .ok (f, (d :: ds).map fun d => (d, d.stale))
    else .ok ((bump f d.w).1, (d, (bump f d.w).2) :: ds.map fun d => (d, d.stale))

/-- src/Filter.cpp:771-785 `OneToManyFilter::runDoProcessFrame`; `n` is the number of the input. -/
def oneToManyRound (ok : Bool) (n : Nat) (ds : List DF) : List (DF × Nat) :=
  if !ok then ds.map fun d => (d, d.stale) else ds.map fun d => (d, n)

/-- src/Filter.cpp:201-217 `addFrames`: the marked frames enter their queues, whatever the result of
the round. -/
def addFrames (xs : List (DF × Nat)) : List (Int × Nat) :=
  (xs.filter fun x => x.1.marked).map fun x => (x.1.w, x.2)

/-- What happens to a head filter. -/
inductive Op where
  | setWriter (w : Int)
  | deleteWriter (w : Int)
  | round (ok : Bool) (ds : List DF)

/-- One step of a head filter; the output is what enters the queues.
Calls `setWriter` (src/Filter.cpp:286-308), `deleteWriter` (src/Filter.cpp:310-319), `headRound` (src/Filter.cpp:792-808),
`addFrames` (src/Filter.cpp:201-217). -/
def headStep (f : Seqs) : Op → Seqs × List (Int × Nat)
  | .setWriter w => (setWriter f w, [])
  | .deleteWriter w => (deleteWriter f w, [])
  | .round ok ds => let r := headRound f ok ds; (r.1, addFrames r.2)

/-- One step of a many-to-one filter.
Calls `setWriter` (src/Filter.cpp:286-308), `deleteWriter` (src/Filter.cpp:310-319), `manyToOneRound`
(src/Filter.cpp:868-879), `addFrames` (src/Filter.cpp:201-217). -/
def manyStep (f : Seqs) : Op → Outcome (Seqs × List (Int × Nat))
  | .setWriter w => .ok (setWriter f w, [])
  | .deleteWriter w => .ok (deleteWriter f w, [])
  | .round ok ds => (manyToOneRound f ok ds).bind fun r => .ok (r.1, addFrames r.2)

end Lms.SeqNum
