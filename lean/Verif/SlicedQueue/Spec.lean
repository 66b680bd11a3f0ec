import Verif.SlicedQueue.Model

/-! Specification of the sliced queue: a bounded list of coded frames plus the list of slices of
the picture under construction.  A commit appends the whole picture at once. -/

namespace Lms.SlicedQueue

structure Spec where
  cap : Nat
  q : List Coded
  last : Coded
  lost : Nat
  pending : List (List UInt8)
  info : Meta

/-- The frames a picture is delivered as. -/
def pictureFrames (m : Meta) (slices : List (List UInt8)) : List Coded :=
  slices.map fun b => ⟨b, m⟩

/-- The queue after appending `fs` to `q` with room for `cap` frames: everything if it fits;
otherwise the oldest `cap - 1` frames and the newest one are kept. -/
def appendBounded (cap : Nat) (q fs : List Coded) : List Coded :=
  if (q ++ fs).length ≤ cap then q ++ fs
  else (q ++ fs).take (cap - 1) ++ (q ++ fs).getLast?.toList

def Spec.step (t : Spec) : Op → Spec × Out
  | .setSlice b =>
      if t.pending.length < 16 then ({ t with pending := t.pending ++ [b] }, .bool true)
      else (t, .bool false)
  | .setMeta m => ({ t with info := m }, .unit)
  | .commit =>
      let fs := pictureFrames t.info t.pending
      ({ t with
          q := appendBounded t.cap t.q fs
          lost := t.lost + ((t.q ++ fs).length - t.cap)
          pending := [] }, .unit)
  | .giveUp => (t, .unit)
  | .room => (t, .bool (decide (t.q.length < t.cap)))
  | .take => match t.q with
    | [] => (t, .ring (.frame none))
    | x :: q => ({ t with q := q, last := x }, .ring (.frame (some x)))
  | .old => (t, .ring (.frame (some t.last)))
  | .count => (t, .ring (.num t.q.length))

def Spec.init (maxFrames : Nat) (d : Nat → Coded) (m : Meta) : Spec :=
  { cap := min maxFrames 250 - 1, q := [], last := d (min maxFrames 250 - 1), lost := 0
    pending := [], info := m }

end Lms.SlicedQueue
