import Verif.FrameQueue.Lemmas

/-!
# Model of `Reader` (src/IOInterface.cpp:32-253) shared by several filters

The reader is on a queue of frames (`AVFramedQueue`, model `FrameQueue.Ring`) whose writer stays
connected; disconnection of the writer is the subject of `QueueLife`.  Each call is atomic (the
reader's mutex).  Delay statistics are not modelled except that they dereference the held frame.
-/

namespace Lms.SharedReader
open Lms.FrameQueue

/-- src/IOInterface.hh:204-219.  `frame` is the slot of the held frame.  `filters` is the map from
filter id to (not yet told, not yet released) in the order of insertion; the queue's list of readers
(src/FrameQueue.hh:61-66) has the same ids, since both are changed together
(src/IOInterface.cpp:64-66, 189-191, 202-205).  `conn` is `queue && queue->isConnected()`. -/
structure Rd (α : Type) where
  ring : Ring α
  conn : Bool
  frame : Option Nat
  filters : List (Nat × Bool × Bool)
  ready : Bool

variable {α : Type}

/-- src/IOInterface.cpp:32-36 then `setConnection` 178-192 for the filter `f`. -/
def Rd.create (r : Ring α) (f : Nat) : Rd α :=
  { ring := r, conn := true, frame := none, filters := [(f, false, false)], ready := true }

/-- `filters.count(f) > 0` (src/IOInterface.cpp:79, 126, 198). -/
def Rd.has (s : Rd α) (f : Nat) : Bool := s.filters.any fun e => e.1 == f

/-- `filters[f].first` (src/IOInterface.cpp:101). -/
def untold (fs : List (Nat × Bool × Bool)) (f : Nat) : Bool := fs.any fun e => e.1 == f && e.2.1

/-- `filters[f].first = false` (src/IOInterface.cpp:103). -/
def setTold (fs : List (Nat × Bool × Bool)) (f : Nat) : List (Nat × Bool × Bool) :=
  fs.map fun e => if e.1 = f then (e.1, false, e.2.2) else e

/-- `filters[f].second = false` (src/IOInterface.cpp:127). -/
def setReleased (fs : List (Nat × Bool × Bool)) (f : Nat) : List (Nat × Bool × Bool) :=
  fs.map fun e => if e.1 = f then (e.1, e.2.1, false) else e

/-- src/IOInterface.cpp:70-109 `getFrame`: `none` is NULL, otherwise the frame and `newFrame`. -/
def Rd.getFrame (s : Rd α) (f : Nat) : Outcome (Rd α × Option (α × Bool)) :=
  if !s.conn then .ok (s, none)
  else if !s.has f then .ok (s, none)
  else
    match s.frame.or s.ring.getFront with
    | none => s.ring.forceGetFront.bind fun i => .ok (s, some (s.ring.slots i, false))
    | some i =>
      let fs := if s.ready then s.filters.map fun e => (e.1, true, true) else s.filters
      .ok ({ s with frame := some i, ready := false, filters := setTold fs f },
        some (s.ring.slots i, untold fs f))

/-- src/IOInterface.cpp:111-120 `allRead`. -/
def allRead (fs : List (Nat × Bool × Bool)) : Bool := fs.all fun e => !(e.2.1 || e.2.2)

/-- src/IOInterface.cpp:122-138 `removeFrame`; the Boolean is "the queue advanced".  `measureDelay`
(140-162) dereferences `frame`. -/
def Rd.removeFrame (s : Rd α) (f : Nat) : Outcome (Rd α × Bool) :=
  let fs := setReleased s.filters f
  if allRead fs then
    if s.frame.isNone then .ub
    else if !s.conn then .ok ({ s with filters := fs, frame := none, ready := true }, false)
    else s.ring.removeFrame.bind fun (r, b) =>
      .ok ({ s with ring := r, filters := fs, frame := none, ready := true }, b)
  else .ok ({ s with filters := fs }, false)

/-- src/IOInterface.cpp:60-68 `addReader` with src/FrameQueue.hh:178-193. -/
def Rd.addReader (s : Rd α) (f : Nat) : Rd α × Bool :=
  if s.conn && !s.has f then ({ s with filters := s.filters ++ [(f, false, false)] }, true)
  else (s, false)

/-- src/IOInterface.cpp:194-212 `disconnect`; when the last filter leaves, `disconnectQueue`
(43-58). -/
def Rd.disconnect (s : Rd α) (f : Nat) : Rd α × Bool :=
  if !s.has f then (s, false)
  else
    let fs := s.filters.filter fun e => e.1 != f
    if fs.isEmpty then ({ s with filters := fs, conn := false }, s.conn)
    else ({ s with filters := fs }, true)

/-- Calls on the reader and its queue: the writer commits a frame (forced or not), a filter asks
for the frame, releases it, starts sharing, stops sharing. -/
inductive Op (α : Type) where
  | put (x : α) | forcePut (x : α) | get (f : Nat) | remove (f : Nat) | join (f : Nat) | leave (f : Nat)
  deriving DecidableEq, Repr

inductive Out (α : Type) where
  | wrote (ok : Bool)
  | frame (o : Option (α × Bool))
  | advanced (b : Bool)
  | bool (b : Bool)
  deriving DecidableEq, Repr

/-- One call; a refused write is `wrote false`.
Calls `Rd.getFrame` (src/IOInterface.cpp:70-109), `Rd.removeFrame` (src/IOInterface.cpp:122-138), `Rd.addReader`
(src/IOInterface.cpp:60-68), `Rd.disconnect` (src/IOInterface.cpp:194-212). -/
def Rd.step (s : Rd α) : Op α → Outcome (Rd α × Out α)
  | .put x => (FrameQueue.step s.ring (.put x)).bind fun (r, o) =>
      .ok ({ s with ring := r }, .wrote (match o with | .done => true | _ => false))
  | .forcePut x => (FrameQueue.step s.ring (.forcePut x)).bind fun (r, o) =>
      .ok ({ s with ring := r }, .wrote (match o with | .done => true | _ => false))
  | .get f => (s.getFrame f).bind fun (s', o) => .ok (s', .frame o)
  | .remove f => (s.removeFrame f).bind fun (s', b) => .ok (s', .advanced b)
  | .join f => let r := s.addReader f; .ok (r.1, .bool r.2)
  | .leave f => let r := s.disconnect f; .ok (r.1, .bool r.2)

end Lms.SharedReader
