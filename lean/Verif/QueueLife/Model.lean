import Verif.Common.Outcome

/-!
# Model of the two ends of a queue (src/IOInterface.cpp) and of its deletion

Any number of writers, readers and queues.  Queues live on a heap: `new` gives a fresh address,
`delete` of anything but a live queue and any use of a dead one are undefined behaviour.  Contents of
the queues, delay statistics and the reader's frame are modelled elsewhere (`FrameQueue`,
`SharedReader`).
-/

namespace Lms.QueueLife

/-- A heap cell: never allocated, a live queue (`connected` and the filter ids of
`connectionData.readers`, src/FrameQueue.hh:78-80, 178-213), or deleted. -/
inductive Cell where
  | none
  | live (connected : Bool) (ids : List Nat)
  | freed
  deriving DecidableEq, Repr

/-- src/IOInterface.hh:204-219: the reader's queue pointer and the keys of `filters`. -/
structure Rd where
  queue : Option Nat
  filters : List Nat
  deriving DecidableEq, Repr

/-- src/IOInterface.hh:45-228, src/FrameQueue.hh:70-232. -/
structure St where
  heap : Nat → Cell
  next : Nat
  /-- the `queue` pointer of every `Writer` -/
  w : Nat → Option Nat
  r : Nat → Rd
  /-- addresses deleted so far, in order (observation only) -/
  log : List Nat

/-- Before any connection: all writers and readers constructed, pointers null
(src/IOInterface.cpp:32-36, 260-263). -/
def St.init : St :=
  { heap := fun _ => .none, next := 0, w := fun _ => none, r := fun _ => ⟨none, []⟩, log := [] }

def upd {β : Type} (f : Nat → β) (i : Nat) (v : β) : Nat → β := fun j => if j = i then v else f j

/-- `queue->isConnected()` (src/FrameQueue.hh:146). -/
def St.connected (s : St) (q : Nat) : Outcome Bool :=
  match s.heap q with
  | .live c _ => .ok c
  | _ => .ub

/-- `delete queue` (src/IOInterface.cpp:52, 293). -/
def St.delete (s : St) (q : Nat) : Outcome St :=
  match s.heap q with
  | .live _ _ => .ok { s with heap := upd s.heap q .freed, log := s.log ++ [q] }
  | _ => .ub

/-- `queue->setConnected(c)` (src/FrameQueue.hh:152). -/
def St.setConnected (s : St) (q : Nat) (c : Bool) : Outcome St :=
  match s.heap q with
  | .live _ ids => .ok { s with heap := upd s.heap q (.live c ids) }
  | _ => .ub

/-- The common part of src/IOInterface.cpp:49-53 and 289-296. -/
def St.letGo (s : St) (q : Nat) : Outcome St :=
  (s.connected q).bind fun c => if c then s.setConnected q false else s.delete q

/-- src/IOInterface.cpp:43-58 `Reader::disconnectQueue`. -/
def St.disconnectQueue (s : St) (r : Nat) : Outcome (St × Bool) :=
  match (s.r r).queue with
  | none => .ok (s, false)
  | some q => (s.letGo q).bind fun s' => .ok ({ s' with r := upd s'.r r { s'.r r with queue := none } }, true)

/-- src/IOInterface.cpp:283-297 `Writer::disconnect`. -/
def St.writerDisconnect (s : St) (w : Nat) : Outcome (St × Bool) :=
  match s.w w with
  | none => .ok (s, false)
  | some q => (s.letGo q).bind fun s' => .ok ({ s' with w := upd s'.w w none }, true)

/-- `queue->removeReaderCData(f)` (src/FrameQueue.hh:200-213). -/
def St.removeId (s : St) (q f : Nat) : Outcome St :=
  match s.heap q with
  | .live c ids => .ok { s with heap := upd s.heap q (.live c (ids.erase f)) }
  | _ => .ub

/-- src/IOInterface.cpp:202-205: the filter is erased from `filters` and from the queue's list. -/
def St.dropId (s : St) (r f : Nat) : Outcome St :=
  let s1 := { s with r := upd s.r r { s.r r with filters := (s.r r).filters.filter (· ≠ f) } }
  match (s.r r).queue with
  | none => .ok s1
  | some q => s1.removeId q f

/-- src/IOInterface.cpp:194-212 `Reader::disconnect`. -/
def St.readerDisconnect (s : St) (r f : Nat) : Outcome (St × Bool) :=
  if f ∉ (s.r r).filters then .ok (s, false)
  else (s.dropId r f).bind fun s2 =>
    if (s2.r r).filters ≠ [] then .ok (s2, true) else s2.disconnectQueue r

/-- src/IOInterface.cpp:60-68 `Reader::addReader`; the Boolean is "accepted". -/
def St.addReader (s : St) (r f : Nat) : Outcome (St × Bool) :=
  match (s.r r).queue with
  | none => .ok (s, false)
  | some q => (s.connected q).bind fun c =>
    if !c then .ok (s, false)
    else match s.heap q with
      | .live c ids =>
        if f ∈ ids then .ok (s, false)
        else .ok ({ s with heap := upd s.heap q (.live c (ids ++ [f]))
                           r := upd s.r r { s.r r with filters := (s.r r).filters ++ [f] } }, true)
      | _ => .ub

/-- src/IOInterface.cpp:214-221 `Reader::isConnected`. -/
def St.readerConnected (s : St) (r : Nat) : Outcome Bool :=
  match (s.r r).queue with
  | none => .ok false
  | some q => s.connected q

/-- src/IOInterface.cpp:271-281 `Writer::connect` with 178-192 `Reader::setConnection`. -/
def St.connect (s : St) (w r : Nat) : Outcome (St × Bool) :=
  match s.w w with
  | none => .ok (s, false)
  | some q => (s.readerConnected r).bind fun c =>
    (if c then Outcome.ok s
     else match s.heap q with
      | .live _ (f :: _) =>
        Outcome.ok { s with r := upd s.r r ⟨some q, if f ∈ (s.r r).filters then (s.r r).filters
                                             else (s.r r).filters ++ [f]⟩ }
      | _ => Outcome.ub).bind fun s1 =>
    (s1.setConnected q true).bind fun s2 => .ok (s2, true)

/-- Calls.  `give w f`: `Writer::setQueue` with a new queue for the reader of filter `f`
(src/Filter.cpp:343-361, src/IOInterface.cpp:314-317).  `connect`, `share`, `leave`, `drop`
(destruction of the last owner of the reader, src/IOInterface.cpp:38-41), `wdisc` (also the writer's
destructor, 265-268).  `rget`: `Reader::getFrame`'s use of the queue (74-80); `wget`:
`Writer::getFrame`'s (319-326). -/
inductive Op where
  | give (w f : Nat) | connect (w r : Nat) | share (r f : Nat) | leave (r f : Nat)
  | drop (r : Nat) | wdisc (w : Nat) | rget (r f : Nat) | wget (w : Nat)
  deriving DecidableEq, Repr

/-- One call; `rget` and `wget` return whether the call gets past its connection checks.
Calls `St.connected` (src/FrameQueue.hh:146), `St.disconnectQueue` (src/IOInterface.cpp:43-58), `St.writerDisconnect`
(src/IOInterface.cpp:283-297), `St.readerDisconnect` (src/IOInterface.cpp:194-212), `St.addReader`
(src/IOInterface.cpp:60-68), `St.readerConnected` (src/IOInterface.cpp:214-221) and others. -/
def St.step (s : St) : Op → Outcome (St × Bool)
  | .give w f => .ok ({ s with heap := upd s.heap s.next (.live false [f]), next := s.next + 1
                               w := upd s.w w (some s.next) }, true)
  | .connect w r => s.connect w r
  | .share r f => s.addReader r f
  | .leave r f => s.readerDisconnect r f
  | .drop r => (s.disconnectQueue r).bind fun (s', b) => .ok ({ s' with r := upd s'.r r ⟨none, []⟩ }, b)
  | .wdisc w => s.writerDisconnect w
  | .rget r f => (s.readerConnected r).bind fun c => .ok (s, c && decide (f ∈ (s.r r).filters))
  | .wget w => match s.w w with
    | none => .ub
    | some q => (s.connected q).bind fun c => .ok (s, c)

end Lms.QueueLife
