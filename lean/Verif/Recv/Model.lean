import Verif.FrameQueue.Model
import Verif.Common.Mem

/-!
# Receiving: `QueueSink` (`src/modules/receiver/QueueSink.cpp`) in a round of the receiver

One stream of the receiver: the sink of its port, the queue of its writer (`FrameQueue`), and the rounds of the
receiver (`SourceManager::doProcessFrame`, `SourceManager.cpp:128-145`) within `serverProcessFrame`
(`Filter.cpp:526-546`).  The network library is represented by what it may do in `SingleStep`: run the task the
sink scheduled, and complete the fetch the sink asked for with a frame it received, in any number and order.
Streams of other ports touch neither this sink nor this queue.

Not modelled: the origin time and the sequence number given to a committed frame (`Filter.cpp:800-805`,
`SeqNum`); overflow of the 64-bit time (seconds beyond 2^43).  A reader may take frames between two rounds; in
the code it may also do so during one, where it only lowers the number of frames (`FrameQueue`, `Concurrent`).
-/

namespace Lms.Recv
open Lms.FrameQueue

/-- A frame as the network delivers it: payload and presentation time (`struct timeval`). -/
structure Pkt where
  data : Bytes
  sec : Int
  usec : Int
  deriving DecidableEq, Repr

/-- What a frame object of the queue holds: its buffer, the length set, the presentation time in microseconds (src/Frame.hh:37-153). -/
structure Content where
  buf : Bytes
  len : Nat
  pts : Int
  deriving DecidableEq, Repr

/-- Where a fetch delivers: the sink's own dummy buffer, or a frame of a queue (queues are numbered).
(src/modules/receiver/QueueSink.cpp:55, 68.) -/
inductive Dest where
  | dummy
  | slot (g i : Nat)
  deriving DecidableEq, Repr

/-- `QueueSink.hh:75-85` (`frame`, `nextFrame`), with the fetch under way and the scheduled task. -/
structure Sink where
  frame : Option Nat
  next : Bool
  pend : Option Dest
  task : Bool
  deriving DecidableEq, Repr

/-- One stream: sink, number and content of the queue if a writer is connected, queues disconnected but not yet
freed, and the frames marked consumed in this round. -/
structure St where
  sink : Sink
  gen : Nat
  ring : Option (Ring Content)
  olds : List Nat
  marked : List Nat

/-- `DUMMY_RECEIVE_BUFFER_SIZE` (`QueueSink.hh:31`). -/
abbrev DUMMY : Nat := 200000

/-- The sink just created and started (`QueueSink.cpp:29-34`, `Handlers.cpp:319` with `continuePlaying`): it has
no frame and fetches into the dummy buffer. -/
def St.init : St := { sink := { frame := none, next := true, pend := some .dummy, task := false }, gen := 0, ring := none, olds := [], marked := [] }

/-- `getNextFrame` of the source: the library aborts when a fetch is under way (src/modules/receiver/QueueSink.cpp:55-57, 68-70). -/
def fetch (s : St) (d : Dest) : Outcome St :=
  match s.sink.pend with
  | some _ => .ub
  | none => .ok { s with sink := { s.sink with pend := some d } }

/-- `continuePlaying` (46-73). -/
def continuePlaying (s : St) : Outcome St :=
  match s.sink.frame with
  | none => fetch s .dummy
  | some i => if s.sink.next then .ok { s with sink := { s.sink with task := true } } else fetch s (.slot s.gen i)

/-- `afterGettingFrame` (84-97). A frame pointer without a queue would be dangling. -/
def after (s : St) (size : Nat) (p : Pkt) : Outcome St :=
  match s.sink.frame with
  | none => .ok { s with sink := { s.sink with task := true } }
  | some i => match s.ring with
    | none => .ub
    | some r => .ok { s with
        ring := some (r.write i { (r.slots i) with len := size, pts := p.sec * 1000000 + p.usec })
        marked := i :: s.marked
        sink := { s.sink with next := true, task := true } }

/-- A frame of the network completes the fetch under way: the library writes at most the size of the buffer and
reports what it wrote. Without a fetch the frame stays with the library. The second result says whether the
frame was taken. -/
def packet (s : St) (p : Pkt) : Outcome (St × Bool) :=
  match s.sink.pend with
  | none => .ok (s, false)
  | some .dummy => (after { s with sink := { s.sink with pend := none } } (min p.data.length DUMMY) p).map fun t => (t, true)
  | some (.slot g i) =>
    if g ∈ s.olds then (after { s with sink := { s.sink with pend := none } } p.data.length p).map fun t => (t, true)
    else if g = s.gen then
      match s.ring with
      | none => .ub
      | some r =>
        let c := r.slots i
        let d := p.data.take c.buf.length
        (after { s with sink := { s.sink with pend := none }, ring := some (r.write i { c with buf := d ++ c.buf.drop d.length }) } d.length p).map fun t => (t, true)
    else .ub

/-- What the library may do in a step. -/
inductive Act where
  | task
  | packet (p : Pkt)
  deriving DecidableEq, Repr

/-- One such action, with the frame taken from the network. -/
def act (s : St) : Act → Outcome (St × List Pkt)
  | .task => if s.sink.task then (continuePlaying { s with sink := { s.sink with task := false } }).map fun t => (t, []) else .ok (s, [])
  | .packet p => (packet s p).map fun x => (x.1, if x.2 then [p] else [])

/-- `SingleStep`: any number of actions (src/modules/receiver/SourceManager.cpp:140). -/
def acts : St → List Act → Outcome (St × List Pkt)
  | s, [] => .ok (s, [])
  | s, a :: l => (act s a).bind fun x => (acts x.1 l).map fun y => (y.1, x.2 ++ y.2)

/-- `setFrame` (104-111). -/
def setFrame (s : St) (i : Nat) : St :=
  if s.sink.next then { s with sink := { s.sink with frame := some i, next := false } } else s

/-- A round (`Filter.cpp:526-546`, `SourceManager.cpp:128-145`): the writer's frame is demanded and unmarked
(191-193), offered to the sink, the library runs, and the frame is added to the queue if marked (206-214). -/
def round (s : St) (l : List Act) : Outcome (St × List Pkt) :=
  match s.ring with
  | none => acts { s with marked := [] } l
  | some r => (r.writerSlot true).bind fun x =>
    match x.2 with
    | none => .ub
    | some i => (acts (setFrame { s with ring := some x.1, marked := [] } i) l).bind fun y =>
      if i ∈ y.1.marked then
        match y.1.ring with
        | none => .ub
        | some r2 => r2.addFrame.map fun r3 => ({ y.1 with ring := some r3 }, y.2)
      else .ok y

/-- The reader takes a frame (`FrameQueue.step .take`). -/
def take (s : St) : Outcome (St × Option Content) :=
  match s.ring with
  | none => .ok (s, none)
  | some r => match r.getFront with
    | none => .ok (s, none)
    | some i => r.removeFrame.map fun x => ({ s with ring := some x.1 }, some (r.slots i))

/-- A writer is connected with a new queue of `n` frames of `size` bytes (`SourceManager.cpp:230-260`). -/
def connect (s : St) (n size : Nat) : St :=
  match s.ring with
  | some _ => s
  | none => { s with gen := s.gen + 1, ring := some (Ring.create n fun _ => ⟨List.replicate size 0, 0, 0⟩) }

/-- The writer is deleted (`specificWriterDelete` 262-272 with `disconnect` 114-117); the queue is freed now or
later, depending on which end goes first (`QueueLife`). -/
def disconnect (s : St) : St :=
  match s.ring with
  | none => s
  | some _ => { s with ring := none, olds := s.gen :: s.olds, sink := { s.sink with frame := none } }

/-- A disconnected queue is freed. -/
def free (s : St) (g : Nat) : St := { s with olds := s.olds.filter fun o => o ≠ g }

/-- What may happen to a stream. -/
inductive Op where
  | round (l : List Act)
  | take
  | connect (n size : Nat)
  | disconnect
  | free (g : Nat)
  deriving DecidableEq, Repr

/-- One step: frames taken from the network, and the frame handed to the reader.
Calls `round` (Filter.cpp:526-546), `connect` (SourceManager.cpp:230-260). -/
def step (s : St) : Op → Outcome (St × (List Pkt × Option Content))
  | .round l => (round s l).map fun x => (x.1, (x.2, none))
  | .take => (take s).map fun x => (x.1, ([], x.2))
  | .connect n size => .ok (connect s n size, ([], none))
  | .disconnect => .ok (disconnect s, ([], none))
  | .free g => .ok (free s g, ([], none))

end Lms.Recv
