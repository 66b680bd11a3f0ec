import Verif.Recv.Props
import Verif.Sources.Queue
import Verif.Sdp.Parser

/-!
# A received stream sent on: `SourceManager` → frame queue → `SinkManager`

The two filters joined by one queue, each modelled before (`Recv`, `Sources`), run one after the other in any order.  What the
receiver's library side does is in the lists of `Recv.Act`, what the packetisers of the transmitter do in the lists of
`Sources.Act`.

Simplification: a frame is taken from the queue before the transmitter works on it; in the code it stays in its slot until the
round is over (`Filter.cpp:526-546`, `removeFrames` last), where the writer never gets it (`FrameQueue`, C04).  One reader and one
source; other streams share nothing with them but the loop.
-/

namespace Lms.Relay
open Lms.FrameQueue

/-- A unit coming from the network with its time, as the parser before the queue sink delivers it: behind a start code
(`H264VideoSdpParser.cpp:56, 75-76`, created for H.264 and H.265 in `Handlers.cpp:302-303`). -/
def arriving (u : Bytes) (sec usec : Int) : Recv.Pkt := ⟨[0, 0, 0, 1] ++ u, sec, usec⟩

/-- The receiver's stream with its queue, and the transmitter's source. -/
structure St where
  recv : Recv.St
  src : Sources.Src

/-- The frame object handed to the source (`SinkManager.cpp:143-144`): the slot itself. -/
def toFrame (c : Recv.Content) : Sources.Frame := ⟨c.buf, c.len, c.pts⟩

/-- `SingleStep` (`SinkManager.cpp:152, 158`): what the packetiser does in it, with what came of it. -/
def single (k : Sources.Kind) : Sources.Src → List Sources.Act → Outcome (Sources.Src × Sources.History)
  | s, [] => .ok (s, [])
  | s, a :: l => (Sources.step k s a.op).bind fun x => (single k x.1 l).map fun y => (y.1, (a.op, x.2) :: y.2)

/-- `SinkManager.cpp:157-164`: steps until the frame is released. -/
def serve (k : Sources.Kind) : List (List Sources.Act) → Sources.Src → Outcome (Sources.Src × Sources.History)
  | [], _ => .hang
  | a :: l, s => (single k s a).bind fun x => (Sources.step k x.1 .got).bind fun y =>
      if y.2 = .got true then .ok (y.1, x.2 ++ [(.got, y.2)])
      else (serve k l y.1).map fun z => (z.1, x.2 ++ (.got, y.2) :: z.2)

/-- `SinkManager.cpp:133-167` `doProcessFrame` for the one reader, with the frame it has, if any. -/
def transmit (k : Sources.Kind) (new : Option Sources.Frame) (sched : List (List Sources.Act)) (s : Sources.Src) :
    Outcome (Sources.Src × Sources.History) :=
  let quiet : Outcome (Sources.Src × Sources.History) := match sched with | [] => .hang | a :: _ => single k s a
  match new with
  | none => quiet
  | some f => (Sources.step k s (.set f)).bind fun x =>
      if x.2 = .set true then (serve k sched x.1).map fun y => (y.1, (.set f, x.2) :: y.2) else quiet

inductive Op where
  /-- a round of the receiver -/
  | receive (l : List Recv.Act)
  /-- a round of the transmitter -/
  | transmit (sched : List (List Sources.Act))

/-- One round of one of the filters (`Filter.cpp:526-546`): what was taken from the network, and what happened at the source. -/
def step (k : Sources.Kind) (s : St) : Op → Outcome (St × (List Recv.Pkt × Sources.History))
  | .receive l => (Recv.round s.recv l).map fun x => ({ s with recv := x.1 }, (x.2, []))
  | .transmit sched => (Recv.take s.recv).bind fun x =>
      (transmit k (x.2.map toFrame) sched s.src).map fun y => (⟨x.1, y.1⟩, ([], y.2))

end Lms.Relay
