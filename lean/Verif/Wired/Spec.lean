import Verif.FilterConn.Props
import Verif.Net.Round

/-!
# The network made by connecting filters (src/Filter.cpp)

`FilterConn` follows the calls that connect, share and disconnect; `Net` follows the frames through a given
network.  Here the two are joined: which network the calls have made.  The connections stay as they are
while the frames flow; ends that have lost their other end are deleted before they are used
(src/Filter.cpp:183-189, 637-641, 669-674) and are not part of the network.
-/

namespace Lms.Wired

open FilterConn (St held)
open Net (Graph)

/-- The queue is there and connected (src/FrameQueue.hh:146). -/
def Conn (s : St) (q : Nat) : Prop := ∃ f w, s.cell q = .live true f w

/-- Filter `k` has a reader on queue `q` (src/Filter.hh:243, src/IOInterface.hh:205). -/
def Reads (s : St) (k q : Nat) : Prop := ∃ e ∈ s.rs, e.f = k ∧ ∃ o, e.obj = some o ∧ (s.rdr o).queue = some q

/-- Filter `k` has a writer on queue `q` (src/Filter.hh:244, src/IOInterface.hh:301). -/
def Writes (s : St) (k q : Nat) : Prop := ∃ e ∈ s.ws, e.f = k ∧ e.q = q

/-- The network `g` is the one the filters are connected in: each asks its connected readers and writers, in
some order (that of their ids, src/Filter.cpp:182, 580); the filters a queue notifies and those that share
its reader are the ones registered with the reader (src/FrameQueue.hh:178-213, src/IOInterface.cpp:60-68). -/
structure Describes (g : Graph) (s : St) : Prop where
  ins : ∀ k q, q ∈ g.ins k ↔ Conn s q ∧ Reads s k q
  outs : ∀ k q, q ∈ g.outs k ↔ Conn s q ∧ Writes s k q
  outsOnce : ∀ k, (g.outs k).Nodup
  src : ∀ q f w, s.cell q = .live true f w → g.src q = f
  dst : ∀ q o, Conn s q → held s o → (s.rdr o).queue = some q → g.dst q = (s.rdr o).filters
  none : ∀ q, ¬ Conn s q → g.dst q = []

end Lms.Wired
