import Verif.FilterConn.Props

/-!
# Connecting and deleting paths (src/PipelineManager.cpp)

A path leads from a writer of its origin filter through its own filters, in order, to a reader of its
destination.  Here it is followed through all the calls on filters that `connectPath` and `deletePath` make;
`FilterConn` is what these do.  The registries of filters and paths are the subject of `Pipeline`: here all
filters named are there, as `createPath` has seen (231-285).
-/

namespace Lms.Paths

open FilterConn

/-- src/Path.hh, src/PipelineManager.cpp:278: where a path begins and ends, and its own filters. -/
structure Path where
  org : Nat
  orgW : Int
  mid : List Nat
  dst : Nat
  dstR : Int
  deriving DecidableEq, Repr

/-- What is not determined here: the ids `generateReaderID` and `generateWriterID` come to (src/Filter.cpp:141-171)
and the answers of the filter-specific hooks, for a writing and a reading filter. -/
structure Env where
  rid : Nat → Int
  wid : Nat → Int
  hook : Nat → Nat → Hooks

/-- `DEFAULT_ID` (src/Filter.hh:40). -/
def defaultId : Int := 1

/-- src/Filter.cpp:52-61 `isWConnected`. -/
def isWConnected (s : St) (f : Nat) (id : Int) : Outcome Bool :=
  match findW s f id with
  | none => .ok false
  | some e => qConnected s e.q

/-- Is it a reader of this queue (src/IOInterface.cpp:60-76)? -/
def reads (s : St) (q : Nat) (e : RE) : Bool :=
  match e.obj with
  | some o => (s.rdr o).queue = some q
  | none => false

/-- The readers noted with a queue, filter and id (`ConnectionData::readers`, src/FrameQueue.hh:178-215): kept in
step with the filters of the reader (src/IOInterface.cpp:60-68, 178-206), each under the id it holds it. -/
def readersOf (s : St) (q : Nat) : List (Nat × Int) :=
  match s.rs.find? (reads s q) with
  | some ⟨_, _, some o⟩ =>
    (s.rdr o).filters.filterMap fun f => (s.rs.find? fun e => e.f = f ∧ e.obj = some o).map fun e => (f, e.id)
  | _ => []

/-- src/PipelineManager.cpp:361-366: none of the readers is that of the filter to be joined, and all are connected. -/
def readersFit (s : St) (dst : Nat) : List (Nat × Int) → Outcome Bool
  | [] => .ok true
  | (f, id) :: l =>
    if f = dst then .ok false
    else (isRConnected s f id).bind fun c => if c then readersFit s dst l else .ok false

/-- src/PipelineManager.cpp:355-373 `validCData`, of a queue made for writer `wid` of filter `wf`. -/
def validCData (s : St) (wf : Nat) (wid : Int) (readers : List (Nat × Int)) (org dst : Nat) : Outcome Bool :=
  if org ≠ wf then .ok false
  else (readersFit s dst readers).bind fun c => if c then isWConnected s wf wid else .ok false

/-- src/PipelineManager.cpp:337-353 `handleGrouping`: share the reader of the first that reads what the writer
writes.  `front` of no readers is undefined. -/
def handleGrouping (s : St) (org dst : Nat) (orgW dstR : Int) (rcfg : Bool) : Outcome (St × Bool) :=
  (isWConnected s org orgW).bind fun c =>
    if c then
      match findW s org orgW with
      | some e =>
        match s.cell e.q with
        | .live _ wf wid =>
          (validCData s wf wid (readersOf s e.q) org dst).bind fun v =>
            if v then
              match readersOf s e.q with
              | [] => .ub
              | (f, id) :: _ => share s f dst dstR id rcfg
            else .ok (s, false)
        | _ => .ub
      | none => .ok (s, false)
    else .ok (s, false)

/-- The first connection of a path (src/PipelineManager.cpp:307-313, 317-321): a queue of its own or else a share
in another's reader. -/
def head (s : St) (org d : Nat) (orgW r r' : Int) (h : Hooks) : Outcome (St × Bool) :=
  (connect s org d orgW r h).bind fun x => if x.2 then .ok x else handleGrouping x.1 org d orgW r' h.rcfg

/-- The connections between the filters of a path (src/PipelineManager.cpp:323-328). -/
def inner (e : Env) (s : St) : List Nat → Outcome (St × Bool)
  | a :: b :: l => (connect s a b (e.wid a) (e.rid b) (e.hook a b)).bind fun x => if x.2 then inner e x.1 (b :: l) else .ok (x.1, false)
  | _ => .ok (s, true)

/-- src/PipelineManager.cpp:287-335 `connectPath`. -/
def connectPath (e : Env) (s : St) (p : Path) : Outcome (St × Bool) :=
  match p.mid with
  | [] => head s p.org p.dst p.orgW p.dstR p.dstR (e.hook p.org p.dst)
  | m :: ms =>
    (head s p.org m p.orgW (e.rid m) defaultId (e.hook p.org m)).bind fun x =>
      if x.2 then
        (inner e x.1 (m :: ms)).bind fun y =>
          if y.2 then
            connect y.1 ((m :: ms).getLast (by simp)) p.dst (e.wid ((m :: ms).getLast (by simp))) p.dstR
              (e.hook ((m :: ms).getLast (by simp)) p.dst)
          else .ok (y.1, false)
      else .ok (x.1, false)

/-- A reader of a filter being deleted (src/Filter.cpp:42-48): with an id that is not negative the filter leaves it; then
the entry goes, and with the last one the reader.  In the code all are left before all go: these are different readers. -/
def destroyR (s : St) (e : RE) : Outcome St :=
  match e.obj with
  | none => .ok (eraseR s e.f e.id)
  | some o => (if 0 ≤ e.id then (rDisconnect s o e.f).map (·.1) else .ok s).bind fun t => dropR t o e.f e.id

/-- src/Filter.cpp:42-48, for all readers. -/
def destroyRs (s : St) : List RE → Outcome St
  | [] => .ok s
  | e :: l => (destroyR s e).bind fun t => destroyRs t l

/-- src/Filter.cpp:49 with `Writer::~Writer` (src/IOInterface.cpp:266-269). -/
def destroyWs (s : St) : List WE → Outcome St
  | [] => .ok s
  | e :: l => (dropW s e).bind fun t => destroyWs t l

/-- src/Filter.cpp:39-50 `BaseFilter::~BaseFilter`. -/
def destroy (s : St) (f : Nat) : Outcome St :=
  (destroyRs s (s.rs.filter fun e => e.f = f)).bind fun t => destroyWs t (t.ws.filter fun e => e.f = f)

/-- The path's own filters go, from the last to the first (src/PipelineManager.cpp:441-447); `d` answers
`specificReaderDelete`, the result of `disconnectReader` is not looked at. -/
def dropMids (d : Nat → Bool) (s : St) : List Nat → Outcome St
  | [] => .ok s
  | m :: l => (disconnectReader s m defaultId (d m)).bind fun x => (destroy x.1 m).bind fun t => dropMids d t l

/-- src/PipelineManager.cpp:416-482 `deletePath`.  Whether destination and origin go with the path, `delDst` and
`delOrg`, depends on the other paths (449-462, see `Pipeline`). -/
def deletePath (d : Nat → Bool) (delDst delOrg : Bool) (s : St) (p : Path) : Outcome (St × Bool) :=
  (disconnectReader s p.dst p.dstR (d p.dst)).bind fun x =>
    if x.2 then
      (dropMids d x.1 p.mid.reverse).bind fun t =>
        (if delDst then destroy t p.dst else .ok t).bind fun t1 =>
          (if delOrg then destroy t1 p.org else .ok t1).map fun t2 => (t2, true)
    else .ok (x.1, false)

end Lms.Paths
