import Verif.Common.Outcome

/-!
# Connections between filters (`src/Filter.cpp`)

Any number of filters.  The maps `readers` and `writers` of all filters are kept in two flat lists whose
entries name their filter, in the order of insertion (the order plays no part here).  Queues and readers
(`std::shared_ptr<Reader>`) are objects with addresses; a reader is destroyed when the last map entry
holding it goes.  The filter-specific hooks (`specificReaderConfig`, `specificWriterConfig`, `allocQueue`,
`specificReaderDelete`, `specificWriterDelete`) answer as they like.

Not modelled: pending events (`connect` runs them first, line 328-329), contents of queues (`FrameQueue`,
`SlicedQueue`, `AudioRing`), interleavings (each operation holds the filter's mutex; `QueueLife` treats the
two ends of a queue), `seqNums` (`SeqNum`). The list of reading filters kept in the queue and the one
kept in the reader are always changed together (`IOInterface.cpp:60-68, 186-206`) and are one list here.
-/

namespace Lms.FilterConn

/-- A queue: never allocated, live with its `connected` flag and the filter and writer id it was made for
(`FrameQueue.hh:61-80`), or deleted. -/
inductive Cell where
  | none
  | live (connected : Bool) (f : Nat) (wid : Int)
  | freed
  deriving DecidableEq, Repr

/-- A reader: its queue pointer and the filters registered with it (`IOInterface.hh`, `IOInterface.cpp:32-36`). -/
structure Rdr where
  queue : Option Nat
  filters : List Nat
  deriving DecidableEq, Repr

/-- An entry of a filter's `readers`: the reader object, or the null pointer (`Filter.cpp:136`). -/
structure RE where
  f : Nat
  id : Int
  obj : Option Nat
  deriving DecidableEq, Repr

/-- An entry of a filter's `writers`: the writer's queue (`Filter.cpp:298, 361`). -/
structure WE where
  f : Nat
  id : Int
  q : Nat
  deriving DecidableEq, Repr

/-- All filters with their limits (`Filter.hh:245-246`), readers and queues. `lost` are queues no pointer is
left to (observation only). -/
structure St where
  maxR : Nat → Nat
  maxW : Nat → Nat
  rs : List RE
  ws : List WE
  rdr : Nat → Rdr
  cell : Nat → Cell
  nextQ : Nat
  nextR : Nat
  lost : List Nat

/-- No connections yet. -/
def St.init (maxR maxW : Nat → Nat) : St :=
  { maxR := maxR, maxW := maxW, rs := [], ws := [], rdr := fun _ => ⟨none, []⟩, cell := fun _ => .none, nextQ := 0, nextR := 0, lost := [] }

/-- Update of a function at a point. -/
def upd {β : Type} (f : Nat → β) (i : Nat) (v : β) : Nat → β := fun j => if j = i then v else f j

/-- `readers.count(id)` with `readers[id]` (src/Filter.cpp:101, 116-120, 261, 410-415). -/
def findR (s : St) (f : Nat) (id : Int) : Option RE := s.rs.find? fun e => e.f = f ∧ e.id = id

/-- `writers.count(id)` with `writers[id]` (src/Filter.cpp:56, 67-68, 394-399). -/
def findW (s : St) (f : Nat) (id : Int) : Option WE := s.ws.find? fun e => e.f = f ∧ e.id = id

/-- `readers.size()` (src/Filter.cpp:126). -/
def sizeR (s : St) (f : Nat) : Nat := (s.rs.filter fun e => e.f = f).length

/-- `writers.size()` (src/Filter.cpp:288). -/
def sizeW (s : St) (f : Nat) : Nat := (s.ws.filter fun e => e.f = f).length

/-- `queue->isConnected()` (`FrameQueue.hh:146`). -/
def qConnected (s : St) (q : Nat) : Outcome Bool :=
  match s.cell q with
  | .live c _ _ => .ok c
  | _ => .ub

/-- `Reader::isConnected` (`IOInterface.cpp:214-221`). -/
def rConnected (s : St) (o : Nat) : Outcome Bool :=
  match (s.rdr o).queue with
  | none => .ok false
  | some q => qConnected s q

/-- An end of the queue lets go of it: the first to do so marks it unconnected, the second deletes it
(`IOInterface.cpp:49-53, 289-295`). -/
def letGo (s : St) (q : Nat) : Outcome St :=
  match s.cell q with
  | .live true f w => .ok { s with cell := upd s.cell q (.live false f w) }
  | .live false _ _ => .ok { s with cell := upd s.cell q .freed }
  | _ => .ub

/-- `Reader::disconnectQueue` (`IOInterface.cpp:43-58`). -/
def disconnectQueue (s : St) (o : Nat) : Outcome (St × Bool) :=
  match (s.rdr o).queue with
  | none => .ok (s, false)
  | some q => (letGo s q).map fun s' => ({ s' with rdr := upd s'.rdr o { s'.rdr o with queue := none } }, true)

/-- `Reader::disconnect` (`IOInterface.cpp:194-212`). -/
def rDisconnect (s : St) (o f : Nat) : Outcome (St × Bool) :=
  if f ∈ (s.rdr o).filters then
    let s1 := { s with rdr := upd s.rdr o { s.rdr o with filters := (s.rdr o).filters.filter (· ≠ f) } }
    if (s1.rdr o).filters ≠ [] then .ok (s1, true) else disconnectQueue s1 o
  else .ok (s, false)

/-- The entry of reader `id` of filter `f` leaves the map (src/Filter.cpp:624). -/
def eraseR (s : St) (f : Nat) (id : Int) : St := { s with rs := s.rs.filter fun e => ¬ (e.f = f ∧ e.id = id) }

/-- Is the reader held by an entry other than that of `id` in `f`? -/
def heldElsewhere (s : St) (o f : Nat) (id : Int) : Bool := (eraseR s f id).rs.any fun e => e.obj = some o

/-- The entry leaves the map; with the last one the reader is destroyed (`~Reader`, `IOInterface.cpp:38-41`). -/
def dropR (s : St) (o f : Nat) (id : Int) : Outcome St :=
  if heldElsewhere s o f id then .ok (eraseR s f id)
  else (disconnectQueue s o).map fun r => eraseR r.1 f id

/-- `deleteReader` (`Filter.cpp:620-629`); `d` answers `specificReaderDelete`. A null entry is dereferenced. -/
def deleteReader (s : St) (f : Nat) (id : Int) (d : Bool) : Outcome (St × Bool) :=
  match findR s f id with
  | none => .ok (s, false)
  | some ⟨_, _, none⟩ => .ub
  | some ⟨_, _, some o⟩ => (rDisconnect s o f).bind fun r => (dropR r.1 o f id).map fun s' => (s', d)

/-- `disconnectReader` (`Filter.cpp:406-420`). -/
def disconnectReader (s : St) (f : Nat) (id : Int) (d : Bool) : Outcome (St × Bool) :=
  match findR s f id with
  | none => .ok (s, true)
  | some ⟨_, _, none⟩ => .ub
  | some ⟨_, _, some o⟩ => (rDisconnect s o f).bind fun r => if r.2 then deleteReader r.1 f id d else .ok (r.1, false)

/-- `Writer::disconnect` and `deleteWriter` (`IOInterface.cpp:283-297`, `Filter.cpp:310-319`). -/
def dropW (s : St) (e : WE) : Outcome St :=
  (letGo s e.q).map fun s' => { s' with ws := s'.ws.filter fun x => ¬ (x.f = e.f ∧ x.id = e.id) }

/-- `disconnectWriter` (`Filter.cpp:390-404`). -/
def disconnectWriter (s : St) (f : Nat) (id : Int) (d : Bool) : Outcome (St × Bool) :=
  match findW s f id with
  | none => .ok (s, true)
  | some e => (dropW s e).map fun s' => (s', d)

/-- The answers of the hooks in `connect`: `specificWriterConfig`, `allocQueue`, `specificReaderConfig`.
(src/Filter.cpp:132, 276, 301, 349.) -/
structure Hooks where
  wcfg : Bool
  alloc : Bool
  rcfg : Bool
  deriving DecidableEq, Repr

/-- The first check of `connect` (`Filter.cpp:333-336`): is the reader there and connected? -/
def busy (s : St) (f : Nat) (id : Int) : Outcome Bool :=
  match findR s f id with
  | some ⟨_, _, some o⟩ => rConnected s o
  | _ => .ok false

/-- `connect` (`Filter.cpp:321-364`) with `setReader` (123-139), `setWriter` (286-308) and `Writer::connect`
(`IOInterface.cpp:271-281`). Connecting a filter to itself takes its mutex twice (331, 115). -/
def connect (s : St) (w r : Nat) (wid rid : Int) (a : Hooks) : Outcome (St × Bool) :=
  if w = r then .hang
  else (busy s r rid).bind fun b =>
    if b then .ok (s, false)
    else if s.maxW w ≤ sizeW s w then .ok (s, false)
    else if (findW s w wid).isSome then .ok (s, false)
    else if a.wcfg = false then .ok (s, false)
    else if a.alloc = false then .ok (s, false)
    else
      let q := s.nextQ
      let s1 := { s with nextQ := q + 1, cell := upd s.cell q (.live false w wid) }
      if s.maxR r ≤ sizeR s r ∨ (findR s r rid).isSome then .ok ({ s1 with lost := q :: s.lost }, false)
      else if a.rcfg = false then .ok ({ s1 with lost := q :: s.lost, rs := s.rs ++ [⟨r, rid, none⟩] }, false)
      else
        let o := s.nextR
        .ok ({ s1 with
          rs := s.rs ++ [⟨r, rid, some o⟩], nextR := o + 1, rdr := upd s.rdr o ⟨some q, [r]⟩
          ws := s.ws ++ [⟨w, wid, q⟩], cell := upd s1.cell q (.live true w wid) }, true)

/-- `Reader::addReader` (`IOInterface.cpp:60-68`) with `addReaderCData` (`FrameQueue.hh:178-193`); the
queue is connected, as `shareReader` has checked. -/
def addReader (s : St) (o f : Nat) : St :=
  if f ∈ (s.rdr o).filters then s else { s with rdr := upd s.rdr o { s.rdr o with filters := (s.rdr o).filters ++ [f] } }

/-- `shared->isRConnected(sharedRId)` (`Filter.cpp:97-106, 271`): a null entry is dereferenced. -/
def isRConnected (s : St) (f : Nat) (id : Int) : Outcome Bool :=
  match findR s f id with
  | none => .ok false
  | some ⟨_, _, none⟩ => .ub
  | some ⟨_, _, some o⟩ => rConnected s o

/-- `shared->readers[sharedRId] = reader` (`Filter.cpp:280`): an entry already there lets its reader go. -/
def assignR (s : St) (f : Nat) (id : Int) (o : Nat) : Outcome St :=
  match findR s f id with
  | some ⟨_, _, some p⟩ => (dropR s p f id).map fun s' => { s' with rs := s'.rs ++ [⟨f, id, some o⟩] }
  | _ => .ok { eraseR s f id with rs := (eraseR s f id).rs ++ [⟨f, id, some o⟩] }

/-- `shareReader` (`Filter.cpp:252-284`): filter `g` reads under `gid` what `f` reads under `fid`. -/
def share (s : St) (f g : Nat) (gid fid : Int) (rcfg : Bool) : Outcome (St × Bool) :=
  if f = g then .ok (s, false)
  else match findR s f fid with
    | none => .ok (s, false)
    | some ⟨_, _, none⟩ => .ub
    | some ⟨_, _, some o⟩ =>
      (rConnected s o).bind fun c => if c = false then .ok (s, false) else
        (isRConnected s g gid).bind fun b => if b then .ok (s, false) else
          if rcfg = false then .ok (s, false)
          else (assignR s g gid o).map fun s' => (addReader s' o g, true)

/-- The writers of a filter that lost their reader are deleted at the next round
(`demandDestinationFrames`, `Filter.cpp:182-189`). -/
def sweepList (s : St) : List WE → Outcome St
  | [] => .ok s
  | e :: l => (qConnected s e.q).bind fun c => if c then sweepList s l else (dropW s e).bind fun s' => sweepList s' l

/-- The sweep of filter `f`'s writers (src/Filter.cpp:182-189). -/
def sweepW (s : St) (f : Nat) : Outcome St := sweepList s (s.ws.filter fun e => e.f = f)

/-- The readers of a filter that lost their writer are deleted at the next round
(`demandOriginFramesBestEffort` 636-641, `demandOriginFramesFrameTime` 668-674). With a frame time
(`strict`) null entries are dereferenced (`deleteReader`, 623), without they are passed over (582-585). -/
def sweepListR (s : St) (strict : Bool) : List RE → Outcome St
  | [] => .ok s
  | ⟨_, _, none⟩ :: l => if strict then .ub else sweepListR s strict l
  | ⟨f, id, some o⟩ :: l =>
    (rConnected s o).bind fun c => if c then sweepListR s strict l else
      (deleteReader s f id true).bind fun r => sweepListR r.1 strict l

/-- The sweep of filter `f`'s readers (src/Filter.cpp:636-641, 668-674). -/
def sweepR (s : St) (f : Nat) (strict : Bool) : Outcome St := sweepListR s strict (s.rs.filter fun e => e.f = f)

/-- What may be done to the filters. -/
inductive Op where
  | connect (w r : Nat) (wid rid : Int) (a : Hooks)
  | share (f g : Nat) (gid fid : Int) (rcfg : Bool)
  | disconnectW (f : Nat) (id : Int) (d : Bool)
  | disconnectR (f : Nat) (id : Int) (d : Bool)
  | roundW (f : Nat)
  | roundR (f : Nat) (strict : Bool)
  deriving DecidableEq, Repr

/-- One operation with its result.
Calls `disconnectReader` (Filter.cpp:406-420), `disconnectWriter` (Filter.cpp:390-404), `connect` (Filter.cpp:321-364),
`share` (Filter.cpp:252-284), `sweepW` (src/Filter.cpp:182-189), `sweepR` (src/Filter.cpp:636-641, 668-674). -/
def step (s : St) : Op → Outcome (St × Bool)
  | .connect w r wid rid a => connect s w r wid rid a
  | .share f g gid fid rcfg => share s f g gid fid rcfg
  | .disconnectW f id d => disconnectWriter s f id d
  | .disconnectR f id d => disconnectReader s f id d
  | .roundW f => (sweepW s f).map fun s' => (s', true)
  | .roundR f strict => (sweepR s f strict).map fun s' => (s', true)

/-- `generateReaderID`, `generateWriterID` (`Filter.cpp:141-171`): `rand()` gives `rnd` in turn; the first
not in use is taken. -/
def generate (max : Nat) (inUse : Int → Bool) : List Int → Option Int
  | rnd => if max = 1 then some 1 else rnd.find? fun x => inUse x = false

end Lms.FilterConn
