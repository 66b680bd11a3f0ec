import Verif.Common.Outcome

/-!
# One connection, changed by the control thread while workers run both filters (src/Filter.cpp)

Three threads, interleaved at every access to what they share: the control thread, which makes the calls
`connect`, `disconnectReader` and `disconnectWriter`; a worker running rounds of the writing filter W; and
a worker running rounds of the reading filter R (a filter is run by one worker at a time, `Pool`).  One
writer id in W, one reader id in R, queues and readers as objects with addresses; a step of a thread that
would have to wait for a mutex leaves everything as it is.  The hooks of the filters agree to everything.

Not modelled: contents of queues, other readers and writers of the two filters, shared readers, the limits
of the filters (`FilterConn`), events; that `connected` is a plain `bool` (src/FrameQueue.hh:224) read and
written without a common lock, which the C++ memory model calls a race by itself: reads and writes of it are
atomic here.  `Reader::lck` is never contended: `setConnection` of a reader comes before the reader can be
found registered in `disconnect` (src/IOInterface.cpp:178-198).
-/

namespace Lms.LinkRace

/-- A queue: not yet allocated, live with its `connected` flag (src/FrameQueue.hh:79, 224), deleted. -/
inductive Cell where
  | none
  | live (connected : Bool)
  | freed
  deriving DecidableEq, Repr

/-- A `Reader` (src/IOInterface.hh:204-219): its queue, whether R is in `filters`, whether it has a frame. -/
structure Obj where
  queue : Option Nat
  reg : Bool
  frame : Bool
  deriving DecidableEq, Repr

/-- Where the control thread is. -/
inductive CPc where
  | idle
  /-- `connect`, holding W's mutex: `R->getReader` was not null and is called again (src/Filter.cpp:333) -/
  | again
  /-- `isConnected` of that reader next (333) -/
  | ask (o : Nat)
  /-- `setWriter` and `allocQueue` next (338, 349) -/
  | make
  /-- `setReader` next (355) -/
  | put (q : Nat)
  /-- `setQueue` and `Reader::setConnection` next (361, src/IOInterface.cpp:278) -/
  | attach (q o : Nat)
  /-- `queue->setConnected(true)` next (src/IOInterface.cpp:279) -/
  | flag (q o : Nat)
  /-- the mutex has been released; the local `r` goes (323, 331) -/
  | leave (o : Nat)
  /-- `~Reader`: `isConnected` of the queue next (src/IOInterface.cpp:38-49) -/
  | end1 (o q : Nat)
  /-- the answer is known; `setConnected(false)` or `delete` next (src/IOInterface.cpp:50-53) -/
  | end2 (o q : Nat) (c : Bool)
  /-- `disconnectReader`, holding R's mutex: `isConnected` next (src/Filter.cpp:415, src/IOInterface.cpp:49) -/
  | cutR1 (o q : Nat)
  /-- the answer is known (src/IOInterface.cpp:50-53) -/
  | cutR2 (o q : Nat) (c : Bool)
  /-- `disconnectWriter`, holding W's mutex: `isConnected` next (src/Filter.cpp:399, src/IOInterface.cpp:289) -/
  | cutW1 (q : Nat)
  /-- the answer is known (src/IOInterface.cpp:290-295) -/
  | cutW2 (q : Nat) (c : Bool)
  deriving DecidableEq, Repr

/-- Where the worker running W is. -/
inductive WPc where
  | idle
  /-- in `demandDestinationFrames`, holding the mutex, found connected (src/Filter.cpp:183) -/
  | found (q : Nat)
  /-- found not connected: `disconnect` reads the flag next (184, src/IOInterface.cpp:289) -/
  | drop1 (q : Nat)
  /-- the answer is known (src/IOInterface.cpp:290-295) -/
  | drop2 (q : Nat) (c : Bool)
  /-- has a frame of the queue to write to (191-193, 513) -/
  | use (q : Nat)
  deriving DecidableEq, Repr

/-- Where the worker running R is. -/
inductive RPc where
  | idle
  /-- in `demandOriginFrames`, holding the mutex, found connected (src/Filter.cpp:637, 669) -/
  | found (o : Nat)
  /-- found not connected and registered: `disconnectQueue` reads the flag next (623, src/IOInterface.cpp:49) -/
  | drop1 (o q : Nat)
  /-- the answer is known (src/IOInterface.cpp:50-53) -/
  | drop2 (o q : Nat) (c : Bool)
  /-- has a frame of the queue, a new one or an old one (643-655) -/
  | use (q : Nat) (new : Bool)
  deriving DecidableEq, Repr

/-- The writer's entry in W (with the queue it has been given), the reader's entry in R, heap, threads.
`lost` are queues no pointer is left to (observation only). -/
structure S where
  heap : Nat → Cell
  next : Nat
  obj : Nat → Obj
  nextO : Nat
  wE : Option (Option Nat)
  rE : Option Nat
  c : CPc
  w : WPc
  r : RPc
  lost : List Nat

/-- Nothing connected, nobody at work. -/
def S.init : S :=
  { heap := fun _ => .none, next := 0, obj := fun _ => ⟨none, false, false⟩, nextO := 0, wE := none, rE := none
    c := .idle, w := .idle, r := .idle, lost := [] }

/-- Update of a function at a point. -/
def upd {β : Type} (f : Nat → β) (i : Nat) (v : β) : Nat → β := fun j => if j = i then v else f j

/-- Does the control thread hold W's mutex (src/Filter.cpp:331, 392)? -/
def CPc.holdsW : CPc → Bool
  | .again | .ask _ | .make | .put _ | .attach _ _ | .flag _ _ | .cutW1 _ | .cutW2 _ _ => true
  | _ => false

/-- Does the control thread hold R's mutex (src/Filter.cpp:408)? -/
def CPc.holdsR : CPc → Bool
  | .cutR1 _ _ | .cutR2 _ _ _ => true
  | _ => false

/-- Does W's worker hold W's mutex (src/Filter.cpp:175)? -/
def WPc.holds : WPc → Bool
  | .found _ | .drop1 _ | .drop2 _ _ => true
  | _ => false

/-- Does R's worker hold R's mutex (src/Filter.cpp:550)? -/
def RPc.holds : RPc → Bool
  | .found _ | .drop1 _ _ | .drop2 _ _ _ => true
  | _ => false

/-- `queue->isConnected()` (src/FrameQueue.hh:146). -/
def S.connected (s : S) (q : Nat) : Outcome Bool :=
  match s.heap q with
  | .live c => .ok c
  | _ => .ub

/-- `queue->setConnected(false)` if it was found connected, else `delete queue`
(src/IOInterface.cpp:49-53, 289-295). -/
def S.letGo (s : S) (q : Nat) (c : Bool) : Outcome S :=
  match s.heap q with
  | .live _ => .ok { s with heap := upd s.heap q (if c then .live false else .freed) }
  | _ => .ub

/-- Any use of the queue. -/
def S.touch (s : S) (q : Nat) : Outcome Unit :=
  match s.heap q with
  | .live _ => .ok ()
  | _ => .ub

/-- The reader forgets its queue (src/IOInterface.cpp:55, 202). -/
def S.forget (s : S) (o : Nat) : S := { s with obj := upd s.obj o ⟨none, false, (s.obj o).frame⟩ }

/-- The threads' steps: calls of the control thread and its next step; rounds of W and R; the use of the
frames they got; the rest of the round (`addFrames`, `removeFrames`). -/
inductive Op where
  | connect
  | disconnectR
  | disconnectW
  | ctl
  | wRound
  | wStep
  | wUse
  | wEnd (commit : Bool)
  | rRound (sync : Bool)
  | rStep (new : Bool)
  | rUse
  | rEnd
  deriving DecidableEq, Repr

/-- A call returns. -/
inductive Answer where
  | connect (b : Bool)
  | reader (b : Bool)
  | writer (b : Bool)
  deriving DecidableEq, Repr

/-- `Reader::isConnected` (src/IOInterface.cpp:214-221). -/
def S.rConnected (s : S) (o : Nat) : Outcome Bool :=
  match (s.obj o).queue with
  | none => .ok false
  | some q => s.connected q

/-- The control thread's next step (src/Filter.cpp:321-420, src/IOInterface.cpp:38-58, 178-212, 271-297). -/
def S.control (s : S) : Outcome (S × Option Answer) :=
  match s.c with
  | .idle => .ok (s, none)
  | .again =>
    if s.r.holds then .ok (s, none)
    else match s.rE with
      | none => .ub
      | some o => .ok ({ s with c := .ask o }, none)
  | .ask o => (s.rConnected o).bind fun b => if b then .ok ({ s with c := .idle }, some (.connect false)) else .ok ({ s with c := .make }, none)
  | .make =>
    if s.wE.isSome then .ok ({ s with c := .idle }, some (.connect false))
    else .ok ({ s with wE := some none, heap := upd s.heap s.next (.live false), next := s.next + 1, c := .put s.next }, none)
  | .put q =>
    if s.r.holds then .ok (s, none)
    else if s.rE.isSome then .ok ({ s with wE := none, lost := q :: s.lost, c := .idle }, some (.connect false))
    else .ok ({ s with rE := some s.nextO, obj := upd s.obj s.nextO ⟨none, false, false⟩, nextO := s.nextO + 1, c := .attach q s.nextO }, none)
  | .attach q o => .ok ({ s with wE := some (some q), obj := upd s.obj o ⟨some q, true, false⟩, c := .flag q o }, none)
  | .flag q o =>
    match s.heap q with
    | .live _ => .ok ({ s with heap := upd s.heap q (.live true), c := .leave o }, some (.connect true))
    | _ => .ub
  | .leave o =>
    if s.rE = some o then .ok ({ s with c := .idle }, none)
    else match (s.obj o).queue with
      | none => .ok ({ s with c := .idle }, none)
      | some q => .ok ({ s with c := .end1 o q }, none)
  | .end1 o q => (s.connected q).bind fun b => .ok ({ s with c := .end2 o q b }, none)
  | .end2 o q b => (s.letGo q b).bind fun t => .ok ({ t.forget o with c := .idle }, none)
  | .cutR1 o q => (s.connected q).bind fun b => .ok ({ s with c := .cutR2 o q b }, none)
  | .cutR2 o q b => (s.letGo q b).bind fun t => .ok ({ t.forget o with rE := none, c := .idle }, some (.reader true))
  | .cutW1 q => (s.connected q).bind fun b => .ok ({ s with c := .cutW2 q b }, none)
  | .cutW2 q b => (s.letGo q b).bind fun t => .ok ({ t with wE := none, c := .idle }, some (.writer true))

/-- The start of `connect` (src/Filter.cpp:331-333): W's mutex, then R's for `getReader`. -/
def S.startConnect (s : S) : Outcome (S × Option Answer) :=
  if s.c = .idle ∧ s.w.holds = false ∧ s.r.holds = false then
    match s.rE with
    | none => .ok ({ s with c := .make }, none)
    | some _ => .ok ({ s with c := .again }, none)
  else .ok (s, none)

/-- The start of `disconnectReader` (src/Filter.cpp:406-415, src/IOInterface.cpp:194-210). -/
def S.startCutR (s : S) : Outcome (S × Option Answer) :=
  if s.c = .idle ∧ s.r.holds = false then
    match s.rE with
    | none => .ok (s, some (.reader true))
    | some o =>
      if (s.obj o).reg = false then .ok (s, some (.reader false))
      else match (s.obj o).queue with
        | none => .ok (s.forget o, some (.reader false))
        | some q => .ok ({ s with c := .cutR1 o q }, none)
  else .ok (s, none)

/-- The start of `disconnectWriter` (src/Filter.cpp:390-399, src/IOInterface.cpp:285-287). -/
def S.startCutW (s : S) : Outcome (S × Option Answer) :=
  if s.c = .idle ∧ s.w.holds = false then
    match s.wE with
    | none => .ok (s, some (.writer true))
    | some none => .ok (s, some (.writer false))
    | some (some q) => .ok ({ s with c := .cutW1 q }, none)
  else .ok (s, none)

/-- A round of W reaches `demandDestinationFrames` (src/Filter.cpp:175-183). -/
def S.wRound (s : S) : Outcome S :=
  if s.w = .idle ∧ s.c.holdsW = false then
    match s.wE with
    | none => .ok s
    | some none => .ok { s with wE := none }
    | some (some q) => (s.connected q).bind fun b => .ok { s with w := if b then .found q else .drop1 q }
  else .ok s

/-- The worker of W goes on inside `demandDestinationFrames` (src/Filter.cpp:184-192): `getFrame` reads the
flag again and returns null if it is not set (src/IOInterface.cpp:325-328), which is dereferenced (192). -/
def S.wStep (s : S) : Outcome S :=
  match s.w with
  | .found q => (s.connected q).bind fun b => if b then .ok { s with w := .use q } else .ub
  | .drop1 q => (s.connected q).bind fun b => .ok { s with w := .drop2 q b }
  | .drop2 q b => (s.letGo q b).bind fun t => .ok { t with wE := none, w := .idle }
  | _ => .ok s

/-- The filter writes into its frame (`doProcessFrame`, src/Filter.cpp:513). -/
def S.wUse (s : S) : Outcome S :=
  match s.w with
  | .use q => (s.touch q).map fun _ => s
  | _ => .ok s

/-- `addFrames` (src/Filter.cpp:201-217), asking the queue and giving it the frame in one step. -/
def S.wEnd (s : S) (commit : Bool) : Outcome S :=
  match s.w with
  | .use _ =>
    if s.c.holdsW then .ok s
    else match commit, s.wE with
      | true, some (some q) => (s.touch q).map fun _ => { s with w := .idle }
      | _, _ => .ok { s with w := .idle }
  | _ => .ok s

/-- With `sync` the time of the front frame is asked first (src/Filter.cpp:586, 599), through the queue
pointer as it is (src/IOInterface.cpp:236-249). -/
def S.readTime (s : S) (o : Nat) (sync : Bool) : Outcome Unit :=
  if sync then
    match (s.obj o).queue with
    | none => .ub
    | some q => s.touch q
  else .ok ()

/-- A round of R reaches `demandOriginFrames` (src/Filter.cpp:550-675). -/
def S.rRound (s : S) (sync : Bool) : Outcome S :=
  if s.r = .idle ∧ s.c.holdsR = false then
    match s.rE with
    | none => .ok s
    | some o =>
      (s.readTime o sync).bind fun _ =>
        (s.rConnected o).bind fun b =>
          if b then .ok { s with r := .found o }
          else if (s.obj o).reg = false then .ok { s with rE := none }
          else match (s.obj o).queue with
            | none => .ok { s.forget o with rE := none }
            | some q => .ok { s with r := .drop1 o q }
  else .ok s

/-- The worker of R goes on inside `demandOriginFrames`: `getFrame` (src/IOInterface.cpp:70-107) answers
null if the queue is not connected any more, and the reader is passed over (src/Filter.cpp:645-648); else
it has a new frame or an old one. -/
def S.rStep (s : S) (new : Bool) : Outcome S :=
  match s.r with
  | .found o =>
    match (s.obj o).queue with
    | none => .ok { s with r := .idle }
    | some q => (s.connected q).bind fun b =>
        if b then .ok { s with r := .use q new, obj := upd s.obj o { s.obj o with frame := new } } else .ok { s with r := .idle }
  | .drop1 o q => (s.connected q).bind fun b => .ok { s with r := .drop2 o q b }
  | .drop2 o q b => (s.letGo q b).bind fun t => .ok { t.forget o with rE := none, r := .idle }
  | _ => .ok s

/-- The filter reads its frame (`doProcessFrame`, src/Filter.cpp:513). -/
def S.rUse (s : S) : Outcome S :=
  match s.r with
  | .use q _ => (s.touch q).map fun _ => s
  | _ => .ok s

/-- `removeFrames` (src/Filter.cpp:219-238) with `Reader::removeFrame` (src/IOInterface.cpp:121-141): the
reader's frame is dereferenced by `measureDelay` (145). -/
def S.rEnd (s : S) : Outcome S :=
  match s.r with
  | .use _ new =>
    if s.c.holdsR then .ok s
    else if new = false then .ok { s with r := .idle }
    else match s.rE with
      | none => .ok { s with r := .idle }
      | some o =>
        if (s.obj o).frame = false then .ub
        else match (s.obj o).queue with
          | none => .ok { s with r := .idle, obj := upd s.obj o { s.obj o with frame := false } }
          | some q => (s.touch q).map fun _ => { s with r := .idle, obj := upd s.obj o { s.obj o with frame := false } }
  | _ => .ok s

/-- One step of one of the threads, with the answer of a call that returns in it.
Calls `S.control` (src/Filter.cpp:321-420), `S.startConnect` (src/Filter.cpp:331-333), `S.startCutR`
(src/Filter.cpp:406-415), `S.startCutW` (src/Filter.cpp:390-399), `S.wRound` (src/Filter.cpp:175-183), `S.wStep`
(src/Filter.cpp:184-192) and others. -/
def S.step (s : S) : Op → Outcome (S × Option Answer)
  | .connect => s.startConnect
  | .disconnectR => s.startCutR
  | .disconnectW => s.startCutW
  | .ctl => s.control
  | .wRound => s.wRound.map fun t => (t, none)
  | .wStep => s.wStep.map fun t => (t, none)
  | .wUse => s.wUse.map fun t => (t, none)
  | .wEnd b => (s.wEnd b).map fun t => (t, none)
  | .rRound b => (s.rRound b).map fun t => (t, none)
  | .rStep b => (s.rStep b).map fun t => (t, none)
  | .rUse => s.rUse.map fun t => (t, none)
  | .rEnd => s.rEnd.map fun t => (t, none)

end Lms.LinkRace
