import Verif.Common.Outcome

/-!
# Sessions of the receiver

`src/modules/receiver/SourceManager.cpp` and the handlers of RTSP answers (`Handlers.cpp`): the map of sessions, the map of
sinks by port, the stored stream descriptions, and the writers connected to other filters (whose ids are the ports).

* Session ids are numbers in the order of the strings (the map's order matters in `allocQueue`).
* Sinks are objects with addresses; a closed one is freed.
* What the library does is an argument: whether a text could be read, which streams could be set up, and when answers and ends
  of streams arrive.  A stream that could not be set up has no RTP source (live555's `MediaSubsession::initiate` takes it back).
* `Medium::close` of the null pointer does nothing; of a freed object it is undefined, and so is any use of it.
* Frames are in `Recv`, the limit of writers and other things of connections in `FilterConn`, statistics and keep-alives are not here.
* Handlers run by the library within a round are operations of their own here.
-/

namespace Lms.Sessions

/-- What `createStreamInfo` makes of a stream (`SourceManager.cpp:50-101`): audio or video with the number of its codec. -/
inductive Kind where
  | audio (codec : Nat)
  | video (codec : Nat)
  deriving DecidableEq, Repr

/-- A `MediaSubsession`: `clientPortNum()`, the description its medium and codec give (none if not supported), and `sink`. -/
structure Sub where
  port : Nat
  kind : Option Kind
  sink : Option Nat := none
  deriving DecidableEq, Repr

/-- The RTSP client of a session (`SourceManager.hh`, `client`): none for a session made from a text, open, or closed by
`shutdownStream` with the pointer kept (src/modules/receiver/SourceManager.hh:135). -/
inductive Client where
  | none | open | closed
  deriving DecidableEq, Repr

/-- A `Session` with the `MediaSession` in its state (`none` until described) (src/modules/receiver/SourceManager.hh:114-137). -/
structure Sess where
  client : Client
  subs : Option (List Sub)
  deriving DecidableEq, Repr

/-- The receiver (src/modules/receiver/SourceManager.hh:183-188). -/
structure St where
  sessions : List (Nat × Sess) := []
  sinks : Nat → Option Nat := fun _ => none
  alive : Nat → Bool := fun _ => false
  next : Nat := 0
  infos : Nat → Option (Option Kind) := fun _ => none
  writers : List Nat := []

/-- A stream as the library reads it in a description, and whether it can be set up. -/
structure Found where
  port : Nat
  kind : Option Kind
  ok : Bool
  deriving DecidableEq, Repr

/-- `sessionMap.count(id)` with `sessionMap[id]` (src/modules/receiver/SourceManager.cpp:162-190, 197-201). -/
def find (s : St) (id : Nat) : Option Sess := (s.sessions.find? fun x => x.1 = id).map (·.2)

/-- `sessionMap[id] = x` (`std::map` keeps the order of ids) (src/modules/receiver/SourceManager.cpp:153). -/
def insert (id : Nat) (x : Sess) : List (Nat × Sess) → List (Nat × Sess)
  | [] => [(id, x)]
  | y :: l => if id < y.1 then (id, x) :: y :: l else if id = y.1 then (id, x) :: l else y :: insert id x l

/-- Update of a map at a point. -/
def upd {β : Type} (f : Nat → β) (i : Nat) (v : β) : Nat → β := fun j => if j = i then v else f j

/-- `SourceManager.cpp:540-569` (`initiateSession` of a session made from a text), with `handlers::addSubsessionSink`
(`Handlers.cpp:294-326`) and `addSink` (204-219).  Gives the streams with their sinks, and whether it went through. -/
def initiate (s : St) : List Found → Outcome (St × List Sub × Bool)
  | [] => .ok (s, [], true)
  | f :: l =>
    if f.ok = false then .ub                                                         -- 541, 566: no RTP source
    else
      let s' := { s with alive := upd s.alive s.next true, next := s.next + 1 }
      let sub : Sub := { port := f.port, kind := f.kind, sink := some s.next }
      if (s.sinks f.port).isSome then                                                -- 554-557, 206
        .ok (s', sub :: l.map fun g => { port := g.port, kind := g.kind }, false)
      else
        (initiate { s' with sinks := upd s.sinks f.port (some s.next) } l).map fun x => (x.1, sub :: x.2.1, x.2.2)

/-- `Handlers.cpp:99-142, 187-205`: the streams of an RTSP session are set up one after the other; one that cannot be set up or
whose port is in use is passed over. -/
def setup (s : St) : List Found → St × List Sub
  | [] => (s, [])
  | f :: l =>
    if f.ok = false then
      let x := setup s l
      (x.1, { port := f.port, kind := f.kind } :: x.2)
    else
      let s' := { s with alive := upd s.alive s.next true, next := s.next + 1, sinks := if (s.sinks f.port).isSome then s.sinks else upd s.sinks f.port (some s.next) }
      let x := setup s' l
      (x.1, { port := f.port, kind := f.kind, sink := some s.next } :: x.2)

/-- The loop of `shutdownStream` (`Handlers.cpp:271-282`): every sink is closed. -/
def closeAll (alive : Nat → Bool) : List Sub → Outcome ((Nat → Bool) × List Sub)
  | [] => .ok (alive, [])
  | x :: l => match x.sink with
    | none => (closeAll alive l).map fun y => (y.1, x :: y.2)
    | some o => if alive o then (closeAll (upd alive o false) l).map fun y => (y.1, { x with sink := none } :: y.2) else .ub

/-- `Handlers.cpp:260-291` `shutdownStream`. -/
def shutdown (s : St) (id : Nat) (x : Sess) : Outcome St :=
  match x.subs with
  | none => .ok { s with sessions := insert id { x with client := .closed } s.sessions }
  | some l => (closeAll s.alive l).map fun y => { s with alive := y.1, sessions := insert id { client := .closed, subs := some y.2 } s.sessions }

/-- `getSubsessionByPort` over the sessions (`SourceManager.cpp:239-246, 605-618`): the first one that has the port; a session
not yet described has no list to look through. -/
def lookPort (port : Nat) : List (Nat × Sess) → Outcome (Option Sub)
  | [] => .ok none
  | x :: l => match x.2.subs with
    | none => .ub
    | some subs => match subs.find? fun y => y.port = port with
      | some y => .ok (some y)
      | none => lookPort port l

/-- `SourceManager.cpp:262-272` `specificWriterDelete`: `sinks[writerID]->disconnect()`. -/
def writerDelete (s : St) (port : Nat) : Outcome Unit :=
  match s.infos port with
  | none => .ok ()
  | some _ => match s.sinks port with
    | none => .ub
    | some o => if s.alive o then .ok () else .ub

/-- `SourceManager.cpp:235-252`, the stream description `allocQueue` works with: the stored one, or that of the port's stream,
which is stored (even if there is none for its codec). -/
def streamInfo (s : St) (port : Nat) : Outcome (St × Option Kind) :=
  match s.infos port with
  | some si => .ok (s, si)
  | none => (lookPort port s.sessions).map fun (x : Option Sub) => match x with
    | some y => ({ s with infos := upd s.infos port (some y.kind) }, y.kind)
    | none => (s, none)

/-- The loop of `removeSession` (`SourceManager.cpp:170-184`) with `disconnectWriter` (`Filter.cpp:390-404, 310-319`). -/
def removeSubs (s : St) : List Sub → Outcome St
  | [] => .ok s
  | x :: l => match s.sinks x.port with
    | none => removeSubs s l
    | some o =>
      if s.alive o = false then .ub                                                  -- 172
      else
        let s1 := { s with alive := upd s.alive o false, sinks := upd s.sinks x.port none }
        if x.port ∈ s1.writers then (writerDelete s1 x.port).bind fun _ => removeSubs { s1 with writers := s1.writers.erase x.port } l
        else removeSubs s1 l

inductive Op where
  /-- `addSession` with streams: what the library read (`SourceManager.cpp:325-358, 499-514`). -/
  | addText (id : Nat) (read : Option (List Found))
  /-- `addSession` with an address (319-323, 516-529): whether a client could be made. -/
  | addUrl (id : Nat) (ok : Bool)
  /-- The answer to DESCRIBE (`Handlers.cpp:46-77`), the set up of the streams and the answer to PLAY (144-185). -/
  | described (id : Nat) (read : Option (List Found)) (play : Bool)
  /-- The end of the announced duration (`Handlers.cpp:227-234`). -/
  | expired (id : Nat)
  /-- A stream ends or its sender says goodbye (`Handlers.cpp:79-97`). -/
  | ended (id k : Nat)
  /-- Another filter connects to a port (`Filter.cpp:338-363`): whether that filter accepts the reader. -/
  | connect (port : Nat) (accept : Bool)
  /-- The connection goes (`Filter.cpp:390-404`). -/
  | disconnect (port : Nat)
  /-- A round: every connected writer's frame goes to its sink (`SourceManager.cpp:128-145`). -/
  | round
  /-- `removeSession` (`SourceManager.cpp:158-193`). -/
  | remove (id : Nat)
  deriving DecidableEq, Repr

/-- One operation with its answer. -/
def step (s : St) : Op → Outcome (St × Bool)
  | .addText id read =>
    if (find s id).isSome then .ok (s, false)
    else match read with
      | none => .ub                                          -- 506-508: ~Session of a session without media session (588)
      | some l => (initiate s l).map fun x => ({ x.1 with sessions := insert id { client := .none, subs := some x.2.1 } x.1.sessions }, x.2.2)
  | .addUrl id ok =>
    if (find s id).isSome then .ok (s, false)
    else if ok = false then .ok (s, false)
    else .ok ({ s with sessions := insert id { client := .open, subs := none } s.sessions }, true)
  | .described id read play =>
    match find s id with
    | some { client := .open, subs := none } =>
      match read with
      | none => (shutdown s id { client := .open, subs := none }).map fun s' => (s', false)
      | some [] => (shutdown s id { client := .open, subs := some [] }).map fun s' => (s', false)
      | some (f :: l) =>
        let x := setup s (f :: l)
        if play then .ok ({ x.1 with sessions := insert id { client := .open, subs := some x.2 } x.1.sessions }, true)
        else (shutdown x.1 id { client := .open, subs := some x.2 }).map fun s' => (s', false)
    | _ => .ok (s, false)                                    -- no such request is under way
  | .expired id =>
    match find s id with
    | some { client := .open, subs := some l } => (shutdown s id { client := .open, subs := some l }).map fun s' => (s', true)
    | _ => .ok (s, false)
  | .ended id k =>
    match find s id with
    | some { client := c, subs := some l } => match l[k]? with
      | some x => match x.sink with
        | some o => if s.alive o then
            .ok ({ s with alive := upd s.alive o false, sessions := insert id { client := c, subs := some (l.set k { x with sink := none }) } s.sessions }, true)
          else .ub
        | none => .ok (s, false)
      | none => .ok (s, false)
    | _ => .ok (s, false)
  | .connect port accept =>
    if port ∈ s.writers then .ok (s, false)
    else if (s.sinks port).isNone then .ok (s, false)                                -- 223
    else
      (streamInfo s port).bind fun x =>
      if x.2.isNone ∨ accept = false then (writerDelete x.1 port).map fun _ => (x.1, false)
      else .ok ({ x.1 with writers := port :: x.1.writers }, true)
  | .disconnect port =>
    if port ∈ s.writers then (writerDelete s port).map fun _ => ({ s with writers := s.writers.erase port }, true)
    else .ok (s, true)
  | .round =>
    if s.writers.all (fun p => match s.sinks p with | some o => s.alive o | none => true) then .ok (s, true) else .ub
  | .remove id =>
    match find s id with
    | none => .ok (s, false)
    | some x => match x.subs with
      | none => .ub                                                                  -- 168
      | some l => (removeSubs s l).bind fun s' =>
        if l ≠ [] ∧ x.client ≠ .open then .ub                                        -- 186, 583
        else if x.client = .closed then .ub                                          -- 601
        else .ok ({ s' with sessions := s'.sessions.filter fun y => y.1 ≠ id }, true)

/-- A history. -/
def run (s : St) : List Op → Outcome St
  | [] => .ok s
  | op :: l => (step s op).bind fun x => run x.1 l

end Lms.Sessions
