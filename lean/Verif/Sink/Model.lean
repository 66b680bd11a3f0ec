import Verif.Common.Outcome

/-!
# The transmitter's readers and connections (`src/modules/transmitter/SinkManager.cpp`, `Connection.cpp`)

The maps `readers` (of `BaseFilter`), `sources` with `replicators` (always changed together, and one list
here) and `connections`, and the sessions of the RTSP server.  The server is the library's: a session is
registered under its name, registering another one of the same name removes and deletes the first
(`RTSPServer::addServerMediaSession`), deleting a session removes whatever is registered under its name
(`deleteServerMediaSession`); a session still used by a client is deleted when the client leaves, here it
counts as deleted at once.  Sinks, framers and sockets are assumed to be created when asked for (the search
for server ports, `Connection.cpp:388-397`, ends).

Not modelled: the number of readers allowed (`FilterConn`), packets and replicas (`Sources`), statistics,
parsing of the events (528-641, `Json`).
-/

namespace Lms.Sink

/-- Video codecs, as far as they are told apart here (`Types.hh`) (Types.hh:62). -/
inductive VC | h264 | h265 | vp8 | other
  deriving DecidableEq, Repr

/-- Audio codecs, as far as they are told apart here (Types.hh:72). -/
inductive AC | aac | mp3 | other
  deriving DecidableEq, Repr

/-- The kind of a reader's queue with the codec of its stream information (src/StreamInfo.hh:39-48). -/
inductive Stream | video (c : VC) | audio (c : AC)
  deriving DecidableEq, Repr

/-- `TxFormat` (`Types.hh:89`). -/
inductive Fmt | none | std | ultragrid | mpegts
  deriving DecidableEq, Repr

/-- A connection: an RTP one with the readers it reports (`getReaders`) and those whose data it sends, or an
RTSP one with its session (src/modules/transmitter/Connection.hh:48-239). -/
inductive Conn where
  | rtp (listed uses : List Int)
  | rtsp (sess : Nat)
  deriving DecidableEq, Repr

/-- A session of the RTSP server: name, readers reported by its subsessions, readers whose data it sends.
(src/modules/transmitter/Connection.hh:111-196.) -/
structure Sess where
  name : String
  listed : List Int
  uses : List Int
  deriving DecidableEq, Repr

/-- The transmitter. A reader without a stream is a null entry (`FilterConn`).
(src/modules/transmitter/SinkManager.hh:120-124, src/Filter.hh:240.) -/
structure St where
  readers : List (Int × Option Stream)
  sources : List (Int × Stream)
  conns : List (Int × Conn)
  sess : Nat → Option Sess
  next : Nat
  table : List (String × Nat)

/-- A new transmitter (`SinkManager.cpp:49-70`). -/
def St.init : St := { readers := [], sources := [], conns := [], sess := fun _ => Option.none, next := 0, table := [] }

/-- Update of a function at a point. -/
def upd {β : Type} (f : Nat → β) (i : Nat) (v : β) : Nat → β := fun j => if j = i then v else f j

/-- Replaces or adds an entry of a map. -/
def put {β : Type} (l : List (Int × β)) (k : Int) (v : β) : List (Int × β) := l.filter (fun e => e.1 ≠ k) ++ [(k, v)]

/-- `createVideoQueueSource`, `createAudioQueueSource` (427-460): an unsupported codec leaves the maps alone,
so a source still there from an earlier reader of that id counts. -/
def config (s : St) (r : Int) : Stream → St × Bool
  | .video .other => if r ∈ s.sources.map Prod.fst then (s, true) else (s, false)
  | st => ({ s with sources := put s.sources r st }, true)

/-- `BaseFilter::setReader` (`Filter.cpp:123-139`) with `specificReaderConfig` (411-425). -/
def addReader (s : St) (r : Int) (st : Stream) : St × Bool :=
  if r ∈ s.readers.map Prod.fst then (s, false)
  else
    let c := config s r st
    ({ c.1 with readers := c.1.readers ++ [(r, if c.2 then some st else Option.none)] }, c.2)

/-- `getReader(r)` with the kind of its queue: nothing for an unknown reader or a null entry (src/Filter.cpp:116-120). -/
def stream (s : St) (r : Int) : Option Stream := (s.readers.lookup r).join

/-- `replicators.count(r) > 0` (src/modules/transmitter/SinkManager.cpp:284, 473). -/
def hasSource (s : St) (r : Int) : Bool := s.sources.any fun e => e.1 = r

/-- `getReaders` of a connection (`Connection.cpp:283-302` and the RTP ones); a deleted session is dereferenced. -/
def listed (s : St) : Conn → Outcome (List Int)
  | .rtp l _ => .ok l
  | .rtsp k => match s.sess k with
    | some x => .ok x.listed
    | Option.none => .ub

/-- `RTSPServer::deleteServerMediaSession` on a session of this program (`Connection.cpp:272`). -/
def deleteSession (s : St) (k : Nat) : Outcome St :=
  match s.sess k with
  | some x => .ok { s with sess := upd s.sess k Option.none, table := s.table.filter fun e => e.1 ≠ x.name }
  | Option.none => .ub

/-- `RTSPServer::addServerMediaSession` (`Connection.cpp:256`): a session of the same name is removed first. -/
def register (s : St) (k : Nat) (n : String) : St :=
  { s with
    sess := fun j => if (n, j) ∈ s.table then Option.none else s.sess j
    table := s.table.filter (fun e => e.1 ≠ n) ++ [(n, k)] }

/-- What an RTSP connection being built has: raw subsessions, and the MPEG-TS subsession's video and audio
readers (-1: unset), with the readers used. -/
structure Build where
  raw : List Int
  v : Int
  a : Int
  uses : List Int
  deriving DecidableEq, Repr

/-- Readers reported so far (`Connection.cpp:283-302`, `MPEGTSQueueServerMediaSubsession.cpp:46-58`). -/
def Build.listed (b : Build) : List Int := b.raw ++ (if b.a ≠ -1 then [b.a] else []) ++ (if b.v ≠ -1 then [b.v] else [])

/-- `addVideoSubsession`, `addAudioSubsession` (`Connection.cpp:92-222`) and the MPEG-TS subsession's
`addVideoSource`, `addAudioSource` (`MPEGTSQueueServerMediaSubsession.cpp:60-108`). -/
def addSub (b : Build) (ts : Bool) (r : Int) (st : Stream) : Option Build :=
  if r ∈ b.listed then Option.none
  else match st, ts with
    | .video c, true => if c ≠ .h264 ∧ c ≠ .h265 then Option.none else if b.v = -1 then some { b with v := r, uses := b.uses ++ [r] } else Option.none
    | .video c, false => if c = .other then Option.none else some { b with raw := b.raw ++ [r], uses := b.uses ++ [r] }
    | .audio c, true => if c ≠ .aac ∧ c ≠ .mp3 then Option.none else if b.a = -1 then some { b with a := r, uses := b.uses ++ [r] } else Option.none
    | .audio _, false => some { b with raw := b.raw ++ [r], uses := b.uses ++ [r] }

/-- `addSubsessionByReader` (462-491) for all readers asked for (206-212). -/
def addSubs (s : St) (ts : Bool) : Build → List Int → Option Build
  | b, [] => some b
  | b, r :: rs => match stream s r with
    | Option.none => Option.none
    | some st => if hasSource s r = false then Option.none else (addSub b ts r st).bind fun b' => addSubs s ts b' rs

/-- `addRTSPConnection` (185-222): the session is made first; when a reader is refused it is deleted again by
the connection's destructor (209, `Connection.cpp:87-90, 265-281`). -/
def addRTSP (s : St) (rs : List Int) (id : Int) (ts : Bool) (name : String) : Outcome (St × Bool) :=
  if rs = [] then .ok (s, false)
  else if id ∈ s.conns.map Prod.fst then .ok (s, false)
  else
    let k := s.next
    match addSubs s ts ⟨[], -1, -1, []⟩ rs with
    | Option.none => (deleteSession { s with next := k + 1, sess := upd s.sess k (some ⟨name, [], []⟩) } k).map fun s' => (s', false)
    | some b =>
      let s1 := { s with next := k + 1, sess := upd s.sess k (some ⟨name, b.listed, b.uses⟩) }
      .ok ({ register s1 k name with conns := s.conns ++ [(id, .rtsp k)] }, true)

/-- The readers of a new MPEG-TS connection (279-299): the last reader's success counts, readers without
source are passed over. -/
structure Mux where
  ok : Bool
  hasV : Bool
  hasA : Bool
  v : Int
  a : Int
  uses : List Int
  deriving DecidableEq, Repr

/-- One reader of `addMpegTsRTPConnection` (279-299) with `addVideoSource`, `addAudioSource`
(`Connection.cpp:608-673`). -/
def muxAdd (s : St) (m : Mux) (r : Int) (st : Stream) : Mux :=
  if hasSource s r = false then m
  else match st with
    | .video c => if m.hasV then { m with ok := false }
        else if (c = .h264 ∨ c = .h265) ∧ m.v = -1 then { m with ok := true, hasV := true, v := r, uses := m.uses ++ [r] }
        else { m with ok := false, hasV := true }
    | .audio c => if m.hasA then { m with ok := false }
        else if (c = .aac ∨ c = .mp3) ∧ m.a = -1 then { m with ok := true, hasA := true, a := r, uses := m.uses ++ [r] }
        else { m with ok := false, hasA := true }

/-- All readers asked for.
Calls `stream` (src/Filter.cpp:116-120), `muxAdd` (Connection.cpp:608-673). -/
def muxAll (s : St) : Mux → List Int → Mux
  | m, [] => m
  | m, r :: rs => match stream s r with
    | Option.none => m
    | some st => muxAll s (muxAdd s m r st) rs

/-- `addMpegTsRTPConnection` (258-314): one or two readers, an even port (`Connection.cpp:380`). -/
def addMpegTs (s : St) (rs : List Int) (id : Int) (port : Int) : Outcome (St × Bool) :=
  if rs.length = 0 ∨ 2 < rs.length then .ok (s, false)
  else
    let m := muxAll s ⟨false, false, false, -1, -1, []⟩ rs
    if m.ok = false then .ok (s, false)
    else if port % 2 ≠ 0 then .ok (s, false)
    else .ok ({ s with conns := s.conns ++ [(id, .rtp ((if m.a ≠ -1 then [m.a] else []) ++ (if m.v ≠ -1 then [m.v] else [])) m.uses)] }, true)

/-- The sinks known to a plain (`Connection.cpp:439-461, 484-522`) or UltraGrid (`552-569, 592-609`) connection. -/
def sinkFor (ug : Bool) : Stream → Bool
  | .video c => if ug then c = .h264 else c ≠ .other
  | .audio c => if ug then c = .mp3 else true

/-- `addStdRTPConnection`, `addUltraGridRTPConnection` (316-408): one reader; a missing replicator is
dereferenced. -/
def addOne (s : St) (rs : List Int) (id : Int) (port : Int) (ug : Bool) : Outcome (St × Bool) :=
  match rs with
  | [r] => match stream s r with
    | Option.none => .ok (s, false)
    | some st => if hasSource s r = false then .ub
        else if port % 2 ≠ 0 then .ok (s, false)
        else if sinkFor ug st = false then .ok (s, false)
        else .ok ({ s with conns := s.conns ++ [(id, .rtp [r] [r])] }, true)
  | _ => .ok (s, false)

/-- `addRTPConnection` (224-256). -/
def addRTP (s : St) (rs : List Int) (id : Int) (port : Int) (f : Fmt) : Outcome (St × Bool) :=
  if id ∈ s.conns.map Prod.fst then .ok (s, false)
  else if rs.any fun r => stream s r = Option.none then .ok (s, false)
  else match f with
    | .std => addOne s rs id port false
    | .ultragrid => addOne s rs id port true
    | .mpegts => addMpegTs s rs id port
    | .none => .ok (s, false)

/-- Stopping and deleting a connection (`Connection.cpp:265-281, 322-337`): an RTSP one deletes its session. -/
def stopConn (s : St) : Conn → Outcome St
  | .rtp _ _ => .ok s
  | .rtsp k => deleteSession s k

/-- `removeConnection` (169-183). -/
def removeConn (s : St) (id : Int) : Outcome (St × Bool) :=
  match s.conns.lookup id with
  | Option.none => .ok (s, false)
  | some c => (stopConn { s with conns := s.conns.filter fun e => e.1 ≠ id } c).map fun s' => (s', true)

/-- The first loop of `removeConnectionByReaderId` (501-509): connections that report the reader are stopped
and noted. -/
def stopUsers (r : Int) : St → List (Int × Conn) → Outcome (St × List Int)
  | s, [] => .ok (s, [])
  | s, (i, c) :: l => (listed s c).bind fun rs =>
    if r ∈ rs then (stopConn s c).bind fun s1 => (stopUsers r s1 l).map fun x => (x.1, i :: x.2)
    else stopUsers r s l

/-- `removeConnectionByReaderId` (494-519). -/
def removeByReader (s : St) (r : Int) : Outcome (St × Bool) :=
  (stopUsers r s s.conns).map fun x => ({ x.1 with conns := x.1.conns.filter fun e => e.1 ∉ x.2 }, x.2 ≠ [])

/-- `specificReaderDelete` (122-131). -/
def readerDelete (s : St) (r : Int) : Outcome (St × Bool) :=
  (removeByReader s r).map fun x =>
    if x.2 ∧ hasSource x.1 r then ({ x.1 with sources := x.1.sources.filter fun e => e.1 ≠ r }, true) else (x.1, false)

/-- `BaseFilter::deleteReader` (`Filter.cpp:620-629`): a null entry is dereferenced. -/
def delReader (s : St) (r : Int) : Outcome (St × Bool) :=
  match s.readers.lookup r with
  | Option.none => .ok (s, false)
  | some Option.none => .ub
  | some (some _) => readerDelete { s with readers := s.readers.filter fun e => e.1 ≠ r } r

/-- What may be asked of the transmitter. -/
inductive Op where
  | addReader (r : Int) (st : Stream)
  | delReader (r : Int)
  | addRTSP (rs : List Int) (id : Int) (ts : Bool) (name : String)
  | addRTP (rs : List Int) (id : Int) (port : Int) (f : Fmt)
  | removeConn (id : Int)
  deriving DecidableEq, Repr

/-- One request with its result.
Calls `addReader` (Filter.cpp:123-139), `addRTSP` (Connection.cpp:87-90, 265-281), `delReader` (Filter.cpp:620-629). -/
def step (s : St) : Op → Outcome (St × Bool)
  | .addReader r st => .ok (addReader s r st)
  | .delReader r => delReader s r
  | .addRTSP rs id ts name => addRTSP s rs id ts name
  | .addRTP rs id port f => addRTP s rs id port f
  | .removeConn id => removeConn s id

end Lms.Sink
