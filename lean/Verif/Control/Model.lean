import Verif.JsonStream.Model
import Verif.Pipeline.Model

/-!
# The control protocol (src/Controller.cpp:138-196, src/PipelineManager.cpp:484-729, src/Event.cpp)

A request is a JSON document; its events are carried out one after the other and their results collected in one object, which is
the reply.  The registries are those of `Verif.Pipeline`.  What happens inside filters enters as an environment, one for each event:
the ids made by `generate*ID`, the results of connecting and disconnecting, and the state reports of filters and readers.

The accessors of the JSON library throw when a node has the wrong type (src/Jzon.h:40-57, 103-112); nothing in the project
catches an exception, so a throw ends the process: the outcome `dies`.  Nodes are those of `Verif.Json`.  The text of the error
messages is kept; what the events delivered to a filter do there is not modelled (`Verif.Events`).
-/

namespace Lms.Control

open Lms Lms.Json

/-- Result of a piece of code: a value, an exception nobody catches, or undefined behaviour. -/
inductive R (α : Type) where
  | ok (a : α)
  | dies
  | ub

/-- Sequencing. -/
def R.bind {α β : Type} (x : R α) (f : α → R β) : R β :=
  match x with
  | .ok a => f a
  | .dies => .dies
  | .ub => .ub

/-- The outcomes of `Verif.Pipeline` (which has no loop that could hang). -/
def R.ofOutcome {α : Type} : Outcome α → R α
  | .ok a => .ok a
  | .ub => .ub
  | .hang => .ub

/-! ## Accessors of the JSON library -/

/-- src/Jzon.cpp:631-641 `Object::Has`; src/Jzon.h:109 for other nodes. -/
def has (n : Node) (k : Str) : R Bool :=
  match n with
  | .obj l => .ok (l.any fun e => e.1 = k)
  | _ => .dies

/-- src/Jzon.cpp:646-657 `Object::Get`: the first member of that name; src/Jzon.h:111 for other nodes. -/
def get (n : Node) (k : Str) : R Node :=
  match n with
  | .obj l => match l.find? fun e => e.1 = k with
    | some e => .ok e.2
    | none => .dies
  | _ => .dies

/-- src/Jzon.h:100, 148 `IsNumber`. -/
def isNum : Node → Bool
  | .val .num _ => true
  | _ => false

/-- src/Jzon.h:91-93 `IsArray`. -/
def isArr : Node → Bool
  | .arr _ => true
  | _ => false

/-- src/Jzon.cpp:269-275 `Value::ToString`; src/Jzon.h:103 for other nodes. -/
def toStr : Node → R Str
  | .val .null _ => .ok "null".toList
  | .val _ s => .ok s
  | _ => .dies

/-- The decimal digits at the beginning of a text. -/
def leadingDigits : Str → List Nat
  | [] => []
  | c :: s => if '0' ≤ c ∧ c ≤ '9' then (c.toNat - 48) :: leadingDigits s else []

/-- The number with these digits. -/
def ofDigits (l : List Nat) : Nat := l.foldl (fun a d => 10 * a + d) 0

/-- A 32 bit `int` from an out-of-range number: the nearest one. -/
def clamp (z : Int) : Int := if z < -2147483648 then -2147483648 else if z > 2147483647 then 2147483647 else z

/-- `std::stringstream >> int` (src/Jzon.cpp:284-287): an optional sign and the digits that follow it; the rest of the text is not
looked at.  No digits: the value is set to zero; out of range: to the nearest `int`. -/
def readInt (s : Str) : Int :=
  match s with
  | '-' :: r => clamp (-(ofDigits (leadingDigits r) : Int))
  | r => clamp (ofDigits (leadingDigits r))

/-- src/Jzon.cpp:276-293 `Value::ToInt`; src/Jzon.h:104 for other nodes. -/
def toInt : Node → R Int
  | .val .null _ => .ok 0
  | .val .num s => .ok (readInt s)
  | _ => .dies

/-- src/Jzon.cpp:547-562 `Object(const Node&)`: a copy of an object. -/
def asObject : Node → R Node
  | .obj l => .ok (.obj l)
  | _ => .dies

/-! ## Numbers in the reply -/

/-- Printing an `unsigned` to a stream in decimal. -/
def dec (n : Nat) : Str := if n < 10 then [Char.ofNat (48 + n)] else dec (n / 10) ++ [Char.ofNat (48 + n % 10)]

/-- Printing an `int` to a stream. -/
def showInt (z : Int) : Str := if z < 0 then '-' :: dec z.natAbs else dec z.natAbs

/-- src/Jzon.cpp:366-372 `Value(const int)`. -/
def intNode (z : Int) : Node := .val .num (showInt z)

/-- Conversion of a wider number to `int`, modulo 2^32. -/
def toI32 (z : Int) : Int := if z % 4294967296 < 2147483648 then z % 4294967296 else z % 4294967296 - 4294967296

/-! ## State and environment -/

/-- An event handed to a filter (src/PipelineManager.cpp:690, 721-729; src/Event.cpp:34-39): the id, the filter object, the event as
received and its delay. -/
structure Sent where
  id : Int
  obj : Nat
  event : Node
  delay : Int

/-- The registries and the events delivered so far. -/
structure C where
  pipe : Pipeline.S
  sent : List Sent

/-- At start. -/
def C.init : C := ⟨Pipeline.S.init, []⟩

/-- What the filters answer during one event: ids generated (src/PipelineManager.cpp:270-276), whether the connections of a path
succeed (306-334), whether the reader of a path is disconnected (439), what `BaseFilter::getState` reports of a filter
(src/Filter.cpp:469-475), the average delay of a reader (75-84) and the blocks lost by it (86-95). -/
structure Env where
  gw : Int
  gr : Int
  connected : Bool
  disc : Int → Bool
  state : Int → List (Str × Node)
  delay : Int → Int → Int
  lost : Int → Int → Nat

/-- src/Filter.hh:40 `DEFAULT_ID`. -/
def DEFAULT_ID : Int := 1

/-- The order of a `std::map`: ascending keys. -/
def insertKey {β : Type} (e : Int × β) : List (Int × β) → List (Int × β)
  | [] => [e]
  | x :: l => if e.1 < x.1 then e :: x :: l else x :: insertKey e l

/-- All entries in the order of a `std::map`. -/
def byKey {β : Type} (l : List (Int × β)) : List (Int × β) := l.foldr insertKey []

/-- A reply under construction: members in order. -/
abbrev Reply := List (Str × Node)

/-- `outputNode.Add("error", "text")` (src/PipelineManager.cpp:543, 548 and others). -/
def failed (msg : String) : Str × Node := ("error".toList, .val .str msg.toList)

/-- `outputNode.Add("error", Jzon::null)` (src/PipelineManager.cpp:563, 614, 638 and others). -/
def done : Str × Node := ("error".toList, .val .null [])

/-! ## The events of the manager -/

/-- src/PipelineManager.cpp:502-531: one path in the report.  `lostBlocs` is a sum of `size_t` (modulo 2^64) cut to `int`. -/
def pathReport (s : Pipeline.S) (env : Env) (id : Int) (p : Pipeline.Path) : Node :=
  .obj ([("id".toList, intNode id), ("originFilter".toList, intNode p.org), ("destinationFilter".toList, intNode p.dst),
      ("originWriter".toList, intNode p.orgW), ("destinationReader".toList, intNode p.dstR)] ++
    (if (Pipeline.lookup s.filters p.dst).isSome then
      [("avgDelay".toList, intNode (toI32 (env.delay p.dst p.dstR))),
       ("lostBlocs".toList, intNode (toI32 ((env.lost p.dst p.dstR + (p.mids.map fun m =>
          if (Pipeline.lookup s.filters m).isSome then env.lost m DEFAULT_ID else 0).sum) % 18446744073709551616)))]
    else []) ++
    [("filters".toList, .arr (p.mids.map intNode))])

/-- src/PipelineManager.cpp:490-497: one filter in the report. -/
def filterReport (env : Env) (id : Int) : Node := .obj (("id".toList, intNode id) :: env.state id)

/-- src/PipelineManager.cpp:484-534 `getStateEvent`; reading a deleted path or filter is undefined. -/
def getState (s : C) (env : Env) : R (C × Reply) :=
  if s.pipe.paths.any fun e => s.pipe.freedPaths.contains e.1 then .ub
  else if s.pipe.filters.any fun e => s.pipe.deleted.contains e.2 then .ub
  else .ok (s, [("filters".toList, .arr ((byKey s.pipe.filters).map fun e => filterReport env e.1)),
      ("paths".toList, .arr ((byKey s.pipe.paths).map fun e => pathReport s.pipe env e.1 e.2))])

/-- src/Utils.cpp:319-356 `getFilterTypeFromString` and src/PipelineManager.cpp:127-170: the names of types `createFilter` can make. -/
def typeNames : List String :=
  ["videoDecoder", "videoEncoder", "videoMixer", "videoResampler", "audioDecoder", "audioEncoder", "audioMixer", "receiver",
    "transmitter", "sharedMemory", "dasher", "demuxer", "videoSplitter", "v4lcapture"]

/-- src/PipelineManager.cpp:536-567 `createFilterEvent` (`params` is never null here, 701-702). -/
def createFilterEvent (s : C) (params : Node) : R (C × Reply) :=
  (has params "id".toList).bind fun h1 =>
  (if h1 then has params "type".toList else .ok false).bind fun h2 =>
  if !(h1 && h2) then .ok (s, [failed "Error creating filter. Invalid JSON format..."])
  else
    (get params "id".toList).bind fun nid =>
    if !isNum nid then .ok (s, [failed "Error creating filter. ID must be numeric..."])
    else
      (toInt nid).bind fun id =>
      (get params "type".toList).bind fun nt =>
      (toStr nt).bind fun t =>
      let r := Pipeline.createFilter s.pipe id (typeNames.any fun x => x.toList = t)
      .ok ({ s with pipe := r.1 }, [if r.2 then done else failed "Error creating filter."])

/-- src/PipelineManager.cpp:604-606. -/
def toInts : List Node → R (List Int)
  | [] => .ok []
  | n :: l => (toInt n).bind fun z => (toInts l).bind fun zs => .ok (z :: zs)

/-- src/PipelineManager.cpp:582-588: all names are present, asked one after the other. -/
def hasAll (n : Node) : List String → R Bool
  | [] => .ok true
  | k :: ks => (has n k.toList).bind fun h => if h then hasAll n ks else .ok false

/-- src/PipelineManager.cpp:590-594: `params->Get(k).ToInt()`. -/
def getInt (n : Node) (k : String) : R Int := (get n k.toList).bind toInt

/-- src/PipelineManager.cpp:569-619 `createPathEvent`. -/
def createPathEvent (s : C) (env : Env) (params : Node) : R (C × Reply) :=
  (hasAll params ["id", "orgFilterId", "dstFilterId", "orgWriterId", "dstReaderId"]).bind fun h =>
  if !h then .ok (s, [failed "Error creating path. Invalid JSON format..."])
  else
    (getInt params "id").bind fun id =>
    (getInt params "orgFilterId").bind fun org =>
    (getInt params "dstFilterId").bind fun dst =>
    (getInt params "orgWriterId").bind fun w =>
    (getInt params "dstReaderId").bind fun r =>
    (has params "midFiltersIds".toList).bind fun hm =>
    if !hm then .ok (s, [failed "Invalid midfilters array"])
    else
      (get params "midFiltersIds".toList).bind fun mids =>
      match mids with
      | .arr l =>
        (toInts l).bind fun ms =>
        let c := Pipeline.createPath s.pipe id org dst w r ms env.gw env.gr
        if !c.2 then .ok ({ s with pipe := c.1 }, [failed "Error creating path. Check introduced filter IDs..."])
        else
          (R.ofOutcome (Pipeline.connectPath c.1 id env.connected)).bind fun q =>
          .ok ({ s with pipe := q.1 }, [if q.2 then done else failed "Error connecting path. Better pray Jesus..."])
      | _ => .ok (s, [failed "Invalid midfilters array"])

/-- src/PipelineManager.cpp:628-633, 651-656: the id of what is to be removed. -/
def removeId (params : Node) : R (Option Int) :=
  (has params "id".toList).bind fun h =>
  if !h then .ok none
  else (get params "id".toList).bind fun n => if !isNum n then .ok none else (toInt n).bind fun id => .ok (some id)

/-- src/PipelineManager.cpp:621-642 `removePathEvent`. -/
def removePathEvent (s : C) (env : Env) (params : Node) : R (C × Reply) :=
  (removeId params).bind fun o =>
  match o with
  | none => .ok (s, [failed "Error removing path. Invalid JSON format..."])
  | some id =>
    (R.ofOutcome (Pipeline.removePath s.pipe id (env.disc id))).bind fun q =>
    .ok ({ s with pipe := q.1 }, [if q.2 then done else failed "Error removing path. Internal error..."])

/-- src/PipelineManager.cpp:644-665 `removeFilterEvent`. -/
def removeFilterEvent (s : C) (params : Node) : R (C × Reply) :=
  (removeId params).bind fun o =>
  match o with
  | none => .ok (s, [failed "Error removing filter. Invalid JSON format..."])
  | some id =>
    (R.ofOutcome (Pipeline.removeFilter s.pipe id)).bind fun q =>
    .ok ({ s with pipe := q.1 }, [if q.2 then done else failed "Error removing filter. Internal error..."])

/-- src/PipelineManager.cpp:667-675 `stopEvent`; the paths are enumerated in the order of the map. -/
def stopEvent (s : C) (env : Env) : R (C × Reply) :=
  (R.ofOutcome (Pipeline.stop s.pipe (byKey s.pipe.paths) env.disc)).bind fun q =>
  .ok ({ s with pipe := q.1 }, [if q.2 then done else failed "Error stopping pipe. Internal error..."])

/-- src/PipelineManager.cpp:703-717: an event of the manager itself. -/
def ownEvent (s : C) (env : Env) (action : Str) (params : Node) : R (C × Reply) :=
  if action = "getState".toList then getState s env
  else if action = "createPath".toList then createPathEvent s env params
  else if action = "removePath".toList then removePathEvent s env params
  else if action = "createFilter".toList then createFilterEvent s params
  else if action = "removeFilter".toList then removeFilterEvent s params
  else if action = "stop".toList then stopEvent s env
  else .ok (s, [failed "Error processing internal event. Invalid action..."])

/-- src/PipelineManager.cpp:721-729 `processFilterEvent`. -/
def filterEvent (s : C) (event : Node) (id delay : Int) : C × Reply :=
  match Pipeline.lookup s.pipe.filters id with
  | none => (s, [failed "Error while processing event. There is no filter with this ID..."])
  | some o => ({ s with sent := s.sent ++ [⟨id, o, event, delay⟩] }, [done])

/-- src/PipelineManager.cpp:687-688: the delay, -1 if none is given as a number. -/
def delayOf (event : Node) : R Int :=
  (has event "delay".toList).bind fun h =>
  if !h then .ok (-1)
  else (get event "delay".toList).bind fun n => if isNum n then toInt n else .ok (-1)

/-- src/PipelineManager.cpp:677-719 `processEvent`; the argument is a copy of an object (src/Controller.cpp:173). -/
def processEvent (s : C) (env : Env) (event : Node) : R (C × Reply) :=
  (asObject event).bind fun event =>
  (hasAll event ["action", "params"]).bind fun h =>
  if !h then .ok (s, [failed "Error processing filter event. Invalid JSON format..."])
  else
    (has event "filterId".toList).bind fun hf =>
    (if hf then (get event "filterId".toList).bind fun n => .ok (if isNum n then some n else none) else .ok none).bind fun nf =>
    match nf with
    | some n =>
      (toInt n).bind fun id =>
      (delayOf event).bind fun d =>
      .ok (filterEvent s event id d)
    | none =>
      (get event "action".toList).bind fun na =>
      (toStr na).bind fun action =>
      (get event "params".toList).bind fun np =>
      (asObject np).bind fun params => ownEvent s env action params

/-- src/Controller.cpp:172-174: the events one after the other, their results in one object. -/
def events (s : C) : List (Node × Env) → R (C × Reply)
  | [] => .ok (s, [])
  | (e, env) :: es =>
    (processEvent s env e).bind fun a => (events a.1 es).bind fun b => .ok (b.1, a.2 ++ b.2)

/-- src/Controller.cpp:159-177 `processRequest` on the root object; `envs` has an environment for each event. -/
def processRequest (s : C) (envs : Nat → Env) (root : Node) : R (C × Reply) :=
  (has root "events".toList).bind fun h =>
  if !h then .ok (s, [failed "Invalid JSON, missing 'events' tag"])
  else
    (get root "events".toList).bind fun n =>
    match n with
    | .arr l => events s (l.zipIdx.map fun e => (e.1, envs e.2))
    | _ => .ok (s, [failed "Invalid JSON, missing 'events' tag"])

/-- src/Event.cpp:51-60 `getAction`, called when the filter comes to the event (src/Filter.cpp:432, 812, 843). -/
def filterAction (event : Node) : R Str :=
  (has event "action".toList).bind fun h => if h then (get event "action".toList).bind toStr else .ok []

/-! ## The server loop -/

/-- The controller: the state, its parser, the connections accepted and not closed, and the replies, each with the number of its
connection.  `next` is the number of the next connection (src/Controller.hh:98-105). -/
structure Server where
  c : C
  parser : JsonStream.Parser
  next : Nat
  opened : List Nat
  replies : List (Nat × Reply)

/-- At start. -/
def Server.init : Server := ⟨C.init, JsonStream.Parser.init, 0, [], []⟩

/-- tests/liveMediaStreamer.cpp:51-62 with src/Controller.cpp:138-196: one connection.  `text` is what one `read` delivers, `none` if
it fails (143-146).  Without a document the connection is forgotten as it is; otherwise the reply is written and it is closed.  What
`write` does is not modelled. -/
def serve (s : Server) (text : Option Str) (envs : Nat → Env) : R Server :=
  let k := s.next
  match text with
  | none => .ok { s with next := k + 1, opened := k :: s.opened }
  | some t =>
    (R.ofOutcome (JsonStream.request s.parser t)).bind fun r =>
    if !r.1.1 then .ok { s with next := k + 1, parser := r.2, opened := k :: s.opened }
    else (processRequest s.c envs r.1.2).bind fun a =>
      .ok { s with c := a.1, next := k + 1, parser := r.2, replies := s.replies ++ [(k, a.2)] }

/-- A run of the server.
Calls `serve` (tests/liveMediaStreamer.cpp:51-62). -/
def serveAll (s : Server) : List (Option Str × (Nat → Env)) → R Server
  | [] => .ok s
  | c :: cs => (serve s c.1 c.2).bind fun s' => serveAll s' cs

end Lms.Control
