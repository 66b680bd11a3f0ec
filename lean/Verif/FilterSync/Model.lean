import Verif.Common.Outcome

/-!
# Model of input selection in a filter (src/Filter.cpp:548-734)

What `demandOriginFrames` does with what its readers show it.  A reader is represented by what the code
observes of it in one round; the behaviour of readers and queues over time is modelled in
`Verif.SharedReader` and `Verif.FrameQueue`.  Times are in microseconds (unbounded integers).
-/

namespace Lms.FilterSync

/-- What is observed of an entry of `readers`.  `present`: the pointer is not null; `connected`:
`isConnected()` (src/IOInterface.cpp:214-221); `cur`: `getCurrentTime()` (234-248), `none` for `NO_DTS`;
`full`: `isFull()` (250); `got`: the result of `getFrame` (70-109): new flag and frame time, or `none` for a
null frame. -/
structure RV where
  id : Int
  present : Bool
  connected : Bool
  cur : Option Int
  full : Bool
  got : Option (Bool × Int)
  deriving DecidableEq, Repr

/-- src/Filter.cpp:578-591: the newest current time, at least 0 (`NO_DTS` is −1). -/
def wallClock (rs : List RV) : Int :=
  rs.foldl (fun w r => if r.present then (if w < (r.cur.getD (-1)) then r.cur.getD (-1) else w) else w) 0

/-- src/Filter.cpp:597-611. -/
def toPass (margin wall : Int) (rs : List RV) : List Int :=
  (rs.filter fun r => match r.cur with
    | none => false
    | some t => r.full || decide (wall - margin > t)).map (·.id)

/-- src/Filter.cpp:573-618 `framesSync`.  The second loop uses null readers without a check: undefined
behaviour. -/
def framesSync (sync : Bool) (margin : Int) (rs : List RV) : Outcome (List Int) :=
  let all := (rs.filter (·.present)).map (·.id)
  if !sync then .ok all
  else if rs.any fun r => !r.present then .ub
  else
    let pass := toPass margin (wallClock rs) rs
    if (rs.any fun r => r.cur.isNone) || !pass.isEmpty then .ok pass
    else .ok all

/-- Local variables of `demandOriginFramesFrameTime` (662-666), with the readers deleted (672). -/
structure Acc where
  oos : Int
  valid : Bool
  outDated : Bool
  oFrames : List (Int × Bool × Int)
  newFrames : List Int
  deleted : List Int
  deriving DecidableEq, Repr

/-- src/Filter.cpp:662-666. -/
def Acc.init : Acc :=
  { oos := -1, valid := false, outDated := false, oFrames := [], newFrames := [], deleted := [] }

/-- src/Filter.cpp:668-716: one reader. -/
def visit (syncTs frameTime : Int) (a : Acc) (r : RV) : Acc :=
  if !r.present || !r.connected then { a with deleted := a.deleted ++ [r.id] }
  else
    match r.got with
    | none => a
    | some (isNew, t) =>
      let a := { a with oFrames := a.oFrames ++ [(r.id, isNew, t)] }
      if !isNew then a
      else
        let a := { a with newFrames := a.newFrames ++ [r.id] }
        if t > syncTs + frameTime then
          { a with oos := if a.oos < 0 then t else min t a.oos }
        else if t < syncTs then { a with outDated := true }
        else { a with valid := true }

/-- The result of a round: whether frames are to be processed, the clock, the frames handed on, the
readers whose frame is new, the readers deleted. -/
structure Res where
  go : Bool
  syncTs : Int
  oFrames : List (Int × Bool × Int)
  newFrames : List Int
  deleted : List Int
  deriving DecidableEq, Repr

/-- src/Filter.cpp:660-734 `demandOriginFramesFrameTime`. -/
def demandFrameTime (syncTs frameTime : Int) (rs : List RV) : Res :=
  let a := rs.foldl (visit syncTs frameTime) Acc.init
  if a.newFrames.isEmpty then ⟨false, syncTs, a.oFrames, a.newFrames, a.deleted⟩
  else if !a.valid then
    let ts := if a.oos > syncTs ∧ !a.outDated then a.oos else syncTs
    ⟨!a.outDated, ts, a.oFrames, a.newFrames, a.deleted⟩
  else ⟨true, syncTs + frameTime, a.oFrames, a.newFrames, a.deleted⟩

/-- src/Filter.cpp:636-655: one reader of the vector (`readers[id]` of an id that is gone is null). -/
def visitBE (rs : List RV) (a : Acc) (id : Int) : Acc :=
  match rs.find? (fun r => r.id == id) with
  | none => { a with deleted := a.deleted ++ [id] }
  | some r =>
    if !r.present || !r.connected then { a with deleted := a.deleted ++ [id] }
    else
      match r.got with
      | none => a
      | some (isNew, t) =>
        { a with oFrames := a.oFrames ++ [(id, isNew, t)]
                 newFrames := if isNew then a.newFrames ++ [id] else a.newFrames }

/-- src/Filter.cpp:631-658 `demandOriginFramesBestEffort`; `syncTs` is not touched. -/
def demandBestEffort (syncTs : Int) (rs : List RV) (ids : List Int) : Res :=
  let a := ids.foldl (visitBE rs) Acc.init
  ⟨!a.newFrames.isEmpty, syncTs, a.oFrames, a.newFrames, a.deleted⟩

/-- src/Filter.cpp:548-571 `demandOriginFrames`. -/
def demandOrigin (maxReaders : Nat) (sync : Bool) (margin syncTs frameTime : Int) (rs : List RV) :
    Outcome Res :=
  if maxReaders = 0 then .ok ⟨true, syncTs, [], [], []⟩
  else if rs.isEmpty then .ok ⟨false, syncTs, [], [], []⟩
  else
    (framesSync sync margin rs).bind fun ids =>
      if ids.isEmpty then Outcome.ok ⟨false, syncTs, [], [], []⟩
      else if frameTime ≤ 0 then Outcome.ok (demandBestEffort syncTs rs ids)
      else Outcome.ok (demandFrameTime syncTs frameTime rs)

/-- Rounds of a filter with a frame time: in each round the readers show `rs`; the stamp of the output
is the clock after the round (as src/modules/videoMixer/VideoMixer.cpp:154).  Returns the stamps of the
outputs. -/
def rounds (frameTime : Int) : Int → List (List RV) → Int × List Int
  | ts, [] => (ts, [])
  | ts, rs :: rest =>
    let r := demandFrameTime ts frameTime rs
    let x := rounds frameTime r.syncTs rest
    (x.1, if r.go then r.syncTs :: x.2 else x.2)

end Lms.FilterSync
