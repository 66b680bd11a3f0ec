import Verif.Common.Outcome

/-!
# Model of the DASH manifest and of the segment files (src/modules/dasher/MpdManager.cpp, Dasher.cpp)

One adaptation set with its timeline, the representations whose segments are written together, and the
files on disk.  A file is named by the base (folder and base name), the representation and the time
stamp (Dasher.cpp:586-592); names are taken to be injective in these three.  XML writing (65-114,
333-376, 435-487) is not modelled beyond the values it is given.  Deleting an existing file is taken to
succeed.
-/

namespace Lms.Mpd

/-- src/modules/dasher/MpdManager.hh:29. -/
abbrev MIN_SEGMENT : Nat := 2

/-- src/modules/dasher/MpdManager.hh:60-237 with the files written by src/modules/dasher/Dasher.cpp. -/
structure State where
  /-- `maxSeg` (MpdManager.hh). -/
  maxSeg : Nat
  /-- `minBufferTime`. -/
  minBuf : Nat
  /-- `timestamps`: start and duration of the listed segments, oldest first. -/
  win : List (Nat × Nat)
  /-- Keys of `vSegments` (or `aSegments`). -/
  reps : List Int
  /-- Folder and base name in use. -/
  base : Nat
  /-- The files on disk: base, representation, time stamp. -/
  disk : Nat → Int → Nat → Bool

/-- src/modules/dasher/MpdManager.cpp:29-36, src/modules/dasher/Dasher.cpp:38-43. -/
def State.init (base : Nat) : State :=
  { maxSeg := MIN_SEGMENT, minBuf := MIN_SEGMENT, win := [], reps := [], base := base
    disk := fun _ _ _ => false }

/-- src/modules/dasher/MpdManager.cpp:45-63 `configure` (arithmetic on 32 bits). -/
def configure (s : State) (minBuff maxSegment segDur : Nat) : State :=
  let maxSeg := if maxSegment ≥ MIN_SEGMENT then maxSegment else MIN_SEGMENT
  let total := maxSeg * segDur % 2 ^ 32
  let two := 2 * segDur % 2 ^ 32
  { s with
    maxSeg := maxSeg
    minBuf := if minBuff ≥ total then total else if minBuff ≥ two then minBuff else two }

/-- src/modules/dasher/Dasher.cpp:53-85 `Dasher::configure`; `writable`: the folder may be written to,
`named`: the base name is not empty. -/
def dasherConfigure (s : State) (writable named : Bool) (base minBuff maxSegment segDur : Nat) :
    State × Bool :=
  if !writable then (s, false)
  else if !named || segDur == 0 then (s, false)
  else (configure { s with base := base } minBuff maxSegment segDur, true)

/-- src/modules/dasher/MpdManager.cpp:243-248: the loop that drops the oldest segments.  Taking the front
of an empty deque is undefined behaviour. -/
def popTo (maxSeg : Nat) : List (Nat × Nat) → Nat → Outcome (List (Nat × Nat) × Nat)
  | [], removed => if 0 ≥ maxSeg then .ub else .ok ([], removed)
  | x :: l, removed => if (x :: l).length ≥ maxSeg then popTo maxSeg l x.1 else .ok (x :: l, removed)

/-- src/modules/dasher/MpdManager.cpp:241-252 `AdaptationSet::updateTimestamp`. -/
def updateTimestamp (win : List (Nat × Nat)) (maxSeg ts dur : Nat) : Outcome (List (Nat × Nat) × Nat) :=
  (popTo maxSeg win 0).bind fun r => Outcome.ok (r.1 ++ [(ts, dur)], r.2)

/-- Writing (`v = true`) or removing (`v = false`) the files of some representations. -/
def setFiles (disk : Nat → Int → Nat → Bool) (base : Nat) (ids : List Int) (ts : Nat) (v : Bool) :
    Nat → Int → Nat → Bool :=
  fun b i t => if b = base ∧ i ∈ ids ∧ t = ts then v else disk b i t

/-- src/modules/dasher/Dasher.cpp:245-296 `writeVideoSegments` and 310-349 `writeAudioSegments` once all
segments are complete; `written` is how many files could be written (382-396, in order of the map).
Returns the time stamp reported as removed when the segment was listed. -/
def announce (s : State) (ts dur written : Nat) : Outcome (State × Option Nat) :=
  if s.reps.isEmpty then .ok (s, none)
  else if written < s.reps.length then
    .ok ({ s with disk := setFiles s.disk s.base (s.reps.take written) ts true }, none)
  else
    let disk := setFiles s.disk s.base s.reps ts true
    (updateTimestamp s.win s.maxSeg ts dur).bind fun r =>
      Outcome.ok
        ({ s with win := r.1, disk := if r.2 > 0 then setFiles disk s.base s.reps r.2 false else disk },
         some r.2)

/-- What happens to the filter. -/
inductive Op where
  | configure (writable named : Bool) (base minBuff maxSegment segDur : Nat)
  | announce (ts dur written : Nat)
  /-- src/modules/dasher/Dasher.cpp:499-548 `specificReaderConfig` (530, 543). -/
  | addRep (id : Int)
  /-- src/modules/dasher/Dasher.cpp:550-584 `specificReaderDelete` (557-567). -/
  | delRep (id : Int)

inductive Out where
  | done (ok : Bool)
  | listed (removed : Option Nat)
  deriving DecidableEq

/-- Calls `configure` (src/modules/dasher/MpdManager.cpp:45-63), `dasherConfigure` (src/modules/dasher/Dasher.cpp:53-85),
`announce` (src/modules/dasher/Dasher.cpp:245-296). -/
def step (s : State) : Op → Outcome (State × Out)
  | .configure w n b mb ms sd =>
    let r := dasherConfigure s w n b mb ms sd
    .ok (r.1, .done r.2)
  | .announce ts dur written =>
    (announce s ts dur written).bind fun r => Outcome.ok (r.1, Out.listed r.2)
  | .addRep id => if id ∈ s.reps then .ok (s, .done false) else .ok ({ s with reps := s.reps ++ [id] }, .done true)
  | .delRep id =>
    if id ∈ s.reps then .ok ({ s with reps := s.reps.filter (· ≠ id) }, .done true) else .ok (s, .done false)

/-! ## Representations -/

/-- src/modules/dasher/MpdManager.cpp:489-508: what the manifest says of a video representation. -/
structure VRep where
  codec : String
  width : Int
  height : Int
  bandwidth : Int
  deriving DecidableEq, Repr

/-- src/modules/dasher/MpdManager.hh: `VideoAdaptationSet`; the representations as a map (src/modules/dasher/MpdManager.hh:271-274). -/
structure VSet where
  reps : List (String × VRep)
  maxWidth : Int
  maxHeight : Int
  frameRate : Int
  deriving DecidableEq, Repr

/-- src/modules/dasher/MpdManager.cpp:266-273. -/
def VSet.init : VSet := { reps := [], maxWidth := 0, maxHeight := 0, frameRate := 0 }

/-- src/modules/dasher/MpdManager.cpp:293-297 `getRepresentation`. -/
def VSet.get (s : VSet) (id : String) : Option VRep := s.reps.lookup id

/-- src/modules/dasher/MpdManager.cpp:299-321 `updateVideoRepresentation`. -/
def VSet.update (s : VSet) (id : String) (r : VRep) (fps : Int) : VSet :=
  let reps := match s.get id with
    | none => s.reps ++ [(id, r)]
    | some _ => s.reps.map fun x => if x.1 = id then (id, r) else x
  { reps := reps
    maxWidth := if s.maxWidth < r.width then r.width else s.maxWidth
    maxHeight := if s.maxHeight < r.height then r.height else s.maxHeight
    frameRate := fps }

/-- src/modules/dasher/MpdManager.cpp:282-291 `removeRepresentation`. -/
def VSet.remove (s : VSet) (id : String) : VSet × Bool :=
  match s.get id with
  | none => (s, false)
  | some _ => ({ s with reps := s.reps.filter fun x => x.1 ≠ id }, true)

inductive VOp where
  | update (id : String) (r : VRep) (fps : Int)
  | remove (id : String)

/-- Calls `VSet.update` (src/modules/dasher/MpdManager.cpp:299-321), `VSet.remove` (src/modules/dasher/MpdManager.cpp:282-291). -/
def VSet.step (s : VSet) : VOp → VSet × Bool
  | .update id r fps => (s.update id r fps, true)
  | .remove id => s.remove id

end Lms.Mpd
