import Verif.Control.Spec
import Verif.Manifest.Model

/-!
# What a player reads in a manifest, and what it should find there

A player looks elements and attributes up by name; it does not depend on their order, except among the `S`, the representations and
the sets themselves.
-/

namespace Lms.Manifest

open Lms Lms.Json Lms.Control

/-! ## Reading -/

/-- The number a text of decimal digits stands for. -/
def natOf (s : Str) : Option Nat :=
  if s ≠ [] ∧ s.all fun c => decide ('0' ≤ c ∧ c ≤ '9') then some (ofDigits (s.map fun c => c.toNat - 48)) else none

/-- The same with a sign. -/
def numOf : Str → Option Int
  | '-' :: s => (natOf s).map fun n : Nat => -(n : Int)
  | s => (natOf s).map fun n : Nat => (n : Int)

/-- The number of seconds of a duration `PTn.0S`. -/
def durationOf (s : Str) : Option Nat :=
  if s.take 2 = "PT".toList ∧ s.drop (s.length - 3) = ".0S".toList then natOf ((s.drop 2).take (s.length - 5)) else none

def El.name : El → String
  | .el n _ _ => n
  | .text _ => ""

def El.kids : El → List El
  | .el _ _ k => k
  | .text _ => []

/-- An attribute. -/
def El.attr (k : String) : El → Option Str
  | .el _ a _ => a.lookup k
  | .text _ => none

def El.num (k : String) (e : El) : Option Int := (e.attr k).bind numOf
def El.nat (k : String) (e : El) : Option Nat := (e.attr k).bind natOf

/-- The children of this name. -/
def El.all (n : String) (e : El) : List El := e.kids.filter fun c => decide (c.name = n)

/-- The child of this name, if there is exactly one. -/
def El.one (n : String) (e : El) : Option El :=
  match e.all n with
  | [c] => some c
  | _ => none

/-- A representation as described. -/
inductive Rep where
  | video (codec : Str) (width height bandwidth : Int)
  | audio (codec : Str) (rate channels bandwidth : Int)
  deriving DecidableEq

/-- An adaptation set as described. -/
structure SetInfo where
  mime : Str
  /-- Maximum width and height and frame rate, of a video set. -/
  limits : Option (Int × Int × Int)
  timescale : Int
  media : Str
  init : Str
  times : List (Nat × Nat)
  reps : List (Str × Rep)

/-- A manifest as described. -/
structure Info where
  type : Str
  start : Str
  update : Option Nat
  depth : Option Nat
  buffer : Option Nat
  sets : List (Str × SetInfo)

def readTime (e : El) : Option (Nat × Nat) := (e.nat "t").bind fun t => (e.nat "d").bind fun d => some (t, d)

def readVideoRep (e : El) : Option (Str × Rep) :=
  (e.attr "id").bind fun i => (e.attr "codecs").bind fun c => (e.num "width").bind fun w => (e.num "height").bind fun h =>
  (e.num "bandwidth").bind fun b => some (i, .video c w h b)

def readAudioRep (e : El) : Option (Str × Rep) :=
  (e.attr "id").bind fun i => (e.attr "codecs").bind fun c => (e.num "audioSamplingRate").bind fun r =>
  (e.num "bandwidth").bind fun b => (e.one "AudioChannelConfiguration").bind fun a => (a.num "value").bind fun n =>
  some (i, .audio c r n b)

def readSet (e : El) : Option (Str × SetInfo) :=
  (e.attr "id").bind fun i => (e.attr "mimeType").bind fun m =>
  (e.one "SegmentTemplate").bind fun t => (t.num "timescale").bind fun ts => (t.attr "media").bind fun me =>
  (t.attr "initialization").bind fun ini => (t.one "SegmentTimeline").bind fun l => (allSome ((l.all "S").map readTime)).bind fun ss =>
  if m = "video/mp4".toList then
    (e.num "maxWidth").bind fun w => (e.num "maxHeight").bind fun h => (e.num "frameRate").bind fun f =>
    (allSome ((e.all "Representation").map readVideoRep)).bind fun rs => some (i, ⟨m, some (w, h, f), ts, me, ini, ss, rs⟩)
  else
    (allSome ((e.all "Representation").map readAudioRep)).bind fun rs => some (i, ⟨m, none, ts, me, ini, ss, rs⟩)

/-- The manifest described by a document. -/
def read (e : El) : Option Info :=
  (e.attr "type").bind fun t => (e.attr "availabilityStartTime").bind fun st => (e.attr "minimumUpdatePeriod").bind fun u =>
  (e.attr "timeShiftBufferDepth").bind fun d => (e.attr "minBufferTime").bind fun b => (e.one "Period").bind fun p =>
  (allSome ((p.all "AdaptationSet").map readSet)).bind fun ss => some ⟨t, st, durationOf u, durationOf d, durationOf b, ss⟩

/-! ## What it should say -/

/-- What is known of a set: its kind is that of the first call for it; the maximum size is over all representations ever described. -/
structure Known where
  audio : Bool
  timescale : Int
  media : Str
  init : Str
  times : List (Nat × Nat)
  maxW : Int
  maxH : Int
  fps : Int
  reps : Str → Option Rep

/-- What is known of everything: the bound on the number of segments, the seconds announced, and the sets. -/
structure Facts where
  bound : Nat
  update : Option Nat
  depth : Option Nat
  buffer : Nat
  start : Option Str
  sets : Str → Option Known

/-- At the outset. -/
def Facts.none : Facts := { bound := 2, update := .none, depth := .none, buffer := 2, start := .none, sets := fun _ => .none }

/-- The last `n` of a list. -/
def lastOf {α : Type} (n : Nat) (l : List α) : List α := l.drop (l.length - n)

/-- One set changed. -/
def Facts.at (f : Facts) (id : Str) (g : Option Known → Option Known) : Facts :=
  { f with sets := fun x => if x = id then g (f.sets x) else f.sets x }

/-- A value that lies between two bounds, if it can. -/
def between (lo hi v : Nat) : Nat := if hi ≤ v then hi else if lo ≤ v then v else lo

/-- A call for a set of this kind. -/
def Known.template (audio : Bool) (t : Int) (m i : Str) : Option Known → Option Known
  | .none => some ⟨audio, t, m, i, [], 0, 0, 0, fun _ => .none⟩
  | some k => some { k with timescale := t, media := m, init := i }

/-- What a call changes. -/
def Facts.after (f : Facts) : Op → Facts
  | .configure mb ms sd =>
    let total := max 2 ms * sd % 4294967296
    { f with bound := max 2 ms, update := some sd, depth := some total, buffer := between (2 * sd % 4294967296) total mb }
  | .videoSet id t m i => f.at id (Known.template false t m i)
  | .audioSet id t m i => f.at id (Known.template true t m i)
  | .videoRep set id r fps => f.at set fun o => o.map fun k =>
      if k.audio then k
      else { k with maxW := max k.maxW r.width, maxH := max k.maxH r.height, fps := fps
                    reps := fun x => if x = id then some (.video r.codec r.width r.height r.bandwidth) else k.reps x }
  | .audioRep set id r => f.at set fun o => o.map fun k =>
      if k.audio then { k with reps := fun x => if x = id then some (.audio r.codec r.rate r.channels r.bandwidth) else k.reps x } else k
  | .remove set id => f.at set fun o => o.map fun k => { k with reps := fun x => if x = id then .none else k.reps x }
  | .time set ts dur => f.at set fun o => o.map fun k => { k with times := lastOf f.bound (k.times ++ [(ts, dur)]) }
  | .flush set => f.at set fun o => o.map fun k => { k with times := [] }
  | .write now => { f with start := some (f.start.getD now) }

/-- Ids in ascending order, each once. -/
def Ascending {α : Type} (l : List (Str × α)) : Prop := l.Pairwise fun a b => before a.1 b.1 = true

/-- A set is described as known. -/
structure SaysSet (i : SetInfo) (k : Known) : Prop where
  mime : i.mime = if k.audio then "audio/mp4".toList else "video/mp4".toList
  limits : i.limits = if k.audio then .none else some (k.maxW, k.maxH, k.fps)
  timescale : i.timescale = k.timescale
  media : i.media = k.media
  init : i.init = k.init
  times : i.times = k.times
  order : Ascending i.reps
  reps : ∀ r, i.reps.lookup r = k.reps r

/-- A manifest says what is known, no more and no less. -/
structure Says (m : Info) (f : Facts) : Prop where
  type : m.type = "dynamic".toList
  start : f.start = some m.start
  update : m.update = f.update
  depth : m.depth = f.depth
  buffer : m.buffer = some f.buffer
  order : Ascending m.sets
  none : ∀ id, f.sets id = .none → m.sets.lookup id = .none
  some : ∀ id k, f.sets id = some k → ∃ i, m.sets.lookup id = some i ∧ SaysSet i k

/-! ## The addresses a player makes of a template -/

/-- The identifier up to the next dollar sign, and what follows it. -/
def upToDollar : Str → Option (Str × Str)
  | [] => none
  | c :: s => if c = '$' then some ([], s) else (upToDollar s).map fun r => (c :: r.1, r.2)

theorem upToDollar_length {s a b : Str} (h : upToDollar s = some (a, b)) : b.length < s.length := by
  induction s generalizing a b with
  | nil => simp [upToDollar] at h
  | cons c s ih =>
    rw [upToDollar] at h
    split at h
    · simp only [Option.some.injEq, Prod.mk.injEq] at h; rw [← h.2]; simp
    · cases hs : upToDollar s with
      | none => rw [hs] at h; simp at h
      | some r =>
        rw [hs] at h
        simp only [Option.map_some, Option.some.injEq, Prod.mk.injEq] at h
        have := ih (a := r.1) (b := r.2) hs
        rw [← h.2, List.length_cons]; omega

/-- Substitution in a template (ISO/IEC 23009-1, 5.3.9.4.4): two dollar signs stand for one, an unknown identifier makes the template
unusable. -/
def expand (id time : Str) : Str → Option Str
  | [] => some []
  | c :: s =>
    if c = '$' then
      match h : upToDollar s with
      | none => none
      | some (k, r) =>
        have : r.length < (c :: s).length := by have := upToDollar_length h; rw [List.length_cons]; omega
        if k = [] then (expand id time r).map ('$' :: ·)
        else if k = "RepresentationID".toList then (expand id time r).map (id ++ ·)
        else if k = "Time".toList then (expand id time r).map (time ++ ·)
        else none
    else (expand id time s).map (c :: ·)
  termination_by s => s.length

end Lms.Manifest
