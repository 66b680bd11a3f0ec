import Mathlib.Algebra.Order.Field.Basic
import Mathlib.Data.Rat.Floor
import Mathlib.Tactic.Linarith
import Mathlib.Tactic.NormNum
import Verif.AudioMixer.Level

/-!
# C32: volume commands, and C31's recorded exceptions
-/

namespace Lms.AudioMixer

open Lms

section Gains

variable {K : Type} [Field K] [LinearOrder K] [IsStrictOrderedRing K]

/-- AudioMixer.hh:151, 154: the gains a mixer holds. -/
structure Ctl (K : Type) where
  gains : Int → Option K
  master : K

/-- AudioMixer.cpp:294-309 `setChannelGain`. -/
def setGain (s : Ctl K) (id : Int) (v : K) : Bool × Ctl K :=
  match s.gains id with
  | none => (false, s)
  | some _ => (true, { s with gains := fun k => if k = id then some (if v > 1 then 1 else if v < 0 then 0 else v) else s.gains k })

/-- What reaches a mixer: the commands of its event map (AudioMixer.cpp:457-473) with the parameters present, and channels
coming and going (267-292). -/
inductive Cmd (K : Type) where
  | volume (id : Option Int) (gain : Option K)
  | mute (id : Option Int)
  | solo (id : Option Int)
  | master (gain : Option K)
  | muteMaster
  | addChannel (id : Int)
  | removeChannel (id : Int)

/-- AudioMixer.cpp:311-396, 280, 285-292.  The loop of 365-369 visits every entry of the table once. -/
def command (s : Ctl K) : Cmd K → Bool × Ctl K
  | .volume (some id) (some g) => setGain s id g
  | .volume _ _ => (false, s)
  | .mute (some id) => setGain s id 0
  | .mute none => (false, s)
  | .solo (some id) =>
    let r := setGain s id 1
    if r.1 then (true, { r.2 with gains := fun k => if k ≠ id then (r.2.gains k).map fun _ => 0 else r.2.gains k })
    else (false, s)
  | .solo none => (false, s)
  | .master (some g) => (true, { s with master := g })
  | .master none => (false, s)
  | .muteMaster => (true, { s with master := 0 })
  | .addChannel id => (true, { s with gains := fun k => if k = id then some 1 else s.gains k })
  | .removeChannel id =>
    match s.gains id with
    | none => (false, s)
    | some _ => (true, { s with gains := fun k => if k = id then none else s.gains k })

def commands (s : Ctl K) : List (Cmd K) → Ctl K
  | [] => s
  | c :: l => commands (command s c).2 l

/-- A new mixer: no channels, AudioMixer.hh:31. -/
def Ctl.init (m : K) : Ctl K := ⟨fun _ => none, m⟩

def InUnit (s : Ctl K) : Prop := ∀ id g, s.gains id = some g → 0 ≤ g ∧ g ≤ 1

theorem setGain_unit (s : Ctl K) (id : Int) (v : K) (h : InUnit s) : InUnit (setGain s id v).2 := by
  unfold setGain
  split
  · exact h
  · intro k g hg
    simp only at hg
    by_cases hk : k = id
    · rw [if_pos hk, Option.some.injEq] at hg
      rw [← hg]
      split
      · exact ⟨zero_le_one, le_refl _⟩
      · split
        · exact ⟨le_refl _, zero_le_one⟩
        · constructor <;> linarith
    · rw [if_neg hk] at hg; exact h k g hg

theorem command_unit (s : Ctl K) (c : Cmd K) (h : InUnit s) : InUnit (command s c).2 := by
  cases c with
  | volume id g =>
    cases id with
    | none => cases g <;> exact h
    | some id => cases g with
      | none => exact h
      | some g => exact setGain_unit s id g h
  | mute id => cases id with
    | none => exact h
    | some id => exact setGain_unit s id 0 h
  | solo id => cases id with
    | none => exact h
    | some id =>
      have := setGain_unit s id 1 h
      simp only [command]
      split
      · intro k g hg
        simp only at hg
        by_cases hk : k ≠ id
        · rw [if_pos hk, Option.map_eq_some_iff] at hg
          obtain ⟨_, _, rfl⟩ := hg
          exact ⟨le_refl _, zero_le_one⟩
        · rw [if_neg hk] at hg; exact this k g hg
      · exact h
  | master g => cases g <;> exact h
  | muteMaster => exact h
  | addChannel id =>
    intro k g hg
    simp only [command] at hg
    by_cases hk : k = id
    · rw [if_pos hk, Option.some.injEq] at hg
      rw [← hg]; exact ⟨zero_le_one, le_refl _⟩
    · rw [if_neg hk] at hg; exact h k g hg
  | removeChannel id =>
    simp only [command]
    split
    · exact h
    · intro k g hg
      simp only at hg
      by_cases hk : k = id
      · rw [if_pos hk] at hg; exact absurd hg (by simp)
      · rw [if_neg hk] at hg; exact h k g hg

/-- **C32, range.** After any commands every channel's gain is between 0 and 1. -/
theorem gains_in_range (m : K) (l : List (Cmd K)) : InUnit (commands (Ctl.init m) l) := by
  have : ∀ (l : List (Cmd K)) (s : Ctl K), InUnit s → InUnit (commands s l) := by
    intro l
    induction l with
    | nil => intro s h; exact h
    | cons c l ih => intro s h; exact ih _ (command_unit s c h)
  exact this l _ (by intro id g h; exact absurd h (by simp [Ctl.init]))

/-- The channel a command names. -/
def Cmd.names : Cmd K → Option Int
  | .volume id _ => id
  | .mute id => id
  | .solo id => id
  | .removeChannel id => some id
  | _ => none

/-- **C32, unknown channels.** A command naming a channel that does not exist is refused and changes nothing. -/
theorem unknown_refused (s : Ctl K) (c : Cmd K) (id : Int) (hc : c.names = some id) (h : s.gains id = none) :
    command s c = (false, s) := by
  cases c with
  | volume i g =>
    simp only [Cmd.names] at hc
    subst hc
    cases g with
    | none => rfl
    | some g => simp [command, setGain, h]
  | mute i => simp only [Cmd.names] at hc; subst hc; simp [command, setGain, h]
  | solo i => simp only [Cmd.names] at hc; subst hc; simp [command, setGain, h]
  | removeChannel i => simp only [Cmd.names, Option.some.injEq] at hc; subst hc; simp [command, h]
  | master _ => exact absurd hc (by simp [Cmd.names])
  | muteMaster => exact absurd hc (by simp [Cmd.names])
  | addChannel _ => exact absurd hc (by simp [Cmd.names])

/-- A refused command changes nothing. -/
theorem refused_changes_nothing (s : Ctl K) (c : Cmd K) (h : (command s c).1 = false) : (command s c).2 = s := by
  cases c with
  | volume id g =>
    cases id with
    | none => cases g <;> rfl
    | some id => cases g with
      | none => rfl
      | some g => simp only [command, setGain] at h ⊢; split <;> simp_all
  | mute id => cases id with
    | none => rfl
    | some id => simp only [command, setGain] at h ⊢; split <;> simp_all
  | solo id => cases id with
    | none => rfl
    | some id =>
      simp only [command] at h ⊢
      split
      · rename_i h'; rw [if_pos h'] at h; exact absurd h (by simp)
      · rfl
  | master g => cases g with
    | none => rfl
    | some _ => exact absurd h (by simp [command])
  | muteMaster => exact absurd h (by simp [command])
  | addChannel _ => exact absurd h (by simp [command])
  | removeChannel id => simp only [command] at h ⊢; split <;> simp_all

/-- **C32, volume.** The gain of the named channel is set, limited to the range; the others keep theirs. -/
theorem volume_sets (s : Ctl K) (id : Int) (g g0 : K) (h : s.gains id = some g0) :
    (command s (.volume (some id) (some g))).1 = true ∧
    (command s (.volume (some id) (some g))).2.gains id = some (max 0 (min 1 g)) ∧
    (∀ k, k ≠ id → (command s (.volume (some id) (some g))).2.gains k = s.gains k) ∧
    (command s (.volume (some id) (some g))).2.master = s.master := by
  simp only [command, setGain, h]
  refine ⟨trivial, ?_, ?_, trivial⟩
  · simp only [if_true, Option.some.injEq]
    by_cases h1 : g > 1
    · rw [if_pos h1, min_eq_left h1.le, max_eq_right zero_le_one]
    · rw [if_neg h1, min_eq_right (not_lt.1 h1)]
      by_cases h2 : g < 0
      · rw [if_pos h2, max_eq_left h2.le]
      · rw [if_neg h2, max_eq_right (not_lt.1 h2)]
  · intro k hk; rw [if_neg hk]

/-- **C32, mute.** The channel is silent and only it; muting again changes nothing more. -/
theorem mute_sets (s : Ctl K) (id : Int) (g0 : K) (h : s.gains id = some g0) :
    (command s (.mute (some id))).1 = true ∧ (command s (.mute (some id))).2.gains id = some 0 ∧
    (∀ k, k ≠ id → (command s (.mute (some id))).2.gains k = s.gains k) ∧
    (command (command s (.mute (some id))).2 (.mute (some id))).2.gains = (command s (.mute (some id))).2.gains := by
  have e : command s (.mute (some id)) = (true, { s with gains := fun k => if k = id then some 0 else s.gains k }) := by
    simp only [command, setGain, h]
    rw [if_neg (by exact not_lt.2 zero_le_one), if_neg (lt_irrefl _)]
  rw [e]
  refine ⟨rfl, by simp, fun k hk => by simp [hk], ?_⟩
  simp only [command, setGain, if_true]
  rw [if_neg (by exact not_lt.2 zero_le_one), if_neg (lt_irrefl _)]
  funext k
  by_cases hk : k = id <;> simp [hk]

/-- **C32, solo.** The channel plays at full gain and every other one is silent; doing it again changes nothing more. -/
theorem solo_sets (s : Ctl K) (id : Int) (g0 : K) (h : s.gains id = some g0) :
    (command s (.solo (some id))).1 = true ∧ (command s (.solo (some id))).2.gains id = some 1 ∧
    (∀ k, k ≠ id → (command s (.solo (some id))).2.gains k = (s.gains k).map fun _ => 0) ∧
    (command (command s (.solo (some id))).2 (.solo (some id))).2.gains = (command s (.solo (some id))).2.gains := by
  have e : command s (.solo (some id)) =
      (true, { s with gains := fun k => if k = id then some 1 else (s.gains k).map fun _ => 0 }) := by
    have h01 : ¬ (1 : K) < 0 := not_lt.2 zero_le_one
    simp only [command, setGain, h, gt_iff_lt, lt_irrefl, h01, if_false, if_true, Prod.mk.injEq, true_and, Ctl.mk.injEq, and_true]
    funext k
    by_cases hk : k = id <;> simp [hk]
  rw [e]
  refine ⟨rfl, by simp, fun k hk => by simp [hk], ?_⟩
  have h01 : ¬ (1 : K) < 0 := not_lt.2 zero_le_one
  simp only [command, setGain, gt_iff_lt, lt_irrefl, h01, if_false, if_true]
  funext k
  by_cases hk : k = id
  · simp [hk]
  · cases hg : s.gains k <;> simp [hk, hg]

end Gains

/-- Muting forgets the gain: two mixers that differed are the same afterwards, so nothing can restore what was there. -/
theorem mute_forgets : ∃ s t : Ctl ℚ, s.gains 1 ≠ t.gains 1 ∧
    command s (.mute (some 1)) = command t (.mute (some 1)) := by
  refine ⟨⟨fun k => if k = 1 then some 1 else none, 1⟩, ⟨fun k => if k = 1 then some (1 / 2) else none, 1⟩, by simp, ?_⟩
  simp only [command, setGain, if_true]
  simp only [Prod.mk.injEq, true_and, Ctl.mk.injEq, and_true]
  funext k
  by_cases hk : k = 1 <;> simp [hk]

/-- So does a solo. -/
theorem solo_forgets : ∃ s t : Ctl ℚ, s.gains 2 ≠ t.gains 2 ∧
    command s (.solo (some 1)) = command t (.solo (some 1)) := by
  refine ⟨⟨fun k => if k = 1 then some 1 else if k = 2 then some 1 else none, 1⟩,
    ⟨fun k => if k = 1 then some 1 else if k = 2 then some (1 / 2) else none, 1⟩, by simp, ?_⟩
  simp only [command, setGain, if_true]
  simp only [Prod.mk.injEq, true_and, Ctl.mk.injEq, and_true]
  funext k
  by_cases hk : k = 1
  · simp [hk]
  · by_cases h2 : k = 2 <;> simp [hk, h2]

/-- The master gain takes any value. -/
theorem master_unlimited : (command (Ctl.init (3 / 5 : ℚ)) (.master (some 7))).2.master = 7 := rfl

example : (commands (Ctl.init (3 / 5 : ℚ)) [.addChannel 1, .addChannel 2, .volume (some 1) (some 5)]).gains 1 = some 1 := by
  simp [commands, command, setGain, Ctl.init]

/-! ## C31: how the timeline moves -/

section Timeline
variable {α : Type}

/-- **C31, consecutive frames.** Frames that do not restart the timeline leave its origin and the count of delivered frames
alone; each delivery moves on by exactly one frame, and its time is the origin plus the duration of the frames delivered. -/
theorem line_moves (A : Alg α) (c : Cfg) (l : Line α) (g m : α) (f : Frame α) :
    (fate c l f.pts f.n ≠ .restart → (l.push c g m f).delivered = l.delivered ∧
      (0 ≤ l.sync → (l.push c g m f).sync = l.sync)) ∧
    (∀ o, (l.extract A c).1 = some o → (l.extract A c).2.delivered = l.delivered + 1 ∧ (l.extract A c).2.sync = l.sync ∧
      o.pts = l.sync + (l.delivered * c.out * 1000000 / c.rate : Nat)) ∧
    ((l.extract A c).1 = none → (l.extract A c).2 = l) := by
  refine ⟨?_, ?_, ?_⟩
  · intro hf
    have ho : 0 ≤ l.sync → l.origin f.pts = l.sync := by intro h; unfold Line.origin; rw [if_neg (by omega)]
    unfold Line.push
    cases h : fate c l f.pts f.n with
    | noRoom => exact ⟨rfl, fun _ => rfl⟩
    | past => exact ⟨rfl, ho⟩
    | restart => exact absurd h hf
    | mixed p =>
      simp only
      split
      · exact ⟨rfl, ho⟩
      · exact ⟨rfl, ho⟩
  · intro o ho
    unfold Line.extract at ho ⊢
    split
    · rename_i h; rw [if_pos h] at ho; exact absurd ho (by simp)
    · rename_i h; rw [if_neg h] at ho
      simp only [Option.some.injEq] at ho
      rw [← ho]; exact ⟨rfl, rfl, rfl⟩
  · intro h
    unfold Line.extract at h ⊢
    split
    · rfl
    · rename_i h'; rw [if_neg h'] at h; exact absurd h (by simp)

/-- **C31, silence.** A delivered position for which nothing was accepted is silent. -/
theorem silent_where_nothing (A : Alg α) (c : Cfg) (l : Line α) (o : Out α) (ho : (l.extract A c).1 = some o) (ch j : Nat)
    (hch : ch < c.channels) (hj : j < c.out) (h : ∀ e ∈ l.notes, e.ch = ch → e.pos ≠ l.front c + j) :
    (o.planes[ch]?.getD [])[j]? = some A.zero := by
  unfold Line.extract at ho
  split at ho
  · exact absurd ho (by simp)
  · simp only [Option.some.injEq] at ho
    rw [← ho]
    simp only [List.getElem?_map, List.getElem?_range hch, Option.map_some, Option.getD_some, List.getElem?_range hj]
    rw [heard_none A l.notes ch _ h]

end Timeline

/-! ### Recorded exceptions -/

/-- Whole numbers without a compressor. -/
def plain : Alg Int := ⟨0, fun s g m acc => acc + s * g * m⟩

/-- A small mixer: one channel, one sample per microsecond, frames of two samples. -/
def tiny : Cfg := ⟨1, 1000000, 2, 10, 6⟩

theorem tiny_wf : tiny.WF := ⟨by decide, by decide, by decide, by decide⟩

/-- A frame of `n` equal samples. -/
def flat (pts : Int) (n : Nat) (v : Int) : Frame Int := ⟨pts, n, true, fun _ _ => v⟩

/-- A decidable view of a delivered frame. -/
def view (l : List (Option (Out Int))) : List (Option (Int × List (List Int))) := l.map fun o => o.map fun o => (o.pts, o.planes)

def unit1 : Nat → Option Int := fun _ => some 1

/-- The timeline at work: two channels overlap, a third position is supplied late, and the frames follow one another. -/
theorem timeline_example :
    view (run plain tiny (init plain 1) [.gains unit1 1, .round [(1, flat 0 6 3), (2, flat 2 4 5)], .round [(2, flat 6 2 7)],
      .round [(1, flat 6 2 1)]]) =
    [none, some (0, [[3, 3]]), some (2, [[8, 8]]), none] := by decide +kernel

/-- Its hypotheses hold on that run. -/
example : RangeRun plain tiny ⟨Line.init, fun _ => none, 1⟩
    [.gains unit1 1, .round [(1, flat 0 6 3), (2, flat 2 4 5)]] := by
  refine ⟨⟨⟨by decide, by decide, by decide⟩, ⟨by decide, by decide, by decide⟩, by unfold RangeAll; decide⟩, trivial⟩

/-- After a jump in time, samples of the old timeline that were never played are mixed into the new one: the second timeline is
supplied with 1s only. -/
theorem stale_after_restart :
    view (run plain tiny (init plain 1) [.gains unit1 1, .round [(1, flat 0 4 9)], .round [(1, flat 500 6 1)]]) =
    [none, none, some (500, [[10, 10]])] := by decide +kernel

/-- A frame is refused for lack of room although its place is free, because another channel is ahead. -/
theorem refused_though_place_free :
    (push plain tiny (push plain tiny { init plain 1 with gains := unit1 } 1 (flat 0 1 1)).2 1 (flat 7 3 1)).1 = true ∧
    (push plain tiny (push plain tiny (push plain tiny { init plain 1 with gains := unit1 } 1 (flat 0 1 1)).2 1 (flat 7 3 1)).2
      2 (flat 2 2 1)).1 = false := by decide +kernel

/-- A frame from before the origin does not count as late: it restarts the timeline. -/
theorem early_frame_restarts :
    fate tiny (⟨100, 0, 4, []⟩ : Line Int) 90 2 = .restart := by decide

/-- Near the end of the 32 bit counters a frame that follows its predecessors restarts the timeline. -/
theorem counter_end_restarts {α : Type} (A : Alg α) (c : Cfg) (s : St α) (id : Nat) (f : Frame α) (hs : 0 ≤ s.sync)
    (hroom : ¬ sub32 c.cap (sub32 s.rear s.front) < f.n) (hf : s.front < 2 ^ 32) (hn : f.n ≤ c.cap) (hc : c.cap < 2 ^ 31)
    (hend : 2 ^ 32 ≤ s.front + c.cap - f.n) (hp : s.front ≤ position c f.pts s.sync) :
    push A c s id f = deposit A c (resync s f.pts) id f 0 := by
  unfold push
  rw [if_neg hroom]
  have : syncIn s f.pts = s := by unfold syncIn; rw [if_neg (by omega)]
  rw [this]
  unfold pushAt
  rw [if_neg (by omega), if_pos]
  have e : sub32 (add32 s.front c.cap) f.n = s.front + c.cap - f.n - 2 ^ 32 := by
    unfold sub32 add32; omega
  rw [e]; omega

end Lms.AudioMixer
