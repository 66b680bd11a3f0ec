import Verif.Manifest.Stream

/-!
# C80: recorded cases, and histories that meet the hypotheses
-/

namespace Lms.Manifest

open Lms Lms.Json Lms.Control

/-- **C80 (recorded)**: a representation that is removed still counts in the maximum width and height announced. -/
theorem removed_still_counts (set id : Str) (t : Int) (me ini : Str) (r : VRep) (fps : Int) (f : Facts) (h : f.sets set = none) :
    ∃ k, ([.videoSet set t me ini, .videoRep set id r fps, .remove set id].foldl Facts.after f).sets set = some k ∧
      (∀ x, k.reps x = none) ∧ k.maxW = max 0 r.width ∧ k.maxH = max 0 r.height := by
  simp only [List.foldl_cons, List.foldl_nil, Facts.after, Facts.at, if_true, h, Known.template, Option.map_some, Bool.false_eq_true,
    if_false]
  exact ⟨_, rfl, fun x => by simp only []; split <;> rfl, rfl, rfl⟩

/-- **C80 (recorded)**: a call for a set of the other kind changes its templates and time scale only; the kind stays that of the first. -/
theorem other_kind (set id : Str) (t t' : Int) (me ini me' ini' : Str) (r : ARep) (f : Facts) (h : f.sets set = none) :
    ∃ k, ([.videoSet set t me ini, .audioSet set t' me' ini', .audioRep set id r].foldl Facts.after f).sets set = some k ∧
      k.audio = false ∧ k.media = me' ∧ k.timescale = t' ∧ ∀ x, k.reps x = none := by
  simp only [List.foldl_cons, List.foldl_nil, Facts.after, Facts.at, if_true, h, Known.template, Option.map_some, Bool.false_eq_true,
    if_false]
  exact ⟨_, rfl, rfl, rfl, rfl, fun _ => rfl⟩

/-- **C80 (recorded)**: the depth announced is cut to 32 bits: 65536 segments of 65536 seconds are announced as no seconds at all. -/
theorem depth_is_cut : (Facts.none.after (.configure 0 65536 65536)).depth = some 0 := by decide +kernel

/-- **C80 (recorded)**: representations are in the order of their texts, not of their numbers. -/
theorem textual_order : before (dec 10) (dec 2) = true := by decide +kernel

/-- **C80 (recorded)**: a manifest written before the first configuration announces no durations. -/
theorem unconfigured (now : Str) : ∃ s e m, step State.init (.write now) = .ok (s, some e) ∧ read e = some m ∧ m.update = none ∧
    m.depth = none := by
  obtain ⟨s, d, h1, h2, h3, h4⟩ := rel_step State.init Facts.none rel_init (.write now)
  obtain ⟨e, he⟩ := Option.isSome_iff_exists.1 (h4.1 ⟨now, rfl⟩)
  obtain ⟨m, hm, hs⟩ := h3 e he
  exact ⟨s, e, m, by rw [h1, he], hm, by rw [hs.update]; rfl, by rw [hs.depth]; rfl⟩

/-- A history of three streams: two of video, of which the second comes late, and one of audio. -/
def history : List DashOp :=
  [.add false 7, .add true 9, .closedVideo 7 12800 ⟨"avc1.42c01e".toList, 1280, 720, 2000000⟩ 25,
   .write false 0 51200 (fun _ => true) "2016-01-01T00:00:00Z".toList,
   .closedAudio 9 48000 ⟨"mp4a.40.2".toList, 48000, 128000, 2⟩,
   .write true 0 192000 (fun _ => true) "2016-01-01T00:00:04Z".toList,
   .add false 10, .closedVideo 7 12800 ⟨"avc1.42c01e".toList, 1280, 720, 2000000⟩ 25,
   .closedVideo 10 12800 ⟨"avc1.42c01e".toList, 640, 360, 500000⟩ 25,
   .write false 51200 51200 (fun _ => true) "2016-01-01T00:00:08Z".toList]

/-- What is looked at of a set. -/
structure Shown where
  id : Str
  times : List (Nat × Nat)
  reps : List Str
  deriving DecidableEq

/-- What the last manifest of a run says and the names of all files written in it. -/
def outcome (o : Outcome (Dash × List Eff)) : Option (List Shown × List Str) :=
  match o with
  | .ok (_, es) =>
    (es.getLast?.bind Eff.doc).bind read |>.map fun m =>
      (m.sets.map fun s => ⟨s.1, s.2.times, s.2.reps.map Prod.fst⟩, es.flatMap fun e => e.files.map File.name)
  | _ => none

/-- The hypotheses of `listed_is_written` are met in this history, and its last manifest lists two segments for two representations of
video. -/
theorem history_outcome :
    outcome (runOps Dash.step (Dash.init "/www/".toList "show".toList 4 5 4) history) =
      some ([⟨"0".toList, [(0, 51200), (51200, 51200)], ["10".toList, "7".toList]⟩, ⟨"1".toList, [(0, 192000)], ["9".toList]⟩],
        ["/www/show_7_0.m4v".toList, "/www/show_9_0.m4a".toList, "/www/show_7_51200.m4v".toList, "/www/show_10_51200.m4v".toList]) := by
  decide +kernel

/-- **C80 (recorded)**: a representation that joins late is described for the segments listed before it joined as well; there are no such
files. -/
theorem late_joiner :
    ∃ reps files, outcome (runOps Dash.step (Dash.init "/www/".toList "show".toList 4 5 4) history) =
        some (⟨"0".toList, [(0, 51200), (51200, 51200)], reps⟩ :: [⟨"1".toList, [(0, 192000)], ["9".toList]⟩], files) ∧
      "10".toList ∈ reps ∧ segmentName ("/www/".toList ++ "show".toList) 10 0 false ∉ files :=
  ⟨_, _, history_outcome, by decide +kernel, by decide +kernel⟩

/-- The base name of this history has no dollar sign. -/
example : '$' ∉ "show".toList := by decide

/-- A representation of this history has the address of its file. -/
example : (expand (dec 10) (dec 51200) (mediaTemplate "show".toList false)).map ("/www/".toList ++ ·) =
    some "/www/show_10_51200.m4v".toList := by
  rw [media_address _ _ _ _ _ (by decide)]
  decide +kernel

/-- **C80**: if a file cannot be opened, or there are no streams of the kind, nothing is listed and no manifest is written. -/
theorem failed_not_listed (d : Dash) (audio : Bool) (ts dur : Nat) (ok : Nat → Bool) (now : Str)
    (h : (if audio then d.a else d.v) = [] ∨ ∃ id ∈ (if audio then d.a else d.v), ok id = false) :
    ∃ e, d.step (.write audio ts dur ok now) = .ok (d, e) ∧ e.doc = none := by
  have hcalls : d.calls (.write audio ts dur ok now) = [] := by
    simp only [Dash.calls]
    rw [if_neg]
    rintro ⟨h1, h2⟩
    rcases h with h | ⟨i, hi, hf⟩
    · exact h1 h
    · rw [List.all_eq_true.1 h2 i hi] at hf; cases hf
  exact ⟨{ files := d.files (.write audio ts dur ok now), doc := none }, by unfold Dash.step; rw [hcalls]; rfl, rfl⟩

/-- The second of two files cannot be opened. -/
example : ∃ id ∈ [7, 10], (fun i => decide (i = 7)) id = false := ⟨10, by decide, by decide⟩

end Lms.Manifest
