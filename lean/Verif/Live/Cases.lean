import Verif.Live.Props

/-!
# C87: a concrete recording
-/

namespace Lms.Live

open Lms.Json Lms.Control
open Nalu (Picture)

/-- Fourteen pictures 0.4 s apart, every third a key picture. -/
def longFilm : List Picture :=
  [(5000000, true, 1), (5400000, false, 2), (5800000, false, 3), (6200000, true, 4), (6600000, false, 5), (7000000, false, 6),
    (7400000, true, 7), (7800000, false, 8), (8200000, false, 9), (8600000, true, 10), (9000000, false, 11), (9400000, false, 12), (9800000, true, 13),
    (10200000, false, 14)].map fun (t, k, b) => Record.pic t t k b

def vr : Manifest.VRep := ⟨"avc1".toList, 64, 32, 1000⟩
def ar : Manifest.ARep := ⟨"mp4a.40.2".toList, 48000, 2, 96⟩

/-- A round for each unit of the film; with every second one comes a frame of sound. -/
def showing : List Round :=
  ((longFilm.flatMap Picture.nals).zipIdx).map fun (n, i) =>
    ⟨some (n, true), if i % 2 = 0 then some (RecordAudio.demo (UInt8.ofNat i) (5000000 + 250000 * i), true) else none, vr, 25, ar, "now".toList⟩

/-- The same without video. -/
def listening : List Round := showing.map fun r => { r with unit := none }

def both : Inputs := ⟨some (1, Record.new .avc 100 1), some ⟨2, RecordAudio.new 9 9 9 1, 0⟩⟩
def sound : Inputs := ⟨none, some ⟨2, RecordAudio.new 9 9 9 1, 0⟩⟩

/-- What is done to the folder, without the initialisation files. -/
def done (o : Outcome (State × List (List Eff))) : Option (List String) :=
  match o with
  | .ok (_, ess) => some (ess.flatten.filterMap fun
      | .file n _ => if n = "/www/live_2_init.m4a".toList then none else some (String.ofList n)
      | .manifest _ => some "manifest"
      | .gone n => some ("gone " ++ String.ofList n))
  | _ => none

/-- Video and audio, a window of two: each segment is there before the manifest that tells of it, and leaves after the one that no longer does.
**C87 (recorded)**: what starts at time 0 is never removed. -/
theorem done_both : done (runOps (round 2000 5000000) (start "/www/".toList "live".toList 2 2 1 both) showing) = some
    ["/www/live_1_init.m4v", "/www/live_1_init.m4v", "/www/live_1_0.m4v", "manifest", "/www/live_2_0.m4a", "manifest",
     "/www/live_1_init.m4v", "/www/live_1_15360.m4v", "manifest", "/www/live_2_144000.m4a", "manifest",
     "/www/live_1_init.m4v", "/www/live_1_30720.m4v", "manifest", "/www/live_2_216000.m4a", "manifest",
     "/www/live_1_init.m4v", "/www/live_1_46080.m4v", "manifest", "gone /www/live_1_15360.m4v", "/www/live_2_288000.m4a",
     "manifest", "gone /www/live_2_144000.m4a"] := by decide +kernel

/-- Audio alone. -/
theorem done_sound : done (runOps (round 2000 5000000) (start "/www/".toList "live".toList 2 2 1 sound) listening) = some
    ["/www/live_2_0.m4a", "manifest", "/www/live_2_48000.m4a", "manifest", "/www/live_2_96000.m4a", "manifest",
     "/www/live_2_144000.m4a", "manifest", "gone /www/live_2_48000.m4a", "/www/live_2_192000.m4a", "manifest",
     "gone /www/live_2_96000.m4a", "/www/live_2_240000.m4a", "manifest", "gone /www/live_2_144000.m4a",
     "/www/live_2_288000.m4a", "manifest", "gone /www/live_2_192000.m4a"] := by decide +kernel

theorem longFilm_mem : ∀ p ∈ longFilm, ∃ t k b, p = Record.pic t t k b := by
  intro p hp
  obtain ⟨⟨t, k, b⟩, _, rfl⟩ := List.mem_map.1 hp
  exact ⟨t, k, b, rfl⟩

theorem showing_units : showing.filterMap Round.unit = (longFilm.flatMap Picture.nals).map (·, true) := by
  unfold showing
  generalize longFilm.flatMap Picture.nals = l
  rw [List.filterMap_map]
  show List.filterMap (fun x : Nalu.Nal × Nat => some (x.1, true)) l.zipIdx = _
  rw [List.filterMap_eq_map']
  generalize 0 = k
  induction l generalizing k with
  | nil => rfl
  | cons n l ih => rw [List.zipIdx_cons, List.map_cons, List.map_cons, ih]

/-- The film meets the hypotheses. -/
theorem showing_filmed : Filmed 5000000 both.v (showing.filterMap Round.unit) longFilm := by
  refine .inr ⟨1, .avc, 100, 1, rfl, by decide, ?_, ?_, showing_units, by decide +kernel, by decide +kernel⟩
  · simp only [longFilm, List.map_cons, List.map_nil, Nalu.Chain, and_true]
    refine ⟨?_, ?_, ?_, ?_, ?_, ?_, ?_, ?_, ?_, ?_, ?_, ?_, ?_⟩ <;> exact .inr (by decide)
  · intro p hp
    have hlen : ∀ p ∈ longFilm, p.au.data.length ≤ 100 := by decide +kernel
    obtain ⟨t, k, b, rfl⟩ := longFilm_mem p hp
    exact ⟨Record.pic_ok _ _ _ _, hlen _ hp⟩

/-- So do the frames. -/
theorem showing_recorded : Recorded 5000000 48000 both.a (showing.filterMap Round.sound) (heard (showing.filterMap Round.sound)) := by
  refine .inr ⟨2, 9, 9, 9, 1, 0, rfl, ?_, rfl, by decide +kernel, by decide +kernel⟩
  intro f w h
  obtain ⟨r, hr, hs⟩ := List.mem_filterMap.1 h
  obtain ⟨⟨n, i⟩, _, rfl⟩ := List.mem_map.1 hr
  simp only at hs
  split at hs
  · cases hs; exact ⟨rfl, by show 24000 < 2 ^ 32; decide⟩
  · cases hs

/-- The film brings its parameter sets with the first picture. -/
theorem showing_opens : Opening both.v longFilm := by
  intro i r h
  cases h
  exact Record.pic_opens 5000000 1 _

/-- **C87** for them: at the end of the film the player finds the third and the fourth part of the film. -/
example : ∃ s' ess, runOps (round 2000 5000000) (start "/www/".toList "live".toList 2 2 1 both) showing = .ok (s', ess) ∧
    ∃ parts rest groups left, List.flatten parts ++ rest = longFilm.dropLast.dropWhile (fun p => !p.key) ∧
      List.flatten groups ++ left = heard (showing.filterMap Round.sound) ∧
      Follows (Fs.empty.run ess.flatten) "/www/".toList false 1 12800 (Record.Plays 5000000) (VideoHead both.v longFilm (showing.filterMap Round.unit) parts) (Manifest.lastOf 2 parts) ∧
      Follows (Fs.empty.run ess.flatten) "/www/".toList true 2 48000 (RecordAudio.Plays 48000 5000000)
        (AudioHead (showing.filterMap Round.sound) groups) (Manifest.lastOf 2 groups) := by
  have hd := done_both
  cases h : runOps (round 2000 5000000) (start "/www/".toList "live".toList 2 2 1 both) showing with
  | ub => rw [h] at hd; cases hd
  | hang => rw [h] at hd; cases hd
  | ok x =>
    obtain ⟨s', ess⟩ := x
    obtain ⟨parts, rest, groups, left, h1, h2, h3⟩ := recording_can_be_followed 2000 (by decide) 5000000 "/www/".toList "live".toList (by decide) 2 2 1
      both showing longFilm 48000 _ showing_filmed showing_recorded s' ess h
    obtain ⟨n, k, e, f1, f2⟩ := h3 ess.flatten (List.prefix_refl _)
    obtain ⟨rfl, rfl⟩ := e rfl
    rw [List.take_length] at f1 f2
    exact ⟨s', ess, rfl, parts, rest, groups, left, h1, h2, f1, f2⟩

end Lms.Live
