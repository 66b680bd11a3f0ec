import Verif.Live.Model
import Verif.Record.Begin
import Verif.RecordAudio.Init

/-!
# C87: what a player that follows the manifest can expect
-/

namespace Lms.Live

open Lms.Json Lms.Control
open Lms.Manifest (setId read lastOf expand)
open Nalu (Picture)

/-- What a player finds that reads the manifest in the folder, takes the set of one kind and makes the addresses of its
representation: the time scale; one representation; behind the address of the initialisation what `head` says; and behind the address of
each segment of the timeline, in order, a file that plays one of `parts`.  Before there are any parts the set may be missing. -/
def Follows (fs : Fs) (folder : Str) (audio : Bool) (id : Nat) (T : Int) {α : Type} (play : Dash.Seg → α → Prop) (head : Option Bytes → Prop)
    (parts : List α) : Prop :=
  (parts ≠ [] → fs.doc ≠ none) ∧
  ∀ e, fs.doc = some e → ∃ m, read e = some m ∧
    ((m.sets.lookup (setId audio) = none ∧ parts = []) ∨
      ∃ i, m.sets.lookup (setId audio) = some i ∧ i.timescale = T ∧ i.reps ≠ [] ∧ (∀ r ∈ i.reps, r.1 = dec id) ∧
        (∃ name, (expand (dec id) (dec 0) i.init).map (folder ++ ·) = some name ∧ head (fs.files name)) ∧
        List.Forall₂ (fun t g => ∃ name b, (expand (dec id) (dec t.1) i.media).map (folder ++ ·) = some name ∧ fs.files name = some b ∧
          play ⟨b, t.1, t.2⟩ g) i.times parts)

/-! ## What goes in -/

/-- There is no video, or a new video input gets the pictures `l`, whose units are well formed and whose initialisation files can be
written; key pictures are at least 79 microseconds apart (one tick), and none is before the origin. -/
def Filmed (off : Int) (v : Option (Nat × Record.State)) (us : List (Nalu.Nal × Bool)) (l : List Picture) : Prop :=
  (v = none ∧ l = []) ∨
  ∃ i c m secs, v = some (i, Record.new c m secs) ∧ m < 2 ^ 31 ∧ Nalu.Chain c l ∧ (∀ p ∈ l, p.Ok c ∧ p.au.data.length ≤ m) ∧
    us = (l.flatMap Picture.nals).map (·, true) ∧
    (l.filter Picture.key).Pairwise (fun p q => p.pts + 79 ≤ q.pts) ∧ ∀ p ∈ l, p.key = true → off ≤ p.pts ∧ p.pts - off < 2 ^ 49

/-- The frames that can be heard and for which the initialisation file could be written. -/
def heard (ss : List (RecordAudio.Sound × Bool)) : List RecordAudio.Sound := ((ss.filter Prod.snd).map Prod.fst).filter RecordAudio.Sound.good

/-- There is no audio, or a new audio input gets the frames `ss` of one rate; those that can be heard are at least one tick apart,
none is before the origin, and none 2^32 ticks (a day at 48 kHz) after it. -/
def Recorded (off : Int) (rate : Nat) (a : Option Audio) (ss : List (RecordAudio.Sound × Bool)) (l : List RecordAudio.Sound) : Prop :=
  (a = none ∧ l = []) ∨
  ∃ i x y z secs t, a = some ⟨i, RecordAudio.new x y z secs, t⟩ ∧ (∀ f w, (f, w) ∈ ss → f.rate = rate ∧ f.samples < 2 ^ 32) ∧ l = heard ss ∧
    l.Pairwise (fun f g => (1000000 : Int) ≤ (g.pts - f.pts) * rate) ∧ ∀ f ∈ l, off ≤ f.pts ∧ (f.pts - off) * rate < 1000000 * 2 ^ 32

/-- The stream of the video brings its parameter sets by the first key picture, which has a size. -/
def Opening (v : Option (Nat × Record.State)) (l : List Picture) : Prop := ∀ i r, v = some (i, r) → Record.Opens r.asm.codec l

/-- Behind the address of the initialisation of the video: a description by parameter sets of the stream; nothing only before the first segment,
if the stream begins properly. -/
def VideoHead (v : Option (Nat × Record.State)) (l : List Picture) (us : List (Nalu.Nal × Bool)) {α : Type} (parts : List α) (o : Option Bytes) : Prop :=
  (Opening v l → parts ≠ [] → o ≠ none) ∧ ∀ b, o = some b → ∃ c w h, Record.Describes c (us.map Prod.fst) w h b

/-- Behind that of the audio: a description of one of the frames; nothing only before the first segment. -/
def AudioHead (ss : List (RecordAudio.Sound × Bool)) {α : Type} (parts : List α) (o : Option Bytes) : Prop :=
  (parts ≠ [] → o ≠ none) ∧ ∀ b, o = some b → ∃ f, (f, true) ∈ ss ∧ RecordAudio.Announces f b

end Lms.Live
