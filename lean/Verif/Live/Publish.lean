import Verif.Live.Lemmas

/-!
# C87: what is on disk at every moment of a run
-/

namespace Lms.Live

open Lms.Json Lms.Control
open Lms.Manifest (El VRep ARep setId mediaTemplate initTemplate segmentName initName Facts Known Rel Says read lastOf)

/-- Writing at most one segment. -/
theorem write_option {m : Manifest.State} {f : Facts} (hr : Rel m f) (c o : Kind) (ho : o.audio = !c.audio) (hb : f.bound = c.W)
    {S S2 : List Dash.Seg} {x : Option Dash.Seg} (h : c.Knows f S) (hd : x.isSome = true → f.sets (setId c.audio) ≠ none) (h2 : o.Knows f S2)
    (hn : ((lastOf c.W S ++ x.toList).map Dash.Seg.ts).Nodup) {fs : Fs} (hs : c.Shows fs S) (hs2 : o.Shows fs S2) {J J2 : List Bytes}
    (hj : c.Begins fs J) (hj2 : o.Begins fs J2) (now : Str) :
    ∃ m' f' es, write c.path c.audio c.id now m x = .ok (m', es) ∧ Rel m' f' ∧ f'.bound = f.bound ∧ c.Knows f' (S ++ x.toList) ∧ o.Knows f' S2 ∧
      (∀ set, f.sets set ≠ none → f'.sets set ≠ none) ∧
      Along (fun fs => (c.Shows fs S ∨ c.Shows fs (S ++ x.toList)) ∧ o.Shows fs S2 ∧ c.Begins fs J ∧ o.Begins fs J2) fs es ∧
      c.Shows (fs.run es) (S ++ x.toList) := by
  cases x with
  | none =>
    simp only [Option.toList_none, List.append_nil]
    exact ⟨m, f, [], rfl, hr, rfl, h, h2, fun _ => id, along_nil ⟨.inl hs, hs2, hj, hj2⟩, hs⟩
  | some x =>
    obtain ⟨m', f', es, a1, a2, a3, a4, a5, a6, a7, a8⟩ := write_segment hr c o ho hb h (hd rfl) h2 hn hs hs2 hj hj2 now
    exact ⟨m', f', es, a1, a2, a3, a4, a5, a6, a7, a8⟩

/-- The two inputs. -/
structure Pair where
  v : Kind
  a : Kind
  video : v.audio = false
  audio : a.audio = true
  scale : v.T = Record.BASE
  folder : a.folder = v.folder
  base : a.base = v.base
  window : a.W = v.W

/-- What has been made so far: segments and initialisation files of both. -/
structure Made where
  sv : List Dash.Seg
  sa : List Dash.Seg
  jv : List Bytes
  ja : List Bytes

/-- With what the segmenters hand over. -/
def Made.add (M : Made) (t : Took) : Made :=
  ⟨M.sv ++ t.v.seg.toList, M.sa ++ t.a.seg.toList, M.jv ++ t.v.init.toList, M.ja ++ t.a.init.toList⟩

/-- The folder shows some of it. -/
def Pair.Shows (p : Pair) (fs : Fs) (M : Made) : Prop :=
  p.v.Shows fs M.sv ∧ p.a.Shows fs M.sa ∧ p.v.Begins fs M.jv ∧ p.a.Begins fs M.ja

/-- During a round: the initialisation file comes first. -/
def Pair.During (p : Pair) (M N : Made) (fs : Fs) : Prop :=
  ((p.v.Shows fs M.sv ∧ (p.v.Begins fs M.jv ∨ p.v.Begins fs N.jv)) ∨ (p.v.Shows fs N.sv ∧ p.v.Begins fs N.jv)) ∧
  ((p.a.Shows fs M.sa ∧ (p.a.Begins fs M.ja ∨ p.a.Begins fs N.ja)) ∨ (p.a.Shows fs N.sa ∧ p.a.Begins fs N.ja))

structure Pair.Inv (p : Pair) (m : Manifest.State) (M : Made) : Prop where
  facts : ∃ f, Rel m f ∧ f.bound = p.v.W ∧ p.v.Knows f M.sv ∧ p.a.Knows f M.sa

/-- What is handed over fits: the times are new, and the time base is the one of the stream. -/
structure Pair.Fits (p : Pair) (M : Made) (t : Took) : Prop where
  v : ((lastOf p.v.W M.sv ++ t.v.seg.toList).map Dash.Seg.ts).Nodup
  a : ((lastOf p.v.W M.sa ++ t.a.seg.toList).map Dash.Seg.ts).Nodup
  scale : t.a.seg.isSome = true → p.a.T = t.timeBase

theorem begins_init (c : Kind) {fs : Fs} {J : List Bytes} (h : c.Begins fs J) (b : Option Bytes) :
    c.Begins (fs.run (initFile c.path c.id c.audio b)) (J ++ b.toList) := by
  cases b with
  | none => simpa [initFile, Fs.run] using h
  | some b => simp [initFile, Fs.run, Fs.after, Kind.Begins]

theorem begins_other (c o : Kind) (ho : o.audio = !c.audio) {fs : Fs} {J : List Bytes} (h : o.Begins fs J) (b : Option Bytes) :
    o.Begins (fs.run (initFile c.path c.id c.audio b)) J := by
  cases b with
  | none => exact h
  | some b =>
    refine o.begins_file h _ (fun he => ?_) _
    have := init_names he
    rw [ho] at this
    cases hc : c.audio <;> rw [hc] at this <;> cases this

theorem shows_init (c o : Kind) {fs : Fs} {S : List Dash.Seg} (h : c.Shows fs S) (b : Option Bytes) :
    c.Shows (fs.run (initFile o.path o.id o.audio b)) S := by
  cases b with
  | none => exact h
  | some b => exact c.shows_file h _ (fun s _ => fun he => init_segment he.symm) _

theorem along_init (P : Fs → Prop) (fs : Fs) (path : Str) (id : Nat) (a : Bool) (b : Option Bytes) (h1 : P fs)
    (h2 : P (fs.run (initFile path id a b))) : Along P fs (initFile path id a b) := by
  cases b with
  | none => exact along_nil h1
  | some b => exact along_cons h1 (along_nil h2)

theorem run_describe {m : Manifest.State} {f : Facts} (hr : Rel m f) (ops : List Manifest.Op) :
    ∃ m' ds, runOps Manifest.step m ops = .ok (m', ds) ∧ Rel m' (ops.foldl Facts.after f) := by
  obtain ⟨m', ds, h1, h2, _⟩ := Manifest.run_calls m f hr ops
  exact ⟨m', ds, h1, h2⟩

/-- One round. -/
theorem publish_step (p : Pair) {m : Manifest.State} {M : Made} {fs : Fs} (h : p.Inv m M) (hs : p.Shows fs M) (t : Took) (ht : p.Fits M t) (r : Round) :
    ∃ m' es, publish p.v.folder p.v.base p.v.id p.a.id r m t = .ok (m', es) ∧ p.Inv m' (M.add t) ∧ p.Shows (fs.run es) (M.add t) ∧
      Along (p.During M (M.add t)) fs es := by
  obtain ⟨f, hr, hb, hv, ha⟩ := h.facts
  obtain ⟨s1, s2, s3, s4⟩ := hs
  have hpath : p.a.path = p.v.path := by unfold Kind.path; rw [p.folder, p.base]
  have hav : p.a.audio = !p.v.audio := by rw [p.audio, p.video]; rfl
  have hva : p.v.audio = !p.a.audio := by rw [p.audio, p.video]; rfl
  -- the descriptions
  let cv : List Manifest.Op := if t.v.seg.isSome then describeVideo p.v.base p.v.id r.vrep r.fps else []
  let ca : List Manifest.Op := if t.a.seg.isSome then describeAudio p.v.base p.a.id t.timeBase r.arep else []
  have d1 : p.v.Knows (cv.foldl Facts.after f) M.sv ∧ p.a.Knows (cv.foldl Facts.after f) M.sa ∧ (cv.foldl Facts.after f).bound = f.bound ∧
      (t.v.seg.isSome = true → (cv.foldl Facts.after f).sets (setId p.v.audio) ≠ none) := by
    by_cases hx : t.v.seg.isSome = true
    · have e : cv = describeVideo p.v.base p.v.id r.vrep r.fps := if_pos hx
      obtain ⟨k1, k2⟩ := knows_video p.v p.video p.scale hv r.vrep r.fps
      rw [e]
      exact ⟨k1, knows_video_other p.a p.audio ha _ _ _ _, rfl, fun _ => k2⟩
    · have e : cv = [] := if_neg hx
      rw [e]; exact ⟨hv, ha, rfl, fun h => absurd h hx⟩
  obtain ⟨d2, d3, d4, d5⟩ := d1
  have d6 : p.v.Knows (ca.foldl Facts.after (cv.foldl Facts.after f)) M.sv ∧ p.a.Knows (ca.foldl Facts.after (cv.foldl Facts.after f)) M.sa ∧
      (ca.foldl Facts.after (cv.foldl Facts.after f)).bound = f.bound ∧
      (t.v.seg.isSome = true → (ca.foldl Facts.after (cv.foldl Facts.after f)).sets (setId p.v.audio) ≠ none) ∧
      (t.a.seg.isSome = true → (ca.foldl Facts.after (cv.foldl Facts.after f)).sets (setId p.a.audio) ≠ none) := by
    by_cases hx : t.a.seg.isSome = true
    · have e : ca = describeAudio p.a.base p.a.id t.timeBase r.arep := by rw [p.base]; exact if_pos hx
      obtain ⟨k1, k2⟩ := knows_audio p.a p.audio t.timeBase (ht.scale hx) d3 r.arep
      rw [e]
      refine ⟨knows_audio_other p.v p.video d2 _ _ _ _, k1, d4, fun hy => ?_, fun _ => k2⟩
      have := d5 hy
      rw [p.video] at this ⊢
      simp only [describeAudio, List.foldl_cons, List.foldl_nil, Facts.after, Facts.at]
      rw [if_neg (by decide), if_neg (by decide)]
      exact this
    · have e : ca = [] := if_neg hx
      rw [e]; exact ⟨d2, d3, d4, d5, fun h => absurd h hx⟩
  obtain ⟨k1, k2, k3, k4, k5⟩ := d6
  obtain ⟨m1, ds, g1, g2⟩ := run_describe hr (cv ++ ca)
  rw [List.foldl_append] at g2
  -- the initialisation files
  let i1 := initFile p.v.path p.v.id p.v.audio t.v.init
  let i2 := initFile p.a.path p.a.id p.a.audio t.a.init
  have v1 : p.v.Shows (fs.run i1) M.sv := shows_init p.v p.v s1 _
  have v2 : p.a.Shows (fs.run i1) M.sa := shows_init p.a p.v s2 _
  have v3 : p.v.Begins (fs.run i1) (M.jv ++ t.v.init.toList) := begins_init p.v s3 _
  have v4 : p.a.Begins (fs.run i1) M.ja := begins_other p.v p.a hav s4 _
  have w1 : p.v.Shows ((fs.run i1).run i2) M.sv := shows_init p.v p.a v1 _
  have w2 : p.a.Shows ((fs.run i1).run i2) M.sa := shows_init p.a p.a v2 _
  have w3 : p.v.Begins ((fs.run i1).run i2) (M.jv ++ t.v.init.toList) := begins_other p.a p.v hva v3 _
  have w4 : p.a.Begins ((fs.run i1).run i2) (M.ja ++ t.a.init.toList) := begins_init p.a v4 _
  -- the segments
  obtain ⟨m2, f2, e2, b1, b2, b3, b4, b5, b6, b7, b8⟩ := write_option g2 p.v p.a hav (k3.trans hb) k1 k4 k2 ht.v w1 w2 w3 w4 r.now
  obtain ⟨_, c2, c3, c4⟩ := along_last b7
  obtain ⟨m3, f3, e3, l1, l2, l3, l4, l5, l6, l7, l8⟩ := write_option b2 p.a p.v hva ((b3.trans (k3.trans hb)).trans p.window.symm) b5 (fun hx => b6 _ (k5 hx)) b4
    (by rw [p.window]; exact ht.a) c2 b8 c4 c3 r.now
  obtain ⟨_, n2, n3, n4⟩ := along_last l7
  refine ⟨m3, i1 ++ i2 ++ e2 ++ e3, ?_, ⟨f3, l2, l3.trans (b3.trans (k3.trans hb)), l5, l4⟩, ?_, ?_⟩
  · unfold publish
    show (runOps Manifest.step m (cv ++ ca)).bind _ = _
    rw [g1]
    simp only [Outcome.bind_ok]
    have b1' : write (p.v.folder ++ p.v.base) false p.v.id r.now m1 t.v.seg = .ok (m2, e2) := by
      have := b1; rw [p.video] at this; exact this
    have l1' : write (p.v.folder ++ p.v.base) true p.a.id r.now m2 t.a.seg = .ok (m3, e3) := by
      have := l1; rw [p.audio, hpath] at this; exact this
    rw [b1']
    simp only [Outcome.bind_ok]
    rw [l1']
    simp only [Outcome.bind_ok]
    have q1 : i1 = initFile (p.v.folder ++ p.v.base) p.v.id false t.v.init := by rw [← p.video]; rfl
    have q2 : i2 = initFile (p.v.folder ++ p.v.base) p.a.id true t.a.init := by rw [← p.audio]; show initFile p.a.path _ _ _ = _; rw [hpath]; rfl
    rw [q1, q2]
  · rw [run_append, run_append, run_append]
    exact ⟨n2, l8, n4, n3⟩
  · refine along_append (along_append (along_append ?_ ?_) ?_) ?_
    · exact along_init _ _ _ _ _ _ ⟨.inl ⟨s1, .inl s3⟩, .inl ⟨s2, .inl s4⟩⟩ ⟨.inl ⟨v1, .inr v3⟩, .inl ⟨v2, .inl v4⟩⟩
    · exact along_init _ _ _ _ _ _ ⟨.inl ⟨v1, .inr v3⟩, .inl ⟨v2, .inl v4⟩⟩ ⟨.inl ⟨w1, .inr w3⟩, .inl ⟨w2, .inr w4⟩⟩
    · rw [run_append]
      exact along_mono (fun fs ⟨x1, x2, x3, x4⟩ => ⟨x1.imp (fun h => ⟨h, .inr x3⟩) (fun h => ⟨h, x3⟩), .inl ⟨x2, .inr x4⟩⟩) b7
    · rw [run_append, run_append]
      exact along_mono (fun fs ⟨x1, x2, x3, x4⟩ => ⟨.inr ⟨x2, x4⟩, x1.imp (fun h => ⟨h, .inr x3⟩) (fun h => ⟨h, x3⟩)⟩) l7

end Lms.Live
