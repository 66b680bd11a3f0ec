import Verif.Live.Model
import Mathlib.Data.List.Forall2

/-!
# C87: what is on disk while the manifest is written
-/

namespace Lms.Live

open Lms.Json Lms.Control
open Lms.Manifest (El VRep ARep setId mediaTemplate initTemplate segmentName initName Facts Known Rel Says SaysSet RelSet read lastOf Info SetInfo
  File names_differ)

/-- Start and duration of a segment. -/
def td (s : Dash.Seg) : Nat × Nat := (s.ts, s.dur)

/-! ## The last of a list -/

theorem lastOf_snoc {α : Type} (W : Nat) (hW : 1 ≤ W) (S : List α) (x : α) : lastOf W (S ++ [x]) = lastOf W (lastOf W S ++ [x]) := by
  unfold lastOf
  by_cases h : S.length ≤ W
  · rw [Nat.sub_eq_zero_of_le h, List.drop_zero]
  · rw [List.length_append, List.length_append, List.length_drop, List.length_singleton,
      show S.length + 1 - W = (S.length - W) + 1 by omega, show S.length - (S.length - W) + 1 - W = 1 by omega,
      List.drop_append_of_le_length (by omega), List.drop_append_of_le_length (by rw [List.length_drop]; omega), List.drop_drop]

theorem lastOf_map {α β : Type} (g : α → β) (W : Nat) (S : List α) : lastOf W (S.map g) = (lastOf W S).map g := by
  unfold lastOf; rw [List.length_map, List.map_drop]

theorem window_snoc (W : Nat) (hW : 1 ≤ W) (S : List Dash.Seg) (x : Dash.Seg) :
    lastOf W ((lastOf W S).map td ++ [(x.ts, x.dur)]) = (lastOf W (S ++ [x])).map td := by
  rw [lastOf_snoc W hW S x, ← lastOf_map td W (lastOf W S ++ [x]), List.map_append]; rfl

theorem info_times (a : Manifest.ASet) : (Manifest.setInfo a).times = a.times := by
  unfold Manifest.setInfo
  cases a.body <;> rfl

theorem lastOf_sub {α : Type} (W : Nat) (S : List α) : ∀ x ∈ lastOf W S, x ∈ S := fun _ h => List.mem_of_mem_drop h

/-- What the loop takes off the window. -/
theorem popTo_cut (W : Nat) (win : List (Nat × Nat)) (r0 : Nat) (w : List (Nat × Nat)) (r : Nat) (h : Mpd.popTo W win r0 = .ok (w, r)) :
    ∃ p, win = p ++ w ∧ (p = [] ∧ r = r0 ∨ ∃ x ∈ p, r = x.1) := by
  induction win generalizing r0 with
  | nil =>
    unfold Mpd.popTo at h
    split at h
    · cases h
    · cases h; exact ⟨[], rfl, .inl ⟨rfl, rfl⟩⟩
  | cons x l ih =>
    unfold Mpd.popTo at h
    split at h
    · obtain ⟨p, h1, h2⟩ := ih _ h
      refine ⟨x :: p, by rw [h1, List.cons_append], .inr ?_⟩
      rcases h2 with ⟨_, h2⟩ | ⟨y, hy, h2⟩
      · exact ⟨x, by simp, h2⟩
      · exact ⟨y, by simp [hy], h2⟩
    · cases h; exact ⟨[], rfl, .inl ⟨rfl, rfl⟩⟩

/-! ## One kind -/

/-- Everything that tells one kind of input from the other. -/
structure Kind where
  folder : Str
  base : Str
  W : Nat
  audio : Bool
  id : Nat
  T : Int

def Kind.path (k : Kind) : Str := k.folder ++ k.base

/-- What the manager knows, when `S` are the segments so far. -/
def Kind.Knows (c : Kind) (f : Facts) (S : List Dash.Seg) : Prop :=
  (f.sets (setId c.audio) = none ∧ S = []) ∨
  ∃ k, f.sets (setId c.audio) = some k ∧ k.audio = c.audio ∧ k.timescale = c.T ∧ k.media = mediaTemplate c.base c.audio ∧
    k.init = initTemplate c.base c.audio ∧ k.times = (lastOf c.W S).map td ∧ k.reps (dec c.id) ≠ none ∧ ∀ r, r ≠ dec c.id → k.reps r = none

/-- What a manifest tells. -/
def Kind.Tells (c : Kind) (m : Info) (S : List Dash.Seg) : Prop :=
  (m.sets.lookup (setId c.audio) = none ∧ S = []) ∨
  ∃ i, m.sets.lookup (setId c.audio) = some i ∧ i.timescale = c.T ∧ i.media = mediaTemplate c.base c.audio ∧
    i.init = initTemplate c.base c.audio ∧ i.times = (lastOf c.W S).map td ∧ i.reps.lookup (dec c.id) ≠ none ∧
    ∀ r ∈ i.reps, r.1 = dec c.id

/-- The files of the window are there, and the manifest tells of them. -/
def Kind.Shows (c : Kind) (fs : Fs) (S : List Dash.Seg) : Prop :=
  (∀ s ∈ lastOf c.W S, fs.files (segmentName c.path c.id s.ts c.audio) = some s.bytes) ∧
  (∀ e, fs.doc = some e → ∃ m, read e = some m ∧ c.Tells m S) ∧ (S ≠ [] → fs.doc ≠ none)

/-- The initialisation file is the last one made. -/
def Kind.Begins (c : Kind) (fs : Fs) (J : List Bytes) : Prop := fs.files (initName c.path c.id c.audio) = J.getLast?

theorem Kind.tells (c : Kind) {m : Info} {f : Facts} {S : List Dash.Seg} (h : c.Knows f S) (hs : Says m f) : c.Tells m S := by
  rcases h with ⟨h1, h2⟩ | ⟨k, h1, h2, h3, h4, h5, h6, h7, h8⟩
  · exact .inl ⟨hs.none _ h1, h2⟩
  · obtain ⟨i, hi, hk⟩ := hs.some _ k h1
    refine .inr ⟨i, hi, hk.timescale.trans h3, hk.media.trans h4, hk.init.trans h5, hk.times.trans h6, by rw [hk.reps]; exact h7, fun r hr => ?_⟩
    apply Classical.byContradiction
    intro hne
    have := h8 r.1 hne
    rw [← hk.reps, List.lookup_eq_none_iff] at this
    have := this r hr
    simp at this

/-- A call that changes another set. -/
theorem Kind.knows_other (c : Kind) {f : Facts} {S : List Dash.Seg} (h : c.Knows f S) (set : Str) (hs : set ≠ setId c.audio)
    (g : Option Known → Option Known) : c.Knows (f.at set g) S := by
  have e : (f.at set g).sets (setId c.audio) = f.sets (setId c.audio) := by
    simp only [Facts.at]; rw [if_neg fun h => hs h.symm]
  unfold Kind.Knows; rw [e]; exact h

theorem other_set (b : Bool) : setId (!b) ≠ setId b := by cases b <;> decide

/-- Describing the input makes the set known. -/
theorem knows_video (c : Kind) (hc : c.audio = false) (hT : c.T = Record.BASE) {f : Facts} {S : List Dash.Seg} (h : c.Knows f S) (r : VRep) (fps : Int) :
    c.Knows ((describeVideo c.base c.id r fps).foldl Facts.after f) S ∧
      ((describeVideo c.base c.id r fps).foldl Facts.after f).sets (setId c.audio) ≠ none := by
  have key : ∃ k, ((describeVideo c.base c.id r fps).foldl Facts.after f).sets (setId c.audio) = some k ∧ k.audio = c.audio ∧ k.timescale = c.T ∧
      k.media = mediaTemplate c.base c.audio ∧ k.init = initTemplate c.base c.audio ∧ k.times = (lastOf c.W S).map td ∧ k.reps (dec c.id) ≠ none ∧
      ∀ r, r ≠ dec c.id → k.reps r = none := by
    rcases h with ⟨h1, h2⟩ | ⟨k, h1, h2, h3, h4, h5, h6, h7, h8⟩
    · rw [hc] at h1 ⊢
      simp only [describeVideo, List.foldl_cons, List.foldl_nil, Facts.after, Facts.at, if_true, h1, Known.template, Option.map_some, Bool.false_eq_true,
        if_false]
      refine ⟨_, rfl, rfl, hT.symm, rfl, rfl, ?_, by simp, fun x hx => ?_⟩
      · simp only [h2]; simp [lastOf]
      · simp only; rw [if_neg hx]
    · rw [hc] at h1 h2 ⊢
      simp only [describeVideo, List.foldl_cons, List.foldl_nil, Facts.after, Facts.at, if_true, h1, Known.template, Option.map_some, h2,
        Bool.false_eq_true, if_false]
      refine ⟨_, rfl, rfl, hT.symm, rfl, rfl, h6, by simp, fun x hx => ?_⟩
      simp only; rw [if_neg hx]; exact h8 x hx
  obtain ⟨k, h1, h2⟩ := key
  exact ⟨.inr ⟨k, h1, h2⟩, by rw [h1]; simp⟩

theorem knows_audio (c : Kind) (hc : c.audio = true) (t : Nat) (hT : c.T = t) {f : Facts} {S : List Dash.Seg} (h : c.Knows f S) (r : ARep) :
    c.Knows ((describeAudio c.base c.id t r).foldl Facts.after f) S ∧
      ((describeAudio c.base c.id t r).foldl Facts.after f).sets (setId c.audio) ≠ none := by
  have key : ∃ k, ((describeAudio c.base c.id t r).foldl Facts.after f).sets (setId c.audio) = some k ∧ k.audio = c.audio ∧ k.timescale = c.T ∧
      k.media = mediaTemplate c.base c.audio ∧ k.init = initTemplate c.base c.audio ∧ k.times = (lastOf c.W S).map td ∧ k.reps (dec c.id) ≠ none ∧
      ∀ r, r ≠ dec c.id → k.reps r = none := by
    rcases h with ⟨h1, h2⟩ | ⟨k, h1, h2, h3, h4, h5, h6, h7, h8⟩
    · rw [hc] at h1 ⊢
      simp only [describeAudio, List.foldl_cons, List.foldl_nil, Facts.after, Facts.at, if_true, h1, Known.template, Option.map_some]
      refine ⟨_, rfl, rfl, hT.symm, rfl, rfl, ?_, by simp, fun x hx => ?_⟩
      · simp only [h2]; simp [lastOf]
      · simp only; rw [if_neg hx]
    · rw [hc] at h1 h2 ⊢
      simp only [describeAudio, List.foldl_cons, List.foldl_nil, Facts.after, Facts.at, if_true, h1, Known.template, Option.map_some, h2]
      refine ⟨_, rfl, rfl, hT.symm, rfl, rfl, h6, by simp, fun x hx => ?_⟩
      simp only; rw [if_neg hx]; exact h8 x hx
  obtain ⟨k, h1, h2⟩ := key
  exact ⟨.inr ⟨k, h1, h2⟩, by rw [h1]; simp⟩

/-- Describing one input leaves the other set alone. -/
theorem knows_video_other (c : Kind) (hc : c.audio = true) {f : Facts} {S : List Dash.Seg} (h : c.Knows f S) (base : Str) (id : Nat) (r : VRep) (fps : Int) :
    c.Knows ((describeVideo base id r fps).foldl Facts.after f) S := by
  have hne : setId false ≠ setId c.audio := by rw [hc]; decide
  simp only [describeVideo, List.foldl_cons, List.foldl_nil, Facts.after]
  exact c.knows_other (c.knows_other h _ hne _) _ hne _

theorem knows_audio_other (c : Kind) (hc : c.audio = false) {f : Facts} {S : List Dash.Seg} (h : c.Knows f S) (base : Str) (id t : Nat) (r : ARep) :
    c.Knows ((describeAudio base id t r).foldl Facts.after f) S := by
  have hne : setId true ≠ setId c.audio := by rw [hc]; decide
  simp only [describeAudio, List.foldl_cons, List.foldl_nil, Facts.after]
  exact c.knows_other (c.knows_other h _ hne _) _ hne _

theorem video_bound (base : Str) (id : Nat) (r : VRep) (fps : Int) (f : Facts) :
    ((describeVideo base id r fps).foldl Facts.after f).bound = f.bound := rfl

theorem audio_bound (base : Str) (id t : Nat) (r : ARep) (f : Facts) : ((describeAudio base id t r).foldl Facts.after f).bound = f.bound := rfl

/-! ## Files that are something else -/

theorem segment_names {p q : Str} {i j t u : Nat} {a b : Bool} (h : segmentName p i t a = segmentName q j u b) : t = u ∧ a = b := by
  have := names_differ (.segment p i t a) (.segment q j u b) h
  cases this; exact ⟨rfl, rfl⟩

theorem init_segment {p q : Str} {i j u : Nat} {a b : Bool} : initName p i a ≠ segmentName q j u b := by
  intro h
  cases names_differ (.init p i a) (.segment q j u b) h

theorem init_names {p q : Str} {i j : Nat} {a b : Bool} (h : initName p i a = initName q j b) : a = b := by
  have := names_differ (.init p i a) (.init q j b) h
  cases this; rfl

/-- Writing or removing a file that is not in the window. -/
theorem Kind.shows_file (c : Kind) {fs : Fs} {S : List Dash.Seg} (h : c.Shows fs S) (n : Str)
    (hn : ∀ s ∈ lastOf c.W S, segmentName c.path c.id s.ts c.audio ≠ n) (b : Option Bytes) :
    c.Shows { fs with files := fun x => if x = n then b else fs.files x } S := by
  refine ⟨fun s hs => ?_, h.2⟩
  simp only
  rw [if_neg (hn s hs)]; exact h.1 s hs

theorem Kind.begins_file (c : Kind) {fs : Fs} {J : List Bytes} (h : c.Begins fs J) (n : Str) (hn : initName c.path c.id c.audio ≠ n) (b : Option Bytes) :
    c.Begins { fs with files := fun x => if x = n then b else fs.files x } J := by
  unfold Kind.Begins at h ⊢
  simp only
  rw [if_neg hn]; exact h

/-! ## Along what is done -/

/-- A property that holds at every moment. -/
def Along (P : Fs → Prop) (fs : Fs) (es : List Eff) : Prop := ∀ pre, pre <+: es → P (fs.run pre)

theorem along_nil {P : Fs → Prop} {fs : Fs} (h : P fs) : Along P fs [] := by
  intro pre hp
  rw [List.prefix_nil] at hp
  subst hp; exact h

theorem along_cons {P : Fs → Prop} {fs : Fs} {e : Eff} {es : List Eff} (h : P fs) (ht : Along P (fs.after e) es) : Along P fs (e :: es) := by
  intro pre hp
  cases pre with
  | nil => exact h
  | cons x pre =>
    obtain ⟨rfl, hp2⟩ := List.cons_prefix_cons.1 hp
    exact ht pre hp2

theorem along_append {P : Fs → Prop} {fs : Fs} {a b : List Eff} (h : Along P fs a) (ht : Along P (fs.run a) b) : Along P fs (a ++ b) := by
  induction a generalizing fs with
  | nil => exact ht
  | cons e a ih =>
    refine along_cons (h [] (List.nil_prefix ..)) (ih (fun pre hp => ?_) ht)
    exact h (e :: pre) (List.cons_prefix_cons.2 ⟨rfl, hp⟩)

theorem along_mono {P Q : Fs → Prop} {fs : Fs} {es : List Eff} (hq : ∀ fs, P fs → Q fs) (h : Along P fs es) : Along Q fs es :=
  fun pre hp => hq _ (h pre hp)

theorem along_last {P : Fs → Prop} {fs : Fs} {es : List Eff} (h : Along P fs es) : P (fs.run es) := h es (List.prefix_refl _)

theorem run_append (fs : Fs) (a b : List Eff) : fs.run (a ++ b) = (fs.run a).run b := by
  unfold Fs.run; rw [List.foldl_append]

/-! ## Writing a segment -/

/-- What the returned time stamp is. -/
theorem removed_ok {m : Manifest.State} {f : Facts} (hr : Rel m f) (c : Kind) (hb : f.bound = c.W) {S : List Dash.Seg} {x : Dash.Seg} (h : c.Knows f S)
    (hd : f.sets (setId c.audio) ≠ none) (hn : ((lastOf c.W S ++ [x]).map Dash.Seg.ts).Nodup) :
    ∃ t, removed m (setId c.audio) x.ts x.dur = .ok t ∧ ∀ s ∈ lastOf c.W (S ++ [x]), s.ts = t → t = 0 := by
  rcases h with ⟨h1, _⟩ | ⟨k, h1, _, _, _, _, h6, _⟩
  · exact absurd h1 hd
  · obtain ⟨a, ha, hra⟩ := hr.some _ k h1
    have hat : a.times = k.times := (info_times a).symm.trans hra.says.times
    unfold removed
    rw [ha]
    simp only
    obtain ⟨s', d, g1, g2, _⟩ := Manifest.rel_step m f hr (.time (setId c.audio) x.ts x.dur)
    simp only [Manifest.step, Manifest.time, ha] at g1
    unfold Mpd.updateTimestamp at g1 ⊢
    cases hp : Mpd.popTo m.maxSeg a.times 0 with
    | ub => rw [hp] at g1; cases g1
    | hang => rw [hp] at g1; cases g1
    | ok q =>
      obtain ⟨w, t⟩ := q
      rw [hp] at g1
      refine ⟨t, rfl, ?_⟩
      simp only [Outcome.bind_ok] at g1
      obtain ⟨p, hwin, hpt⟩ := popTo_cut _ _ _ _ _ hp
      simp only [Outcome.ok.injEq, Prod.mk.injEq] at g1
      obtain ⟨g1, _⟩ := g1
      subst g1
      have hk2 : (f.after (.time (setId c.audio) x.ts x.dur)).sets (setId c.audio) =
          some { k with times := lastOf f.bound (k.times ++ [(x.ts, x.dur)]) } := by
        simp only [Facts.after, Facts.at, if_true, h1, Option.map_some]
      obtain ⟨a2, ha2, hra2⟩ := g2.some _ _ hk2
      simp only [Manifest.lookup_put, if_true, Option.some.injEq] at ha2
      have ht2 : w ++ [(x.ts, x.dur)] = lastOf f.bound (k.times ++ [(x.ts, x.dur)]) := by
        have := hra2.says.times
        rw [← ha2, info_times] at this
        exact this
      have hfull : w ++ [(x.ts, x.dur)] = (lastOf c.W (S ++ [x])).map td := by
        have hW : 1 ≤ c.W := by rw [← hb, hr.bound]; have := hr.two; omega
        rw [ht2, hb, h6, window_snoc _ hW]
      intro s hs he
      rcases hpt with ⟨_, h0⟩ | ⟨y, hy, h0⟩
      · exact h0
      · exfalso
        have hin : td s ∈ w ++ [(x.ts, x.dur)] := by rw [hfull]; exact List.mem_map_of_mem hs
        have hlist : (lastOf c.W S ++ [x]).map Dash.Seg.ts = p.map Prod.fst ++ (w ++ [(x.ts, x.dur)]).map Prod.fst := by
          have : (lastOf c.W S ++ [x]).map Dash.Seg.ts = ((lastOf c.W S).map td ++ [td x]).map Prod.fst := by
            rw [List.map_append, List.map_append, List.map_map]; rfl
          rw [this, ← h6, ← hat, hwin, List.append_assoc, List.map_append]; rfl
        rw [hlist] at hn
        have hdis := (List.nodup_append.1 hn).2.2
        exact hdis y.1 (List.mem_map_of_mem hy) s.ts (List.mem_map.2 ⟨td s, hin, rfl⟩) (by rw [he, h0])

/-- What holds at every moment of a writing: one kind shows the segments as before or with the new one; the other as before. -/
theorem write_segment {m : Manifest.State} {f : Facts} (hr : Rel m f) (c o : Kind) (ho : o.audio = !c.audio) (hb : f.bound = c.W)
    {S : List Dash.Seg} {x : Dash.Seg} (h : c.Knows f S) (hd : f.sets (setId c.audio) ≠ none) {S2 : List Dash.Seg} (h2 : o.Knows f S2)
    (hn : ((lastOf c.W S ++ [x]).map Dash.Seg.ts).Nodup) {fs : Fs} (hs : c.Shows fs S) (hs2 : o.Shows fs S2) {J J2 : List Bytes}
    (hj : c.Begins fs J) (hj2 : o.Begins fs J2) (now : Str) :
    ∃ m' f' es, writeSegment c.path c.audio c.id now m x = .ok (m', es) ∧ Rel m' f' ∧ f'.bound = f.bound ∧ c.Knows f' (S ++ [x]) ∧ o.Knows f' S2 ∧
      (∀ set, f.sets set ≠ none → f'.sets set ≠ none) ∧
      Along (fun fs => (c.Shows fs S ∨ c.Shows fs (S ++ [x])) ∧ o.Shows fs S2 ∧ c.Begins fs J ∧ o.Begins fs J2) fs es ∧
      c.Shows (fs.run es) (S ++ [x]) := by
  have hW : 1 ≤ c.W := by rw [← hb, hr.bound]; have := hr.two; omega
  obtain ⟨t, ht, htn⟩ := removed_ok hr c hb h hd hn
  obtain ⟨m1, d1, a1, a2, _, _⟩ := Manifest.rel_step m f hr (.time (setId c.audio) x.ts x.dur)
  obtain ⟨m2, d2, b1, b2, b3, b4⟩ := Manifest.rel_step m1 _ a2 (.write now)
  obtain ⟨doc, hdoc⟩ := Option.isSome_iff_exists.1 (b4.1 ⟨now, rfl⟩)
  obtain ⟨info, hinfo, hsays⟩ := b3 doc hdoc
  have hknow : c.Knows ((f.after (.time (setId c.audio) x.ts x.dur)).after (.write now)) (S ++ [x]) := by
    rcases h with ⟨h1, _⟩ | ⟨k, h1, h3, h4, h5, h6, h7, h8, h9⟩
    · exact absurd h1 hd
    · refine .inr ⟨{ k with times := lastOf f.bound (k.times ++ [(x.ts, x.dur)]) }, ?_, h3, h4, h5, h6, ?_, h8, h9⟩
      · simp only [Facts.after, Facts.at, if_true, h1, Option.map_some]
      · simp only [h7, hb]
        exact window_snoc _ hW S x
  have hknow2 : o.Knows ((f.after (.time (setId c.audio) x.ts x.dur)).after (.write now)) S2 := by
    have : o.Knows (f.after (.time (setId c.audio) x.ts x.dur)) S2 := by
      refine o.knows_other h2 _ ?_ _
      rw [ho]; exact (other_set _).symm
    exact this
  have hT := c.tells hknow hsays
  have hT2 := o.tells hknow2 hsays
  -- the file
  have hnew : ∀ s ∈ lastOf c.W S, segmentName c.path c.id s.ts c.audio ≠ segmentName c.path c.id x.ts c.audio := by
    intro s hs he
    have := (segment_names he).1
    rw [List.map_append] at hn
    exact (List.nodup_append.1 hn).2.2 s.ts (List.mem_map_of_mem hs) x.ts (by simp) this
  have hne : ∀ (n t : Nat), segmentName o.path o.id n o.audio ≠ segmentName c.path c.id t c.audio := by
    intro n t he
    have := (segment_names he).2
    rw [ho] at this
    cases hc : c.audio <;> rw [hc] at this <;> cases this
  let fs1 := fs.after (.file (segmentName c.path c.id x.ts c.audio) x.bytes)
  have p1 : c.Shows fs1 S := c.shows_file hs _ hnew _
  have q1 : o.Shows fs1 S2 := o.shows_file hs2 _ (fun s _ => hne _ _) _
  have r1 : c.Begins fs1 J := c.begins_file hj _ init_segment _
  have v1 : o.Begins fs1 J2 := o.begins_file hj2 _ init_segment _
  have w1 : ∀ s ∈ lastOf c.W (S ++ [x]), fs1.files (segmentName c.path c.id s.ts c.audio) = some s.bytes := by
    intro s hs
    rw [lastOf_snoc _ hW] at hs
    rcases List.mem_append.1 (lastOf_sub _ _ s hs) with hs | hs
    · exact p1.1 s hs
    · rw [List.mem_singleton] at hs; subst hs
      show (if _ = _ then _ else _) = _
      rw [if_pos rfl]
  -- the manifest
  let fs2 := fs1.after (.manifest doc)
  have p2 : c.Shows fs2 (S ++ [x]) := ⟨w1, fun e he => by cases he; exact ⟨info, hinfo, hT⟩, fun _ => by show some doc ≠ none; simp⟩
  have q2 : o.Shows fs2 S2 := ⟨q1.1, fun e he => by cases he; exact ⟨info, hinfo, hT2⟩, fun _ => by show some doc ≠ none; simp⟩
  have r2 : c.Begins fs2 J := r1
  have v2 : o.Begins fs2 J2 := v1
  let tail : List Eff := if t > 0 then [.gone (segmentName c.path c.id t c.audio)] else []
  refine ⟨m2, _, [.file (segmentName c.path c.id x.ts c.audio) x.bytes, .manifest doc] ++ tail, ?_, b2, rfl, hknow, hknow2, ?_, ?_⟩
  · unfold writeSegment
    rw [ht, a1]
    simp only [Outcome.bind_ok]
    rw [b1]
    simp only [Outcome.bind_ok, hdoc, Option.map_some, Option.toList_some]
    rfl
  · intro set hset
    simp only [Facts.after, Facts.at]
    split
    · simpa using hset
    · exact hset
  · have base : ∀ es', Along (fun fs => (c.Shows fs S ∨ c.Shows fs (S ++ [x])) ∧ o.Shows fs S2 ∧ c.Begins fs J ∧ o.Begins fs J2) fs2 es' →
        Along (fun fs => (c.Shows fs S ∨ c.Shows fs (S ++ [x])) ∧ o.Shows fs S2 ∧ c.Begins fs J ∧ o.Begins fs J2) fs
          ([.file (segmentName c.path c.id x.ts c.audio) x.bytes, .manifest doc] ++ es') := fun es' h' =>
      along_cons ⟨.inl hs, hs2, hj, hj2⟩ (along_cons ⟨.inl p1, q1, r1, v1⟩ h')
    by_cases ht0 : t > 0
    · have hgone : ∀ s ∈ lastOf c.W (S ++ [x]), segmentName c.path c.id s.ts c.audio ≠ segmentName c.path c.id t c.audio := by
        intro s hs he
        have := htn s hs (segment_names he).1
        omega
      have et : tail = [.gone (segmentName c.path c.id t c.audio)] := if_pos ht0
      have p3 : c.Shows (fs2.after (.gone (segmentName c.path c.id t c.audio))) (S ++ [x]) := c.shows_file p2 _ hgone _
      have q3 : o.Shows (fs2.after (.gone (segmentName c.path c.id t c.audio))) S2 := o.shows_file q2 _ (fun s _ => hne _ _) _
      have r3 : c.Begins (fs2.after (.gone (segmentName c.path c.id t c.audio))) J := c.begins_file r2 _ init_segment _
      have v3 : o.Begins (fs2.after (.gone (segmentName c.path c.id t c.audio))) J2 := o.begins_file v2 _ init_segment _
      rw [et]
      exact ⟨base _ (along_cons ⟨.inr p2, q2, r2, v2⟩ (along_nil ⟨.inr p3, q3, r3, v3⟩)), p3⟩
    · have et : tail = [] := if_neg ht0
      rw [et]
      exact ⟨base _ (along_nil ⟨.inr p2, q2, r2, v2⟩), p2⟩

end Lms.Live
