import Verif.Control.Report
import Verif.Mpd.Lemmas
import Verif.Manifest.Spec

namespace Lms.Manifest

open Lms Lms.Json Lms.Control

/-! ## Numbers -/

theorem dec_ne (n : Nat) : dec n ≠ [] := by rw [dec]; split <;> simp

theorem natOf_dec (n : Nat) : natOf (dec n) = some n := by
  unfold natOf
  rw [if_pos, dec_value]
  refine ⟨dec_ne n, ?_⟩
  rw [List.all_eq_true]
  intro c hc
  simpa using dec_digits n c hc

theorem numOf_showInt (z : Int) : numOf (showInt z) = some z := by
  unfold showInt
  split
  · simp only [numOf, natOf_dec, Option.map_some]
    congr 1; omega
  · have h : ∀ s, (∀ r, s ≠ '-' :: r) → numOf s = (natOf s).map fun n : Nat => (n : Int) := by
      intro s hs
      unfold numOf
      split
      · rename_i r; exact absurd rfl (hs r)
      · rfl
    rw [h, natOf_dec, Option.map_some]
    · congr 1; omega
    · intro r hr
      have := dec_digits z.natAbs '-' (by rw [hr]; simp)
      exact absurd this.1 (by decide)

theorem durationOf_seconds (n : Nat) : durationOf (seconds n) = some n := by
  unfold durationOf seconds
  have e1 : ("PT".toList ++ dec n ++ ".0S".toList).length = (dec n).length + 5 := by simp
  rw [e1]
  have e2 : ("PT".toList ++ dec n ++ ".0S".toList).drop ((dec n).length + 5 - 3) = ".0S".toList := by
    rw [List.drop_append_of_le_length (by simp)]
    have : ("PT".toList ++ dec n).drop ((dec n).length + 5 - 3) = [] := by
      rw [List.drop_eq_nil_iff]; simp
    rw [this]; rfl
  have e3 : (("PT".toList ++ dec n ++ ".0S".toList).drop 2).take ((dec n).length + 5 - 5) = dec n := by
    rw [List.append_assoc, List.drop_append_of_le_length (by decide)]
    have : ("PT".toList).drop 2 = [] := by decide
    rw [this, List.nil_append, Nat.add_sub_cancel, List.take_left]
  rw [e2, e3, if_pos, natOf_dec]
  refine ⟨?_, rfl⟩
  rw [List.append_assoc, List.take_append_of_le_length (by decide)]
  decide

/-! ## Maps -/

theorem lookup_put {α : Type} (k : Str) (v : α) (l : List (Str × α)) (x : Str) :
    (put k v l).lookup x = if x = k then some v else l.lookup x := by
  induction l with
  | nil =>
    by_cases h : x = k
    · subst h; simp [put]
    · have : (x == k) = false := by simpa using h
      simp [put, List.lookup, this, h]
  | cons e l ih =>
    obtain ⟨n, w⟩ := e
    rw [put]
    by_cases h1 : k = n
    · subst h1
      by_cases h : x = k
      · subst h; simp
      · have : (x == k) = false := by simpa using h
        simp [List.lookup, this, h]
    · rw [if_neg h1]
      by_cases h2 : before k n = true
      · rw [if_pos h2]
        by_cases h : x = k
        · subst h; simp
        · have : (x == k) = false := by simpa using h
          simp [List.lookup_cons, this, h]
      · rw [if_neg h2, List.lookup_cons, List.lookup_cons]
        cases hx : x == n with
        | true =>
          have : x = n := by simpa using hx
          rw [if_neg (by rw [this]; exact fun hh => h1 hh.symm)]
        | false => exact ih

theorem lookup_erase {α : Type} (k : Str) (l : List (Str × α)) (x : Str) :
    (erase k l).lookup x = if x = k then none else l.lookup x := by
  unfold erase
  induction l with
  | nil => simp
  | cons e l ih =>
    obtain ⟨n, w⟩ := e
    by_cases h1 : n = k
    · subst h1
      rw [List.filter_cons_of_neg (by simp), ih]
      by_cases h : x = n
      · simp [h]
      · have : (x == n) = false := by simpa using h
        simp [List.lookup_cons, this]
    · rw [List.filter_cons_of_pos (by simpa using h1), List.lookup_cons, List.lookup_cons, ih]
      cases hx : x == n with
      | true =>
        have : x = n := by simpa using hx
        simp only []
        rw [if_neg (by rw [this]; exact h1)]
      | false => rfl

theorem before_trans {a b c : Str} (h1 : before a b = true) (h2 : before b c = true) : before a c = true := by
  induction a generalizing b c with
  | nil =>
    cases c with
    | nil => cases b <;> simp [before] at h2
    | cons _ _ => rfl
  | cons x a ih =>
    cases b with
    | nil => simp [before] at h1
    | cons y b =>
      cases c with
      | nil => simp [before] at h2
      | cons z c =>
        simp only [before] at h1 h2 ⊢
        by_cases hxy : x.toNat < y.toNat
        · by_cases hyz : y.toNat < z.toNat
          · rw [if_pos (by omega)]
          · rw [if_neg hyz] at h2
            by_cases hzy : z.toNat < y.toNat
            · rw [if_pos hzy] at h2; cases h2
            · rw [if_pos (by omega)]
        · rw [if_neg hxy] at h1
          by_cases hyx : y.toNat < x.toNat
          · rw [if_pos hyx] at h1; cases h1
          · rw [if_neg hyx] at h1
            by_cases hyz : y.toNat < z.toNat
            · rw [if_pos (by omega)]
            · rw [if_neg hyz] at h2
              by_cases hzy : z.toNat < y.toNat
              · rw [if_pos hzy] at h2; cases h2
              · rw [if_neg hzy] at h2
                rw [if_neg (by omega), if_neg (by omega)]
                exact ih h1 h2

theorem before_total {a b : Str} (h : a ≠ b) (h1 : before a b = false) : before b a = true := by
  induction a generalizing b with
  | nil =>
    cases b with
    | nil => exact absurd rfl h
    | cons _ _ => simp [before] at h1
  | cons x a ih =>
    cases b with
    | nil => rfl
    | cons y b =>
      simp only [before] at h1 ⊢
      by_cases hxy : x.toNat < y.toNat
      · rw [if_pos hxy] at h1; cases h1
      · rw [if_neg hxy] at h1
        by_cases hyx : y.toNat < x.toNat
        · rw [if_pos hyx]
        · rw [if_neg hyx] at h1 ⊢
          rw [if_neg hxy]
          refine ih (fun he => h ?_) h1
          have : x = y := Char.toNat_inj.1 (by omega)
          rw [this, he]

theorem ascending_put {α : Type} (k : Str) (v : α) (l : List (Str × α)) (h : Ascending l) : Ascending (put k v l) := by
  have hmem : ∀ (l : List (Str × α)) (e : Str × α), e ∈ put k v l → e.1 = k ∨ ∃ e' ∈ l, e'.1 = e.1 := by
    intro l
    induction l with
    | nil => intro e he; simp only [put, List.mem_singleton] at he; left; rw [he]
    | cons x l ih =>
      intro e he
      rw [put] at he
      split at he
      · rcases List.mem_cons.1 he with h | h
        · left; rw [h]
        · right; exact ⟨e, List.mem_cons_of_mem _ h, rfl⟩
      · split at he
        · rcases List.mem_cons.1 he with h | h
          · left; rw [h]
          · right; exact ⟨e, h, rfl⟩
        · rcases List.mem_cons.1 he with h | h
          · right; exact ⟨x, List.mem_cons_self .., by rw [h]⟩
          · rcases ih e h with h | ⟨e', h1, h2⟩
            · left; exact h
            · right; exact ⟨e', List.mem_cons_of_mem _ h1, h2⟩
  unfold Ascending at *
  induction l with
  | nil => simp [put]
  | cons x l ih =>
    rw [List.pairwise_cons] at h
    rw [put]
    split
    · rename_i hk
      rw [List.pairwise_cons]
      exact ⟨fun b hb => by simp only; rw [hk]; exact h.1 b hb, h.2⟩
    · rename_i hk
      split
      · rename_i hb
        rw [List.pairwise_cons]
        refine ⟨fun b hb2 => ?_, List.pairwise_cons.2 h⟩
        rcases List.mem_cons.1 hb2 with h2 | h2
        · rw [h2]; exact hb
        · exact before_trans hb (h.1 b h2)
      · rename_i hb
        rw [List.pairwise_cons]
        refine ⟨fun b hb2 => ?_, ih h.2⟩
        rcases hmem l b hb2 with h2 | ⟨e', h2, h3⟩
        · rw [h2]; exact before_total hk (by simpa using hb)
        · rw [← h3]; exact h.1 e' h2

theorem ascending_erase {α : Type} (k : Str) (l : List (Str × α)) (h : Ascending l) : Ascending (erase k l) :=
  List.Pairwise.filter _ h

theorem mem_put {α : Type} (k : Str) (v : α) (l : List (Str × α)) (e : Str × α) (h : e ∈ put k v l) : e = (k, v) ∨ e ∈ l := by
  induction l with
  | nil => simp only [put, List.mem_singleton] at h; left; exact h
  | cons x l ih =>
    rw [put] at h
    split at h
    · rcases List.mem_cons.1 h with h | h
      · left; exact h
      · right; exact List.mem_cons_of_mem _ h
    · split at h
      · rcases List.mem_cons.1 h with h | h
        · left; exact h
        · right; exact h
      · rcases List.mem_cons.1 h with h | h
        · right; rw [h]; exact List.mem_cons_self ..
        · rcases ih h with h | h
          · left; exact h
          · right; exact List.mem_cons_of_mem _ h

theorem lookup_map_val {α β : Type} (f : α → β) (l : List (Str × α)) (x : Str) :
    (l.map fun e => (e.1, f e.2)).lookup x = (l.lookup x).map f := by
  induction l with
  | nil => rfl
  | cons e l ih =>
    obtain ⟨n, v⟩ := e
    simp only [List.map_cons, List.lookup_cons]
    cases x == n with
    | true => rfl
    | false => exact ih

theorem ascending_map {α β : Type} (f : α → β) (l : List (Str × α)) (h : Ascending l) : Ascending (l.map fun e => (e.1, f e.2)) := by
  unfold Ascending at *
  rw [List.pairwise_map]; exact h

/-! ## Reading back -/

theorem allSome_map_some {α β : Type} (f : α → Option β) (g : α → β) (l : List α) (h : ∀ a ∈ l, f a = some (g a)) :
    allSome (l.map f) = some (l.map g) := by
  induction l with
  | nil => rfl
  | cons a l ih =>
    rw [List.map_cons, h a (List.mem_cons_self ..), allSome, ih fun x hx => h x (List.mem_cons_of_mem _ hx)]; rfl

theorem filter_all {l : List El} {n : String} (h : ∀ c ∈ l, c.name = n) : l.filter (fun c => decide (c.name = n)) = l :=
  List.filter_eq_self.2 fun c hc => by simpa using h c hc

theorem filter_none {l : List El} {m n : String} (h : ∀ c ∈ l, c.name = m) (hne : m ≠ n) : l.filter (fun c => decide (c.name = n)) = [] :=
  List.filter_eq_nil_iff.2 fun c hc => by rw [h c hc]; simpa using hne

/-- The representation as described. -/
def vInfo (r : VRep) : Rep := .video r.codec r.width r.height r.bandwidth
def aInfo (r : ARep) : Rep := .audio r.codec r.rate r.channels r.bandwidth

theorem read_videoRep (r : Str × VRep) : readVideoRep (videoRepEl r) = some (r.1, vInfo r.2) := by
  simp [readVideoRep, videoRepEl, El.attr, El.num, List.lookup, numOf_showInt, vInfo]

theorem read_audioRep (r : Str × ARep) : readAudioRep (audioRepEl r) = some (r.1, aInfo r.2) := by
  simp [readAudioRep, audioRepEl, El.attr, El.num, El.one, El.all, El.kids, El.name, List.lookup, numOf_showInt, aInfo]

theorem read_time (t : Nat × Nat) : readTime (timeEl t) = some t := by
  simp [readTime, timeEl, El.attr, El.nat, List.lookup, natOf_dec]

/-- The set as described. -/
def setInfo (a : ASet) : SetInfo :=
  match a.body with
  | .video reps w h f => ⟨"video/mp4".toList, some (w, h, f), a.timescale, a.media, a.init, a.times, reps.map fun e => (e.1, vInfo e.2)⟩
  | .audio reps => ⟨"audio/mp4".toList, none, a.timescale, a.media, a.init, a.times, reps.map fun e => (e.1, aInfo e.2)⟩

theorem all_times (a : ASet) : (El.el "SegmentTimeline" [] (a.times.map timeEl)).all "S" = a.times.map timeEl := by
  unfold El.all
  exact filter_all (by
    intro c hc
    obtain ⟨t, _, rfl⟩ := List.mem_map.1 hc
    rfl)

theorem read_template (a : ASet) :
    ((templateEl a).num "timescale" = some a.timescale ∧ (templateEl a).attr "media" = some a.media ∧
      (templateEl a).attr "initialization" = some a.init) ∧
    ((templateEl a).one "SegmentTimeline").bind (fun l => allSome ((l.all "S").map readTime)) = some a.times := by
  refine ⟨?_, ?_⟩
  · simp [templateEl, El.attr, El.num, List.lookup, numOf_showInt]
  · have : (templateEl a).one "SegmentTimeline" = some (.el "SegmentTimeline" [] (a.times.map timeEl)) := by
      simp [templateEl, El.one, El.all, El.kids, El.name]
    rw [this, Option.bind_some, all_times, List.map_map, allSome_map_some _ (fun x => x) _ (fun t _ => show (readTime ∘ timeEl) t = _ from read_time t), List.map_id']

theorem read_set (e : Str × ASet) : readSet (setEl e) = some (e.1, setInfo e.2) := by
  obtain ⟨id, a⟩ := e
  obtain ⟨⟨h1, h2, h3⟩, h4⟩ := read_template a
  cases hb : a.body with
  | video reps w h f =>
    have hv : ∀ c ∈ reps.map videoRepEl, c.name = "Representation" := by
      intro c hc; obtain ⟨t, _, rfl⟩ := List.mem_map.1 hc; rfl
    have e1 : (setEl (id, a)).one "SegmentTemplate" = some (templateEl a) := by
      simp only [setEl, hb, El.one, El.all, El.kids]
      rw [List.filter_cons_of_pos (by rfl), filter_none hv (by decide)]
    have e2 : (setEl (id, a)).all "Representation" = reps.map videoRepEl := by
      simp only [setEl, hb, El.all, El.kids]
      rw [List.filter_cons_of_neg (by simp [templateEl, El.name]), filter_all hv]
    have e3 : (setEl (id, a)).attr "id" = some id ∧ (setEl (id, a)).attr "mimeType" = some "video/mp4".toList ∧
        (setEl (id, a)).num "maxWidth" = some w ∧ (setEl (id, a)).num "maxHeight" = some h ∧ (setEl (id, a)).num "frameRate" = some f := by
      simp [setEl, hb, El.attr, El.num, List.lookup, numOf_showInt]
    have e4 := allSome_map_some (fun r => readVideoRep (videoRepEl r)) (fun r => (r.1, vInfo r.2)) reps (fun r _ => read_videoRep r)
    unfold readSet
    rw [e1, e3.1, e3.2.1, e3.2.2.1, e3.2.2.2.1, e3.2.2.2.2, e2, List.map_map]
    simp only [Option.bind_some, h1, h2, h3]
    cases ho : (templateEl a).one "SegmentTimeline" with
    | none => rw [ho] at h4; cases h4
    | some l =>
      rw [ho, Option.bind_some] at h4
      simp only [Option.bind_some, h4, if_true]
      rw [show (readVideoRep ∘ videoRepEl) = (fun r => readVideoRep (videoRepEl r)) from rfl, e4]
      simp only [Option.bind_some, setInfo, hb]
  | audio reps =>
    have hv : ∀ c ∈ reps.map audioRepEl, c.name = "Representation" := by
      intro c hc; obtain ⟨t, _, rfl⟩ := List.mem_map.1 hc; rfl
    have e1 : (setEl (id, a)).one "SegmentTemplate" = some (templateEl a) := by
      simp only [setEl, hb, El.one, El.all, El.kids]
      rw [List.filter_cons_of_neg (by simp [El.name]), List.filter_cons_of_pos (by rfl), filter_none hv (by decide)]
    have e2 : (setEl (id, a)).all "Representation" = reps.map audioRepEl := by
      simp only [setEl, hb, El.all, El.kids]
      rw [List.filter_cons_of_neg (by simp [El.name]), List.filter_cons_of_neg (by simp [templateEl, El.name]), filter_all hv]
    have e3 : (setEl (id, a)).attr "id" = some id ∧ (setEl (id, a)).attr "mimeType" = some "audio/mp4".toList := by
      simp [setEl, hb, El.attr, List.lookup]
    have e4 := allSome_map_some (fun r => readAudioRep (audioRepEl r)) (fun r => (r.1, aInfo r.2)) reps (fun r _ => read_audioRep r)
    unfold readSet
    rw [e1, e3.1, e3.2, e2, List.map_map]
    simp only [Option.bind_some, h1, h2, h3]
    cases ho : (templateEl a).one "SegmentTimeline" with
    | none => rw [ho] at h4; cases h4
    | some l =>
      rw [ho, Option.bind_some] at h4
      simp only [Option.bind_some, h4]
      rw [if_neg (by decide), List.map_map]
      rw [show (readAudioRep ∘ audioRepEl) = (fun r => readAudioRep (audioRepEl r)) from rfl, e4]
      simp only [Option.bind_some, setInfo, hb]

theorem set_name (e : Str × ASet) : (setEl e).name = "AdaptationSet" := by
  unfold setEl
  split <;> rfl

/-- The manifest as described. -/
theorem read_document (s : State) (st : Str) : read (document s st) =
    some ⟨"dynamic".toList, st, durationOf s.update, durationOf s.depth, some s.minBuf, s.sets.map fun e => (e.1, setInfo e.2)⟩ := by
  have e1 : (document s st).attr "type" = some "dynamic".toList ∧ (document s st).attr "availabilityStartTime" = some st ∧
      (document s st).attr "minimumUpdatePeriod" = some s.update ∧ (document s st).attr "timeShiftBufferDepth" = some s.depth ∧
      (document s st).attr "minBufferTime" = some (seconds s.minBuf) := by
    simp [document, El.attr, List.lookup]
  have e2 : (document s st).one "Period" = some (.el "Period" [("id", "0".toList), ("start", "PT0.0S".toList)] (s.sets.map setEl)) := by
    simp [document, El.one, El.all, El.kids, El.name]
  have e3 : (El.el "Period" [("id", "0".toList), ("start", "PT0.0S".toList)] (s.sets.map setEl)).all "AdaptationSet" = s.sets.map setEl := by
    unfold El.all
    exact filter_all (by intro c hc; obtain ⟨t, _, rfl⟩ := List.mem_map.1 hc; exact set_name t)
  have e4 := allSome_map_some (fun r => readSet (setEl r)) (fun r => (r.1, setInfo r.2)) s.sets (fun r _ => read_set r)
  unfold read
  rw [e1.1, e1.2.1, e1.2.2.1, e1.2.2.2.1, e1.2.2.2.2, e2]
  simp only [Option.bind_some]
  rw [e3, List.map_map, show (readSet ∘ setEl) = (fun r => readSet (setEl r)) from rfl, e4, durationOf_seconds]
  rfl

end Lms.Manifest
