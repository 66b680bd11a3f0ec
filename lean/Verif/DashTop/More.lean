import Verif.DashTop.Props

namespace Lms.DashTop

/-! ## Audio next to video -/

/-- The video streams all have a finished segment once the frames of the round are handed over. -/
def videoReady (s : State) (r : Round) : Bool :=
  !(r.frames.foldl frame s).v.isEmpty && (r.frames.foldl frame s).v.complete

theorem frame_audio {s : State} (h : s.hasVideo = true) (f : Fr) : (frame s f).a = s.a := by
  obtain ⟨_, ha, hh, _, _, _⟩ := setOffset_frame s f.time
  rw [frame]
  split
  · rfl
  · dsimp only
    split
    · exact ha
    · rename_i sg _ pts _
      split
      · rw [generate.eq_def]
        split
        · exact ha
        · rw [if_pos (by rw [hh]; exact h)]; exact ha
      · exact ha

theorem frames_audio {s : State} (h : s.hasVideo = true) (fs : List Fr) : (fs.foldl frame s).a = s.a := by
  induction fs generalizing s with
  | nil => rfl
  | cons f fs ih => exact (ih (by rw [(frame_facts s f).2.2.1]; exact h)).trans (frame_audio h f)

theorem force_lookup (ans : Nat → Option Seg) (g : Group) (hall : ∀ i ∈ keys g, (ans i).isSome = true) {i : Nat}
    (hi : i ∈ keys g) : pend (forceAll ans g) i = ans i := by
  induction g with
  | nil => simp [keys] at hi
  | cons x l ih =>
    obtain ⟨j, s⟩ := x
    obtain ⟨y, hy⟩ := Option.isSome_iff_exists.1 (hall j (by simp [keys]))
    rw [forceAll, hy]
    dsimp only
    by_cases hij : i = j
    · subst hij; simp [pend, List.lookup_cons, Slot.feed, hy]
    · have e : (i == j) = false := by simp [hij]
      simp only [keys, List.map_cons, List.mem_cons] at hi hall
      have := ih (fun i hi => hall i (Or.inr hi)) (hi.resolve_left hij)
      simp only [pend, List.lookup_cons, e] at this ⊢
      exact this

theorem files_video_none (es : List Eff) (h : ∀ e ∈ es, ∀ i t d, e ≠ .file .audio i t d) (i : Nat) : files .audio i es = [] := by
  refine List.filterMap_eq_nil_iff.2 fun e he => ?_
  have := h e he
  cases e with
  | file k i' t d =>
    cases k with
    | video => simp
    | audio => exact absurd rfl (this i' t d)
  | listed k t d => rfl
  | reference i t => rfl

/-- What the video part of a round does for audio: nothing is written. -/
theorem writeVideo_audio (s : State) (force : Nat → Option Seg) (ok : Nat → Bool) :
    (∀ i, files .audio i (writeVideo s force ok).2 = [] ∧ names .audio i (writeVideo s force ok).2 = []) ∧
    lists .audio (writeVideo s force ok).2 = [] ∧
    (writeVideo s force ok).1.a = if !s.v.isEmpty && s.v.complete then forceAll force s.a else s.a := by
  rw [writeVideo]
  by_cases h1 : s.v.isEmpty = true
  · rw [if_pos h1]; exact ⟨fun _ => ⟨rfl, rfl⟩, rfl, by simp [h1]⟩
  · rw [if_neg h1]
    by_cases h2 : (!s.v.complete) = true
    · rw [if_pos h2]; exact ⟨fun _ => ⟨rfl, rfl⟩, rfl, by simp at h2; simp [h2]⟩
    · rw [if_neg h2]
      refine ⟨fun i => ?_, ?_, ?_⟩
      · dsimp only
        rw [files_append, files_append, names_append, names_append, (files_references _ _ _ _).1, (files_references _ _ _ _).2.1,
          (files_listing _ _ _ _ _).1, (files_listing _ _ _ _ _).2]
        have := writeAll_other (k := .audio) (k' := .video) (by simp) ok (headTime s.v).1 i s.v
        rw [this.1, this.2]
        exact ⟨rfl, rfl⟩
      · dsimp only
        rw [lists_append, lists_append, (files_references .audio 0 _ _).2.2, lists_writeAll, lists_listing]
        simp
      · have h2' : s.v.complete = true := by simpa using h2
        have h1' : s.v.isEmpty = false := by simpa using h1
        simp [h1', h2']

/-- **C67 (audio with video).**  Next to video streams an audio stream's segment is closed and written in
exactly the rounds in which every video stream has its segment; if all audio streams have something to close
then each of them gets the file of what it closed, under the start of the first one's segment, and the timeline
of the audio gets one entry; and no audio is left waiting. -/
theorem audio_closed_with_video {s : State} (h : Inv s) (hc : s.configured = true) (hv : s.v ≠ [])
    {first : Nat} {others : List Nat} (hk : keys s.a = first :: others) (hfresh : ∀ i ∈ keys s.a, pend s.a i = none)
    (r : Round) (hok : ∀ i, r.okA i = true) (hans : ∀ i ∈ keys s.a, (r.force i).isSome = true) :
    (∀ i ∈ keys s.a, pend (round s r).1.a i = none) ∧
    (videoReady s r = false → lists .audio (round s r).2 = [] ∧ ∀ i, files .audio i (round s r).2 = []) ∧
    (videoReady s r = true →
      lists .audio (round s r).2 = (r.force first).toList.map (fun x => (x.ts, x.dur)) ∧
      ∀ i ∈ keys s.a, files .audio i (round s r).2 = (r.force i).toList.map Seg.data ∧
        names .audio i (round s r).2 = (r.force first).toList.map Seg.ts) := by
  have hhv : s.hasVideo = true := by
    rw [h.hv]
    cases hs : s.v with
    | nil => exact absurd hs hv
    | cons x l => rfl
  have ha := frames_audio hhv r.frames
  rw [round, if_neg (by simp [hc])]
  dsimp only
  obtain ⟨s1, hs1⟩ : ∃ s1, s1 = r.frames.foldl frame s := ⟨_, rfl⟩
  simp only [videoReady]
  rw [← hs1] at ha ⊢
  obtain ⟨w1, w2, w3⟩ := writeVideo_audio s1 r.force r.okV
  have hnd : (keys s.a).Nodup := h.nodup .audio
  rw [writeAudio_grp]
  obtain ⟨b, hb⟩ : ∃ b, b = (!s1.v.isEmpty && s1.v.complete) := ⟨_, rfl⟩
  rw [← hb] at w3 ⊢
  cases b with
  | false =>
    rw [if_neg (by simp)] at w3
    have hnc : s1.a.complete = false := by
      cases hcc : s1.a.complete with
      | false => rfl
      | true =>
        have := (complete_iff (by rw [ha]; exact hnd)).1 hcc first (by rw [ha, hk]; simp)
        rw [ha, hfresh first (by rw [hk]; simp)] at this
        simp at this
    have hw : writeGrp .audio r.okA (writeVideo s1 r.force r.okV).1.a = (s1.a, []) := by
      rw [w3, writeGrp, if_neg (by
        rw [ha]
        cases hsa : s.a with
        | nil => rw [hsa] at hk; simp [keys] at hk
        | cons x l => simp), if_pos (by simp [hnc])]
    rw [hw]
    refine ⟨?_, fun _ => ⟨?_, fun i => ?_⟩, fun e => absurd e (by simp)⟩
    · show ∀ i ∈ keys s.a, pend s1.a i = none
      rw [ha]; exact hfresh
    · show lists .audio (_ ++ []) = []
      rw [List.append_nil]; exact w2
    · show files .audio i (_ ++ []) = []
      rw [List.append_nil]; exact (w1 i).1
  | true =>
    rw [if_pos rfl, ha] at w3
    obtain ⟨g, hg⟩ : ∃ g, g = forceAll r.force s.a := ⟨_, rfl⟩
    rw [← hg] at w3
    have hKg : keys g = keys s.a := by rw [hg, keys_force]
    have hNg : (keys g).Nodup := by rw [hKg]; exact hnd
    have hpg : ∀ i ∈ keys s.a, pend g i = r.force i := fun i hi => by
      rw [hg]; exact force_lookup _ _ hans hi
    have hcomp : g.complete = true := (complete_iff hNg).2 fun i hi => by
      rw [hKg] at hi
      rw [hpg i hi]; exact hans i hi
    have hne : g.isEmpty = false := by
      cases hgg : g with
      | nil => rw [hgg, hk] at hKg; simp [keys] at hKg
      | cons x l => rfl
    have hfirst : first ∈ keys s.a := by rw [hk]; simp
    obtain ⟨xf, hxf⟩ := Option.isSome_iff_exists.1 (hans first hfirst)
    have hht : headTime g = (xf.ts, xf.dur) := by
      rw [headTime_eq (hKg.trans hk), hpg first hfirst, hxf]; rfl
    have hokk := writeAll_ok .audio r.okA (headTime g).1 g fun i _ => hok i
    have hw : writeGrp .audio r.okA (writeVideo s1 r.force r.okV).1.a =
        ((writeAll .audio r.okA (headTime g).1 g).1,
          (writeAll .audio r.okA (headTime g).1 g).2.1 ++ [Eff.listed .audio xf.ts xf.dur]) := by
      rw [w3, writeGrp, if_neg (by simp [hne]), if_neg (by simp [hcomp])]
      dsimp only
      rw [hokk, hht]; rfl
    have hslot : ∀ i ∈ keys s.a, files .audio i (writeAll .audio r.okA (headTime g).1 g).2.1 = [((pend g i).map Seg.data).getD []] ∧
        names .audio i (writeAll .audio r.okA (headTime g).1 g).2.1 = [(headTime g).1] ∧
        pend (writeAll .audio r.okA (headTime g).1 g).1 i = none := by
      intro i hi
      rcases writeAll_slot .audio r.okA (headTime g).1 i g hNg (by rw [hKg]; exact hi) with hh | ⟨_, _, _, hf⟩
      · exact hh
      · rw [hokk] at hf; simp at hf
    rw [hw]
    refine ⟨?_, fun e => absurd e (by simp), fun _ => ⟨?_, fun i hi => ⟨?_, ?_⟩⟩⟩
    · exact fun i hi => (hslot i hi).2.2
    · show lists .audio (_ ++ (_ ++ _)) = _
      rw [lists_append, w2, lists_append, lists_writeAll, hxf]; simp [lists]
    · show files .audio i (_ ++ (_ ++ _)) = _
      obtain ⟨y, hy⟩ := Option.isSome_iff_exists.1 (hans i hi)
      rw [files_append, (w1 i).1, files_append, (hslot i hi).1, hpg i hi, hy]; simp [files]
    · show names .audio i (_ ++ (_ ++ _)) = _
      rw [names_append, (w1 i).2, names_append, (hslot i hi).2.1, hxf, hht]; simp [names]

/-- The video part of a round, if files can be written, enters one segment in exactly these rounds. -/
theorem video_listed_iff {s : State} (hc : s.configured = true) (r : Round) (hok : ∀ i, r.okV i = true) :
    (lists .video (round s r).2).length = if videoReady s r then 1 else 0 := by
  obtain ⟨_, _, _, e4⟩ := round_grp (k := .video) hc (fun h => by cases h) r
  rw [e4]
  show (lists .video (writeGrp .video r.okV (r.frames.foldl frame s).v).2).length = _
  have hvr : videoReady s r = (!(r.frames.foldl frame s).v.isEmpty && (r.frames.foldl frame s).v.complete) := rfl
  rw [hvr]
  generalize (r.frames.foldl frame s).v = g
  rw [writeGrp]
  by_cases h1 : g.isEmpty = true
  · rw [if_pos h1]; simp [h1, lists]
  · rw [if_neg h1]
    by_cases h2 : (!g.complete) = true
    · rw [if_pos h2]; simp at h2; simp [h2, lists]
    · rw [if_neg h2]
      dsimp only
      rw [lists_append, lists_writeAll, lists_listing, writeAll_ok _ _ _ g (fun i _ => hok i)]
      have h2' : g.complete = true := by simpa using h2
      have h1' : g.isEmpty = false := by simpa using h1
      simp [h1', h2']

/-- **C67 (as many audio as video).**  If files can be written and the audio streams always have something to
close, then at every moment the timelines of audio and video have had the same number of entries. -/
theorem as_many_audio_as_video (ops : List Op) (hs : ∀ op ∈ ops, Setup op) (hv : (ready ops).v ≠ [])
    (ha : (ready ops).a ≠ []) (rs : List Round) (hok : ∀ r ∈ rs, ∀ i, r.okV i = true ∧ r.okA i = true)
    (hans : ∀ r ∈ rs, ∀ i ∈ keys (ready ops).a, (r.force i).isSome = true) :
    (lists .audio (rounds (ready ops) rs).2).length = (lists .video (rounds (ready ops) rs).2).length := by
  have hc : (ready ops).configured = true := by
    cases hcc : (ready ops).configured with
    | true => rfl
    | false => exact absurd ((ready_inv ops).conf hcc).2.1 hv
  have main : ∀ (rs : List Round) (s : State), Inv s → s.configured = true → s.v ≠ [] → s.a ≠ [] →
      (∀ i ∈ keys s.a, pend s.a i = none) → (∀ r ∈ rs, ∀ i, r.okV i = true ∧ r.okA i = true) →
      (∀ r ∈ rs, ∀ i ∈ keys s.a, (r.force i).isSome = true) →
      (lists .audio (rounds s rs).2).length = (lists .video (rounds s rs).2).length := by
    intro rs
    induction rs with
    | nil => intros; rfl
    | cons r rs ih =>
      intro s hi hc hv ha hf hok hans
      obtain ⟨first, others, hk⟩ : ∃ f o, keys s.a = f :: o := by
        cases hsa : s.a with
        | nil => exact absurd hsa ha
        | cons x l => exact ⟨x.1, keys l, rfl⟩
      have hr := hok r List.mem_cons_self
      obtain ⟨p1, p2, p3⟩ := audio_closed_with_video hi hc hv hk hf r (fun i => (hr i).2) (hans r List.mem_cons_self)
      have pv := video_listed_iff (s := s) hc r fun i => (hr i).1
      obtain ⟨q1, q2, q3⟩ := round_facts s r
      have hrest := ih (round s r).1 (hi.round r) (q1.trans hc)
        (fun e => by rw [e] at q2; exact hv (keys_nil q2.symm))
        (fun e => by rw [e] at q3; exact ha (keys_nil q3.symm))
        (fun i hi => p1 i (by rw [← q3]; exact hi))
        (fun r' hr' => hok r' (List.mem_cons_of_mem _ hr'))
        (fun r' hr' i hi => hans r' (List.mem_cons_of_mem _ hr') i (by rw [← q3]; exact hi))
      rw [rounds_cons, lists_append, lists_append, List.length_append, List.length_append, hrest, pv]
      congr 1
      cases hb : videoReady s r with
      | false => rw [(p2 hb).1]; rfl
      | true =>
        rw [(p3 hb).1]
        obtain ⟨x, hx⟩ := Option.isSome_iff_exists.1 (hans r List.mem_cons_self first (by rw [hk]; simp))
        rw [hx]; rfl
  exact main rs _ (ready_inv ops) hc hv ha (fun i _ => ready_pend ops hs .audio i) hok hans

def setupAV : List Op := [.configure 2, .add 1 .h264, .add 2 .aac, .add 3 .aac]

example : (rounds (ready setupAV) [rnd [vf 1 100 none, vf 2 100 (some (sg 0 9))],
      rnd [vf 1 110 (some (sg 0 1))] (fun i => some (sg (i + 5) 8))]).2 =
    [.file .video 1 0 [1], .listed .video 0 10, .file .audio 2 7 [8], .file .audio 3 7 [8], .listed .audio 7 10] := by
  decide

/-- **C67 (recorded exception).**  If one audio stream has nothing to close, the streams after it are not asked,
no audio is written with that video segment, and what the streams before it closed is replaced, and lost, at the
next video segment. -/
theorem silent_audio_stream_loses_others :
    (rounds (ready setupAV) [rnd [vf 1 110 (some (sg 0 1))] (fun i => if i = 2 then some (sg 0 8) else none),
      rnd [vf 1 120 (some (sg 10 2))] (fun _ => some (sg 10 7))]).2 =
    [.file .video 1 0 [1], .listed .video 0 10, .file .video 1 10 [2], .listed .video 10 10,
      .file .audio 2 10 [7], .file .audio 3 10 [7], .listed .audio 10 10] := by decide

/-! ## The reference time sent back to the encoders -/

/-- The reference times sent to the filter before a reader. -/
def refs (i : Nat) (es : List Eff) : List Nat :=
  es.filterMap fun e => match e with
    | .reference i' t => if i' = i then some t else none
    | _ => none

/-- Presentation times of the frames of a stream that did not close a segment. -/
def openTimes (i : Nat) (fs : List Fr) : List Nat :=
  fs.filterMap fun f => if f.id = i ∧ f.initOk = true ∧ f.made = none then f.managed else none

def lastOf (g : Group) (i : Nat) : Option Nat := (g.lookup i).map Slot.last

theorem lookup_some_of_key {g : Group} {i : Nat} (hi : i ∈ keys g) : ∃ s, g.lookup i = some s := by
  induction g with
  | nil => simp [keys] at hi
  | cons x l ih =>
    obtain ⟨j, s⟩ := x
    simp only [List.lookup_cons]
    by_cases hij : i = j
    · subst hij; exact ⟨s, by simp⟩
    · have e : (i == j) = false := by simp [hij]
      simp only [e]
      simp only [keys, List.map_cons, List.mem_cons] at hi
      exact ih (hi.resolve_left hij)

theorem frame_last {s : State} (h : Inv s) {i : Nat} (hi : i ∈ keys s.v) (f : Fr) :
    lastOf (frame s f).v i = ((openTimes i [f]).getLast?).or (lastOf s.v i) := by
  obtain ⟨hv, _, hh, _, _, _⟩ := setOffset_frame s f.time
  have hkind := (h.seg i .video).2 hi
  rw [frame]
  cases hl : s.segs.lookup f.id with
  | none =>
    have hne : ¬ f.id = i := by
      rintro rfl
      rw [hl] at hkind
      simp at hkind
    simp [openTimes, hne]
  | some sg =>
    have hsg : f.id = i → sg.kind = .video := by
      rintro rfl
      rw [hl] at hkind
      simpa using hkind
    dsimp only
    cases hm : f.managed with
    | none => simp [openTimes, hm, hv]
    | some pts =>
      dsimp only
      by_cases hok : f.initOk = true
      · rw [if_pos hok]
        by_cases hid : f.id = i
        · rw [hsg hid]
          show lastOf (Group.feed _ _ _ _) i = _
          obtain ⟨sl, hsl⟩ := lookup_some_of_key hi
          simp only [lastOf]
          rw [lookup_feed, if_pos hid.symm, hv, hsl]
          simp only [openTimes, List.filterMap_cons, List.filterMap_nil, hid, hm, hok, true_and]
          cases hmade : f.made with
          | none => simp [Slot.feed]
          | some x => simp [Slot.feed]
        · have e : openTimes i [f] = [] := by simp [openTimes, hid]
          rw [e]
          have hii : ¬ i = f.id := fun e => hid e.symm
          show _ = lastOf s.v i
          rw [generate.eq_def]
          split
          · show lastOf (Group.feed _ _ _ _) i = _
            simp only [lastOf]
            rw [lookup_feed, if_neg hii, hv]
          · split
            · rw [hv]
            · show lastOf (setOffset s f.time).v i = _
              rw [hv]
      · rw [if_neg hok, hv]
        simp [openTimes, hok]

theorem frames_last {s : State} (h : Inv s) {i : Nat} (hi : i ∈ keys s.v) (fs : List Fr) :
    lastOf (fs.foldl frame s).v i = ((openTimes i fs).getLast?).or (lastOf s.v i) := by
  induction fs generalizing s with
  | nil => simp [openTimes]
  | cons f fs ih =>
    have e : openTimes i (f :: fs) = openTimes i [f] ++ openTimes i fs := by
      simp only [openTimes]; rw [← List.filterMap_append]; rfl
    show lastOf (fs.foldl frame (frame s f)).v i = _
    rw [ih (h.frame f) (by rw [(frame_facts s f).2.2.2.1]; exact hi), frame_last h hi f, e, List.getLast?_append]
    cases (openTimes i fs).getLast? <;> rfl

theorem last_writeAll (k : Kind) (ok : Nat → Bool) (t i : Nat) (g : Group) : lastOf (writeAll k ok t g).1 i = lastOf g i := by
  induction g with
  | nil => rfl
  | cons x l ih =>
    obtain ⟨j, s⟩ := x
    rw [writeAll]
    split
    · simp only [lastOf, List.lookup_cons] at ih ⊢
      split
      · rfl
      · exact ih
    · rfl

theorem round_last {s : State} (h : Inv s) (hc : s.configured = true) {i : Nat} (hi : i ∈ keys s.v) (r : Round) :
    lastOf (round s r).1.v i = ((openTimes i r.frames).getLast?).or (lastOf s.v i) := by
  rw [← frames_last h hi]
  obtain ⟨e1, _⟩ := round_grp (k := .video) hc (fun h => by cases h) r
  have e1' : (round s r).1.v = (writeGrp .video (okOf r .video) (r.frames.foldl frame s).v).1 := e1
  rw [e1', writeGrp]
  split
  · rfl
  · split
    · rfl
    · exact last_writeAll _ _ _ _ _

/-- The last such time of a stream in a row of rounds, 0 before the first. -/
def lastTime (i : Nat) (rs : List Round) : Nat := ((rs.flatMap fun r => openTimes i r.frames).getLast?).getD 0

theorem rounds_last (ops : List Op) (hs : ∀ op ∈ ops, Setup op) (rs : List Round) {i : Nat} (hi : i ∈ keys (ready ops).v) :
    lastOf (rounds (ready ops) rs).1.v i = some (lastTime i rs) := by
  have hc : (ready ops).configured = true := by
    cases hcc : (ready ops).configured with
    | true => rfl
    | false => rw [((ready_inv ops).conf hcc).2.1] at hi; simp [keys] at hi
  have h0 : lastOf (ready ops).v i = some 0 := by
    obtain ⟨x, hx⟩ := mem_of_key hi
    have := (setup_slots (s := State.init) (fun k x hx => by cases k <;> simp [State.init, grp] at hx) ops hs).1 .video (i, x) hx
    simp only at this
    rw [lastOf, lookup_mem (g := (ready ops).v) ((ready_inv ops).nodup .video) hx, this]; rfl
  have main : ∀ (rs : List Round) (s : State), Inv s → s.configured = true → i ∈ keys s.v →
      lastOf (rounds s rs).1.v i = ((rs.flatMap fun r => openTimes i r.frames).getLast?).or (lastOf s.v i) := by
    intro rs
    induction rs with
    | nil => intro s _ _ _; rfl
    | cons r rs ih =>
      intro s h hc hi
      rw [rounds_cons]
      show lastOf (rounds (round s r).1 rs).1.v i = _
      rw [ih _ (h.round r) ((round_facts s r).1.trans hc) (by rw [(round_facts s r).2.1]; exact hi), round_last h hc hi,
        List.flatMap_cons, List.getLast?_append]
      cases (rs.flatMap fun r => openTimes i r.frames).getLast? <;> rfl
  rw [main rs _ (ready_inv ops) hc hi, h0, lastTime]
  cases (rs.flatMap fun r => openTimes i r.frames).getLast? <;> rfl

theorem rounds_segDur (s : State) (rs : List Round) : (rounds s rs).1.segDur = s.segDur := by
  induction rs generalizing s with
  | nil => rfl
  | cons r rs ih =>
    rw [rounds_cons]
    show (rounds (round s r).1 rs).1.segDur = _
    rw [ih, round]
    split
    · rfl
    · dsimp only
      rw [writeAudio_grp]
      show (writeVideo _ _ _).1.segDur = _
      rw [writeVideo]
      split
      · exact (frames_facts s r.frames).2.1
      · split
        · exact (frames_facts s r.frames).2.1
        · exact (frames_facts s r.frames).2.1

theorem refs_other {es : List Eff} (h : ∀ e ∈ es, ∀ i t, e ≠ .reference i t) (i : Nat) : refs i es = [] := by
  refine List.filterMap_eq_nil_iff.2 fun e he => ?_
  have := h e he
  cases e with
  | reference i' t => exact absurd rfl (this i' t)
  | listed k t d => rfl
  | file k i t d => rfl

theorem writeAll_no_refs (k : Kind) (ok : Nat → Bool) (t : Nat) (g : Group) :
    ∀ e ∈ (writeAll k ok t g).2.1, ∀ i t', e ≠ .reference i t' := by
  induction g with
  | nil => simp [writeAll]
  | cons x l ih =>
    obtain ⟨j, s⟩ := x
    rw [writeAll]
    split
    · intro e he
      rcases List.mem_cons.1 he with rfl | he
      · intro i t' e; cases e
      · exact ih e he
    · simp

theorem listing_no_refs (k : Kind) (b : Bool) (t : Nat × Nat) : ∀ e ∈ listing k b t, ∀ i t', e ≠ .reference i t' := by
  cases b
  · simp [listing]
  · simp [listing]

theorem refs_append (i : Nat) (a b : List Eff) : refs i (a ++ b) = refs i a ++ refs i b := List.filterMap_append

theorem writeGrp_no_refs (k : Kind) (ok : Nat → Bool) (g : Group) (i : Nat) : refs i (writeGrp k ok g).2 = [] := by
  rw [writeGrp]
  split
  · rfl
  · split
    · rfl
    · dsimp only
      rw [refs_append, refs_other (writeAll_no_refs _ _ _ _), refs_other (listing_no_refs _ _ _)]; rfl

theorem refs_map (l : Group) (hn : (keys l).Nodup) (T i : Nat) :
    refs i (l.map fun y => Eff.reference y.1 T) = if i ∈ keys l then [T] else [] := by
  induction l with
  | nil => rfl
  | cons x l ih =>
    obtain ⟨j, s⟩ := x
    simp only [keys, List.map_cons, List.nodup_cons] at hn
    have := ih hn.2
    simp only [refs, List.map_cons, List.filterMap_cons] at this ⊢
    by_cases hij : j = i
    · subst hij
      rw [if_neg (show ¬ j ∈ keys l from hn.1)] at this
      simp only [if_true, this, keys, List.map_cons, List.mem_cons, true_or]
    · have h' : ¬ i = j := fun e => hij e.symm
      have hm : i ∈ keys ((j, s) :: l) ↔ i ∈ keys l := by simp [keys, h']
      simp only [hij, if_false, this]
      by_cases hi : i ∈ keys l
      · rw [if_pos hi, if_pos (hm.2 hi)]
      · rw [if_neg hi, if_neg (fun h => hi (hm.1 h))]

/-- **C67 (reference time).**  When all video streams have their segment and the last frames in them do not all
carry the same time, every video stream is told, once, to start its next group of pictures one segment duration
after the first stream's last frame; otherwise nobody is told anything. -/
theorem reference_when_apart (ops : List Op) (hs : ∀ op ∈ ops, Setup op) (first : Nat) (others : List Nat)
    (hk : keys (ready ops).v = first :: others) (rs : List Round) (r : Round) (i : Nat) :
    refs i (round (rounds (ready ops) rs).1 r).2 =
      if videoReady (rounds (ready ops) rs).1 r = true ∧ i ∈ first :: others ∧
        (∃ j ∈ first :: others, lastTime j (rs ++ [r]) ≠ lastTime first (rs ++ [r]))
      then [lastTime first (rs ++ [r]) + (ready ops).segDur * 1000000] else [] := by
  have hc0 : (ready ops).configured = true := by
    cases hcc : (ready ops).configured with
    | true => rfl
    | false => rw [((ready_inv ops).conf hcc).2.1] at hk; simp [keys] at hk
  obtain ⟨f1, f2, _⟩ := rounds_facts (ready ops) rs .video
  have hI := (ready_inv ops).rounds rs
  have hsd := rounds_segDur (ready ops) rs
  have hlast := fun j (hj : j ∈ keys (ready ops).v) => rounds_last ops hs (rs ++ [r]) hj
  rw [rounds_snoc] at hlast
  obtain ⟨s, hsq⟩ : ∃ s, s = (rounds (ready ops) rs).1 := ⟨_, rfl⟩
  rw [← hsq] at f1 f2 hI hsd hlast ⊢
  have hc : s.configured = true := f1.trans hc0
  have hK : keys s.v = first :: others := f2.trans hk
  rw [hk] at hlast
  have hKg : keys (r.frames.foldl frame s).v = first :: others := by rw [(frames_facts s r.frames).2.2.2.1]; exact hK
  have hlg : ∀ j ∈ first :: others, lastOf (r.frames.foldl frame s).v j = some (lastTime j (rs ++ [r])) := by
    intro j hj
    rw [← hlast j hj, frames_last hI (by rw [hK]; exact hj), ← round_last hI hc (by rw [hK]; exact hj)]
  have hNg : (keys (r.frames.foldl frame s).v).Nodup := (hI.frames r.frames).nodup .video
  have hseg := (frames_facts s r.frames).2.1
  rw [round, if_neg (by simp [hc])]
  dsimp only
  rw [writeAudio_grp, refs_append, writeGrp_no_refs, List.append_nil]
  have hvr : videoReady s r = (!(r.frames.foldl frame s).v.isEmpty && (r.frames.foldl frame s).v.complete) := rfl
  rw [hvr]
  clear hvr
  generalize r.frames.foldl frame s = s1 at hKg hlg hNg hseg ⊢
  rw [writeVideo]
  by_cases h1 : s1.v.isEmpty = true
  · rw [if_pos h1, if_neg (by rintro ⟨h, _⟩; simp [h1] at h)]; rfl
  · rw [if_neg h1]
    by_cases h2 : (!s1.v.complete) = true
    · rw [if_pos h2, if_neg (by rintro ⟨h, _⟩; simp at h2; simp [h2] at h)]; rfl
    · rw [if_neg h2]
      dsimp only
      rw [refs_append, refs_append, refs_other (writeAll_no_refs _ _ _ _), refs_other (listing_no_refs _ _ _)]
      simp only [List.append_nil]
      have hready : (!s1.v.isEmpty && s1.v.complete) = true := by
        have h2' : s1.v.complete = true := by simpa using h2
        have h1' : s1.v.isEmpty = false := by simpa using h1
        simp [h1', h2']
      obtain ⟨g, hg⟩ : ∃ g, g = s1.v := ⟨_, rfl⟩
      rw [← hg] at hKg hlg hNg ⊢
      rw [hg, hready, ← hg]
      cases hgg : g with
      | nil => rw [hgg] at hKg; simp [keys] at hKg
      | cons x l =>
        rw [hgg] at hKg hlg hNg
        have hx1 : x.1 = first := by simp only [keys, List.map_cons, List.cons.injEq] at hKg; exact hKg.1
        have hval : ∀ y ∈ x :: l, y.2.last = lastTime y.1 (rs ++ [r]) := by
          intro y hy
          have hm := mem_keys hy
          rw [hKg] at hm
          have := hlg y.1 hm
          rw [lastOf, lookup_mem hNg hy] at this
          simpa using this
        have hxl : x.2.last = lastTime first (rs ++ [r]) := by rw [hval x List.mem_cons_self, hx1]
        have hany : ((x :: l).any fun y => y.2.last != x.2.last) = true ↔
            ∃ j ∈ first :: others, lastTime j (rs ++ [r]) ≠ lastTime first (rs ++ [r]) := by
          rw [List.any_eq_true]
          constructor
          · rintro ⟨y, hy, hne⟩
            refine ⟨y.1, by rw [← hKg]; exact mem_keys hy, ?_⟩
            rw [← hval y hy, ← hxl]
            simpa using hne
          · rintro ⟨j, hj, hne⟩
            rw [← hKg] at hj
            obtain ⟨sl, hsl⟩ := mem_of_key hj
            refine ⟨(j, sl), hsl, ?_⟩
            rw [hval _ hsl, hxl]
            simpa using hne
        rw [references]
        by_cases ha : ((x :: l).any fun y => y.2.last != x.2.last) = true
        · rw [if_pos ha, refs_map _ hNg, hKg, hxl, hseg, hsd]
          by_cases hi : i ∈ first :: others
          · rw [if_pos hi, if_pos ⟨rfl, hi, hany.1 ha⟩]
          · rw [if_neg hi, if_neg (by rintro ⟨_, h, _⟩; exact hi h)]
        · rw [if_neg ha, if_neg (by rintro ⟨_, _, h⟩; exact ha (hany.2 h))]; rfl

example : (rounds (ready setup2) [rnd [vf 4 100 none, vf 7 105 none],
      rnd [vf 4 110 (some (sg 0 1)), vf 7 110 (some (sg 0 2))]]).2 =
    [.reference 4 2000100, .reference 7 2000100, .file .video 4 0 [1], .file .video 7 0 [2], .listed .video 0 10] := by decide

/-! ## Readers -/

/-- **C67 (readers).**  A reader is accepted exactly when the filter is configured, the reader is new and its
codec is H.264, H.265 or AAC; it can be removed exactly when it was accepted; and after any history every accepted
reader is exactly one of video and audio, and audio segments are cut on their own exactly when there is no
video reader. -/
theorem readers_consistent (ops : List Op) (id : Nat) (q : Queue) :
    ((addReader (ready ops) id q).2 = true ↔
      (ready ops).configured = true ∧ id ∉ keys (ready ops).v ∧ id ∉ keys (ready ops).a ∧
        (q = .h264 ∨ q = .h265 ∨ q = .aac)) ∧
    ((delReader (ready ops) id).2 = true ↔ id ∈ keys (ready ops).v ∨ id ∈ keys (ready ops).a) ∧
    ¬ (id ∈ keys (ready ops).v ∧ id ∈ keys (ready ops).a) ∧
    ((ready ops).hasVideo = false ↔ (ready ops).v = []) := by
  have h := ready_inv ops
  have hv := h.seg id .video
  have ha := h.seg id .audio
  simp only [grp] at hv ha
  obtain ⟨s, hs⟩ : ∃ s, s = ready ops := ⟨_, rfl⟩
  rw [← hs] at h hv ha ⊢
  have hsome : (s.segs.lookup id).isSome = true ↔ id ∈ keys s.v ∨ id ∈ keys s.a := by
    rw [← hv, ← ha]
    cases hl : s.segs.lookup id with
    | none => simp
    | some x =>
      obtain ⟨k, o⟩ := x
      cases k <;> simp
  refine ⟨?_, ?_, ?_, ?_⟩
  · rw [addReader]
    by_cases hc : s.configured = true
    · rw [if_neg (by simp [hc])]
      by_cases hl : (s.segs.lookup id).isSome = true
      · rw [if_pos hl]
        constructor
        · intro e; cases e
        · rintro ⟨_, h1, h2, _⟩
          rcases hsome.1 hl with h | h
          · exact absurd h h1
          · exact absurd h h2
      · rw [if_neg hl]
        have hno : id ∉ keys s.v ∧ id ∉ keys s.a := by
          constructor
          · intro h; exact hl (hsome.2 (Or.inl h))
          · intro h; exact hl (hsome.2 (Or.inr h))
        cases q <;> simp [Queue.kind, hc, hno]
    · rw [if_pos (by simpa using hc)]
      simp [hc]
  · rw [delReader]
    by_cases hl : (s.segs.lookup id).isSome = true
    · rw [if_pos hl]; simp only [true_iff]; exact hsome.1 hl
    · rw [if_neg hl]
      constructor
      · intro e; cases e
      · intro e; exact absurd (hsome.2 e) hl
  · rintro ⟨h1, h2⟩
    have a := hv.2 h1
    have b := ha.2 h2
    rw [a] at b; cases b
  · rw [h.hv]
    cases s.v <;> simp

/-- A reader that is accepted, or removed, is then there, or gone, and the others stay. -/
theorem readers_change (ops : List Op) (id i : Nat) (q : Queue) (k : Kind) :
    ((addReader (ready ops) id q).2 = true →
      (i ∈ keys (grp (addReader (ready ops) id q).1 k) ↔ (i = id ∧ q.kind = some k) ∨ i ∈ keys (grp (ready ops) k))) ∧
    (i ∈ keys (grp (delReader (ready ops) id).1 k) ↔ i ≠ id ∧ i ∈ keys (grp (ready ops) k)) := by
  constructor
  · rw [addReader]
    split
    · intro e; cases e
    · split
      · intro e; cases e
      · split
        · intro e; cases e
        · rename_i hq
          intro _
          cases k
          · show i ∈ keys (Group.insert _ _) ↔ _
            rw [keys_insert_mem, hq]; simp [grp]
          · rw [hq]; simp [grp]
        · rename_i hq
          intro _
          cases k
          · rw [hq]; simp [grp]
          · show i ∈ keys (Group.insert _ _) ↔ _
            rw [keys_insert_mem, hq]; simp [grp]
  · rw [delReader]
    split
    · have e : ∀ g : Group, i ∈ keys (g.filter fun x => x.1 != id) ↔ i ≠ id ∧ i ∈ keys g := by
        intro g
        rw [keys_filter, List.mem_filter]
        simp [and_comm]
      cases k
      · exact e _
      · exact e _
    · rename_i hl
      constructor
      · intro hi
        refine ⟨?_, hi⟩
        rintro rfl
        have := ((ready_inv ops).seg i k).2 hi
        cases hs : (ready ops).segs.lookup i with
        | none => rw [hs] at this; cases this
        | some x => rw [hs] at hl; exact hl rfl
      · exact fun h => h.2

example : (addReader (ready setup2) 9 .aac).2 = true ∧ (addReader (ready setup2) 7 .aac).2 = false ∧
    (delReader (ready setup2) 4).2 = true := by decide

/-! ## The common origin of time -/

/-- The times of the frames handed to segmenters, in order. -/
def handed (s : State) (fs : List Fr) : List Nat :=
  (fs.filter fun f => (s.segs.lookup f.id).isSome).map Fr.time

/-- The first time that is not zero, or zero. -/
def firstTime : List Nat → Nat
  | [] => 0
  | t :: ts => if t = 0 then firstTime ts else t

theorem lookup_isSome_map (l : List (Nat × Segmenter)) (t i : Nat) :
    ((l.map fun x => (x.1, { x.2 with off := t })).lookup i).isSome = (l.lookup i).isSome := by
  have := lookup_map_off l t i
  have h := congrArg Option.isSome this
  simpa using h

theorem frame_offset (s : State) (f : Fr) :
    (frame s f).offset = (if s.offset = 0 ∧ (s.segs.lookup f.id).isSome = true then f.time else s.offset) ∧
    ∀ i, ((frame s f).segs.lookup i).isSome = (s.segs.lookup i).isSome := by
  have hg : ∀ (s : State) k id pts ans, (generate s k id pts ans).offset = s.offset ∧ (generate s k id pts ans).segs = s.segs := by
    intro s k id pts ans
    rw [generate.eq_def]
    split
    · exact ⟨rfl, rfl⟩
    · split <;> exact ⟨rfl, rfl⟩
  have hso : (setOffset s f.time).offset = (if s.offset = 0 then f.time else s.offset) ∧
      ∀ i, ((setOffset s f.time).segs.lookup i).isSome = (s.segs.lookup i).isSome := by
    rw [setOffset]
    split
    · exact ⟨rfl, fun i => lookup_isSome_map _ _ _⟩
    · exact ⟨rfl, fun _ => rfl⟩
  rw [frame]
  cases hl : s.segs.lookup f.id with
  | none => simp
  | some sg =>
    dsimp only
    simp only [Option.isSome_some, and_true]
    cases f.managed with
    | none => exact hso
    | some pts =>
      dsimp only
      split
      · rw [(hg _ _ _ _ _).1, (hg _ _ _ _ _).2]; exact hso
      · exact hso

theorem frames_offset (s : State) (fs : List Fr) :
    (fs.foldl frame s).offset = (if s.offset = 0 then firstTime (handed s fs) else s.offset) ∧
    ∀ i, ((fs.foldl frame s).segs.lookup i).isSome = (s.segs.lookup i).isSome := by
  induction fs generalizing s with
  | nil => exact ⟨by simp [handed, firstTime], fun _ => rfl⟩
  | cons f fs ih =>
    obtain ⟨h1, h2⟩ := frame_offset s f
    obtain ⟨g1, g2⟩ := ih (frame s f)
    refine ⟨?_, fun i => (g2 i).trans (h2 i)⟩
    show (fs.foldl frame (frame s f)).offset = _
    have hh : handed (frame s f) fs = handed s fs := by
      simp only [handed]
      congr 1
      apply List.filter_congr
      intro x _
      exact h2 x.id
    rw [g1, hh, h1]
    by_cases h0 : s.offset = 0
    · by_cases hl : (s.segs.lookup f.id).isSome = true
      · simp only [h0, hl, and_self, if_true, handed, List.filter_cons, List.map_cons, firstTime]
      · have hl' : (s.segs.lookup f.id).isSome = false := Bool.eq_false_iff.2 hl
        simp [h0, hl', handed]
    · simp [h0]

/-- **C68 (one origin).**  After any history all streams count from the same origin, also those added later. -/
theorem one_origin (ops : List Op) : ∀ x ∈ (ready ops).segs, x.2.off = (ready ops).offset := (ready_inv ops).off

theorem round_offset {s : State} (hc : s.configured = true) (r : Round) :
    (round s r).1.offset = if s.offset = 0 then firstTime (handed s r.frames) else s.offset := by
  rw [← (frames_offset s r.frames).1, round, if_neg (by simp [hc])]
  dsimp only
  rw [writeAudio_grp]
  show (writeVideo _ _ _).1.offset = _
  rw [writeVideo]
  split
  · rfl
  · split <;> rfl

/-- **C68 (the origin).**  The origin is the time of the first frame handed to a stream whose time is not zero,
and it never changes after that, whatever readers come and go. -/
theorem origin_is_first_frame (ops : List Op) (op : Op) :
    (step (ready ops) op).1.offset =
      if (ready ops).offset = 0 then
        match op with
        | .round r => firstTime (handed (ready ops) r.frames)
        | _ => 0
      else (ready ops).offset := by
  have h := ready_inv ops
  obtain ⟨s, hs⟩ : ∃ s, s = ready ops := ⟨_, rfl⟩
  rw [← hs] at h ⊢
  cases op with
  | configure d => simp [step, configure]
  | add id q =>
    have : (addReader s id q).1.offset = s.offset := by
      rw [addReader]
      split
      · rfl
      · split
        · rfl
        · split <;> rfl
    simp only [step, this]
    split
    · rename_i e; exact e
    · rfl
  | del id =>
    have : (delReader s id).1.offset = s.offset := by
      rw [delReader]; split <;> rfl
    simp only [step, this]
    split
    · rename_i e; exact e
    · rfl
  | round r =>
    show (round s r).1.offset = if s.offset = 0 then firstTime (handed s r.frames) else s.offset
    by_cases hc : s.configured = true
    · exact round_offset hc r
    · have hc' : s.configured = false := by simpa using hc
      have e : (round s r).1 = s := by rw [round, if_pos (by simp [hc'])]
      have hz : handed s r.frames = [] := by simp [handed, (h.conf hc').1]
      rw [e, hz]
      by_cases h0 : s.offset = 0
      · rw [if_pos h0, h0]; rfl
      · rw [if_neg h0]

example : (rounds (ready setup2) [rnd [vf 4 100 none, vf 7 90 none]]).1.offset = 100 := by decide

/-- **C68 (recorded exception).**  If the first frame's time is zero the origin moves to a later frame, so that a
later frame gets an earlier time. -/
theorem origin_moves_from_zero :
    (rounds (ready setup2) [rnd [vf 4 0 none]]).1.offset = 0 ∧
    (rounds (ready setup2) [rnd [vf 4 0 none], rnd [vf 4 40 none], rnd [vf 4 80 none]]).1.offset = 40 := by decide

/-- **C68 (conversion).**  A frame at or after the origin gets the time since the origin in units of the time base,
rounded down, as long as the product fits. -/
theorem time_since_origin (base off micros : Nat) (h : off ≤ micros) (hb : (micros - off) * base < 2 ^ 63) :
    ∃ t, toTimeBase base off micros = .ok t ∧ t * 1000000 ≤ (micros - off) * base ∧
      (micros - off) * base < (t + 1) * 1000000 := by
  have e : ((micros : Int) - off) * base = (((micros - off) * base : Nat) : Int) := by
    rw [Int.natCast_mul, Int.ofNat_sub h]
  refine ⟨(micros - off) * base / 1000000, ?_, ?_, ?_⟩
  · rw [toTimeBase, e]
    obtain ⟨p, hp⟩ : ∃ p, p = (micros - off) * base := ⟨_, rfl⟩
    rw [← hp] at hb ⊢
    rw [if_neg (by omega)]
    congr 1
    have : (p : Int).tdiv 1000000 = ((p / 1000000 : Nat) : Int) := by
      rw [Int.tdiv_eq_ediv_of_nonneg (by omega)]; omega
    rw [this]
    omega
  · exact Nat.div_mul_le_self _ _
  · have := Nat.lt_div_mul_add (a := (micros - off) * base) (b := 1000000) (by decide)
    rw [Nat.add_mul, Nat.one_mul]; exact this

/-- **C68 (order).**  Later frames never get earlier times. -/
theorem time_order (base off a b ta tb : Nat) (h : off ≤ a) (hab : a ≤ b) (hb : (b - off) * base < 2 ^ 63)
    (ea : toTimeBase base off a = .ok ta) (eb : toTimeBase base off b = .ok tb) : ta ≤ tb := by
  have hle : (a - off) * base ≤ (b - off) * base := Nat.mul_le_mul_right _ (by omega)
  obtain ⟨x, hx, x1, x2⟩ := time_since_origin base off a h (by omega)
  obtain ⟨y, hy, y1, y2⟩ := time_since_origin base off b (by omega) hb
  rw [hx] at ea; rw [hy] at eb
  cases ea; cases eb
  omega

example : toTimeBase 90000 1000000 1040000 = .ok 3600 := by decide
example : toTimeBase 48000 1000000 1021333 = .ok 1023 := by decide

/-- **C68 (recorded exception).**  A frame from before the origin (another stream's first frame may be earlier)
gets a time beyond two to the 63. -/
theorem before_origin_wraps (base off micros : Nat) (h : micros < off) (hb : (off - micros) * base ≤ 2 ^ 63)
    (h1 : 1000000 ≤ (off - micros) * base) : ∃ t, toTimeBase base off micros = .ok t ∧ 2 ^ 63 ≤ t := by
  have e : ((micros : Int) - off) * base = -(((off - micros) * base : Nat) : Int) := by
    rw [Int.natCast_mul, Int.ofNat_sub (by omega), ← Int.neg_mul, Int.neg_sub]
  rw [toTimeBase, e]
  obtain ⟨p, hp⟩ : ∃ p, p = (off - micros) * base := ⟨_, rfl⟩
  rw [← hp] at hb h1 ⊢
  rw [if_neg (by omega)]
  refine ⟨_, rfl, ?_⟩
  have : (-(p : Int)).tdiv 1000000 = -((p / 1000000 : Nat) : Int) := by
    rw [Int.neg_tdiv, Int.tdiv_eq_ediv_of_nonneg (by omega)]; omega
  rw [this]
  omega

example : toTimeBase 90000 1000000 999900 = .ok (2 ^ 64 - 9) := by decide

end Lms.DashTop
