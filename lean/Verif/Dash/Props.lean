import Verif.Dash.Lemmas

/-!
# C19: DASH video segments start at an intra frame and tile the timeline

The specification (`Spec.step`, `playable`, `Faithful`) is in `Verif.Dash.Lemmas`; it speaks of frames only.
-/

namespace Lms.Dash

open Isoff

/-- The specification run over a stream of frames. -/
noncomputable def Spec.run : Spec → List Frm → Spec × List (Option Closed)
  | t, [] => (t, [])
  | t, f :: fs => ((Spec.run (t.step f).1 fs).1, (t.step f).2 :: (Spec.run (t.step f).1 fs).2)

def AllMatch : List (Option Seg) → List (Option Closed) → Prop
  | [], [] => True
  | a :: l, b :: m => Matches a b ∧ AllMatch l m
  | _, _ => False

/-- A segmenter that has been configured and has received nothing. -/
def fresh (m : Media) (target : Nat) (extra : Bytes) (timeBase w h : Nat) : State :=
  { ctx := { media := m, extra := extra, timeBase := timeBase, sampleDuration := 0, width := w, height := h, channels := 0,
             sampleRate := 0, sampleSize := 0, ept := 0, seq := 0, cur := 0, samples := [], data := [], moofPos := 0,
             trunPos := 0, refSize := 0 }
    target := target, nseg := 0 }

theorem fresh_rel {m : Media} (hm : m.isVideo = true) {target : Nat} (ht : target < 2 ^ 32) (extra : Bytes)
    (timeBase w h : Nat) : Rel (fresh m target extra timeBase w h) ⟨target, [], 0⟩ :=
  ⟨hm, ⟨rfl, rfl⟩, rfl, rfl, by simp, rfl, rfl, ht, by simp⟩

theorem run_refines {cap : Nat} (hcap : cap < 2 ^ 32) (fs : List Frm) {s s' : State} {t : Spec} {outs : List (Option Seg)}
    (h : Rel s t) (hf : ∀ f ∈ fs, f.Valid) (he : runOps (videoFrame cap) s fs = .ok (s', outs)) :
    Rel s' (t.run fs).1 ∧ AllMatch outs (t.run fs).2 := by
  induction fs generalizing s t outs with
  | nil =>
    simp [runOps] at he
    obtain ⟨rfl, rfl⟩ := he
    exact ⟨h, trivial⟩
  | cons f fs ih =>
    obtain ⟨s1, o, outs', h1, h2, rfl⟩ := runOps_cons_ok he
    obtain ⟨r1, r2⟩ := frame_refines hcap h (hf f (by simp)) h1
    obtain ⟨r3, r4⟩ := ih r1 (fun x hx => hf x (List.mem_cons_of_mem _ hx)) h2
    exact ⟨r3, r2, r4⟩

/-- **C19 (every segment is faithful to its group of frames).**  Feed any stream of frames to a configured video
segmenter.  Unless a buffer overflows, segments appear exactly when the rule of the specification closes a
group, and each carries exactly the frames of its group. -/
theorem segments_follow_rule (cap : Nat) (hcap : cap < 2 ^ 32) (m : Media) (hm : m.isVideo = true) (target : Nat)
    (ht : target < 2 ^ 32) (extra : Bytes) (timeBase w h : Nat) (fs : List Frm) (hf : ∀ f ∈ fs, f.Valid)
    (s' : State) (outs : List (Option Seg))
    (he : runOps (videoFrame cap) (fresh m target extra timeBase w h) fs = .ok (s', outs)) :
    AllMatch outs (Spec.run ⟨target, [], 0⟩ fs).2 :=
  (run_refines hcap fs (fresh_rel hm ht extra timeBase w h) hf he).2

/-! ## No overflow -/

/-- A group that fits the buffers with its boxes. -/
def Fits (cap : Nat) (g : List Frm) : Prop :=
  (g.map fun f => f.data.length).sum ≤ MAX_DAT ∧ g.length ≤ MAX_MDAT_SAMPLE ∧
    176 + 16 * g.length + (g.map fun f => f.data.length).sum ≤ cap

theorem flat_length (g : List Frm) : (g.map Frm.data).flatten.length = (g.map fun f => f.data.length).sum := by
  induction g with
  | nil => rfl
  | cons a l ih => simp only [List.map_cons, List.flatten_cons, List.length_append, List.sum_cons]; rw [ih]

theorem close_ok {cap : Nat} {s : State} (h0 : 0 < s.ctx.data.length)
    (h : 176 + s.ctx.samples.length * nitems s.ctx.media * 4 + s.ctx.data.length ≤ cap) : ∃ r, close cap s = .ok r := by
  obtain ⟨c', b, hg, _⟩ := (segment_written_iff cap s.ctx).2 ⟨h0, h⟩
  simp only [close, hg, Outcome.bind_ok]
  exact ⟨_, rfl⟩

theorem setLast_length (l : List Smp) (d : Nat) : (setLast l d).length = l.length := by
  unfold setLast
  split
  · rfl
  · rename_i s h
    have : l ≠ [] := by intro e; rw [e] at h; simp at h
    have := List.length_pos_iff.2 this
    simp only [List.length_append, List.length_dropLast, List.length_singleton]; omega

theorem frame_ok {cap : Nat} (hcap : cap < 2 ^ 32) {s : State} {t : Spec} {f : Frm} (h : Rel s t) (hf : f.Valid)
    (h1 : Fits cap t.group) (h2 : Fits cap (t.step f).1.group) : ∃ r, videoFrame cap s f = .ok r := by
  have hgen : ∃ r, generateVideo cap s f.intra f.pts = .ok r := by
    simp only [generateVideo]
    cases hl : s.ctx.samples.getLast? with
    | none => exact ⟨_, rfl⟩
    | some l =>
      obtain ⟨d, hd⟩ : ∃ d, (f.pts % 2 ^ 32 + 2 ^ 64 - l.pts) % 2 ^ 64 % 2 ^ 32 = d := ⟨_, rfl⟩
      simp only [hd, closeIf]
      split
      · have hne : t.group ≠ [] := by
          intro e; rw [h.samples, e] at hl; simp [mkSamples] at hl
        have hd : 0 < s.ctx.data.length := by
          cases hg : t.group with
          | nil => exact absurd hg hne
          | cons x l =>
            rw [h.data, hg]
            have := (h.valid x (by rw [hg]; simp)).1
            simp only [List.map_cons, List.flatten_cons, List.length_append]; omega
        have hn : nitems s.ctx.media = 4 := by
          have := h.video
          revert this
          cases s.ctx.media <;> decide
        refine close_ok hd ?_
        simp only [setLast_length, hn]
        rw [h.data, h.samples, mkSamples_length, flat_length]
        have := h1.2.2
        omega
      · exact ⟨_, rfl⟩
  obtain ⟨r, hr⟩ := hgen
  -- the state after the possible closing corresponds to the specification's
  have hmid : ∃ t1 : Spec, Rel r.1 t1 ∧ ((t1.group = [] ∧ f.intra = false) ∨ t1.group ++ [f] = (t.step f).1.group) := by
    obtain ⟨c1, c2⟩ := generate_refines hcap h hr
    simp only [Spec.step]
    by_cases hc : t.closes f
    · refine ⟨_, (c1 hc).1, ?_⟩
      simp only [if_pos hc]
      split <;> rename_i hx
      · exact .inl hx
      · exact .inr rfl
    · refine ⟨_, (c2 hc).1, ?_⟩
      simp only [if_neg hc]
      split <;> rename_i hx
      · exact .inl hx
      · exact .inr rfl
  obtain ⟨t1, hr1, hg1⟩ := hmid
  have hadd : ∃ q, addVideo r.1 f = .ok q := by
    simp only [addVideo]
    split
    · exact ⟨_, rfl⟩
    · split
      · exact ⟨_, rfl⟩
      · rename_i hn1 hn2
        rcases hg1 with hg1 | hg1
        · exfalso
          apply hn2
          refine ⟨?_, hg1.2⟩
          rw [hr1.samples, hg1.1]; rfl
        · have hl1 : r.1.ctx.data.length + f.data.length = ((t.step f).1.group.map fun f => f.data.length).sum := by
            rw [← hg1, hr1.data, flat_length]; simp
          have hl2 : r.1.ctx.samples.length + 1 = (t.step f).1.group.length := by
            rw [← hg1, hr1.samples, mkSamples_length]; simp
          rw [if_neg (by have := h2.1; have := h2.2.1; omega)]
          split <;> exact ⟨_, rfl⟩
  obtain ⟨q, hq⟩ := hadd
  exact ⟨_, by simp only [videoFrame, hr, Outcome.bind_ok, hq]; rfl⟩

/-- **C19 (no overflow).**  If every group the rule forms fits the buffers, with 176 bytes of boxes and 16 per
sample, nothing overflows. -/
theorem video_no_overflow (cap : Nat) (hcap : cap < 2 ^ 32) (fs : List Frm) (s : State) (t : Spec) (h : Rel s t)
    (hf : ∀ f ∈ fs, f.Valid) (hfit : ∀ n, Fits cap (t.run (fs.take n)).1.group) :
    ∃ r, runOps (videoFrame cap) s fs = .ok r := by
  induction fs generalizing s t with
  | nil => exact ⟨_, rfl⟩
  | cons f fs ih =>
    obtain ⟨r, hr⟩ := frame_ok hcap h (hf f (by simp)) (hfit 0) (by simpa [Spec.run] using hfit 1)
    have hr' := (frame_refines (s' := r.1) (o := r.2) hcap h (hf f (by simp)) hr).1
    obtain ⟨q, hq⟩ := ih r.1 _ hr' (fun x hx => hf x (List.mem_cons_of_mem _ hx))
      (fun n => by simpa [Spec.run] using hfit (n + 1))
    exact ⟨_, by simp only [runOps, hr, Outcome.bind_ok, hq]; rfl⟩

/-! ## What the rule guarantees -/

/-- The groups closed in a run. -/
noncomputable def Spec.groups (t : Spec) (fs : List Frm) : List Closed := (t.run fs).2.filterMap id

/-- Cases of a step. -/
theorem step_cases (t : Spec) (f : Frm) :
    (t.closes f ∧ (t.step f).1 = { t with group := [f], closed := t.closed + 1 } ∧
      (t.step f).2 = some ⟨t.group, f.pts, t.closed⟩) ∨
    (¬ t.closes f ∧ t.group = [] ∧ f.intra = false ∧ (t.step f).1 = t ∧ (t.step f).2 = none) ∨
    (¬ t.closes f ∧ ¬ (t.group = [] ∧ f.intra = false) ∧ (t.step f).1 = { t with group := t.group ++ [f] } ∧
      (t.step f).2 = none) := by
  by_cases hc : t.closes f
  · left
    have hi := hc.2.1
    refine ⟨hc, ?_, ?_⟩ <;> simp [Spec.step, hc, hi]
  · right
    by_cases h : t.group = [] ∧ f.intra = false
    · left
      refine ⟨hc, h.1, h.2, ?_, ?_⟩ <;> simp only [Spec.step, if_neg hc, if_pos h]
    · right
      refine ⟨hc, h, ?_, ?_⟩ <;> simp only [Spec.step, if_neg hc, if_neg h]

theorem groups_cons (t : Spec) (f : Frm) (fs : List Frm) :
    t.groups (f :: fs) = (t.step f).2.toList ++ (t.step f).1.groups fs := by
  simp only [Spec.groups, Spec.run, List.filterMap_cons, id]
  cases (t.step f).2 <;> rfl

/-- **C19 (key frames).**  Every closed group starts with an intra frame. -/
theorem groups_start_intra (fs : List Frm) (t : Spec) (h : ∀ a, t.group.head? = some a → a.intra = true) :
    ∀ c ∈ t.groups fs, ∃ a l, c.frames = a :: l ∧ a.intra = true := by
  induction fs generalizing t with
  | nil => intro c hc; simp [Spec.groups, Spec.run] at hc
  | cons f fs ih =>
    intro c hc
    rw [groups_cons] at hc
    rcases step_cases t f with ⟨h1, h2, h3⟩ | ⟨h1, h2, h3, h4, h5⟩ | ⟨h1, h2, h3, h4⟩
    · rw [h2, h3] at hc
      rcases List.mem_append.1 hc with hc | hc
      · simp at hc
        subst hc
        cases hg : t.group with
        | nil => exact absurd hg h1.1
        | cons a l => exact ⟨a, l, by simp [hg], h a (by simp [hg])⟩
      · exact ih _ (by intro a ha; simp at ha; rw [← ha]; exact h1.2.1) c hc
    · rw [h4, h5] at hc
      exact ih t h c (by simpa using hc)
    · rw [h3, h4] at hc
      refine ih _ ?_ c (by simpa using hc)
      intro a ha
      cases hg : t.group with
      | nil =>
        rw [hg] at ha
        simp at ha
        subst ha
        cases hi : f.intra with
        | true => rfl
        | false => exact absurd ⟨hg, hi⟩ h2
      | cons x l =>
        rw [hg] at ha
        simp at ha
        exact h a (by rw [hg]; simp [ha])

/-- **C19 (every frame in exactly one group, in order).**  The frames of the closed groups, then those of the
open group, are the frames received from the first intra frame on. -/
theorem groups_partition (fs : List Frm) (t : Spec) :
    ((t.groups fs).map Closed.frames).flatten ++ (t.run fs).1.group =
      t.group ++ (if t.group = [] then fs.dropWhile (fun f => !f.intra) else fs) := by
  induction fs generalizing t with
  | nil => simp [Spec.groups, Spec.run]
  | cons f fs ih =>
    rw [groups_cons]
    have hrun : (t.run (f :: fs)).1 = ((t.step f).1.run fs).1 := rfl
    rw [hrun, List.map_append, List.flatten_append, List.append_assoc, ih]
    rcases step_cases t f with ⟨h1, h2, h3⟩ | ⟨h1, h2, h3, h4, h5⟩ | ⟨h1, h2, h3, h4⟩
    · rw [h2, h3]
      simp [h1.1]
    · rw [h4, h5, h2]
      simp [h3]
    · rw [h3, h4]
      by_cases hg : t.group = []
      · have hi : f.intra = true := by
          cases hi : f.intra with
          | true => rfl
          | false => exact absurd ⟨hg, hi⟩ h2
        simp [hg, hi]
      · simp [hg]

/-- **C19 (numbering).**  Groups are numbered consecutively. -/
theorem groups_numbered (fs : List Frm) (t : Spec) :
    (t.groups fs).map Closed.number = List.range' t.closed (t.groups fs).length := by
  induction fs generalizing t with
  | nil => simp [Spec.groups, Spec.run]
  | cons f fs ih =>
    rw [groups_cons]
    rcases step_cases t f with ⟨h1, h2, h3⟩ | ⟨h1, h2, h3, h4, h5⟩ | ⟨h1, h2, h3, h4⟩
    · rw [h2, h3]
      simp only [Option.toList_some, List.singleton_append, List.map_cons, List.length_cons, List.range'_succ]
      rw [ih]
    · rw [h4, h5]; simpa using ih t
    · rw [h3, h4]; simpa using ih { t with group := t.group ++ [f] }

/-- **C19 (a group ends where the next begins).**  The frame that closes a group is the first of the next. -/
theorem next_group_starts_with_closing_frame (fs : List Frm) (t : Spec) (i : Nat) (a b : Closed)
    (ha : (t.groups fs)[i]? = some a) (hb : (t.groups fs)[i + 1]? = some b) :
    ∃ f l, b.frames = f :: l ∧ f.pts = a.next ∧ f.intra = true := by
  have key : ∀ (fs : List Frm) (t : Spec) (b : Closed) (x : Frm) (l : List Frm), t.group = x :: l →
      (t.groups fs)[0]? = some b → ∃ l', b.frames = x :: l' := by
    intro fs
    induction fs with
    | nil => intro t b x l _ h; simp [Spec.groups, Spec.run] at h
    | cons f fs ih =>
      intro t b x l hg h
      rw [groups_cons] at h
      rcases step_cases t f with ⟨h1, h2, h3⟩ | ⟨h1, h2, h3, h4, h5⟩ | ⟨h1, h2, h3, h4⟩
      · rw [h3] at h
        simp at h
        exact ⟨l, by rw [← h, ← hg]⟩
      · rw [h2] at hg; simp at hg
      · rw [h3, h4] at h
        exact ih { t with group := t.group ++ [f] } b x (l ++ [f]) (by simp [hg]) h
  induction fs generalizing t i with
  | nil => simp [Spec.groups, Spec.run] at ha
  | cons f fs ih =>
    rw [groups_cons] at ha hb
    rcases step_cases t f with ⟨h1, h2, h3⟩ | ⟨h1, h2, h3, h4, h5⟩ | ⟨h1, h2, h3, h4⟩
    · rw [h2, h3] at ha hb
      cases i with
      | zero =>
        simp at ha hb
        obtain ⟨l', hl'⟩ := key fs { t with group := [f], closed := t.closed + 1 } b f [] rfl hb
        exact ⟨f, l', hl', by rw [← ha], h1.2.1⟩
      | succ i =>
        exact ih _ i (by simpa using ha) (by simpa using hb)
    · rw [h4, h5] at ha hb
      exact ih t i (by simpa using ha) (by simpa using hb)
    · rw [h3, h4] at ha hb
      exact ih _ i (by simpa using ha) (by simpa using hb)

/-- **C19 (each group was closed by the rule).**  A closed group and the frame that closed it met the rule. -/
theorem groups_meet_rule (fs : List Frm) (t : Spec) :
    ∀ c ∈ t.groups fs, c.frames ≠ [] ∧ ∃ f ∈ fs, f.intra = true ∧ f.pts = c.next ∧
      wrap (t.target - lastDuration c.frames c.next) ≤ groupDuration c.frames c.next := by
  induction fs generalizing t with
  | nil => intro c hc; simp [Spec.groups, Spec.run] at hc
  | cons f fs ih =>
    intro c hc
    rw [groups_cons] at hc
    have lift : ∀ t' : Spec, t'.target = t.target → c ∈ t'.groups fs → c.frames ≠ [] ∧ ∃ x ∈ f :: fs, x.intra = true ∧
        x.pts = c.next ∧ wrap (t.target - lastDuration c.frames c.next) ≤ groupDuration c.frames c.next := by
      intro t' ht hc
      obtain ⟨h1, x, hx, h2⟩ := ih t' c hc
      exact ⟨h1, x, List.mem_cons_of_mem _ hx, by rw [← ht]; exact h2⟩
    rcases step_cases t f with ⟨h1, h2, h3⟩ | ⟨h1, h2, h3, h4, h5⟩ | ⟨h1, h2, h3, h4⟩
    · rw [h2, h3] at hc
      rcases List.mem_append.1 hc with hc | hc
      · simp at hc
        subst hc
        exact ⟨h1.1, f, by simp, h1.2.1, rfl, h1.2.2⟩
      · exact lift { t with group := [f], closed := t.closed + 1 } rfl hc
    · rw [h4, h5] at hc
      exact lift t rfl (by simpa using hc)
    · rw [h3, h4] at hc
      exact lift { t with group := t.group ++ [f] } rfl (by simpa using hc)

/-- **C19 (the rule, without wrapping).**  For a last frame shorter than the target and a group shorter than
`2^32`, a group is closed by an intra frame exactly when its duration plus that of its last frame reaches the
target: a segment may fall short of the target by one frame. -/
theorem closing_rule (t : Spec) (f : Frm) (ht : t.target < 2 ^ 32) (h1 : lastDuration t.group f.pts ≤ t.target)
    (h2 : decoded t.group + lastDuration t.group f.pts < 2 ^ 32) :
    t.closes f ↔ t.group ≠ [] ∧ f.intra = true ∧
      t.target ≤ groupDuration t.group f.pts + lastDuration t.group f.pts := by
  unfold Spec.closes groupDuration
  have : wrap (t.target - lastDuration t.group f.pts) = t.target - lastDuration t.group f.pts := by
    unfold wrap; omega
  have h3 : wrap (decoded t.group + lastDuration t.group f.pts) = decoded t.group + lastDuration t.group f.pts := by
    unfold wrap; omega
  rw [this, h3]
  constructor
  · rintro ⟨a, b, c⟩; exact ⟨a, b, by omega⟩
  · rintro ⟨a, b, c⟩; exact ⟨a, b, by omega⟩

/-- **C19 (durations add up).**  The sample durations a player reads add up to the announced duration. -/
theorem durations_add_up (g : List Frm) (next : Nat) :
    (((playable g next).map fun p => p.1.duration.getD 0).sum) % 2 ^ 32 = groupDuration g next := by
  have key : ∀ g : List Frm, g ≠ [] → ∀ next, ((((playable g next).map fun p => p.1.duration.getD 0).sum : Nat) : Int) % 2 ^ 32 =
      ((decoded g : Int) + lastDuration g next) % 2 ^ 32 := by
    intro g hg next
    fun_induction playable g next with
    | case1 => exact absurd rfl hg
    | case2 f next => simp [decoded, lastDuration, wrap]
    | case3 f g l next ih =>
      have ih := ih (by simp)
      have e : lastDuration (f :: g :: l) next = lastDuration (g :: l) next := by
        simp only [lastDuration, List.getLast?_cons_cons]
      rw [e]
      simp only [List.map_cons, List.sum_cons, Option.getD_some]
      obtain ⟨b, hb⟩ : ∃ b, (g :: l).getLast? = some b := by
        cases h : (g :: l).getLast? with
        | none => simp at h
        | some b => exact ⟨b, rfl⟩
      have d1 : (decoded (g :: l) : Int) = (b.dts - g.dts) % 2 ^ 32 := by
        simp only [decoded, List.head?_cons, hb]; unfold wrap; omega
      have d2 : (decoded (f :: g :: l) : Int) = (b.dts - f.dts) % 2 ^ 32 := by
        simp only [decoded, List.head?_cons, List.getLast?_cons_cons, hb]; unfold wrap; omega
      have d3 : (wrap (g.dts - f.dts) : Int) = (g.dts - f.dts) % 2 ^ 32 := by unfold wrap; omega
      rw [d1] at ih
      rw [d2]
      obtain ⟨S, hS⟩ : ∃ S, (List.map (fun p => p.1.duration.getD 0) (playable (g :: l) next)).sum = S := ⟨_, rfl⟩
      rw [hS] at ih
      rw [hS]
      obtain ⟨L, hL⟩ : ∃ L, lastDuration (g :: l) next = L := ⟨_, rfl⟩
      rw [hL] at ih ⊢
      omega
  by_cases hg : g = []
  · subst hg; simp [playable, groupDuration, decoded, lastDuration, wrap]
  · have := key g hg next
    unfold groupDuration wrap
    omega

/-- **C19 (groups abut).**  With a constant composition offset the duration of a group is the distance from its
first frame to the frame that closed it (modulo `2^32`). -/
theorem group_duration_is_distance (g : List Frm) (a : Frm) (next off : Nat) (ha : g.head? = some a)
    (ho : ∀ f ∈ g, f.pts = f.dts + off) : groupDuration g next = wrap (next - a.pts) := by
  obtain ⟨b, hb⟩ : ∃ b, g.getLast? = some b := by
    cases h : g.getLast? with
    | none => rw [List.getLast?_eq_none_iff.1 h] at ha; simp at ha
    | some b => exact ⟨b, rfl⟩
  have h1 := ho a (List.mem_of_head? ha)
  have h2 := ho b (List.mem_of_getLast? hb)
  simp only [groupDuration, decoded, lastDuration, ha, hb, wrap]
  omega

/-! ## The written segments -/

theorem allMatch_filter {a : List (Option Seg)} {b : List (Option Closed)} (h : AllMatch a b) :
    (a.filterMap id).length = (b.filterMap id).length ∧
      ∀ (i : Nat) s c, (a.filterMap id)[i]? = some s → (b.filterMap id)[i]? = some c → Faithful s c := by
  induction a generalizing b with
  | nil =>
    cases b with
    | nil => simp
    | cons y b => exact h.elim
  | cons x a ih =>
    cases b with
    | nil => exact h.elim
    | cons y b =>
      obtain ⟨h1, h2⟩ := h
      obtain ⟨i1, i2⟩ := ih h2
      cases x with
      | none =>
        cases y with
        | none => simpa using ⟨i1, i2⟩
        | some y => exact h1.elim
      | some x =>
        cases y with
        | none => exact h1.elim
        | some y =>
          simp only [List.filterMap_cons, id, List.length_cons]
          refine ⟨by omega, ?_⟩
          intro i s c hs hc
          cases i with
          | zero => simp at hs hc; rw [← hs, ← hc]; exact h1
          | succ i => exact i2 i s c (by simpa using hs) (by simpa using hc)

/-- The samples a player finds in a segment. -/
def played (s : Seg) : List (RunSample × Bytes) := ((demux s.bytes).map Segment.samples).getD []

theorem playable_data (g : List Frm) (next : Nat) : (playable g next).map Prod.snd = g.map Frm.data := by
  fun_induction playable g next with
  | case1 => rfl
  | case2 => rfl
  | case3 f g l next ih => simp only [List.map_cons] at ih ⊢; rw [ih]

/-- **C19.**  Feed any stream of frames to a configured video segmenter whose buffers do not overflow.
Every written segment starts with an intra sample, announces the start and duration its boxes contain, its
sample durations add up to its duration, segments are numbered from 0, and playing all segments in order
gives the data of the frames received from the first intra frame on, except those still collected. -/
theorem video_segments (cap : Nat) (hcap : cap < 2 ^ 32) (m : Media) (hm : m.isVideo = true) (target : Nat)
    (ht : target < 2 ^ 32) (extra : Bytes) (timeBase w h : Nat) (fs : List Frm) (hf : ∀ f ∈ fs, f.Valid)
    (s' : State) (outs : List (Option Seg))
    (he : runOps (videoFrame cap) (fresh m target extra timeBase w h) fs = .ok (s', outs)) :
    (((outs.filterMap id).map fun s => (played s).map Prod.snd).flatten.flatten ++ s'.ctx.data =
      ((fs.dropWhile fun f => !f.intra).map Frm.data).flatten) ∧
    ∀ (i : Nat) s, (outs.filterMap id)[i]? = some s →
      ∃ d r b l, demux s.bytes = some d ∧ d.samples = (r, b) :: l ∧ r.flags = some 0 ∧
        d.seq = i % 2 ^ 32 ∧ d.base = s.ts ∧ d.indexTime = s.ts ∧ d.indexDuration = s.dur ∧
        ((d.samples.map fun p => p.1.duration.getD 0).sum) % 2 ^ 32 = s.dur := by
  obtain ⟨hr, ha⟩ := run_refines hcap fs (fresh_rel hm ht extra timeBase w h) hf he
  obtain ⟨hl, hm'⟩ := allMatch_filter ha
  have hgr : (Spec.run ⟨target, [], 0⟩ fs).2.filterMap id = Spec.groups ⟨target, [], 0⟩ fs := rfl
  rw [hgr] at hl hm'
  constructor
  · have hp := groups_partition fs ⟨target, [], 0⟩
    simp only [if_true, List.nil_append] at hp
    rw [hr.data, ← hp, List.map_append, List.flatten_append]
    congr 1
    rw [List.map_flatten, List.map_map]
    congr 2
    apply List.ext_getElem?
    intro i
    simp only [List.getElem?_map]
    cases h1 : (outs.filterMap id)[i]? with
    | none =>
      have : (Spec.groups ⟨target, [], 0⟩ fs)[i]? = none := by
        rw [List.getElem?_eq_none_iff] at h1 ⊢; omega
      rw [this]; rfl
    | some s =>
      obtain ⟨c, hc⟩ : ∃ c, (Spec.groups ⟨target, [], 0⟩ fs)[i]? = some c := by
        obtain ⟨hi, _⟩ := List.getElem?_eq_some_iff.1 h1
        exact ⟨_, List.getElem?_eq_getElem (by omega)⟩
      obtain ⟨_, _, d, g1, g2, _⟩ := hm' i s c h1 hc
      rw [hc]
      simp only [Option.map_some, played, g1, Option.getD_some, g2, playable_data, Function.comp]
  · intro i s hs
    obtain ⟨c, hc⟩ : ∃ c, (Spec.groups ⟨target, [], 0⟩ fs)[i]? = some c := by
      obtain ⟨hi, _⟩ := List.getElem?_eq_some_iff.1 hs
      exact ⟨_, List.getElem?_eq_getElem (by omega)⟩
    obtain ⟨f1, f2, d, g1, g2, g3, g4, g5, g6, g7, _⟩ := hm' i s c hs hc
    obtain ⟨a, l, hal, hai⟩ := groups_start_intra fs ⟨target, [], 0⟩ (by simp) c (List.mem_of_getElem? hc)
    have hnum : c.number = i := by
      have := congrArg (fun l => l[i]?) (groups_numbered fs ⟨target, [], 0⟩)
      simp only [List.getElem?_map, hc, Option.map_some] at this
      rw [List.getElem?_range' (by obtain ⟨hi, _⟩ := List.getElem?_eq_some_iff.1 hc; exact hi)] at this
      simp at this
      exact this
    obtain ⟨r, b, l', h1, h2⟩ : ∃ r b l', playable c.frames c.next = (r, b) :: l' ∧ r.flags = some 0 := by
      rw [hal]
      cases l with
      | nil => exact ⟨_, _, _, rfl, by simp [hai]⟩
      | cons x y => exact ⟨_, _, _, rfl, by simp [hai]⟩
    refine ⟨d, r, b, l', g1, by rw [g2, h1], h2, by rw [g4, hnum], g5, g6, g7, ?_⟩
    rw [g2, durations_add_up, f2]

/-- **C19 (consecutive segments abut).**  If presentation times are decode times plus a constant, each segment
starts where the previous one ended, modulo `2^32`. -/
theorem segments_abut (cap : Nat) (hcap : cap < 2 ^ 32) (m : Media) (hm : m.isVideo = true) (target : Nat)
    (ht : target < 2 ^ 32) (extra : Bytes) (timeBase w h : Nat) (fs : List Frm) (hf : ∀ f ∈ fs, f.Valid)
    (off : Nat) (hoff : ∀ f ∈ fs, f.pts = f.dts + off)
    (s' : State) (outs : List (Option Seg))
    (he : runOps (videoFrame cap) (fresh m target extra timeBase w h) fs = .ok (s', outs)) (i : Nat) (a b : Seg)
    (ha : (outs.filterMap id)[i]? = some a) (hb : (outs.filterMap id)[i + 1]? = some b) :
    (a.ts + a.dur) % 2 ^ 32 = b.ts % 2 ^ 32 ∧ (a.ts ≤ b.ts → b.ts < a.ts + 2 ^ 32 → a.ts + a.dur = b.ts) := by
  obtain ⟨hr, hall⟩ := run_refines hcap fs (fresh_rel hm ht extra timeBase w h) hf he
  obtain ⟨hl, hm'⟩ := allMatch_filter hall
  have hgr : (Spec.run ⟨target, [], 0⟩ fs).2.filterMap id = Spec.groups ⟨target, [], 0⟩ fs := rfl
  rw [hgr] at hl hm'
  have get : ∀ (j : Nat) s, (outs.filterMap id)[j]? = some s → ∃ c, (Spec.groups ⟨target, [], 0⟩ fs)[j]? = some c := by
    intro j s hs
    obtain ⟨hi, _⟩ := List.getElem?_eq_some_iff.1 hs
    exact ⟨_, List.getElem?_eq_getElem (by omega)⟩
  obtain ⟨c, hc⟩ := get i a ha
  obtain ⟨e, hce⟩ := get (i + 1) b hb
  obtain ⟨f1, f2, _⟩ := hm' i a c ha hc
  obtain ⟨k1, _, _⟩ := hm' (i + 1) b e hb hce
  obtain ⟨f, l, hl1, hl2, _⟩ := next_group_starts_with_closing_frame fs ⟨target, [], 0⟩ i c e hc hce
  obtain ⟨x, y, hxy, _⟩ := groups_start_intra fs ⟨target, [], 0⟩ (by simp) c (List.mem_of_getElem? hc)
  have hsub : ∀ z ∈ c.frames, z.pts = z.dts + off := by
    intro z hz
    apply hoff
    have hp := groups_partition fs ⟨target, [], 0⟩
    simp only [if_true, List.nil_append] at hp
    have : z ∈ fs.dropWhile fun f => !f.intra := by
      rw [← hp]
      exact List.mem_append.2 (.inl (List.mem_flatten.2 ⟨_, List.mem_map_of_mem (List.mem_of_getElem? hc), hz⟩))
    exact (List.dropWhile_sublist _).subset this
  have hd := group_duration_is_distance c.frames x c.next off (by rw [hxy]; rfl) hsub
  have t1 : a.ts = x.pts := by rw [f1, hxy]; rfl
  have t2 : b.ts = c.next := by rw [k1, hl1]; exact hl2
  rw [f2, hd, t1, t2]
  unfold wrap
  omega

/-! ## Counterexamples and cases -/

/-- A frame of one byte. -/
def fr (pts dts : Nat) (intra : Bool) : Frm := ⟨[1], pts, dts, intra⟩

def demo (target : Nat) : State := fresh .avc target [] 12800 64 32

/-- Start and duration of the segments of a run. -/
def spans (r : Outcome (State × List (Option Seg))) : Option (List (Nat × Nat)) :=
  match r with
  | .ok (_, outs) => some ((outs.filterMap id).map fun s => (s.ts, s.dur))
  | _ => none

/-- **C19 (short segment).**  With a target of 100 and frames of 40, a segment of 80 is written. -/
theorem segment_one_frame_short :
    spans (runOps (videoFrame 1000) (demo 100) [fr 0 0 true, fr 40 40 true, fr 80 80 true]) = some [(0, 80)] := by
  decide +kernel

/-- **C19 (gap).**  After a frame that lasted longer than the target, an intra frame does not close the
group although its duration is past the target. -/
theorem long_frame_does_not_close :
    spans (runOps (videoFrame 1000) (demo 100) [fr 0 0 true, fr 150 150 true]) = some [] := by decide +kernel

/-- **C19 (reordered frames).**  If presentation times are not decode times plus a constant, segments may
overlap or leave gaps: here the second starts at 160 though the first lasts to 200, and ends at 240
though the third starts at 320. -/
theorem reordered_frames_do_not_abut :
    spans (runOps (videoFrame 1000) (demo 100)
      [fr 40 0 true, fr 120 40 false, fr 80 80 false, fr 160 120 true, fr 280 160 false, fr 320 240 true]) =
      some [(40, 160), (160, 80)] := by decide +kernel

/-- An ordinary stream: two segments and a collected rest. -/
example : spans (runOps (videoFrame 1000) (demo 100) [fr 7 7 false, fr 10 10 true, fr 60 60 false, fr 110 110 true,
    fr 160 160 false, fr 210 210 true, fr 260 260 false]) = some [(10, 100), (110, 100)] := by decide +kernel

/-- The hypotheses of `video_no_overflow` can be met. -/
example : ∃ r, runOps (videoFrame 1000) (demo 100) [fr 10 10 true] = .ok r := by
  refine video_no_overflow 1000 (by decide) _ _ _ (fresh_rel (by decide) (by decide) [] 12800 64 32) ?_ ?_
  · intro f hf
    simp at hf
    subst hf
    exact ⟨by decide, by decide, by decide⟩
  · intro n
    cases n with
    | zero => exact ⟨by decide, by decide, by decide⟩
    | succ n =>
      have : ([fr 10 10 true].take (n + 1)) = [fr 10 10 true] := by simp
      rw [this]
      have : (Spec.run ⟨100, [], 0⟩ [fr 10 10 true]).1.group = [fr 10 10 true] := by
        simp [Spec.run, Spec.step, Spec.closes, fr]
      rw [this]
      exact ⟨by decide, by decide, by decide⟩

/-- **C19.** The segment being made refuses exactly empty frames and, while it is empty, frames that are not intra; a refused frame
leaves it as it was. -/
theorem video_frame_refused_iff (s s' : State) (f : Frm) (b : Bool) (he : addVideo s f = .ok (s', b)) :
    (b = false ↔ f.data = [] ∨ (s.ctx.samples = [] ∧ f.intra = false)) ∧ (b = false → s' = s) := by
  unfold addVideo at he
  by_cases h1 : f.data.length < 1
  · rw [if_pos h1] at he
    cases he
    exact ⟨⟨fun _ => .inl (List.length_eq_zero_iff.1 (by omega)), fun _ => rfl⟩, fun _ => rfl⟩
  · have hd : f.data ≠ [] := fun h => h1 (by rw [h]; decide)
    rw [if_neg h1] at he
    by_cases h2 : s.ctx.samples.isEmpty ∧ f.intra = false
    · rw [if_pos h2] at he
      cases he
      exact ⟨⟨fun _ => .inr ⟨List.isEmpty_iff.1 h2.1, h2.2⟩, fun _ => rfl⟩, fun _ => rfl⟩
    · rw [if_neg h2] at he
      have hb : b = true := by
        split at he
        · cases he
        · simp only at he
          split at he <;> (cases he; rfl)
      subst hb
      refine ⟨⟨fun h => (by cases h), ?_⟩, fun h => (by cases h)⟩
      rintro (h | ⟨h, h'⟩)
      · exact absurd h hd
      · exact absurd ⟨List.isEmpty_iff.2 h, h'⟩ h2

/-- **C19.** The same of audio: empty frames and those without duration are refused. -/
theorem audio_frame_refused_iff (s s' : State) (f : Frm) (dur : Nat) (b : Bool) (he : addAudio s f dur = .ok (s', b)) :
    (b = false ↔ f.data = [] ∨ dur = 0) ∧ (b = false → s' = s) := by
  unfold addAudio at he
  by_cases h1 : f.data.length < 1
  · rw [if_pos h1] at he
    cases he
    exact ⟨⟨fun _ => .inl (List.length_eq_zero_iff.1 (by omega)), fun _ => rfl⟩, fun _ => rfl⟩
  · have hd : f.data ≠ [] := fun h => h1 (by rw [h]; decide)
    rw [if_neg h1] at he
    by_cases h2 : dur < 1
    · rw [if_pos h2] at he
      cases he
      exact ⟨⟨fun _ => .inr (by omega), fun _ => rfl⟩, fun _ => rfl⟩
    · rw [if_neg h2] at he
      split at he
      · cases he
      · cases he
        exact ⟨⟨fun h => (by cases h), fun h => h.elim (fun h => absurd h hd) (fun h => absurd h (by omega))⟩, fun h => (by cases h)⟩

/-- An empty segment. -/
def emptySegment : State := fresh .avc 100 [] 1000 0 0

example : (∃ s', addVideo emptySegment ⟨[1], 0, 0, true⟩ = .ok (s', true)) ∧ addVideo emptySegment ⟨[1], 0, 0, false⟩ = .ok (emptySegment, false) ∧
    addVideo emptySegment ⟨[], 0, 0, true⟩ = .ok (emptySegment, false) ∧ (∃ s', addAudio emptySegment ⟨[1], 0, 0, true⟩ 7 = .ok (s', true)) ∧
    addAudio emptySegment ⟨[1], 0, 0, true⟩ 0 = .ok (emptySegment, false) :=
  ⟨⟨_, rfl⟩, rfl, rfl, ⟨_, rfl⟩, rfl⟩

end Lms.Dash
