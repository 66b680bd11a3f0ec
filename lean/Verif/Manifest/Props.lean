import Verif.Manifest.Lemmas

/-!
# C80: what the manifest says
-/

namespace Lms.Manifest

open Lms Lms.Json Lms.Control

/-! ## The invariant -/

/-- Representations of a set are in order. -/
def BodyOrder : Body → Prop
  | .video reps _ _ _ => Ascending reps
  | .audio reps => Ascending reps

structure RelSet (a : ASet) (k : Known) : Prop where
  says : SaysSet (setInfo a) k
  order : BodyOrder a.body

structure Rel (s : State) (f : Facts) : Prop where
  bound : f.bound = s.maxSeg
  two : 2 ≤ s.maxSeg
  update : durationOf s.update = f.update
  depth : durationOf s.depth = f.depth
  buffer : s.minBuf = f.buffer
  start : s.start = f.start
  order : Ascending s.sets
  none : ∀ id, f.sets id = .none → s.sets.lookup id = .none
  some : ∀ id k, f.sets id = some k → ∃ a, s.sets.lookup id = some a ∧ RelSet a k

theorem rel_init : Rel State.init Facts.none where
  bound := rfl
  two := by decide
  update := by decide
  depth := by decide
  buffer := rfl
  start := rfl
  order := List.Pairwise.nil
  none := fun _ _ => rfl
  some := fun _ _ h => by cases h

/-- One set changed on both sides. -/
theorem rel_at (s : State) (f : Facts) (h : Rel s f) (id : Str) (a : ASet) (g : Option Known → Option Known) (k : Known)
    (hk : g (f.sets id) = some k) (ha : RelSet a k) : Rel { s with sets := put id a s.sets } (f.at id g) where
  bound := h.bound
  two := h.two
  update := h.update
  depth := h.depth
  buffer := h.buffer
  start := h.start
  order := ascending_put _ _ _ h.order
  none := by
    intro x hx
    simp only [Facts.at] at hx
    simp only [lookup_put]
    by_cases he : x = id
    · subst he; simp only [if_true] at hx; rw [hk] at hx; cases hx
    · rw [if_neg he] at hx ⊢; exact h.none x hx
  some := by
    intro x q hx
    simp only [Facts.at] at hx
    simp only [lookup_put]
    by_cases he : x = id
    · subst he
      rw [if_pos rfl, hk] at hx
      cases hx
      exact ⟨a, by rw [if_pos rfl], ha⟩
    · rw [if_neg he] at hx ⊢; exact h.some x q hx

theorem rel_at_none (s : State) (f : Facts) (h : Rel s f) (id : Str) (g : Known → Known) (hk : f.sets id = .none) :
    Rel s (f.at id fun o => o.map g) where
  bound := h.bound
  two := h.two
  update := h.update
  depth := h.depth
  buffer := h.buffer
  start := h.start
  order := h.order
  none := by
    intro x hx
    simp only [Facts.at] at hx
    by_cases he : x = id
    · subst he; exact h.none x hk
    · rw [if_neg he] at hx; exact h.none x hx
  some := by
    intro x q hx
    simp only [Facts.at] at hx
    by_cases he : x = id
    · subst he; rw [if_pos rfl, hk] at hx; cases hx
    · rw [if_neg he] at hx; exact h.some x q hx

theorem lookup_none_iff (s : State) (f : Facts) (h : Rel s f) (id : Str) : s.sets.lookup id = .none → f.sets id = .none := by
  intro hl
  cases hk : f.sets id with
  | none => rfl
  | some k => obtain ⟨a, ha, _⟩ := h.some id k hk; rw [hl] at ha; cases ha

theorem rel_change (s : State) (f : Facts) (h : Rel s f) (id : Str) (c : ASet → ASet) (g : Known → Known)
    (hc : ∀ a k, RelSet a k → RelSet (c a) (g k)) : Rel (change s id c) (f.at id fun o => o.map g) := by
  unfold change
  cases hl : s.sets.lookup id with
  | none => exact rel_at_none s f h id g (lookup_none_iff s f h id hl)
  | some a =>
    cases hk : f.sets id with
    | none => rw [h.none id hk] at hl; cases hl
    | some k =>
      obtain ⟨a', ha, hr⟩ := h.some id k hk
      rw [hl] at ha; cases ha
      exact rel_at s f h id (c a) _ (g k) (by rw [hk]; rfl) (hc a k hr)

theorem rel_template (s : State) (f : Facts) (h : Rel s f) (audio : Bool) (id : Str) (t : Int) (m i : Str) :
    Rel (setTemplate s (if audio then .audio [] else .video [] 0 0 0) id t m i) (f.at id (Known.template audio t m i)) := by
  unfold setTemplate
  cases hl : s.sets.lookup id with
  | none =>
    refine rel_at s f h id _ _ ⟨audio, t, m, i, [], 0, 0, 0, fun _ => .none⟩ (by rw [lookup_none_iff s f h id hl]; rfl) ?_
    cases audio
    · exact ⟨⟨rfl, rfl, rfl, rfl, rfl, rfl, List.Pairwise.nil, fun _ => rfl⟩, List.Pairwise.nil⟩
    · exact ⟨⟨rfl, rfl, rfl, rfl, rfl, rfl, List.Pairwise.nil, fun _ => rfl⟩, List.Pairwise.nil⟩
  | some a =>
    cases hk : f.sets id with
    | none => rw [h.none id hk] at hl; cases hl
    | some k =>
      obtain ⟨a', ha, hr⟩ := h.some id k hk
      rw [hl] at ha; cases ha
      refine rel_at s f h id _ _ { k with timescale := t, media := m, init := i } (by rw [hk]; rfl) ?_
      obtain ⟨⟨h1, h2, h3, h4, h5, h6, h7, h8⟩, h9⟩ := hr
      refine ⟨?_, h9⟩
      cases hb : a.body <;> rw [setInfo, hb] at h1 h2 h6 h7 h8 <;> simp only [setInfo, hb] <;>
        exact ⟨h1, h2, rfl, rfl, rfl, h6, h7, h8⟩

theorem rel_videoRep (a : ASet) (k : Known) (id : Str) (r : VRep) (fps : Int) (h : RelSet a k) :
    RelSet (videoRep id r fps a) (if k.audio then k
      else { k with maxW := max k.maxW r.width, maxH := max k.maxH r.height, fps := fps
                    reps := fun x => if x = id then some (.video r.codec r.width r.height r.bandwidth) else k.reps x }) := by
  obtain ⟨⟨h1, h2, h3, h4, h5, h6, h7, h8⟩, h9⟩ := h
  unfold videoRep
  cases hb : a.body with
  | video reps w hh f =>
    have hau : k.audio = false := by
      rw [setInfo, hb] at h1
      cases hk : k.audio with
      | false => rfl
      | true => rw [hk] at h1; revert h1; simp only [if_true, Bool.false_eq_true, if_false]; decide
    rw [setInfo, hb] at h2 h3 h4 h5 h6 h8
    rw [hau] at h2
    simp only [Bool.false_eq_true, if_false, Option.some.injEq, Prod.mk.injEq] at h2
    rw [hb] at h9
    simp only [hau, Bool.false_eq_true, if_false]
    refine ⟨⟨?_, ?_, h3, h4, h5, h6, ?_, ?_⟩, ?_⟩
    · simp [setInfo, hau]
    · simp only [setInfo, hau, Bool.false_eq_true, if_false]
      obtain ⟨e1, e2, _⟩ := h2
      rw [e1, e2]
      congr 2
      · rw [Int.max_def]; split <;> split <;> omega
      · congr 1
        rw [Int.max_def]; split <;> split <;> omega
    · exact ascending_map vInfo _ (ascending_put _ _ _ h9)
    · intro x
      simp only [setInfo]
      rw [lookup_map_val, lookup_put]
      by_cases he : x = id
      · simp [he, vInfo]
      · simp only [he, if_false]
        rw [← lookup_map_val]; exact h8 x
    · exact ascending_put _ _ _ h9
  | audio reps =>
    have hau : k.audio = true := by
      rw [setInfo, hb] at h1
      cases hk : k.audio with
      | true => rfl
      | false => rw [hk] at h1; revert h1; simp only [if_true, Bool.false_eq_true, if_false]; decide
    simp only [hau, if_true]
    exact ⟨⟨h1, h2, h3, h4, h5, h6, h7, h8⟩, h9⟩

theorem rel_audioRep (a : ASet) (k : Known) (id : Str) (r : ARep) (h : RelSet a k) :
    RelSet (audioRep id r a) (if k.audio then
      { k with reps := fun x => if x = id then some (.audio r.codec r.rate r.channels r.bandwidth) else k.reps x } else k) := by
  obtain ⟨⟨h1, h2, h3, h4, h5, h6, h7, h8⟩, h9⟩ := h
  unfold audioRep
  cases hb : a.body with
  | audio reps =>
    have hau : k.audio = true := by
      rw [setInfo, hb] at h1
      cases hk : k.audio with
      | true => rfl
      | false => rw [hk] at h1; revert h1; simp only [if_true, Bool.false_eq_true, if_false]; decide
    rw [setInfo, hb] at h3 h4 h5 h6 h8
    rw [hb] at h9
    simp only [hau, if_true]
    refine ⟨⟨?_, ?_, h3, h4, h5, h6, ?_, ?_⟩, ?_⟩
    · simp [setInfo, hau]
    · simp [setInfo, hau]
    · exact ascending_map aInfo _ (ascending_put _ _ _ h9)
    · intro x
      simp only [setInfo]
      rw [lookup_map_val, lookup_put]
      by_cases he : x = id
      · simp [he, aInfo]
      · simp only [he, if_false]
        rw [← lookup_map_val]; exact h8 x
    · exact ascending_put _ _ _ h9
  | video reps w hh f =>
    have hau : k.audio = false := by
      rw [setInfo, hb] at h1
      cases hk : k.audio with
      | false => rfl
      | true => rw [hk] at h1; revert h1; simp only [if_true, Bool.false_eq_true, if_false]; decide
    simp only [hau, Bool.false_eq_true, if_false]
    exact ⟨⟨h1, h2, h3, h4, h5, h6, h7, h8⟩, h9⟩

theorem rel_drop (a : ASet) (k : Known) (id : Str) (h : RelSet a k) :
    RelSet (dropRep id a) { k with reps := fun x => if x = id then .none else k.reps x } := by
  obtain ⟨⟨h1, h2, h3, h4, h5, h6, h7, h8⟩, h9⟩ := h
  unfold dropRep
  cases hb : a.body with
  | video reps w hh f =>
    rw [setInfo, hb] at h1 h2 h3 h4 h5 h6 h8
    rw [hb] at h9
    refine ⟨⟨h1, h2, h3, h4, h5, h6, ascending_map vInfo _ (ascending_erase _ _ h9), ?_⟩, ascending_erase _ _ h9⟩
    intro x
    simp only [setInfo]
    rw [lookup_map_val, lookup_erase]
    by_cases he : x = id
    · simp [he]
    · simp only [he, if_false]
      rw [← lookup_map_val]; exact h8 x
  | audio reps =>
    rw [setInfo, hb] at h1 h2 h3 h4 h5 h6 h8
    rw [hb] at h9
    refine ⟨⟨h1, h2, h3, h4, h5, h6, ascending_map aInfo _ (ascending_erase _ _ h9), ?_⟩, ascending_erase _ _ h9⟩
    intro x
    simp only [setInfo]
    rw [lookup_map_val, lookup_erase]
    by_cases he : x = id
    · simp [he]
    · simp only [he, if_false]
      rw [← lookup_map_val]; exact h8 x

theorem rel_times (a : ASet) (k : Known) (l : List (Nat × Nat)) (h : RelSet a k) : RelSet { a with times := l } { k with times := l } := by
  obtain ⟨⟨h1, h2, h3, h4, h5, h6, h7, h8⟩, h9⟩ := h
  refine ⟨?_, h9⟩
  cases hb : a.body <;> rw [setInfo, hb] at h1 h2 h3 h4 h5 h7 h8 <;> simp only [setInfo, hb] <;>
    exact ⟨h1, h2, h3, h4, h5, rfl, h7, h8⟩

theorem rel_step (s : State) (f : Facts) (h : Rel s f) (op : Op) :
    ∃ s' d, step s op = .ok (s', d) ∧ Rel s' (f.after op) ∧
      (∀ e, d = some e → ∃ m, read e = some m ∧ Says m (f.after op)) ∧ ((∃ now, op = .write now) ↔ d.isSome = true) := by
  have nodoc : ∀ (op : Op) (s' : State), step s op = .ok (s', none) → (∀ now, op ≠ .write now) → Rel s' (f.after op) →
      ∃ s' d, step s op = .ok (s', d) ∧ Rel s' (f.after op) ∧
      (∀ e, d = some e → ∃ m, read e = some m ∧ Says m (f.after op)) ∧ ((∃ now, op = .write now) ↔ d.isSome = true) :=
    fun op s' h1 h2 h3 => ⟨s', none, h1, h3, fun e he => (by cases he),
      ⟨fun ⟨n, hn⟩ => absurd hn (h2 n), fun hx => (by cases hx)⟩⟩
  cases op with
  | configure mb ms sd =>
    refine nodoc _ _ rfl (by intro _ h; cases h) ?_
    have hm : (if ms ≥ 2 then ms else 2) = max 2 ms := by split <;> omega
    refine ⟨?_, ?_, ?_, ?_, ?_, h.start, h.order, h.none, h.some⟩
    · simp only [configure, Facts.after, hm]
    · simp only [configure]; split <;> omega
    · simp only [configure, Facts.after, durationOf_seconds]
    · simp only [configure, Facts.after, durationOf_seconds, hm]
    · simp only [configure, Facts.after, between, hm]
  | videoSet id t m i => exact nodoc _ _ rfl (by intro _ h; cases h) (rel_template s f h false id t m i)
  | audioSet id t m i => exact nodoc _ _ rfl (by intro _ h; cases h) (rel_template s f h true id t m i)
  | videoRep set id r fps =>
    exact nodoc _ _ rfl (by intro _ h; cases h) (rel_change s f h set _ _ fun a k hr => rel_videoRep a k id r fps hr)
  | audioRep set id r =>
    exact nodoc _ _ rfl (by intro _ h; cases h) (rel_change s f h set _ _ fun a k hr => rel_audioRep a k id r hr)
  | remove set id => exact nodoc _ _ rfl (by intro _ h; cases h) (rel_change s f h set _ _ fun a k hr => rel_drop a k id hr)
  | flush set => exact nodoc _ _ rfl (by intro _ h; cases h) (rel_change s f h set _ _ fun a k hr => rel_times a k [] hr)
  | time set ts dur =>
    have : ∃ s', time s set ts dur = .ok s' ∧ Rel s' (f.after (.time set ts dur)) := by
      unfold time
      cases hl : s.sets.lookup set with
      | none => exact ⟨s, rfl, rel_at_none s f h set _ (lookup_none_iff s f h set hl)⟩
      | some a =>
        cases hk : f.sets set with
        | none => rw [h.none set hk] at hl; cases hl
        | some k =>
          obtain ⟨a', ha, hr⟩ := h.some set k hk
          rw [hl] at ha; cases ha
          have h2 := h.two
          simp only [Mpd.updateTimestamp_spec _ _ _ _ (show 1 ≤ s.maxSeg by omega), Outcome.bind_ok]
          refine ⟨_, rfl, rel_at s f h set _ _ { k with times := lastOf f.bound (k.times ++ [(ts, dur)]) } (by rw [hk]; rfl) ?_⟩
          have ht : a.times = k.times := by
            have := hr.says.times
            cases hb : a.body <;> rw [setInfo, hb] at this <;> exact this
          have : (a.times ++ [(ts, dur)]).drop (a.times.length + 1 - s.maxSeg) = lastOf f.bound (k.times ++ [(ts, dur)]) := by
            unfold lastOf
            rw [h.bound, ht]; simp
          rw [this]
          exact rel_times a k _ hr
    obtain ⟨s', h1, h2⟩ := this
    exact nodoc _ s' (by simp only [step, h1, Outcome.bind_ok]) (by intro _ h; cases h) h2
  | write now =>
    refine ⟨_, _, rfl, ?_, ?_, ⟨fun _ => rfl, fun _ => ⟨now, rfl⟩⟩⟩
    · exact ⟨h.bound, h.two, h.update, h.depth, h.buffer, by simp only [Facts.after, h.start], h.order, h.none, h.some⟩
    · intro e he
      cases he
      refine ⟨_, read_document s _, ?_⟩
      refine ⟨rfl, ?_, h.update, h.depth, by rw [h.buffer]; rfl, ascending_map _ _ h.order, ?_, ?_⟩
      · simp only [Facts.after, h.start]
      · intro id hid
        simp only [lookup_map_val, h.none id hid]; rfl
      · intro id k hid
        obtain ⟨a, ha, hr⟩ := h.some id k hid
        exact ⟨setInfo a, by simp only [lookup_map_val, ha]; rfl, hr.says⟩

/-- What is known at each point of a history. -/
def factsAfter (ops : List Op) : Facts := ops.foldl Facts.after Facts.none

theorem run_rel (ops : List Op) (s : State) (f : Facts) (h : Rel s f) :
    ∃ s' ds, runOps step s ops = .ok (s', ds) ∧ Rel s' (ops.foldl Facts.after f) := by
  induction ops generalizing s f with
  | nil => exact ⟨s, [], rfl, h⟩
  | cons op ops ih =>
    obtain ⟨s1, d, h1, h2, _⟩ := rel_step s f h op
    obtain ⟨s2, ds, h3, h4⟩ := ih s1 _ h2
    refine ⟨s2, d :: ds, ?_, h4⟩
    simp only [runOps, h1, Outcome.bind_ok, h3]

/-- **C80**: every call of the manager is carried out, and the document written after any calls says what is known from them. -/
theorem manifest_says_what_is_known (ops : List Op) (now : Str) :
    ∃ s' ds e m, runOps step State.init (ops ++ [.write now]) = .ok (s', ds ++ [some e]) ∧ read e = some m ∧
      Says m (factsAfter (ops ++ [.write now])) := by
  obtain ⟨s, ds, h1, h2⟩ := run_rel ops _ _ rel_init
  obtain ⟨s', d, h3, h4, h5, h6⟩ := rel_step s _ h2 (.write now)
  have hd := h6.1 ⟨now, rfl⟩
  obtain ⟨e, rfl⟩ := Option.isSome_iff_exists.1 hd
  obtain ⟨m, hm, hs⟩ := h5 e rfl
  refine ⟨s', ds, e, m, ?_, hm, ?_⟩
  · have : ∀ (ops : List Op) (s0 s : State) (ds : List (Option El)), runOps step s0 ops = .ok (s, ds) →
        step s (.write now) = .ok (s', some e) → runOps step s0 (ops ++ [.write now]) = .ok (s', ds ++ [some e]) := by
      intro ops
      induction ops with
      | nil =>
        intro s0 s ds h1 h3
        simp only [runOps] at h1
        cases h1
        simp only [List.nil_append, runOps, h3, Outcome.bind_ok]
      | cons op ops ih =>
        intro s0 s ds h1 h3
        simp only [runOps] at h1
        cases hstep : step s0 op with
        | ub => rw [hstep] at h1; cases h1
        | hang => rw [hstep] at h1; cases h1
        | ok r =>
          rw [hstep] at h1
          simp only [Outcome.bind_ok] at h1
          cases hr : runOps step r.1 ops with
          | ub => rw [hr] at h1; cases h1
          | hang => rw [hr] at h1; cases h1
          | ok q =>
            rw [hr] at h1
            simp only [Outcome.bind_ok] at h1
            cases h1
            simp only [List.cons_append, runOps, hstep, Outcome.bind_ok, ih _ _ _ hr h3]
    exact this ops _ _ _ h1 h3
  · unfold factsAfter; rw [List.foldl_append]; exact hs

end Lms.Manifest
