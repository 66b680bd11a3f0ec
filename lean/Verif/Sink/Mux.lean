import Verif.Sink.Steps

/-!
# Which connections are accepted
-/

namespace Lms.Sink

/-- The streams an MPEG transport stream can carry. -/
def muxable : Stream → Bool
  | .video c => c = .h264 ∨ c = .h265
  | .audio c => c = .aac ∨ c = .mp3

/-- Both are video or both are audio. -/
def sameKind : Stream → Stream → Bool
  | .video _, .video _ => true
  | .audio _, .audio _ => true
  | _, _ => false

theorem addSubs_raw {s : St} (hi : Inv s) : ∀ (rs : List Int) (b : Build),
    addSubs s false b rs ≠ none ↔ rs.Nodup ∧ (∀ r ∈ rs, r ∉ b.listed) ∧ ∀ r ∈ rs, ∃ st, (r, some st) ∈ s.readers ∧ st ≠ .video .other := by
  intro rs
  induction rs with
  | nil => intro b; simp [addSubs]
  | cons r rs ih =>
    intro b
    unfold addSubs
    cases hst : stream s r with
    | none =>
      simp only [ne_eq, not_true_eq_false, false_iff]
      rintro ⟨_, _, h⟩
      obtain ⟨st, h, _⟩ := h r (List.mem_cons_self ..)
      rw [(stream_iff hi).2 h] at hst; cases hst
    | some st =>
      have hm := (stream_iff hi).1 hst
      have hs : hasSource s r = true := hasSource_iff.2 (hi.src r ⟨st, hm⟩)
      simp only [hs, Bool.true_eq_false, if_false]
      by_cases hl : r ∈ b.listed
      · rw [addSub.eq_def, if_pos hl]
        simp only [Option.bind_none, ne_eq, not_true_eq_false, false_iff]
        rintro ⟨_, h, _⟩; exact h r (List.mem_cons_self ..) hl
      · by_cases ho : st = .video .other
        · subst ho
          rw [addSub, if_neg hl]
          simp only [if_true, Option.bind_none, ne_eq, not_true_eq_false, false_iff]
          rintro ⟨_, _, h⟩
          obtain ⟨st, h, hn⟩ := h r (List.mem_cons_self ..)
          have := key_unique hi.rKey h hm
          injection this with this
          exact hn this
        · have : addSub b false r st = some { b with raw := b.raw ++ [r], uses := b.uses ++ [r] } := by
            rw [addSub.eq_def, if_neg hl]
            cases st with
            | video c => simp only; rw [if_neg]; rintro rfl; exact ho rfl
            | audio c => rfl
          rw [this, Option.bind_some, ih, List.nodup_cons]
          have hll : ∀ q, q ∈ ({ b with raw := b.raw ++ [r], uses := b.uses ++ [r] } : Build).listed ↔ q ∈ b.listed ∨ q = r := by
            intro q; simp only [Build.listed, List.mem_append, List.mem_singleton]; grind
          constructor
          · rintro ⟨a1, a2, a3⟩
            refine ⟨⟨fun h => a2 r h ((hll r).2 (.inr rfl)), a1⟩, ?_, ?_⟩
            · intro q hq
              rcases List.mem_cons.1 hq with h | h
              · subst h; exact hl
              · exact fun h' => a2 q h ((hll q).2 (.inl h'))
            · intro q hq
              rcases List.mem_cons.1 hq with h | h
              · subst h; exact ⟨st, hm, ho⟩
              · exact a3 q h
          · rintro ⟨⟨a0, a1⟩, a2, a3⟩
            refine ⟨a1, ?_, fun q hq => a3 q (List.mem_cons_of_mem _ hq)⟩
            intro q hq h
            rcases (hll q).1 h with h | h
            · exact a2 q (List.mem_cons_of_mem _ hq) h
            · subst h; exact a0 hq

/-- The subsession's place for the kind of stream `st` is free. -/
def free (b : Build) : Stream → Prop
  | .video _ => b.v = -1
  | .audio _ => b.a = -1

theorem addSub_ts {b : Build} {r : Int} {st : Stream} (hr : r ≠ -1) :
    (r ∉ b.listed ∧ muxable st = true ∧ free b st → ∃ b', addSub b true r st = some b' ∧ (∀ q, q ∈ b'.listed ↔ q ∈ b.listed ∨ q = r) ∧
      ∀ st', free b' st' ↔ free b st' ∧ sameKind st st' = false) ∧
    (¬ (r ∉ b.listed ∧ muxable st = true ∧ free b st) → addSub b true r st = none) := by
  unfold addSub
  by_cases hl : r ∈ b.listed
  · rw [if_pos hl]; exact ⟨fun h => absurd hl h.1, fun _ => rfl⟩
  · rw [if_neg hl]
    cases st with
    | video c =>
      simp only [muxable, free, decide_eq_true_eq]
      by_cases hc : c ≠ .h264 ∧ c ≠ .h265
      · rw [if_pos hc]; exact ⟨fun h => by rcases h.2.1 with h | h; exact absurd h hc.1; exact absurd h hc.2, fun _ => rfl⟩
      · rw [if_neg hc]
        by_cases hv : b.v = -1
        · rw [if_pos hv]
          have hc' : c = .h264 ∨ c = .h265 := by cases c <;> simp_all
          refine ⟨fun _ => ⟨_, rfl, ?_, ?_⟩, fun h => absurd ⟨hl, hc', hv⟩ h⟩
          · intro q; simp [Build.listed, hv, hr, or_assoc]
          · intro st'; cases st' <;> simp [free, sameKind, hv, hr]
        · rw [if_neg hv]; exact ⟨fun h => absurd h.2.2 hv, fun _ => rfl⟩
    | audio c =>
      simp only [muxable, free, decide_eq_true_eq]
      by_cases hc : c ≠ .aac ∧ c ≠ .mp3
      · rw [if_pos hc]; exact ⟨fun h => by rcases h.2.1 with h | h; exact absurd h hc.1; exact absurd h hc.2, fun _ => rfl⟩
      · rw [if_neg hc]
        by_cases hv : b.a = -1
        · rw [if_pos hv]
          have hc' : c = .aac ∨ c = .mp3 := by cases c <;> simp_all
          refine ⟨fun _ => ⟨_, rfl, ?_, ?_⟩, fun h => absurd ⟨hl, hc', hv⟩ h⟩
          · intro q; simp only [Build.listed, List.mem_append, if_pos hr, List.mem_singleton, hv]; grind
          · intro st'; cases st' <;> simp [free, sameKind, hv, hr]
        · rw [if_neg hv]; exact ⟨fun h => absurd h.2.2 hv, fun _ => rfl⟩

theorem addSubs_ts {s : St} (hi : Inv s) : ∀ (rs : List Int) (b : Build),
    addSubs s true b rs ≠ none ↔ (rs.Pairwise fun q r => q ≠ r ∧ ∀ st st', (q, some st) ∈ s.readers → (r, some st') ∈ s.readers → sameKind st st' = false) ∧
      ∀ r ∈ rs, r ∉ b.listed ∧ ∃ st, (r, some st) ∈ s.readers ∧ muxable st = true ∧ free b st := by
  intro rs
  induction rs with
  | nil => intro b; simp [addSubs]
  | cons r rs ih =>
    intro b
    unfold addSubs
    cases hst : stream s r with
    | none =>
      simp only [ne_eq, not_true_eq_false, false_iff]
      rintro ⟨_, h⟩
      obtain ⟨_, st, h, _⟩ := h r (List.mem_cons_self ..)
      rw [(stream_iff hi).2 h] at hst; cases hst
    | some st =>
      have hm := (stream_iff hi).1 hst
      have hs : hasSource s r = true := hasSource_iff.2 (hi.src r ⟨st, hm⟩)
      have hr : r ≠ -1 := hi.noM1 _ hm
      have huniq : ∀ st', (r, some st') ∈ s.readers → st' = st := by
        intro st' h
        have := key_unique hi.rKey h hm
        injection this
      simp only [hs, Bool.true_eq_false, if_false]
      obtain ⟨g1, g2⟩ := addSub_ts (b := b) (st := st) hr
      by_cases hok : r ∉ b.listed ∧ muxable st = true ∧ free b st
      · obtain ⟨b1, e1, e2, e3⟩ := g1 hok
        rw [e1, Option.bind_some, ih, List.pairwise_cons]
        constructor
        · rintro ⟨a1, a2⟩
          refine ⟨⟨fun q hq => ?_, a1⟩, fun q hq => ?_⟩
          · obtain ⟨b1, st1, b2, b3, b4⟩ := a2 q hq
            refine ⟨fun h => b1 ((e2 q).2 (.inr h.symm)), fun st2 st3 h2 h3 => ?_⟩
            cases huniq st2 h2
            have := key_unique hi.rKey h3 b2
            injection this with this
            subst this
            exact ((e3 _).1 b4).2
          · rcases List.mem_cons.1 hq with h | h
            · subst h; exact ⟨hok.1, st, hm, hok.2⟩
            · obtain ⟨b1, st1, b2, b3, b4⟩ := a2 q h
              exact ⟨fun h => b1 ((e2 q).2 (.inl h)), st1, b2, b3, ((e3 _).1 b4).1⟩
        · rintro ⟨⟨a0, a1⟩, a2⟩
          refine ⟨a1, fun q hq => ?_⟩
          obtain ⟨b1, st1, b2, b3, b4⟩ := a2 q (List.mem_cons_of_mem _ hq)
          refine ⟨fun h => ?_, st1, b2, b3, (e3 _).2 ⟨b4, (a0 q hq).2 st st1 hm b2⟩⟩
          rcases (e2 q).1 h with h | h
          · exact b1 h
          · exact (a0 q hq).1 h.symm
      · rw [g2 hok, Option.bind_none]
        simp only [ne_eq, not_true_eq_false, false_iff]
        rintro ⟨_, h⟩
        obtain ⟨h1, st', h2, h3⟩ := h r (List.mem_cons_self ..)
        cases huniq st' h2
        exact hok ⟨h1, h3⟩

/-- The streams of the readers asked for. -/
theorem streams_of {s : St} (hi : Inv s) {rs : List Int} (h : (rs.any fun r => decide (stream s r = none)) = false) :
    ∀ r ∈ rs, ∃ st, stream s r = some st ∧ (r, some st) ∈ s.readers ∧ hasSource s r = true := by
  intro r hr
  rw [List.any_eq_false] at h
  have := h r hr
  simp only [decide_eq_true_eq] at this
  cases hst : stream s r with
  | none => exact absurd hst this
  | some st => exact ⟨st, rfl, (stream_iff hi).1 hst, hasSource_iff.2 (hi.src r ⟨st, (stream_iff hi).1 hst⟩)⟩

/-- The outcome of filling a transport stream with one reader. -/
theorem mux_one {s : St} {r : Int} {st : Stream} (h1 : stream s r = some st) (h2 : hasSource s r = true) (hr : r ≠ -1) :
    let m := muxAll s ⟨false, false, false, -1, -1, []⟩ [r]
    (m.ok = muxable st) ∧ m.uses = (if muxable st then [r] else []) ∧
      ((if m.a ≠ -1 then [m.a] else []) ++ (if m.v ≠ -1 then [m.v] else [])) = (if muxable st then [r] else []) := by
  simp only [muxAll, h1, muxAdd, h2, Bool.true_eq_false, if_false]
  cases st with
  | video c => cases c <;> simp [muxable, hr]
  | audio c => cases c <;> simp [muxable, hr]

/-- The outcome of filling a transport stream with two readers. -/
theorem mux_two {s : St} {q r : Int} {st st' : Stream} (h1 : stream s q = some st) (h2 : hasSource s q = true) (hq : q ≠ -1)
    (h3 : stream s r = some st') (h4 : hasSource s r = true) (hr : r ≠ -1) :
    let m := muxAll s ⟨false, false, false, -1, -1, []⟩ [q, r]
    (m.ok = (muxable st' && !sameKind st st')) ∧
      (m.ok = true → (∀ x, x ∈ m.uses ↔ (x = q ∧ muxable st = true) ∨ x = r) ∧
        ∀ x, x ∈ ((if m.a ≠ -1 then [m.a] else []) ++ (if m.v ≠ -1 then [m.v] else [])) ↔ (x = q ∧ muxable st = true) ∨ x = r) := by
  simp only [muxAll, h1, h3, muxAdd, h2, h4, Bool.true_eq_false, if_false]
  cases st with
  | video c => cases st' with
    | video d => cases c <;> cases d <;> simp [muxable, sameKind, hq, hr]
    | audio d => cases c <;> cases d <;> simp [muxable, sameKind, hq, hr, or_comm]
  | audio c => cases st' with
    | video d => cases c <;> cases d <;> simp [muxable, sameKind, hq, hr, or_comm]
    | audio d => cases c <;> cases d <;> simp [muxable, sameKind, hq, hr]

/-- The plain and UltraGrid connections. -/
theorem addOne_ok {s : St} (hi : Inv s) (rs : List Int) (id port : Int) (ug : Bool) (hid : id ∉ s.conns.map Prod.fst) :
    ∃ t b, addOne s rs id port ug = .ok (t, b) ∧ Inv t ∧ (b = false → t = s) ∧
      (b = true ↔ ∃ r st, rs = [r] ∧ (r, some st) ∈ s.readers ∧ port % 2 = 0 ∧ sinkFor ug st = true) ∧
      (b = true → ∃ r, rs = [r] ∧ t = { s with conns := s.conns ++ [(id, .rtp [r] [r])] }) := by
  unfold addOne
  split
  · rename_i r
    cases hst : stream s r with
    | none =>
      refine ⟨s, false, rfl, hi, fun _ => rfl, ⟨fun h => (by cases h), ?_⟩, fun h => (by cases h)⟩
      rintro ⟨r', st, h, hm, _⟩
      cases h
      rw [(stream_iff hi).2 hm] at hst; cases hst
    | some st =>
      have hm := (stream_iff hi).1 hst
      have hs : hasSource s r = true := hasSource_iff.2 (hi.src r ⟨st, hm⟩)
      have huniq : ∀ st', (r, some st') ∈ s.readers → st' = st := by
        intro st' h
        have := key_unique hi.rKey h hm
        injection this
      simp only [hs, Bool.true_eq_false, if_false]
      by_cases hp : port % 2 ≠ 0
      · rw [if_pos hp]
        refine ⟨s, false, rfl, hi, fun _ => rfl, ⟨fun h => (by cases h), ?_⟩, fun h => (by cases h)⟩
        rintro ⟨r', st', h, hm', h2, _⟩; exact absurd h2 hp
      · rw [if_neg hp]
        by_cases hk : sinkFor ug st = false
        · rw [if_pos hk]
          refine ⟨s, false, rfl, hi, fun _ => rfl, ⟨fun h => (by cases h), ?_⟩, fun h => (by cases h)⟩
          rintro ⟨r', st', h, hm', _, h2⟩
          cases h
          cases huniq st' hm'
          rw [hk] at h2; cases h2
        · rw [if_neg hk]
          refine ⟨_, true, rfl, inv_rtp hi hid (fun _ => Iff.rfl) ?_, fun h => (by cases h),
            ⟨fun _ => ⟨r, st, rfl, hm, by omega, by simpa using hk⟩, fun _ => rfl⟩, fun _ => ⟨r, rfl, rfl⟩⟩
          intro q hq
          cases List.mem_singleton.1 hq
          exact ⟨st, hm⟩
  · rename_i hne
    refine ⟨s, false, rfl, hi, fun _ => rfl, ⟨fun h => (by cases h), ?_⟩, fun h => (by cases h)⟩
    rintro ⟨r, st, h, _⟩
    exact absurd h (hne r)

/-- The MPEG-TS connection. -/
theorem addMpegTs_ok {s : St} (hi : Inv s) (rs : List Int) (id port : Int) (hid : id ∉ s.conns.map Prod.fst)
    (hall : (rs.any fun r => decide (stream s r = none)) = false) :
    ∃ t b, addMpegTs s rs id port = .ok (t, b) ∧ Inv t ∧ (b = false → t = s) ∧
      (b = true ↔ port % 2 = 0 ∧ ((∃ r st, rs = [r] ∧ (r, some st) ∈ s.readers ∧ muxable st = true) ∨
        ∃ q r st st', rs = [q, r] ∧ (q, some st) ∈ s.readers ∧ (r, some st') ∈ s.readers ∧ muxable st' = true ∧ sameKind st st' = false)) ∧
      (b = true → ∃ l u, t = { s with conns := s.conns ++ [(id, .rtp l u)] } ∧
        ∀ x, x ∈ l ↔ x ∈ rs ∧ ∃ st, (x, some st) ∈ s.readers ∧ muxable st = true) := by
  have huniq : ∀ q st st', (q, some st) ∈ s.readers → (q, some st') ∈ s.readers → st = st' := by
    intro q st st' h h'
    have := key_unique hi.rKey h h'
    injection this
  unfold addMpegTs
  match rs with
  | [] =>
    refine ⟨s, false, rfl, hi, fun _ => rfl, ⟨fun h => (by cases h), ?_⟩, fun h => (by cases h)⟩
    rintro ⟨_, ⟨r, st, h, _⟩ | ⟨q, r, st, st', h, _⟩⟩ <;> cases h
  | [r] =>
    obtain ⟨st, hst, hm, hs⟩ := streams_of hi hall r (List.mem_cons_self ..)
    obtain ⟨m1, m2, m3⟩ := mux_one hst hs (hi.noM1 _ hm)
    rw [if_neg (by simp)]
    simp only
    rw [m1, m2, m3]
    by_cases hmx : muxable st = false
    · rw [if_pos hmx]
      refine ⟨s, false, rfl, hi, fun _ => rfl, ⟨fun h => (by cases h), ?_⟩, fun h => (by cases h)⟩
      rintro ⟨_, ⟨r', st', h, h', h''⟩ | ⟨q, r', st', st'', h, _⟩⟩
      · cases h; cases huniq _ _ _ h' hm; rw [hmx] at h''; cases h''
      · cases h
    · have hmx' : muxable st = true := by simpa using hmx
      rw [if_neg hmx]
      by_cases hp : port % 2 ≠ 0
      · rw [if_pos hp]
        exact ⟨s, false, rfl, hi, fun _ => rfl, ⟨fun h => (by cases h), fun h => absurd h.1 hp⟩, fun h => (by cases h)⟩
      · rw [if_neg hp]
        simp only [hmx', if_true]
        refine ⟨_, true, rfl, inv_rtp hi hid (fun _ => Iff.rfl) ?_, fun h => (by cases h),
          ⟨fun _ => ⟨by omega, .inl ⟨r, st, rfl, hm, hmx'⟩⟩, fun _ => rfl⟩, fun _ => ⟨_, _, rfl, ?_⟩⟩
        · intro q hq
          cases List.mem_singleton.1 hq
          exact ⟨st, hm⟩
        · intro x
          refine ⟨fun h => ⟨h, ?_⟩, And.left⟩
          cases List.mem_singleton.1 h
          exact ⟨st, hm, hmx'⟩
  | [q, r] =>
    obtain ⟨st, hst, hm, hs⟩ := streams_of hi hall q (List.mem_cons_self ..)
    obtain ⟨st', hst', hm', hs'⟩ := streams_of hi hall r (List.mem_cons_of_mem _ (List.mem_cons_self ..))
    obtain ⟨m1, m2⟩ := mux_two hst hs (hi.noM1 _ hm) hst' hs' (hi.noM1 _ hm')
    rw [if_neg (by simp)]
    simp only
    obtain ⟨m, hmm⟩ : ∃ m, m = muxAll s ⟨false, false, false, -1, -1, []⟩ [q, r] := ⟨_, rfl⟩
    rw [← hmm] at m1 m2 ⊢
    by_cases hok : m.ok = false
    · rw [if_pos hok]
      refine ⟨s, false, rfl, hi, fun _ => rfl, ⟨fun h => (by cases h), ?_⟩, fun h => (by cases h)⟩
      rintro ⟨_, ⟨r', st', h, _⟩ | ⟨q', r', s1, s2, h, h1, h2, h3, h4⟩⟩
      · cases h
      · cases h
        cases huniq _ _ _ h1 hm
        cases huniq _ _ _ h2 hm'
        rw [m1, h3, h4] at hok; cases hok
    · have hok' : m.ok = true := by simpa using hok
      rw [if_neg hok]
      by_cases hp : port % 2 ≠ 0
      · rw [if_pos hp]
        exact ⟨s, false, rfl, hi, fun _ => rfl, ⟨fun h => (by cases h), fun h => absurd h.1 hp⟩, fun h => (by cases h)⟩
      · rw [if_neg hp]
        obtain ⟨m3, m4⟩ := m2 hok'
        rw [m1] at hok'
        simp only [Bool.and_eq_true, Bool.not_eq_true'] at hok'
        refine ⟨_, true, rfl, inv_rtp hi hid (fun x => by rw [m3, m4]) ?_, fun h => (by cases h),
          ⟨fun _ => ⟨by omega, .inr ⟨q, r, st, st', rfl, hm, hm', hok'⟩⟩, fun _ => rfl⟩, fun _ => ⟨_, _, rfl, ?_⟩⟩
        · intro x hx
          rcases (m4 x).1 hx with ⟨h, _⟩ | h
          · subst h; exact ⟨st, hm⟩
          · subst h; exact ⟨st', hm'⟩
        · intro x
          rw [m4]
          constructor
          · rintro (⟨h, h'⟩ | h)
            · subst h; exact ⟨List.mem_cons_self .., st, hm, h'⟩
            · subst h; exact ⟨by simp, st', hm', hok'.1⟩
          · rintro ⟨h, s1, h1, h2⟩
            rcases List.mem_cons.1 h with h | h
            · subst h; left; cases huniq _ _ _ h1 hm; exact ⟨rfl, h2⟩
            · right; simpa using h
  | _ :: _ :: _ :: _ =>
    rw [if_pos (by simp)]
    refine ⟨s, false, rfl, hi, fun _ => rfl, ⟨fun h => (by cases h), ?_⟩, fun h => (by cases h)⟩
    rintro ⟨_, ⟨r, st, h, _⟩ | ⟨q, r, st, st', h, _⟩⟩ <;> cases h

end Lms.Sink
