import Verif.AudioDec.Model

/-!
# C72: what the audio decoder delivers
-/

namespace Lms.AudioDec
open Lms.FrameAlloc

/-! ## The specification -/

/-- Codecs that can be decoded. -/
def Decodable (c : AC) : Prop := c = .pcmu ∨ c = .opus ∨ c = .aac ∨ c = .mp3

instance (c : AC) : Decidable (Decodable c) := by unfold Decodable; infer_instance

/-- Configuration events: every parameter given replaces the old one. -/
def wish (c : Fmt) : List (Option Params) → Fmt
  | [] => c
  | none :: l => wish c l
  | some p :: l => wish { fmt := p.fmt.getD c.fmt, ch := p.ch.getD c.ch, rate := p.rate.getD c.rate } l

/-- Bytes used by a list of answers. -/
def used (ds : List Dec) : Int := (ds.map Dec.len).sum

/-- `d` is the answer that decides: an error or the first decoded frame, reached with bytes left. -/
def Reached (size : Int) (ds : List Dec) (d : Dec) : Prop :=
  ∃ pre post, ds = pre ++ d :: post ∧ (∀ e ∈ pre, 0 ≤ e.len ∧ e.got = false) ∧ used pre < size ∧
    (d.len < 0 ∨ d.got = true)

/-- What a frame should be answered with, `c` being the output configured: the samples of the first decoded frame,
converted from what they are to what is configured, as far as they fit; nothing after an error. -/
def Right (c : Fmt) (f : In) (t : AFrame) : Res → Prop
  | .fresh o =>
    0 < f.size ∧ ∃ d, Reached f.size (f.dec f.key) d ∧ 0 ≤ d.len ∧ 0 ≤ d.out ∧
      o.conv.src = { fmt := d.fmt, ch := d.ch, rate := d.rate } ∧ o.conv.dst = c ∧
      (o.samples : Int) = min d.out t.maxSamples ∧ o.len = o.samples * bytesPerSample c.fmt ∧
      o.pts = f.pts ∧ o.org = f.org ∧ o.seq = f.seq
  | .nothing => f.size ≤ 0 ∨ ∃ d, Reached f.size (f.dec f.key) d ∧ (d.len < 0 ∨ d.out < 0)
  | .stale p o q => (0 < f.size ∧ ∀ d, ¬ Reached f.size (f.dec f.key) d) ∧ p = f.pts ∧ o = f.org ∧ q = f.seq

/-- A destination made for the configured output (AVFramedQueue/AudioCircularBuffer frames). -/
def Made (c : Fmt) (t : AFrame) : Prop := ∃ n, planar c.ch c.rate n .pcm c.fmt = some t

/-- A frame of the stream `k` decoded to samples of format `F`; the library does its work and moves on. -/
structure OfStream (k : Key) (F : SF) (c : Fmt) (f : In) (t : AFrame) : Prop where
  key : f.key = k
  setup : f.setup.found = true ∧ f.setup.alloc = true ∧ f.setup.opens = true
  decoded : ∀ d ∈ f.dec k, d.got = true → d.fmt = F ∧ d.ch = k.ch ∧ d.rate = k.rate
  swr : ∀ d ∈ f.dec k, d.swr.set = true ∧ d.swr.init = true
  moves : ∀ d ∈ f.dec k, d.len ≠ 0 ∨ d.got = true
  enough : f.size ≤ (f.dec k).length
  made : Made c t

/-- Every frame is answered right. -/
def AllRight (c : Fmt) : List (In × AFrame) → List Ret → Prop
  | [], [] => True
  | x :: l, .frame r :: rs => Right c x.1 x.2 r ∧ AllRight c l rs
  | _, _ => False

/-! ## The loop -/

theorem known_iff (c : AC) : known c = true ↔ Decodable c := by cases c <;> simp [known, Decodable]

theorem known_false_iff (c : AC) : known c = false ↔ ¬ Decodable c := by
  rw [← known_iff]; cases known c <;> simp

theorem used_cons (d : Dec) (ds : List Dec) : used (d :: ds) = d.len + used ds := by simp [used]

theorem used_nonneg {ds : List Dec} (h : ∀ d ∈ ds, 0 ≤ d.len) : 0 ≤ used ds := by
  induction ds with
  | nil => simp [used]
  | cons e l ih =>
    rw [used_cons]
    have := h e (by simp)
    have := ih (fun x hx => h x (by simp [hx]))
    omega

theorem reached_nil {n : Int} {d : Dec} : ¬ Reached n [] d := by
  rintro ⟨pre, post, h, _⟩
  cases pre <;> cases h

theorem reached_nonpos {n : Int} {ds : List Dec} {d : Dec} (hn : n ≤ 0) : ¬ Reached n ds d := by
  rintro ⟨pre, post, _, h2, h3, _⟩
  have := used_nonneg (fun e he => (h2 e he).1)
  omega

theorem reached_cons {n : Int} {d d' : Dec} {ds : List Dec} :
    Reached n (d :: ds) d' ↔ (d = d' ∧ 0 < n ∧ (d.len < 0 ∨ d.got = true)) ∨
      ((0 ≤ d.len ∧ d.got = false) ∧ Reached (n - d.len) ds d') := by
  constructor
  · rintro ⟨pre, post, h1, h2, h3, h4⟩
    cases pre with
    | nil =>
      simp only [List.nil_append, List.cons.injEq] at h1
      obtain ⟨rfl, _⟩ := h1
      exact Or.inl ⟨rfl, by simpa [used] using h3, h4⟩
    | cons e pre =>
      simp only [List.cons_append, List.cons.injEq] at h1
      obtain ⟨rfl, h1⟩ := h1
      rw [used_cons] at h3
      exact Or.inr ⟨h2 d (by simp), pre, post, h1, fun x hx => h2 x (by simp [hx]), by omega, h4⟩
  · rintro (⟨rfl, h1, h2⟩ | ⟨h0, pre, post, h1, h2, h3, h4⟩)
    · exact ⟨[], ds, rfl, by simp, by simpa [used] using h1, h2⟩
    · refine ⟨d :: pre, post, by rw [h1]; rfl, ?_, by rw [used_cons]; omega, h4⟩
      intro e he
      rcases List.mem_cons.1 he with rfl | he
      · exact h0
      · exact h2 e he

/-- The deciding answer is the only one. -/
theorem reached_unique {n : Int} {ds : List Dec} {d e : Dec} (h1 : Reached n ds d) (h2 : Reached n ds e) : d = e := by
  induction ds generalizing n with
  | nil => exact absurd h1 reached_nil
  | cons x ds ih =>
    rcases reached_cons.1 h1 with ⟨rfl, _, g1⟩ | ⟨g1, r1⟩ <;>
      rcases reached_cons.1 h2 with ⟨rfl, _, g2⟩ | ⟨g2, r2⟩
    · rfl
    · rcases g1 with g1 | g1
      · omega
      · rw [g2.2] at g1; cases g1
    · rcases g2 with g2 | g2
      · omega
      · rw [g1.2] at g2; cases g2
    · exact ih r1 r2

/-- The state while a stream is decoded: the right decoder, and no resampling context before the first decoded
frame, the right one afterwards. -/
structure Ready (k : Key) (F : SF) (c : Fmt) (s : State) : Prop where
  key : s.key = k
  ctx : s.ctx = .opened k
  out : s.out = c
  swr : (s.inFmt = .none ∧ s.swr = none) ∨
    (s.inFmt = F ∧ s.swr = some (some { src := { fmt := F, ch := k.ch, rate := k.rate }, dst := c }))

theorem checkFormat_ready {k : Key} {F : SF} {c : Fmt} {s : State} (h : Ready k F c s) (hF : F ≠ .none)
    (hk : 0 < k.ch) (hc : c.fmt ≠ .none) (hc' : 0 < c.ch) {d : Dec} (hd : d.fmt = F) (hs : d.swr.set = true)
    (hi : d.swr.init = true) :
    Ready k F c (s.checkFormat d) ∧
      (s.checkFormat d).swr = some (some { src := { fmt := F, ch := k.ch, rate := k.rate }, dst := c }) := by
  unfold State.checkFormat
  rcases h.swr with ⟨h1, h2⟩ | ⟨h1, h2⟩
  · rw [if_neg (by rw [h1, hd]; exact fun e => hF e.symm)]
    have : (State.inputConfig { s with inFmt := d.fmt } d.swr).1 =
        { s with inFmt := F, swr := some (some { src := { fmt := F, ch := k.ch, rate := k.rate }, dst := c }) } := by
      unfold State.inputConfig
      rw [if_neg (by rw [hs]; simp)]
      simp only [h2, h.key, h.out, hd]
      rw [if_pos (by simp [initOk, hi, hF, hk, hc, hc'])]
    rw [this]
    exact ⟨⟨h.key, h.ctx, h.out, Or.inr ⟨rfl, rfl⟩⟩, rfl⟩
  · rw [if_pos (by rw [h1, hd])]
    exact ⟨h, h2⟩

theorem made_writes {c : Fmt} {t : AFrame} (hm : Made c t) (hc : c.ch ≤ 2) (n : Nat) (hn : n ≤ t.maxSamples) :
    writesOk c t n = true ∧ t.planar = true := by
  obtain ⟨m, hm⟩ := hm
  unfold planar at hm
  split at hm
  · cases hm
  · rename_i hf
    cases hm
    have hp : isPlanar c.fmt = true := by
      cases hq : c.fmt <;> simp_all [isPlanar]
    refine ⟨?_, rfl⟩
    unfold writesOk planes planeBytes
    simp only [hp, if_true, Bool.and_eq_true, decide_eq_true_eq]
    refine ⟨hc, ?_⟩
    rw [Nat.mul_comm]
    exact Nat.mul_le_mul_left _ hn

theorem made_fmt {c : Fmt} {t : AFrame} (hm : Made c t) : c.fmt ≠ .none := by
  obtain ⟨m, hm⟩ := hm
  intro h
  unfold planar at hm
  rw [if_pos (by simp [h])] at hm
  cases hm

theorem loop_spec {k : Key} {F : SF} {c : Fmt} (hF : F ≠ .none) (hk : 0 < k.ch) (hc1 : 0 < c.ch) (hc2 : c.ch ≤ 2)
    (f : In) (t : AFrame) (hm : Made c t) (ds : List Dec) :
    ∀ (s : State) (n : Int), Ready k F c s →
      (∀ d ∈ ds, d.got = true → d.fmt = F ∧ d.ch = k.ch ∧ d.rate = k.rate) →
      (∀ d ∈ ds, d.swr.set = true ∧ d.swr.init = true) → (∀ d ∈ ds, d.len ≠ 0 ∨ d.got = true) → n ≤ ds.length →
      ∃ s' r, s.loop f t n ds = .ok (s', r) ∧ Ready k F c s' ∧
        (match r with
         | .fresh o => ∃ d, Reached n ds d ∧ 0 ≤ d.len ∧ 0 ≤ d.out ∧
             o.conv.src = { fmt := d.fmt, ch := d.ch, rate := d.rate } ∧ o.conv.dst = c ∧
             (o.samples : Int) = min d.out t.maxSamples ∧ o.len = o.samples * bytesPerSample c.fmt ∧
             o.pts = f.pts ∧ o.org = f.org ∧ o.seq = f.seq
         | .nothing => ∃ d, Reached n ds d ∧ (d.len < 0 ∨ d.out < 0)
         | .stale p o q => (∀ d, ¬ Reached n ds d) ∧ p = f.pts ∧ o = f.org ∧ q = f.seq) := by
  induction ds with
  | nil =>
    intro s n hr _ _ _ hn
    exact ⟨s, .stale f.pts f.org f.seq, by rw [State.loop, if_pos (by simpa using hn)], hr, fun d => reached_nil, rfl, rfl,
      rfl⟩
  | cons d ds ih =>
    intro s n hr hdec hswr hmov hn
    rw [State.loop]
    by_cases h0 : n ≤ 0
    · rw [if_pos h0]
      exact ⟨s, _, rfl, hr, fun d => reached_nonpos h0, rfl, rfl, rfl⟩
    · rw [if_neg h0]
      by_cases h1 : d.len < 0
      · rw [if_pos h1]
        exact ⟨s, _, rfl, hr, d, reached_cons.2 (Or.inl ⟨rfl, by omega, Or.inl h1⟩), Or.inl h1⟩
      · rw [if_neg h1]
        by_cases hg : d.got = false
        · rw [if_pos hg]
          have hlen : d.len ≠ 0 := by
            rcases hmov d (by simp) with h | h
            · exact h
            · rw [hg] at h; cases h
          obtain ⟨s', r, g1, g2, g3⟩ := ih s (n - d.len) hr (fun x hx => hdec x (by simp [hx]))
            (fun x hx => hswr x (by simp [hx])) (fun x hx => hmov x (by simp [hx]))
            (by rw [List.length_cons] at hn; omega)
          refine ⟨s', r, g1, g2, ?_⟩
          have up : ∀ e, Reached (n - d.len) ds e → Reached n (d :: ds) e := fun e he =>
            reached_cons.2 (Or.inr ⟨⟨by omega, hg⟩, he⟩)
          have down : ∀ e, Reached n (d :: ds) e → Reached (n - d.len) ds e := by
            intro e he
            rcases reached_cons.1 he with ⟨_, _, h⟩ | ⟨_, h⟩
            · rcases h with h | h
              · omega
              · rw [hg] at h; cases h
            · exact h
          cases r with
          | nothing => obtain ⟨e, he, h⟩ := g3; exact ⟨e, up e he, h⟩
          | fresh o => obtain ⟨e, he, h⟩ := g3; exact ⟨e, up e he, h⟩
          | stale p o q => exact ⟨fun e he => g3.1 e (down e he), g3.2⟩
        · rw [if_neg hg]
          have hgot : d.got = true := by simpa using hg
          obtain ⟨e1, e2, e3⟩ := hdec d (by simp) hgot
          obtain ⟨a1, a2⟩ := hswr d (by simp)
          obtain ⟨hr', hsw⟩ := checkFormat_ready hr hF hk (made_fmt hm) hc1 e1 a1 a2
          have hreach : Reached n (d :: ds) d := reached_cons.2 (Or.inl ⟨rfl, by omega, Or.inr hgot⟩)
          simp only [State.resample, hsw]
          by_cases hout : d.out < 0
          · rw [if_pos hout]
            exact ⟨_, _, rfl, hr', d, hreach, Or.inr hout⟩
          · rw [if_neg hout]
            have hw := made_writes hm hc2 (min d.out.toNat t.maxSamples) (Nat.min_le_right _ _)
            have hrd : readsOk { fmt := F, ch := k.ch, rate := k.rate } d = true := by
              unfold readsOk; simp only [e1, e2, Nat.le_refl, decide_true, Bool.and_self]
            rw [hrd, hw.1]
            refine ⟨_, _, rfl, hr', d, hreach, by omega, by omega, ?_, rfl, ?_, ?_, rfl, rfl, rfl⟩
            · rw [e1, e2, e3]
            · show ((min d.out.toNat t.maxSamples : Nat) : Int) = _
              omega
            · show State.length _ t _ = _
              unfold State.length
              rw [if_pos hw.2, hr'.out]

theorem process_right {k : Key} {F : SF} {c : Fmt} (hF : F ≠ .none) (hd : Decodable k.codec) (hk : 0 < k.ch)
    (hkr : 0 < k.rate) (hc1 : 0 < c.ch) (hc2 : c.ch ≤ 2) (s : State)
    (hs : Ready k F c s ∨ (s.key.ch = 0 ∧ s.ctx = .null ∧ s.out = c ∧ s.inFmt = .none ∧ s.swr = none))
    (f : In) (t : AFrame) (hf : OfStream k F c f t) :
    ∃ s' r, s.process f t = .ok (s', r) ∧ Right c f t r ∧ Ready k F c s' := by
  have hrec : ∃ s1, s.reconfigure k f.setup = .ok (s1, true) ∧ Ready k F c s1 := by
    unfold State.reconfigure
    rw [if_neg (by omega)]
    rcases hs with hr | ⟨h1, h2, h3, h4, h5⟩
    · rw [if_pos hr.key.symm]; exact ⟨s, rfl, hr⟩
    · rw [if_neg (by intro e; rw [← e] at h1; omega)]
      simp only
      rw [if_neg (by rw [known_false_iff]; simpa using hd), if_neg (by rw [h2]; simp)]
      simp only [hf.setup.1, hf.setup.2.1, hf.setup.2.2, Bool.true_eq_false, if_false]
      exact ⟨_, rfl, ⟨rfl, rfl, h3, Or.inl ⟨h4, h5⟩⟩⟩
  obtain ⟨s1, h1, h2⟩ := hrec
  unfold State.process
  rw [hf.key, h1]
  simp only [Outcome.bind_ok, Bool.true_eq_false, if_false]
  by_cases h0 : f.size ≤ 0
  · rw [if_pos h0]
    exact ⟨s1, _, rfl, Or.inl h0, h2⟩
  · rw [if_neg h0]
    have hdec : s1.decoder = some k := by unfold State.decoder; rw [h2.ctx]
    rw [hdec]
    obtain ⟨s', r, g1, g2, g3⟩ := loop_spec hF hk hc1 hc2 f t hf.made (f.dec k) s1 f.size h2 hf.decoded hf.swr hf.moves
      hf.enough
    refine ⟨s', r, g1, ?_, g2⟩
    cases r with
    | nothing => unfold Right; rw [hf.key]; exact Or.inr g3
    | fresh o => unfold Right; rw [hf.key]; exact ⟨by omega, g3⟩
    | stale p o q => unfold Right; rw [hf.key]; exact ⟨⟨by omega, g3.1⟩, g3.2⟩

/-! ## Configured, then a stream -/

theorem wish_runs (l : List (Option Params × SwrAns)) :
    ∀ s : State, s.key.ch = 0 → s.key.rate = 0 → ∃ bs, runOps step s (l.map fun x => Op.config x.1 x.2) =
      .ok ({ s with out := wish s.out (l.map Prod.fst) }, bs) ∧ bs.length = l.length := by
  induction l with
  | nil => intro s _ _; exact ⟨[], rfl, rfl⟩
  | cons x l ih =>
    intro s h1 h2
    obtain ⟨p, a⟩ := x
    cases p with
    | none =>
      obtain ⟨bs, h, hl⟩ := ih s h1 h2
      refine ⟨.config false :: bs, ?_, by simp [hl]⟩
      rw [List.map_cons, runOps, step]
      simp only [State.configEvent, Outcome.bind_ok, h, List.map_cons, wish]
    | some p =>
      have hstep : step s (.config (some p) a) = .ok
          ({ s with out := { fmt := p.fmt.getD s.out.fmt, ch := p.ch.getD s.out.ch, rate := p.rate.getD s.out.rate } },
            .config true) := by
        simp only [step, State.configEvent, State.outputConfig]
        rw [if_pos ⟨h1, h2⟩]
      obtain ⟨bs, h, hl⟩ := ih
        { s with out := { fmt := p.fmt.getD s.out.fmt, ch := p.ch.getD s.out.ch, rate := p.rate.getD s.out.rate } } h1 h2
      refine ⟨.config true :: bs, ?_, by simp [hl]⟩
      rw [List.map_cons, runOps, hstep]
      simp only [Outcome.bind_ok, h, List.map_cons, wish]

/-- A decoder that is configured and then given one stream: nothing goes wrong, and every frame is answered with
the samples its own decoder finds, converted to the output configured last. -/
theorem decoding (c0 : AC) (l : List (Option Params × SwrAns)) (k : Key) (F : SF) (fs : List (In × AFrame))
    (hF : F ≠ .none) (hd : Decodable k.codec) (hk : 0 < k.ch) (hkr : 0 < k.rate)
    (hc1 : 0 < (wish { fmt := .fltp, ch := 2, rate := 48000 } (l.map Prod.fst)).ch)
    (hc2 : (wish { fmt := .fltp, ch := 2, rate := 48000 } (l.map Prod.fst)).ch ≤ 2)
    (hfs : ∀ x ∈ fs, OfStream k F (wish { fmt := .fltp, ch := 2, rate := 48000 } (l.map Prod.fst)) x.1 x.2) :
    ∃ s bs rs, runOps step (State.init c0) ((l.map fun x => Op.config x.1 x.2) ++ fs.map fun x => Op.frame x.1 x.2) =
      .ok (s, bs ++ rs) ∧ bs.length = l.length ∧
      AllRight (wish { fmt := .fltp, ch := 2, rate := 48000 } (l.map Prod.fst)) fs rs := by
  obtain ⟨c, hc⟩ : ∃ c, c = wish { fmt := .fltp, ch := 2, rate := 48000 } (l.map Prod.fst) := ⟨_, rfl⟩
  rw [← hc] at hc1 hc2 hfs ⊢
  have main : ∀ (fs : List (In × AFrame)) (s : State),
      (Ready k F c s ∨ (s.key.ch = 0 ∧ s.ctx = .null ∧ s.out = c ∧ s.inFmt = .none ∧ s.swr = none)) →
      (∀ x ∈ fs, OfStream k F c x.1 x.2) →
      ∃ s' rs, runOps step s (fs.map fun x => Op.frame x.1 x.2) = .ok (s', rs) ∧ AllRight c fs rs := by
    intro fs
    induction fs with
    | nil => intro s _ _; exact ⟨s, [], rfl, trivial⟩
    | cons x fs ih =>
      intro s hs hx
      obtain ⟨s1, r, h1, h2, h3⟩ := process_right hF hd hk hkr hc1 hc2 s hs x.1 x.2 (hx x (by simp))
      obtain ⟨s2, rs, h4, h5⟩ := ih s1 (Or.inl h3) (fun y hy => hx y (by simp [hy]))
      refine ⟨s2, .frame r :: rs, ?_, h2, h5⟩
      have hstep : step s (.frame x.1 x.2) = .ok (s1, .frame r) := by simp [step, h1]
      rw [List.map_cons, runOps, hstep]
      simp only [Outcome.bind_ok, h4]
  obtain ⟨bs, h1, hl⟩ := wish_runs l (State.init c0) rfl rfl
  obtain ⟨s2, rs, h2, h3⟩ := main fs { State.init c0 with out := c } (Or.inr ⟨rfl, rfl, rfl, rfl, rfl⟩) hfs
  refine ⟨s2, bs, rs, ?_, hl, h3⟩
  rw [runOps_append, h1]
  have e : ({ State.init c0 with out := wish (State.init c0).out (l.map Prod.fst) } : State) =
      { State.init c0 with out := c } := by rw [hc]; rfl
  rw [e]
  simp only [Outcome.bind_ok, h2]

/-! ## Recorded exceptions -/

/-- The frames delivered by a history. -/
def delivered (rs : List Ret) : List Out :=
  rs.filterMap fun
    | .frame (.fresh o) => some o
    | _ => none

/-- The answers to new resampling parameters within an operation succeed. -/
def SetsOk : Op → Prop
  | .config _ a => a.set = true
  | .frame f _ => ∀ k, ∀ d ∈ f.dec k, d.swr.set = true

theorem inputConfig_live {s : State} {o : Opts} (h : s.swr = some (some o)) {a : SwrAns} (ha : a.set = true) :
    s.inputConfig a = (s, true) := by
  unfold State.inputConfig
  rw [if_neg (by rw [ha]; simp), h]

theorem reconfigure_swr {s s1 : State} {k : Key} {a : Setup} {b : Bool} (h : s.reconfigure k a = .ok (s1, b)) :
    s1.swr = s.swr := by
  unfold State.reconfigure at h
  split at h
  · cases h; rfl
  · split at h
    · cases h; rfl
    · simp only at h
      split at h
      · cases h; rfl
      · split at h
        · cases h
        · repeat (split at h; · cases h; rfl)
          cases h; rfl

theorem loop_live {o : Opts} {f : In} {t : AFrame} (ds : List Dec) :
    ∀ (s : State) (n : Int) (s' : State) (r : Res), s.swr = some (some o) → (∀ d ∈ ds, d.swr.set = true) →
      s.loop f t n ds = .ok (s', r) → s'.swr = some (some o) ∧ ∀ x, r = .fresh x → x.conv = o := by
  induction ds with
  | nil =>
    intro s n s' r hs _ h
    rw [State.loop] at h
    split at h
    · cases h; exact ⟨hs, fun x hx => by cases hx⟩
    · cases h
  | cons d ds ih =>
    intro s n s' r hs ha h
    rw [State.loop] at h
    split at h
    · cases h; exact ⟨hs, fun x hx => by cases hx⟩
    · split at h
      · cases h; exact ⟨hs, fun x hx => by cases hx⟩
      · split at h
        · exact ih s _ s' r hs (fun x hx => ha x (by simp [hx])) h
        · have hc : (s.checkFormat d).swr = some (some o) := by
            unfold State.checkFormat
            split
            · exact hs
            · rw [inputConfig_live (s := { s with inFmt := d.fmt }) hs (ha d (by simp))]; exact hs
          simp only [State.resample, hc] at h
          split at h
          · cases h; exact ⟨hc, fun x hx => by cases hx⟩
          · split at h
            · cases h
              exact ⟨hc, fun x hx => by cases hx; rfl⟩
            · cases h

/-- Recorded: once the resampling context is initialised its parameters are never replaced: whatever is
configured and whatever streams come afterwards, every frame delivered is converted with the same ones. -/
theorem first_conversion_stays (o : Opts) (ops : List Op) : ∀ (s s' : State) (rs : List Ret), s.swr = some (some o) →
    (∀ op ∈ ops, SetsOk op) → runOps step s ops = .ok (s', rs) →
    s'.swr = some (some o) ∧ ∀ x ∈ delivered rs, x.conv = o := by
  induction ops with
  | nil => intro s s' rs hs _ h; cases h; exact ⟨hs, by simp [delivered]⟩
  | cons op ops ih =>
    intro s s' rs hs hok h
    have hok' : ∀ op ∈ ops, SetsOk op := fun x hx => hok x (by simp [hx])
    rw [runOps] at h
    cases op with
    | config p a =>
      simp only [step, Outcome.bind_ok] at h
      have h1 : (s.configEvent p a).1.swr = some (some o) := by
        cases p with
        | none => exact hs
        | some p =>
          unfold State.configEvent State.outputConfig
          simp only
          split
          · exact hs
          · rw [inputConfig_live (by exact hs) (hok (.config (some p) a) (by simp))]; exact hs
      obtain ⟨q, hq⟩ : ∃ q, q = runOps step (s.configEvent p a).1 ops := ⟨_, rfl⟩
      rw [← hq] at h
      cases q with
      | ok q =>
        obtain ⟨s2, rs2⟩ := q
        cases h
        obtain ⟨k1, k2⟩ := ih _ _ _ h1 hok' hq.symm
        exact ⟨k1, k2⟩
      | ub => cases h
      | hang => cases h
    | frame f t =>
      simp only [step, State.process] at h
      cases hr : s.reconfigure f.key f.setup with
      | ub => rw [hr] at h; cases h
      | hang => rw [hr] at h; cases h
      | ok r =>
        obtain ⟨s1, b⟩ := r
        have h1 : s1.swr = some (some o) := by rw [reconfigure_swr hr]; exact hs
        rw [hr] at h
        simp only [Outcome.bind_ok] at h
        have fin : ∀ s2 r2, s2.swr = some (some o) → (∀ x, r2 = Res.fresh x → x.conv = o) →
            ((runOps step s2 ops).bind fun q => Outcome.ok (q.1, Ret.frame r2 :: q.2)) = .ok (s', rs) →
            s'.swr = some (some o) ∧ ∀ x ∈ delivered rs, x.conv = o := by
          intro s2 r2 g1 g2 g3
          obtain ⟨q, hq⟩ : ∃ q, q = runOps step s2 ops := ⟨_, rfl⟩
          rw [← hq] at g3
          cases q with
          | ok q =>
            obtain ⟨s3, rs3⟩ := q
            cases g3
            obtain ⟨k1, k2⟩ := ih _ _ _ g1 hok' hq.symm
            refine ⟨k1, ?_⟩
            intro x hx
            cases r2 with
            | fresh y =>
              rcases List.mem_cons.1 (show x ∈ y :: delivered rs3 from hx) with rfl | hx
              · exact g2 x rfl
              · exact k2 x hx
            | nothing => exact k2 x hx
            | stale _ _ _ => exact k2 x hx
          | ub => cases g3
          | hang => cases g3
        by_cases hb : b = false
        · rw [if_pos hb] at h
          exact fin s1 .nothing h1 (fun x hx => by cases hx) h
        · rw [if_neg hb] at h
          by_cases hz : f.size ≤ 0
          · rw [if_pos hz] at h
            exact fin s1 .nothing h1 (fun x hx => by cases hx) h
          · rw [if_neg hz] at h
            cases hdec : s1.decoder with
            | none => rw [hdec] at h; cases h
            | some k =>
              rw [hdec] at h
              simp only at h
              cases hl : s1.loop f t f.size (f.dec k) with
              | ub => rw [hl] at h; cases h
              | hang => rw [hl] at h; cases h
              | ok r =>
                obtain ⟨s2, r2⟩ := r
                rw [hl] at h
                obtain ⟨k1, k2⟩ := loop_live (f.dec k) s1 f.size s2 r2 h1 (hok (.frame f t) (by simp) k) hl
                exact fin s2 r2 k1 k2 h

/-- Recorded: such a configuration is answered with success, and the lengths set afterwards are those of the new
format. -/
theorem late_configuration_accepted (s : State) (o : Opts) (hs : s.swr = some (some o)) (p : Params) (a : SwrAns)
    (ha : a.set = true) (t : AFrame) (ht : t.planar = true) (n : Nat) :
    (s.configEvent (some p) a).2 = true ∧ (s.configEvent (some p) a).1.swr = some (some o) ∧
      (s.configEvent (some p) a).1.length t n = n * bytesPerSample (p.fmt.getD s.out.fmt) := by
  have h : s.configEvent (some p) a =
      ({ s with out := { fmt := p.fmt.getD s.out.fmt, ch := p.ch.getD s.out.ch, rate := p.rate.getD s.out.rate } },
        true) := by
    unfold State.configEvent State.outputConfig
    simp only
    split
    · rfl
    · rw [inputConfig_live (by exact hs) ha]
  rw [h]
  refine ⟨rfl, hs, ?_⟩
  unfold State.length
  rw [if_pos ht]

/-- Recorded: a codec that was refused is remembered, and the next frame of it is handed to whatever context
there is: none on a fresh decoder, otherwise that of the stream before. -/
theorem refused_then_taken (s : State) (f g : In) (t u : AFrame) (hd : ¬ Decodable f.key.codec) (hc : 0 < f.key.ch)
    (hr : 0 < f.key.rate) (hne : f.key ≠ s.key) (hg : g.key = f.key) (hsz : 0 < g.size) :
    ∃ s1, s.process f t = .ok (s1, .nothing) ∧ (s.ctx = .null → s1.process g u = .ub) ∧
      (∀ k, s.ctx = .opened k → s1.process g u = s1.loop g u g.size (g.dec k)) := by
  have hrec : s.reconfigure f.key f.setup = .ok ({ s with key := f.key }, false) := by
    unfold State.reconfigure
    rw [if_neg (by omega), if_neg hne]
    simp only
    rw [if_pos ((known_false_iff _).2 hd)]
  refine ⟨{ s with key := f.key }, by unfold State.process; rw [hrec]; rfl, fun hn => ?_, fun k hk => ?_⟩
  · unfold State.process State.reconfigure
    rw [if_neg (by rw [hg]; omega), if_pos hg]
    simp only [Outcome.bind_ok, Bool.true_eq_false, if_false, State.decoder, hn]
    rw [if_neg (by omega)]
  · unfold State.process State.reconfigure
    rw [if_neg (by rw [hg]; omega), if_pos hg]
    simp only [Outcome.bind_ok, Bool.true_eq_false, if_false, State.decoder, hk]
    rw [if_neg (by omega)]

/-- Recorded: after a decoder could not be set up, the next frame of the same stream is handed to a context that
is missing, freed or not open; one of another stream frees a freed one again. -/
theorem failed_setup_then_used (s : State) (f g : In) (t u : AFrame) (hd : Decodable f.key.codec) (hc : 0 < f.key.ch)
    (hr : 0 < f.key.rate) (hne : f.key ≠ s.key) (hnf : s.ctx ≠ .freed)
    (hbad : ¬ (f.setup.found = true ∧ f.setup.alloc = true ∧ f.setup.opens = true)) :
    ∃ s1, s.process f t = .ok (s1, .nothing) ∧
      (g.key = f.key → 0 < g.size → s1.process g u = .ub) ∧
      (Decodable g.key.codec → 0 < g.key.ch → 0 < g.key.rate → g.key ≠ f.key → s.ctx ≠ .null →
        f.setup.found = false → s1.process g u = .ub) := by
  obtain ⟨x, hx⟩ : ∃ x : Ctx, s.reconfigure f.key f.setup = .ok ({ s with key := f.key, ctx := x }, false) ∧
      (∀ c, x ≠ .opened c) ∧ (s.ctx ≠ .null → f.setup.found = false → x = .freed) := by
    unfold State.reconfigure
    rw [if_neg (by omega), if_neg hne]
    simp only
    rw [if_neg (by rw [known_false_iff]; simpa using hd), if_neg hnf]
    by_cases h1 : f.setup.found = false
    · rw [if_pos h1]
      by_cases h2 : s.ctx = .null
      · rw [if_pos h2]; exact ⟨.null, rfl, by simp, fun h => absurd h2 h⟩
      · rw [if_neg h2]; exact ⟨.freed, rfl, by simp, fun _ _ => rfl⟩
    · rw [if_neg h1]
      by_cases h2 : f.setup.alloc = false
      · rw [if_pos h2]; exact ⟨.null, rfl, by simp, fun _ h => absurd h h1⟩
      · rw [if_neg h2]
        by_cases h3 : f.setup.opens = false
        · rw [if_pos h3]; exact ⟨.unopened, rfl, by simp, fun _ h => absurd h h1⟩
        · exact absurd ⟨by simpa using h1, by simpa using h2, by simpa using h3⟩ hbad
  refine ⟨{ s with key := f.key, ctx := x }, by unfold State.process; rw [hx.1]; rfl, fun hg hsz => ?_,
    fun hgd hgc hgr hgne hnn hfd => ?_⟩
  · have hdec : ({ s with key := f.key, ctx := x } : State).decoder = none := by
      unfold State.decoder
      have := hx.2.1
      cases x with
      | opened c => exact absurd rfl (this c)
      | _ => rfl
    unfold State.process State.reconfigure
    rw [if_neg (by rw [hg]; omega), if_pos hg]
    simp only [Outcome.bind_ok, Bool.true_eq_false, if_false, hdec]
    rw [if_neg (by omega)]
  · have : x = .freed := hx.2.2 hnn hfd
    subst this
    unfold State.process State.reconfigure
    rw [if_neg (by omega), if_neg (by exact hgne)]
    simp only
    rw [if_neg (by rw [known_false_iff]; simpa using hgd), if_pos trivial]
    rfl

/-- Recorded: a library that takes no bytes and decodes nothing keeps the filter in its loop for good. -/
theorem no_progress_loops (s : State) (f : In) (t : AFrame) (n : Nat) (d : Dec) (hs : s.key = f.key)
    (hk : 0 < f.key.ch) (hr : 0 < f.key.rate) (hc : s.ctx = .opened f.key) (hsz : 0 < f.size) (h0 : d.len = 0)
    (hg : d.got = false) (hdec : f.dec f.key = List.replicate n d) : s.process f t = .hang := by
  have loop : ∀ n, s.loop f t f.size (List.replicate n d) = .hang := by
    intro n
    induction n with
    | zero => rw [List.replicate_zero, State.loop, if_neg (by omega)]
    | succ k ih =>
      rw [List.replicate_succ, State.loop, if_neg (by omega), if_neg (by omega), if_pos hg, h0, Int.sub_zero]
      exact ih
  unfold State.process State.reconfigure
  rw [if_neg (by omega), if_pos hs.symm]
  simp only [Outcome.bind_ok, Bool.true_eq_false, if_false, State.decoder, hc, hdec]
  rw [if_neg (by omega)]
  exact loop n

/-- Recorded: a decoded frame of a sample format the code does not know meets no resampling context. -/
theorem unknown_format_crashes (s : State) (f : In) (t : AFrame) (d : Dec) (ds : List Dec) (hs : s.key = f.key)
    (hk : 0 < f.key.ch) (hr : 0 < f.key.rate) (hc : s.ctx = .opened f.key) (hsz : 0 < f.size)
    (hfirst : s.inFmt = .none ∧ s.swr = none)
    (hdec : f.dec f.key = d :: ds) (hlen : 0 ≤ d.len) (hg : d.got = true) (hf : d.fmt = .none) :
    s.process f t = .ub := by
  unfold State.process State.reconfigure
  rw [if_neg (by omega), if_pos hs.symm]
  simp only [Outcome.bind_ok, Bool.true_eq_false, if_false, State.decoder, hc, hdec]
  rw [if_neg (by omega), State.loop, if_neg (by omega), if_neg (by omega), if_neg (by rw [hg]; simp)]
  unfold State.checkFormat
  rw [if_pos (by rw [hfirst.1, hf])]
  simp only [State.resample, hfirst.2]
  rfl

/-! ## Concrete runs -/

def okS : Setup := { found := true, alloc := true, opens := true }
def okR : SwrAns := { set := true, init := true }
def aac (ch : Nat) : Key := { codec := .aac, ch := ch, rate := 48000 }
def got (len : Int) (ch n : Nat) : Dec :=
  { len := len, got := true, fmt := .fltp, ch := ch, rate := 48000, samples := n, swr := okR, out := n }
def silent (len : Int) : Dec :=
  { len := len, got := false, fmt := .none, ch := 0, rate := 0, samples := 0, swr := okR, out := 0 }
def coded (k : Key) (l : List Dec) : In :=
  { key := k, size := 3, pts := 40, org := 3, seq := 9, setup := okS, dec := fun q => if q = k then l else [] }
/-- Frames as the queue of a decoder makes them: planar, two planes. -/
def dest (n : Nat) (f : SF) : AFrame :=
  { codec := .pcm, planar := true, channels := 2, rate := 48000, fmt := f, maxSamples := n, cap := n * bytesPerSample f }

/-- Configured to 16 bits: the frame is converted to it; one without a decoded frame is delivered all the same,
with the samples the destination happened to hold (recorded). -/
theorem silent_frame_delivered (c : AC) :
    (runOps step (State.init c) [.config (some ⟨some .s16p, none, none⟩) okR,
      .frame (coded (aac 2) [silent 1, got 2 2 1024]) (dest 4800 .s16p),
      .frame (coded (aac 2) [silent 1, silent 2]) (dest 4800 .s16p)]).map Prod.snd =
    .ok [.config true,
      .frame (.fresh { conv := { src := ⟨.fltp, 2, 48000⟩, dst := ⟨.s16p, 2, 48000⟩ }, samples := 1024, len := 2048
                       pts := 40, org := 3, seq := 9 }),
      .frame (.stale 40 3 9)] := by cases c <;> decide +kernel

/-- Recorded: the stream turns from stereo to mono: the mono samples are read as stereo ones; and from mono to
stereo: the second channel is dropped. -/
theorem channels_change_unnoticed (c : AC) :
    runOps step (State.init c) [.frame (coded (aac 2) [got 3 2 1024]) (dest 4800 .fltp),
      .frame (coded (aac 1) [got 3 1 1024]) (dest 4800 .fltp)] = .ub ∧
    (runOps step (State.init c) [.frame (coded (aac 1) [got 3 1 1024]) (dest 4800 .fltp),
      .frame (coded (aac 2) [got 3 2 1024]) (dest 4800 .fltp)]).map (fun r => (delivered r.2).map Out.conv) =
    .ok [{ src := ⟨.fltp, 1, 48000⟩, dst := ⟨.fltp, 2, 48000⟩ }, { src := ⟨.fltp, 1, 48000⟩, dst := ⟨.fltp, 2, 48000⟩ }] := by
  cases c <;> exact ⟨by decide +kernel, by decide +kernel⟩

/-- Recorded: an output configured after the queue was made overruns its frames: interleaved samples in one plane,
or more channels than there are planes. -/
theorem configured_after_queue_overruns (c : AC) :
    runOps step (State.init c) [.config (some ⟨some .flt, none, none⟩) okR,
      .frame (coded (aac 2) [got 3 2 2048]) (dest 4000 .fltp)] = .ub ∧
    runOps step (State.init c) [.config (some ⟨none, some 6, none⟩) okR,
      .frame (coded (aac 2) [got 3 2 1024]) (dest 4800 .fltp)] = .ub := by
  cases c <;> exact ⟨by decide +kernel, by decide +kernel⟩

/-- The hypotheses of `decoding` can be met. -/
example : OfStream (aac 2) .fltp { fmt := .s16p, ch := 2, rate := 48000 } (coded (aac 2) [silent 1, got 2 2 1024, silent 1])
    (dest 4800 .s16p) := by
  refine ⟨rfl, ⟨rfl, rfl, rfl⟩, ?_, ?_, ?_, by decide, ⟨4800, by decide⟩⟩ <;>
  · intro d hd
    simp only [coded, if_true, List.mem_cons, List.not_mem_nil, or_false] at hd
    rcases hd with rfl | rfl | rfl <;> simp [silent, got, aac, okR]

/-- **C72.** The length told of a frame in either layout: the bytes of the samples of one channel if every channel has its own plane, of all
channels otherwise. -/
theorem length_told (s : State) (t : AFrame) (n : Nat) :
    s.length t n = (if t.planar then 1 else s.out.ch) * n * bytesPerSample s.out.fmt := by
  unfold State.length
  split <;> simp

/-- **C72.** When the conversion could not be set up, frames are refused from then on. -/
theorem failed_conversion_refuses (s s' : State) (a : SwrAns) (ha : a.set = true) (h : s.inputConfig a = (s', false)) (d : Dec) (t : AFrame) :
    s'.resample d t = .ok none := by
  unfold State.inputConfig at h
  rw [if_neg (by rw [ha]; simp)] at h
  have key : ∀ {x : State}, x.swr = some none → x.resample d t = .ok none := by
    intro x hx; unfold State.resample; rw [hx]
  split at h
  · cases h
  · simp only at h
    split at h
    · cases h
    · cases h; exact key rfl

end Lms.AudioDec
