import Verif.AudioEnc.Model

/-!
# C73: what the audio encoder accepts and delivers
-/

namespace Lms.AudioEnc
open Lms.FrameAlloc Lms.AudioDec

/-! ## Configuration: the specification -/

/-- The codec named first in a history of events; it stays, whether its configuration succeeded or not. -/
def chosen : List Op → AC
  | [] => .none
  | .config (some p) _ :: l =>
    match p.codec with
    | some .none => chosen l
    | some c => c
    | none => chosen l
  | _ :: l => chosen l

/-- Codecs the filter has an encoder for. -/
def Encodable (c : AC) : Prop := c = .pcm ∨ c = .pcmu ∨ c = .opus ∨ c = .aac ∨ c = .mp3

/-- The library can encode this codec as configured: only compressed codecs are compared with the encoder's
lists. -/
def Ans.Good (a : Ans) (c : AC) : Prop :=
  a.found = true ∧ a.alloc = true ∧ a.opens = true ∧ a.buf = true ∧ a.frameSize ≠ 0 ∧
  (c = .pcm ∨ c = .pcmu ∨ (a.fmts = true ∧ a.rates = true ∧ a.layouts = true))

/-- The sample format an encoder is fed with. -/
def feed (c : AC) : SF := if c = .mp3 then .s16p else .s16

/-- The states before a codec is named. -/
structure Fresh (s : State) : Prop where
  codec : s.info.codec = .none
  fmt : s.info.fmt = .none
  ctx : s.ctx = .null
  nb : s.nb = 0
  buf : s.buf = none
  spf : s.spf = 0
  inp : s.inp = { fmt := .none, ch := 0, rate := 0 }
  swr : s.swr = none
  reader : s.reader = false

theorem fresh_init : Fresh State.init := ⟨rfl, rfl, rfl, rfl, rfl, rfl, rfl, rfl, rfl⟩

theorem defaults_codec (i : AInfo) : i.defaults.codec = i.codec := by
  unfold AInfo.defaults
  cases h : i.codec <;> simp [h]

theorem choose_codec (s : State) (c : AC) : (s.choose c).1.info.codec = s.info.codec := by
  cases c <;> rfl

theorem choose_known (s : State) (c : AC) : (s.choose c).2 = true ↔ Encodable c := by
  cases c <;> simp [State.choose, Encodable]

/-- The state an accepted configuration leaves. -/
structure Configured (s : State) (c : AC) (C R n : Nat) : Prop where
  codec : s.info.codec = c
  fmt : s.info.fmt = feed c
  ch : s.info.channels = C
  rate : s.info.rate = R
  internal : s.internal = feed c
  ctx : s.ctx = .opened
  nb : s.nb = n
  buf : s.buf = some (feed c, C, n)
  spf : s.spf = n

/-- A configuration of a fresh filter. -/
theorem configure0_fresh {s : State} (hs : Fresh s) (c : AC) (ch rate : Nat) (br : Int) (a : Ans) :
    ∃ s' b, s.configure0 c ch rate br a = .ok (s', b) ∧ s'.info.codec = c ∧ s'.inp = s.inp ∧ s'.swr = none ∧
      s'.reader = false ∧
      (b = true ↔ Encodable c ∧ a.Good c) ∧ (b = true → Configured s' c ch rate a.frameSize) ∧
      (c = .none → Fresh s') ∧ (s'.spf ≠ 0 → s'.spf = a.frameSize) := by
  unfold State.configure0
  rw [if_neg (by rw [hs.codec]; simp)]
  simp only
  obtain ⟨i, hi⟩ : ∃ i : AInfo, i = { AInfo.defaults { s.info with codec := c } with channels := ch, rate := rate } := ⟨_, rfl⟩
  rw [← hi]
  have hic : i.codec = c := by rw [hi]; exact defaults_codec _
  by_cases hk : Encodable c
  · have hch : State.choose { s with info := i, bitrate := br } c =
        ({ s with info := { i with fmt := feed c }, bitrate := br, internal := feed c }, true) := by
      rcases hk with rfl | rfl | rfl | rfl | rfl <;> rfl
    rw [hch]
    have hnn : c ≠ .none := by rcases hk with rfl | rfl | rfl | rfl | rfl <;> simp
    unfold State.codingConfig
    simp only [Bool.true_eq_false, false_or]
    by_cases h1 : a.found = false
    · rw [if_pos h1]
      refine ⟨_, _, rfl, hic, rfl, hs.swr, hs.reader, ?_, by simp, fun h => absurd h hnn, fun h => absurd hs.spf h⟩
      simp only [Bool.false_eq_true, false_iff]
      rintro ⟨_, h⟩; rw [h.1] at h1; cases h1
    · rw [if_neg h1]
      by_cases h2 : a.alloc = false
      · rw [if_pos h2]
        refine ⟨_, _, rfl, hic, rfl, hs.swr, hs.reader, ?_, by simp, fun h => absurd h hnn, fun h => absurd hs.spf h⟩
        simp only [Bool.false_eq_true, false_iff]
        rintro ⟨_, h⟩; rw [h.2.1] at h2; cases h2
      · rw [if_neg h2]
        by_cases h3 : (i.codec ≠ .pcmu ∧ i.codec ≠ .pcm) ∧ ¬ (a.fmts = true ∧ a.rates = true ∧ a.layouts = true)
        · rw [if_pos h3]
          refine ⟨_, _, rfl, hic, rfl, hs.swr, hs.reader, ?_, by simp, fun h => absurd h hnn, fun h => absurd hs.spf h⟩
          simp only [Bool.false_eq_true, false_iff]
          rintro ⟨_, h⟩
          rw [hic] at h3
          rcases h.2.2.2.2.2 with h | h | h
          · exact h3.1.2 h
          · exact h3.1.1 h
          · exact h3.2 h
        · rw [if_neg h3]
          rw [hic] at h3
          by_cases h4 : a.opens = false
          · rw [if_pos h4]
            refine ⟨_, _, rfl, hic, rfl, hs.swr, hs.reader, ?_, by simp, fun h => absurd h hnn,
              fun h => absurd hs.spf h⟩
            simp only [Bool.false_eq_true, false_iff]
            rintro ⟨_, h⟩; rw [h.2.2.1] at h4; cases h4
          · rw [if_neg h4]
            unfold State.frameSetup
            simp only
            have hn : (if a.frameSize ≠ 0 then Outcome.ok a.frameSize else defaultSamples s.inp.rate) =
                Outcome.ok a.frameSize := by
              by_cases h : a.frameSize = 0
              · rw [if_neg (by simp [h]), hs.inp, h]; rfl
              · rw [if_pos h]
            rw [hn]
            simp only [Outcome.bind_ok]
            by_cases h5 : a.frameSize = 0 ∨ a.buf = false
            · rw [if_pos h5]
              refine ⟨_, _, rfl, hic, rfl, hs.swr, hs.reader, ?_, by simp, fun h => absurd h hnn, fun _ => rfl⟩
              simp only [Bool.false_eq_true, false_iff]
              rintro ⟨_, h⟩
              rcases h5 with h5 | h5
              · exact h.2.2.2.2.1 h5
              · rw [h.2.2.2.1] at h5; cases h5
            · rw [if_neg h5]
              simp only [not_or] at h5
              refine ⟨_, _, rfl, hic, rfl, hs.swr, hs.reader, ?_, fun _ => ?_, fun h => absurd h hnn, fun _ => rfl⟩
              · simp only [true_iff]
                refine ⟨hk, by simpa using h1, by simpa using h2, by simpa using h4, by simpa using h5.2, h5.1, ?_⟩
                by_cases hp : c = .pcm
                · exact Or.inl hp
                · by_cases hu : c = .pcmu
                  · exact Or.inr (Or.inl hu)
                  · refine Or.inr (Or.inr ?_)
                    by_cases hq : a.fmts = true ∧ a.rates = true ∧ a.layouts = true
                    · exact hq
                    · exact absurd ⟨⟨hu, hp⟩, hq⟩ h3
              · exact ⟨hic, rfl, by rw [hi], by rw [hi], rfl, rfl, rfl, by rw [hi], rfl⟩
  · have hch : State.choose { s with info := i, bitrate := br } c = ({ s with info := i, bitrate := br }, false) := by
      cases c <;> first | rfl | (exact absurd (by simp [Encodable]) hk)
    rw [hch]
    unfold State.codingConfig
    rw [if_pos (Or.inl rfl)]
    refine ⟨_, _, rfl, hic, rfl, hs.swr, hs.reader, ?_, by simp, fun h => ?_, fun h => absurd hs.spf h⟩
    · simp only [Bool.false_eq_true, false_iff]; exact fun h => hk h.1
    · refine ⟨hic.trans h, ?_, hs.ctx, hs.nb, hs.buf, hs.spf, hs.inp, hs.swr, hs.reader⟩
      show i.fmt = .none
      rw [hi, h]
      exact hs.fmt

/-- A filter whose codec has been named refuses every configuration and stays as it is. -/
theorem config_refused {s : State} (hs : s.info.codec ≠ .none) (p : Option Params) (a : Ans) :
    s.configEvent p a = .ok (s, false) := by
  cases p with
  | none => rfl
  | some p => unfold State.configEvent State.configure0; simp only; rw [if_pos hs]

/-- What frames and readers leave alone. -/
def State.same (s t : State) : Prop :=
  s.info = t.info ∧ s.bitrate = t.bitrate ∧ s.internal = t.internal ∧ s.ctx = t.ctx ∧ s.nb = t.nb ∧ s.buf = t.buf ∧
    s.spf = t.spf

theorem resamplingConfig_same (s : State) (a : SwrAns) :
    (s.resamplingConfig a).1.same s ∧ (s.resamplingConfig a).1.reader = s.reader := by
  unfold State.resamplingConfig
  split
  · exact ⟨⟨rfl, rfl, rfl, rfl, rfl, rfl, rfl⟩, rfl⟩
  · split
    · exact ⟨⟨rfl, rfl, rfl, rfl, rfl, rfl, rfl⟩, rfl⟩
    · simp only
      split <;> exact ⟨⟨rfl, rfl, rfl, rfl, rfl, rfl, rfl⟩, rfl⟩

theorem process_same {s s' : State} {f : In} {a : FAns} {o : Option Out} (h : s.process f a = .ok (s', o)) :
    s'.same s := by
  have hr : (s.reconfigure f.fmt a.swr).1.same s := by
    unfold State.reconfigure
    split
    · exact ⟨rfl, rfl, rfl, rfl, rfl, rfl, rfl⟩
    · exact (resamplingConfig_same { s with inp := f.fmt } a.swr).1
  unfold State.process at h
  simp only at h
  split at h
  · cases h; exact hr
  · cases hc : (s.reconfigure f.fmt a.swr).1.convert f a with
    | ok o => rw [hc] at h; cases h; exact hr
    | ub => rw [hc] at h; cases h
    | hang => rw [hc] at h; cases h

/-- Once a codec has been named nothing of the configuration changes any more, whatever is configured, connected
or encoded afterwards. -/
theorem configured_for_good (ops : List Op) : ∀ (s s' : State) (rs : List Ret), s.info.codec ≠ .none →
    runOps step s ops = .ok (s', rs) → s'.same s ∧ ∀ b, .config b ∈ rs → b = false := by
  induction ops with
  | nil => intro s s' rs _ h; cases h; exact ⟨⟨rfl, rfl, rfl, rfl, rfl, rfl, rfl⟩, by simp⟩
  | cons op ops ih =>
    intro s s' rs hs h
    rw [runOps] at h
    have fin : ∀ s1 r, s1.same s → (∀ b, r = Ret.config b → b = false) →
        ((runOps step s1 ops).bind fun q => Outcome.ok (q.1, r :: q.2)) = .ok (s', rs) →
        s'.same s ∧ ∀ b, .config b ∈ rs → b = false := by
      intro s1 r g1 g2 g3
      cases hq : runOps step s1 ops with
      | ub => rw [hq] at g3; cases g3
      | hang => rw [hq] at g3; cases g3
      | ok q =>
        obtain ⟨s2, rs2⟩ := q
        rw [hq] at g3
        cases g3
        obtain ⟨k1, k2⟩ := ih s1 s2 rs2 (by rw [g1.1]; exact hs) hq
        obtain ⟨e1, e2, e3, e4, e5, e6, e7⟩ := g1
        obtain ⟨f1, f2, f3, f4, f5, f6, f7⟩ := k1
        refine ⟨⟨f1.trans e1, f2.trans e2, f3.trans e3, f4.trans e4, f5.trans e5, f6.trans e6, f7.trans e7⟩, ?_⟩
        intro b hb
        rcases List.mem_cons.1 hb with hb | hb
        · exact g2 b hb.symm
        · exact k2 b hb
    cases op with
    | config p a =>
      simp only [step, config_refused hs, Outcome.bind_ok] at h
      exact fin s (.config false) ⟨rfl, rfl, rfl, rfl, rfl, rfl, rfl⟩ (fun b hb => by cases hb; rfl) h
    | reader ring =>
      simp only [step, Outcome.bind_ok] at h
      refine fin (s.addReader ring).1 _ ?_ (fun b hb => by cases hb) h
      unfold State.addReader
      split
      · exact ⟨rfl, rfl, rfl, rfl, rfl, rfl, rfl⟩
      · split <;> exact ⟨rfl, rfl, rfl, rfl, rfl, rfl, rfl⟩
    | frame f a =>
      simp only [step] at h
      split at h
      · cases hp : s.process f a with
        | ub => rw [hp] at h; cases h
        | hang => rw [hp] at h; cases h
        | ok r =>
          obtain ⟨s1, o⟩ := r
          rw [hp] at h
          exact fin s1 (.frame o) (process_same hp) (fun b hb => by cases hb) h
      · exact fin s (.frame none) ⟨rfl, rfl, rfl, rfl, rfl, rfl, rfl⟩ (fun b hb => by cases hb) h

/-- After any history the codec is the one named first; before one is named nothing has happened. -/
theorem history_codec (ops : List Op) : ∀ (s s' : State) (rs : List Ret), Fresh s →
    runOps step s ops = .ok (s', rs) → s'.info.codec = chosen ops ∧ (chosen ops = .none → Fresh s') := by
  induction ops with
  | nil => intro s s' rs hs h; cases h; exact ⟨hs.codec, fun _ => hs⟩
  | cons op ops ih =>
    intro s s' rs hs h
    rw [runOps] at h
    have fin : ∀ s1 r, Fresh s1 → ((runOps step s1 ops).bind fun q => Outcome.ok (q.1, r :: q.2)) = .ok (s', rs) →
        s'.info.codec = chosen ops ∧ (chosen ops = .none → Fresh s') := by
      intro s1 r g1 g3
      cases hq : runOps step s1 ops with
      | ub => rw [hq] at g3; cases g3
      | hang => rw [hq] at g3; cases g3
      | ok q =>
        obtain ⟨s2, rs2⟩ := q
        rw [hq] at g3
        cases g3
        exact ih s1 s2 rs2 g1 hq
    cases op with
    | config p a =>
      cases p with
      | none =>
        simp only [step, State.configEvent, Outcome.bind_ok] at h
        exact fin s _ hs h
      | some p =>
        obtain ⟨c, hc⟩ : ∃ c, c = p.codec.getD s.info.codec := ⟨_, rfl⟩
        obtain ⟨s1, b, g1, g2, _, _, _, _, _, g3, _⟩ :=
          configure0_fresh hs c (p.ch.getD s.info.channels) (p.rate.getD s.info.rate) (p.bitrate.getD s.bitrate) a
        have hstep : step s (.config (some p) a) = .ok (s1, .config b) := by
          simp only [step, State.configEvent]
          rw [← hc, g1]
          rfl
        rw [hstep] at h
        simp only [Outcome.bind_ok] at h
        by_cases hn : c = .none
        · have := fin s1 _ (g3 hn) h
          have hch : chosen (.config (some p) a :: ops) = chosen ops := by
            simp only [chosen]
            cases hp : p.codec with
            | none => rfl
            | some q =>
              rw [hp] at hc
              have : q = .none := by rw [← hn, hc]; rfl
              subst this; rfl
          rw [hch]; exact this
        · have hch : chosen (.config (some p) a :: ops) = c := by
            simp only [chosen]
            cases hp : p.codec with
            | none => rw [hp, hs.codec] at hc; exact absurd hc hn
            | some q =>
              have : c = q := by rw [hc, hp]; rfl
              subst this
              cases c <;> first | rfl | exact absurd rfl hn
          rw [hch]
          refine ⟨?_, fun e => absurd e hn⟩
          cases hq : runOps step s1 ops with
          | ub => rw [hq] at h; cases h
          | hang => rw [hq] at h; cases h
          | ok q =>
            obtain ⟨s2, rs2⟩ := q
            rw [hq] at h
            cases h
            have := (configured_for_good ops s1 s2 rs2 (by rw [g2]; exact hn) hq).1.1
            rw [this]; exact g2
    | reader ring =>
      have hstep : step s (.reader ring) = .ok (s, .reader none) := by
        simp only [step, State.addReader]
        rw [if_pos hs.spf]
      rw [hstep] at h
      exact fin s _ hs h
    | frame f a =>
      have hstep : step s (.frame f a) = .ok (s, .frame none) := by
        simp only [step]
        rw [if_neg (by rw [hs.reader]; simp)]
      rw [hstep] at h
      exact fin s _ hs h

/-- After any history a configuration event is answered with success exactly if no codec was named before, it
names one there is an encoder for, and the library can encode it as configured; the filter then has the
parameters given. -/
theorem configure_accepted_iff (ops : List Op) (s : State) (rs : List Ret) (p : Params) (a : Ans)
    (h : runOps step State.init ops = .ok (s, rs)) :
    ∃ s' b, step s (.config (some p) a) = .ok (s', .config b) ∧
      (b = true ↔ chosen ops = .none ∧ ∃ c, p.codec = some c ∧ Encodable c ∧ a.Good c) ∧
      (b = true → ∃ c, p.codec = some c ∧ Configured s' c (p.ch.getD s.info.channels) (p.rate.getD s.info.rate) a.frameSize) := by
  obtain ⟨h1, h2⟩ := history_codec ops _ _ _ fresh_init h
  by_cases hn : chosen ops = .none
  · have hs := h2 hn
    obtain ⟨c, hc⟩ : ∃ c, c = p.codec.getD s.info.codec := ⟨_, rfl⟩
    obtain ⟨s1, b, g1, _, _, _, _, g4, g5, _⟩ :=
      configure0_fresh hs c (p.ch.getD s.info.channels) (p.rate.getD s.info.rate) (p.bitrate.getD s.bitrate) a
    have hpc : Encodable c → p.codec = some c := by
      intro he
      cases hp : p.codec with
      | none => rw [hp, hs.codec] at hc; rw [hc] at he; rcases he with h | h | h | h | h <;> cases h
      | some q => rw [hc, hp]; rfl
    refine ⟨s1, b, ?_, ?_, ?_⟩
    · simp only [step, State.configEvent]
      rw [← hc, g1]
      rfl
    · rw [g4]
      constructor
      · rintro ⟨k1, k2⟩; exact ⟨hn, c, hpc k1, k1, k2⟩
      · rintro ⟨_, q, k1, k2, k3⟩
        have : c = q := by rw [hc, k1]; rfl
        rw [this]; exact ⟨k2, k3⟩
    · intro hb
      exact ⟨c, hpc (g4.1 hb).1, g5 hb⟩
  · refine ⟨s, false, ?_, ?_, fun h => by cases h⟩
    · simp only [step, config_refused (show s.info.codec ≠ .none by rw [h1]; exact hn)]
      rfl
    · simp [hn]

/-- A reader is accepted exactly if the queue is an audio ring and the encoder has samples per frame, which the
ring is told. -/
theorem reader_accepted_iff (s : State) (ring : Bool) (n : Nat) :
    step s (.reader ring) = .ok ({ s with reader := true }, .reader (some n)) ↔ ring = true ∧ s.spf = n ∧ n ≠ 0 := by
  simp only [step, State.addReader]
  by_cases h : s.spf = 0
  · rw [if_pos h]
    simp only [Outcome.ok.injEq, Prod.mk.injEq, Ret.reader.injEq, reduceCtorEq, and_false, false_iff]
    rintro ⟨_, h1, h2⟩
    exact h2 (by rw [← h1]; exact h)
  · rw [if_neg h]
    by_cases hr : ring = false
    · rw [if_pos hr]; simp [hr]
    · rw [if_neg hr]
      simp only [Outcome.ok.injEq, Prod.mk.injEq, Ret.reader.injEq, Option.some.injEq, true_and]
      constructor
      · intro e; exact ⟨by simpa using hr, e, by rw [← e]; exact h⟩
      · rintro ⟨_, e, _⟩; exact e

/-! ## Frames -/

/-- What a raw frame should be answered with: converted from its own format to what the encoder is fed with, all
its times kept; nothing only if a library call failed or had nothing to give. -/
def Right (c : AC) (ch rate n : Nat) (f : In) (a : FAns) : Option Out → Prop
  | some o =>
    o.conv.src = f.fmt ∧ o.conv.dst = { fmt := feed c, ch := ch, rate := rate } ∧
    (o.fresh : Int) = min a.out n ∧ 0 < o.fresh ∧ o.encoded = n ∧ o.len = a.size ∧
    o.pts = f.pts ∧ o.org = f.org ∧ o.seq = f.seq
  | none => a.out ≤ 0 ∨ a.ret < 0 ∨ a.got = false

/-- A frame of a ring (planar, at most two channels, no more samples than fit it) of the format `g`. -/
structure OfRing (g : Fmt) (f : In) (a : FAns) : Prop where
  fmt : f.fmt = g
  planar : f.planar = true
  fits : f.samples ≤ f.maxSamples
  swr : a.swr.set = true ∧ a.swr.init = true

/-- The state while frames of the format `g` are encoded. -/
structure Ready (g : Fmt) (c : AC) (ch rate n : Nat) (s : State) : Prop where
  set : Configured s c ch rate n
  reader : s.reader = true
  swr : (s.inp = { fmt := .none, ch := 0, rate := 0 } ∧ s.swr = none) ∨
    (s.inp = g ∧ s.swr = some (some { src := g, dst := { fmt := feed c, ch := ch, rate := rate } }))

def AllRight (c : AC) (ch rate n : Nat) : List (In × FAns) → List Ret → Prop
  | [], [] => True
  | x :: l, .frame o :: rs => Right c ch rate n x.1 x.2 o ∧ AllRight c ch rate n l rs
  | _, _ => False

theorem planar_of_ring {g : Fmt} (hg : g.fmt = .u8p ∨ g.fmt = .s16p ∨ g.fmt = .fltp) : isPlanar g.fmt = true := by
  rcases hg with h | h | h <;> rw [h] <;> rfl

theorem process_right {g : Fmt} {c : AC} {ch rate n : Nat} (hg : g.fmt = .u8p ∨ g.fmt = .s16p ∨ g.fmt = .fltp)
    (hg1 : 0 < g.ch) (hg2 : g.ch ≤ 2) (hch : 0 < ch) (hn : 0 < n) {s : State} (hs : Ready g c ch rate n s) (f : In) (a : FAns)
    (hf : OfRing g f a) :
    ∃ s' o, step s (.frame f a) = .ok (s', .frame o) ∧ Right c ch rate n f a o ∧ Ready g c ch rate n s' := by
  have hgn : g.fmt ≠ .none := by rcases hg with h | h | h <;> rw [h] <;> simp
  have hrec : ∃ s1, s.reconfigure f.fmt a.swr = (s1, true) ∧ Ready g c ch rate n s1 ∧
      s1.swr = some (some { src := g, dst := { fmt := feed c, ch := ch, rate := rate } }) := by
    unfold State.reconfigure
    rw [hf.fmt]
    rcases hs.swr with ⟨h1, h2⟩ | ⟨h1, h2⟩
    · rw [if_neg (by rw [h1]; intro e; rw [← e] at hg1; simp at hg1)]
      unfold State.resamplingConfig
      rw [if_neg (by rw [hf.swr.1]; simp)]
      simp only [h2, hs.set.internal, hs.set.ch, hs.set.rate]
      rw [if_pos (by
        have : feed c ≠ .none := by unfold feed; split <;> simp
        simp [initOk, hf.swr.2, hgn, hg1, hch, this])]
      refine ⟨_, rfl, ⟨⟨hs.set.codec, hs.set.fmt, hs.set.ch, hs.set.rate, rfl, hs.set.ctx, hs.set.nb,
        hs.set.buf, hs.set.spf⟩, hs.reader, Or.inr ⟨rfl, rfl⟩⟩, rfl⟩
    · rw [if_pos h1]; exact ⟨s, rfl, hs, h2⟩
  obtain ⟨s1, h1, h2, h3⟩ := hrec
  have hproc : ∃ o, s.process f a = .ok (s1, o) ∧ Right c ch rate n f a o := by
    unfold State.process
    simp only [h1, Bool.true_eq_false, if_false]
    unfold State.convert
    rw [h3]
    simp only
    rw [if_neg (by rw [hf.planar]; simp)]
    by_cases ho : a.out < 0
    · rw [if_pos ho]; exact ⟨none, rfl, Or.inl (by omega)⟩
    · rw [if_neg ho, if_pos (by rw [h2.set.buf, h2.set.nb])]
      have hread : rawReads g f = true := by
        unfold rawReads planes planeBytes
        simp only [planar_of_ring hg, if_true, Bool.and_eq_true, decide_eq_true_eq]
        refine ⟨hg2, ?_⟩
        rw [hf.fmt]
        exact Nat.mul_le_mul_right _ hf.fits
      rw [if_neg (by rw [hread]; simp)]
      by_cases hz : min a.out.toNat s1.nb = 0
      · rw [if_pos hz]
        exact ⟨none, rfl, Or.inl (by have := h2.set.nb; omega)⟩
      · rw [if_neg hz]
        unfold State.encode
        rw [if_neg (by rw [h2.set.ctx]; simp)]
        by_cases hr : a.ret < 0
        · rw [if_pos hr]; exact ⟨none, rfl, Or.inr (Or.inl hr)⟩
        · rw [if_neg hr]
          by_cases hgot : a.got = false
          · rw [if_pos hgot]; exact ⟨none, rfl, Or.inr (Or.inr hgot)⟩
          · rw [if_neg hgot]
            refine ⟨_, rfl, hf.fmt.symm, rfl, ?_, Nat.pos_of_ne_zero hz, h2.set.nb, rfl, rfl, rfl, rfl⟩
            show ((min a.out.toNat s1.nb : Nat) : Int) = _
            have := h2.set.nb
            omega
  obtain ⟨o, h4, h5⟩ := hproc
  refine ⟨s1, o, ?_, h5, h2⟩
  simp only [step, hs.reader, if_true, h4]
  rfl

/-- Frames of one ring through a configured encoder: nothing goes wrong and every frame is answered right. -/
theorem frames_right {g : Fmt} {c : AC} {ch rate n : Nat} (hg : g.fmt = .u8p ∨ g.fmt = .s16p ∨ g.fmt = .fltp)
    (hg1 : 0 < g.ch) (hg2 : g.ch ≤ 2) (hch : 0 < ch) (hn : 0 < n) (fs : List (In × FAns)) :
    ∀ s : State, Ready g c ch rate n s → (∀ x ∈ fs, OfRing g x.1 x.2) →
      ∃ s' rs, runOps step s (fs.map fun x => Op.frame x.1 x.2) = .ok (s', rs) ∧ AllRight c ch rate n fs rs ∧
        Ready g c ch rate n s' := by
  induction fs with
  | nil => intro s hs _; exact ⟨s, [], rfl, trivial, hs⟩
  | cons x fs ih =>
    intro s hs hx
    obtain ⟨s1, o, h1, h2, h3⟩ := process_right hg hg1 hg2 hch hn hs x.1 x.2 (hx x (by simp))
    obtain ⟨s2, rs, h4, h5, h6⟩ := ih s1 h3 (fun y hy => hx y (by simp [hy]))
    refine ⟨s2, .frame o :: rs, ?_, ⟨h2, h5⟩, h6⟩
    rw [List.map_cons, runOps, h1]
    simp only [Outcome.bind_ok, h4]

/-- A new encoder that is configured with what the library can encode and connected to a ring tells the ring the
encoder's samples per frame and answers every frame right. -/
theorem encoding (p : Params) (a : Ans) (c : AC) (ch rate : Nat) (g : Fmt) (fs : List (In × FAns))
    (hc : p.codec = some c) (hch : p.ch = some ch) (hrate : p.rate = some rate) (he : Encodable c) (ha : a.Good c)
    (hch0 : 0 < ch) (hg : g.fmt = .u8p ∨ g.fmt = .s16p ∨ g.fmt = .fltp) (hg1 : 0 < g.ch) (hg2 : g.ch ≤ 2)
    (hfs : ∀ x ∈ fs, OfRing g x.1 x.2) :
    ∃ s rs, runOps step State.init (.config (some p) a :: .reader true :: fs.map fun x => Op.frame x.1 x.2) =
      .ok (s, .config true :: .reader (some a.frameSize) :: rs) ∧ AllRight c ch rate a.frameSize fs rs := by
  obtain ⟨s1, b, h1, h2, h3⟩ := configure_accepted_iff [] State.init [] p a rfl
  have hb : b = true := h2.2 ⟨rfl, c, hc, he, ha⟩
  obtain ⟨c', hc', hset⟩ := h3 hb
  have : c' = c := by rw [hc] at hc'; cases hc'; rfl
  subst this
  rw [hch, hrate] at hset
  subst hb
  have hn : 0 < a.frameSize := Nat.pos_of_ne_zero ha.2.2.2.2.1
  have hrd : step s1 (.reader true) = .ok ({ s1 with reader := true }, .reader (some a.frameSize)) :=
    (reader_accepted_iff s1 true a.frameSize).2 ⟨rfl, hset.spf, by omega⟩
  obtain ⟨_, _, g1, _, g2, g3, _⟩ := configure0_fresh fresh_init c' ch rate (p.bitrate.getD 0) a
  have hs1 : s1.inp = { fmt := .none, ch := 0, rate := 0 } ∧ s1.swr = none := by
    simp only [step, State.configEvent, hc, hch, hrate, Option.getD_some] at h1
    rw [show State.init.bitrate = 0 from rfl, g1] at h1
    cases h1
    exact ⟨g2, g3⟩
  have hready : Ready g c' ch rate a.frameSize { s1 with reader := true } :=
    ⟨⟨hset.codec, hset.fmt, hset.ch, hset.rate, hset.internal, hset.ctx, hset.nb, hset.buf, hset.spf⟩, rfl,
      Or.inl hs1⟩
  obtain ⟨s2, rs, h4, h5, _⟩ := frames_right hg hg1 hg2 hch0 hn fs _ hready hfs
  refine ⟨s2, rs, ?_, h5⟩
  rw [runOps, h1]
  simp only [Outcome.bind_ok]
  rw [runOps, hrd]
  simp only [Outcome.bind_ok, h4]

/-! ## Sample rates -/

/-- When the rates agree the conversion gives as many samples as it is given, and every coded frame holds exactly
the samples of its raw frame. -/
theorem same_rate_whole_frames {c : AC} {ch rate n : Nat} {f : In} {a : FAns} {o : Out}
    (h : Right c ch rate n f a (some o)) (hlaw : a.out = f.samples) (hn : f.samples = n) :
    o.fresh = o.encoded ∧ o.fresh = f.samples := by
  obtain ⟨_, _, h1, _, h2, _⟩ := h
  omega

/-- The fresh samples in a list of results. -/
def total : List Ret → Nat
  | [] => 0
  | .frame (some o) :: l => o.fresh + total l
  | _ :: l => total l

/-- What the conversions gave. -/
def given (fs : List (In × FAns)) : Int := (fs.map fun x => x.2.out).sum

theorem total_le {c : AC} {ch rate n : Nat} (fs : List (In × FAns)) (rs : List Ret)
    (h : AllRight c ch rate n fs rs) : total rs ≤ fs.length * n := by
  induction fs generalizing rs with
  | nil => cases rs with
    | nil => simp [total]
    | cons r rs => cases h
  | cons x fs ih =>
    match rs, h with
    | .frame (some o) :: rs, ⟨h1, h2⟩ =>
      have := ih rs h2
      obtain ⟨_, _, h3, _⟩ := h1
      have ho : o.fresh ≤ n := by omega
      show o.fresh + total rs ≤ _
      rw [List.length_cons, Nat.succ_mul]
      omega
    | .frame none :: rs, ⟨_, h2⟩ =>
      have := ih rs h2
      show total rs ≤ _
      rw [List.length_cons, Nat.succ_mul]
      omega

/-- Recorded: an encoder whose rate is below the input's encodes samples of earlier frames again.  The library
cannot give more samples than the input lasts; so after enough frames some coded frame is missing or holds fewer
new samples than are encoded. -/
theorem slower_output_repeats_samples {c : AC} {ch rate n : Nat} (g : Fmt) (fs : List (In × FAns)) (rs : List Ret)
    (h : AllRight c ch rate n fs rs) (hn : ∀ x ∈ fs, x.1.samples = n) (hr : rate < g.rate)
    (hlaw : given fs * g.rate ≤ fs.length * n * rate + g.rate)
    (hlong : g.rate < fs.length * n * (g.rate - rate)) :
    ∃ r ∈ rs, r = .frame none ∨ ∃ o, r = .frame (some o) ∧ o.fresh < o.encoded := by
  by_cases hall : ∀ r ∈ rs, ∃ o, r = .frame (some o) ∧ o.fresh = o.encoded
  · exfalso
    have hg : (fs.length * n : Int) ≤ given fs := by
      clear hlaw hlong hn
      induction fs generalizing rs with
      | nil => simp [given]
      | cons x fs ih =>
        match rs, h with
        | .frame (some o) :: rs, ⟨h1, h2⟩ =>
          have := ih rs h2 (fun r hr => hall r (by simp [hr]))
          obtain ⟨o', e1, e2⟩ := hall (.frame (some o)) (by simp)
          cases e1
          obtain ⟨_, _, h3, _, h4, _⟩ := h1
          have : (n : Int) ≤ x.2.out := by omega
          have e : given (x :: fs) = x.2.out + given fs := by simp [given]
          rw [e, List.length_cons]
          push_cast
          rw [Int.add_mul]
          omega
        | .frame none :: rs, ⟨_, _⟩ =>
          obtain ⟨o', e1, _⟩ := hall (.frame none) (by simp)
          cases e1
    have h1 : (fs.length * n : Int) * g.rate ≤ given fs * g.rate := Int.mul_le_mul_of_nonneg_right hg (by omega)
    have h2 : (fs.length * n : Int) * g.rate ≤ fs.length * n * rate + g.rate := Int.le_trans h1 hlaw
    have h3 : fs.length * n * g.rate ≤ fs.length * n * rate + g.rate := by exact_mod_cast h2
    rw [Nat.mul_sub] at hlong
    omega
  · obtain ⟨r, hr, hx⟩ : ∃ r ∈ rs, ¬ ∃ o, r = Ret.frame (some o) ∧ o.fresh = o.encoded := by
      apply Classical.byContradiction
      intro hno
      exact hall (fun r hr => Classical.byContradiction fun hx => hno ⟨r, hr, hx⟩)
    refine ⟨r, hr, ?_⟩
    clear hlaw hlong hn hall
    induction fs generalizing rs with
    | nil => cases rs with
      | nil => cases hr
      | cons _ _ => cases h
    | cons x fs ih =>
      match rs, h with
      | .frame q :: rs, ⟨h1, h2⟩ =>
        rcases List.mem_cons.1 hr with rfl | hr
        · cases q with
          | none => exact Or.inl rfl
          | some o =>
            obtain ⟨_, _, h3, _, h4, _⟩ := h1
            refine Or.inr ⟨o, rfl, ?_⟩
            have : o.fresh ≠ o.encoded := fun e => hx ⟨o, rfl, e⟩
            omega
        · exact ih rs h2 hr

/-- Recorded: an encoder whose rate is above the input's falls behind without bound: of what the input amounts to
at the encoder's rate (times the input's rate), at least this much has not come out. -/
theorem faster_output_falls_behind {c : AC} {ch rate n : Nat} (g : Fmt) (fs : List (In × FAns)) (rs : List Ret)
    (h : AllRight c ch rate n fs rs) (hr : g.rate < rate) :
    total rs * g.rate + fs.length * n * (rate - g.rate) ≤ fs.length * n * rate := by
  have := Nat.mul_le_mul_right g.rate (total_le fs rs h)
  rw [Nat.mul_sub]
  have h2 : fs.length * n * g.rate ≤ fs.length * n * rate := Nat.mul_le_mul_left _ (by omega)
  omega

/-! ## Recorded exceptions -/

/-- Recorded: an encoder without a frame size of its own (the PCM encoders) cannot be configured, and no reader
is accepted afterwards, nor another codec. -/
theorem no_frame_size_unusable (p : Params) (a : Ans) (c : AC) (hc : p.codec = some c) (hcn : c ≠ .none)
    (hz : a.frameSize = 0) (ops : List Op) (s : State) (rs : List Ret)
    (h : runOps step State.init (.config (some p) a :: ops) = .ok (s, rs)) :
    (∀ b, .config b ∈ rs → b = false) ∧ s.spf = 0 ∧ ∀ ring, (s.addReader ring).2 = none := by
  obtain ⟨s1, b, h1, h2, h3, _, _, h4, _, _, h5⟩ := configure0_fresh fresh_init c (p.ch.getD 0) (p.rate.getD 0) (p.bitrate.getD 0) a
  have hstep : step State.init (.config (some p) a) = .ok (s1, .config b) := by
    simp only [step, State.configEvent, hc, Option.getD_some]
    rw [show State.init.info.channels = 0 from rfl, show State.init.info.rate = 0 from rfl,
      show State.init.bitrate = 0 from rfl, h1]
    rfl
  have hb : b = false := by
    cases b with
    | false => rfl
    | true => exact absurd hz (h4.1 rfl).2.2.2.2.2.1
  have hspf : s1.spf = 0 := by
    by_cases e : s1.spf = 0
    · exact e
    · rw [h5 e]; exact hz
  rw [runOps, hstep] at h
  simp only [Outcome.bind_ok] at h
  cases hq : runOps step s1 ops with
  | ub => rw [hq] at h; cases h
  | hang => rw [hq] at h; cases h
  | ok q =>
    obtain ⟨s2, rs2⟩ := q
    rw [hq] at h
    cases h
    obtain ⟨k1, k2⟩ := configured_for_good ops s1 s2 rs2 (by rw [h2]; exact hcn) hq
    have hs : s2.spf = 0 := by rw [k1.2.2.2.2.2.2]; exact hspf
    refine ⟨?_, hs, fun ring => ?_⟩
    · intro x hx
      rcases List.mem_cons.1 hx with hx | hx
      · cases hx; exact hb
      · exact k2 x hx
    · unfold State.addReader; rw [if_pos hs]

/-- Recorded: once initialised, the resampling context is never given other parameters: frames of another ring
are converted as if they were those of the first. -/
theorem first_conversion_stays (s : State) (o : Opts) (f : In) (a : FAns) (s' : State) (r : Option Out)
    (hs : s.swr = some (some o)) (ha : a.swr.set = true) (h : s.process f a = .ok (s', r)) :
    s'.swr = some (some o) ∧ ∀ x, r = some x → x.conv = o := by
  have hr : (s.reconfigure f.fmt a.swr).1.swr = some (some o) := by
    unfold State.reconfigure
    split
    · exact hs
    · unfold State.resamplingConfig
      rw [if_neg (by rw [ha]; simp)]
      simp only [hs]
  unfold State.process at h
  simp only at h
  split at h
  · cases h; exact ⟨hr, fun x hx => by cases hx⟩
  · cases hc : (s.reconfigure f.fmt a.swr).1.convert f a with
    | ub => rw [hc] at h; cases h
    | hang => rw [hc] at h; cases h
    | ok q =>
      rw [hc] at h
      cases h
      refine ⟨hr, ?_⟩
      rintro x rfl
      unfold State.convert at hc
      rw [hr] at hc
      simp only at hc
      split at hc
      · cases hc
      · split at hc
        · cases hc
        · split at hc
          · split at hc
            · cases hc
            · split at hc
              · cases hc
              · unfold State.encode at hc
                split at hc
                · cases hc
                · split at hc
                  · cases hc
                  · split at hc
                    · cases hc
                    · cases hc; rfl
          · cases hc

/-- Recorded: when the parameters cannot be set the context is gone, and the next frame of that format is
converted without one. -/
theorem failed_resampler_then_used (s : State) (f g : In) (a b : FAns) (hne : s.inp ≠ f.fmt) (ha : a.swr.set = false)
    (hg : g.fmt = f.fmt) : ∃ s', s.process f a = .ok (s', none) ∧ s'.process g b = .ub := by
  have h1 : s.reconfigure f.fmt a.swr = ({ s with inp := f.fmt, swr := none }, false) := by
    unfold State.reconfigure State.resamplingConfig
    rw [if_neg hne, if_pos ha]
  refine ⟨{ s with inp := f.fmt, swr := none }, ?_, ?_⟩
  · unfold State.process
    simp only [h1, if_true]
  · have h2 : State.reconfigure { s with inp := f.fmt, swr := none } g.fmt b.swr =
        ({ s with inp := f.fmt, swr := none }, true) := by
      unfold State.reconfigure
      rw [if_pos hg.symm]
    unfold State.process
    simp only [h2, Bool.true_eq_false, if_false]
    rfl

/-- Recorded: interleaved raw frames are handed over wrongly (rings only make planar ones). -/
theorem interleaved_input_misused (s : State) (o : Opts) (f : In) (a : FAns) (hs : s.swr = some (some o))
    (hf : s.inp = f.fmt) (hp : f.planar = false) : s.process f a = .ub := by
  unfold State.process State.reconfigure
  rw [if_pos hf]
  simp only [Bool.true_eq_false, if_false]
  unfold State.convert
  rw [hs]
  simp only [hp, if_true]
  rfl

/-- Recorded: the ring is told the encoder's samples per frame whatever fits its output frame: with more than a
tenth of a second the next frame asked for overruns it. -/
theorem ring_overrun (r : AudioRing.ACB) (n : Nat) (hr : r.fillNew = true) (hb : 0 < r.bps) (hrate : 0 < r.sampleRate)
    (hch : r.data ≠ []) (hpl : ∀ b ∈ r.outPlanes, b.length = r.bufSamples * r.bps)
    (hlen : r.outPlanes.length = r.data.length)
    (hd : ∀ d ∈ r.data, d.length = r.maxLen) (hm : 0 < r.maxLen)
    (hfill : n * r.bps ≤ r.elements) (hel : r.elements ≤ r.maxLen) (h32 : n * r.bps < 4294967296)
    (hbig : r.bufSamples < n) :
    (r.setOutputFrameSamples n).getFront = .ub := by
  have hu : AudioRing.u32 (n * r.bps) = n * r.bps := Nat.mod_eq_of_lt h32
  obtain ⟨d, ds, hds⟩ : ∃ d ds, r.data = d :: ds := by
    cases h : r.data with
    | nil => exact absurd h hch
    | cons d ds => exact ⟨d, ds, rfl⟩
  obtain ⟨b, bs, hbs⟩ : ∃ b bs, r.outPlanes = b :: bs := by
    cases h : r.outPlanes with
    | nil => rw [h, hds] at hlen; simp at hlen
    | cons b bs => exact ⟨b, bs, rfl⟩
  have hbl : b.length = r.bufSamples * r.bps := hpl b (by rw [hbs]; simp)
  have hdl : d.length = r.maxLen := hd d (by rw [hds]; simp)
  have hover : r.bufSamples * r.bps < n * r.bps := Nat.mul_lt_mul_of_pos_right hbig hb
  have hcopy : AudioRing.copyOut r.maxLen r.front (n * r.bps) d b = .ub := by
    unfold AudioRing.copyOut
    simp only
    split
    · unfold memcpy
      rw [if_neg (by omega)]
    · unfold memcpy
      split
      · rename_i hin
        simp only [Outcome.bind_ok]
        split
        · rfl
        · rw [if_neg]
          rintro ⟨h1, h2⟩
          rw [splice_length hin.1 hin.2] at h1
          omega
      · rfl
  unfold AudioRing.ACB.getFront AudioRing.ACB.setOutputFrameSamples
  simp only [hr, Bool.not_true, Bool.false_eq_true, if_false]
  rw [if_neg (by omega)]
  unfold AudioRing.ACB.popFront
  simp only [hu]
  rw [if_neg (by omega), if_neg (by omega), hds, hbs]
  unfold AudioRing.forChannels
  rw [hcopy]
  rfl

/-! ## Concrete runs -/

def good (n : Nat) : Ans :=
  { found := true, alloc := true, fmts := true, rates := true, layouts := true, opens := true, frameSize := n
    buf := true }
def params (c : AC) (rate : Nat) : Params := { codec := some c, ch := some 2, rate := some rate, bitrate := none }
def raw (f : SF) (rate n : Nat) : In :=
  { fmt := { fmt := f, ch := 2, rate := rate }, samples := n, maxSamples := rate / 10, planar := true
    pts := 40, org := 3, seq := 9 }
def fans (k : Int) : FAns := { swr := { set := true, init := true }, out := k, ret := 0, got := true, size := 77 }

/-- 48 kHz to 48 kHz; then 48 kHz to 24 kHz, where half of what is encoded is old (recorded). -/
theorem half_of_the_samples :
    (runOps step State.init [.config (some (params .aac 48000)) (good 1024), .reader true,
      .frame (raw .fltp 48000 1024) (fans 1024)]).map Prod.snd =
    .ok [.config true, .reader (some 1024), .frame (some
      { conv := { src := ⟨.fltp, 2, 48000⟩, dst := ⟨.s16, 2, 48000⟩ }, fresh := 1024, encoded := 1024, len := 77
        pts := 40, org := 3, seq := 9 })] ∧
    (runOps step State.init [.config (some (params .aac 24000)) (good 1024), .reader true,
      .frame (raw .fltp 48000 1024) (fans 512)]).map Prod.snd =
    .ok [.config true, .reader (some 1024), .frame (some
      { conv := { src := ⟨.fltp, 2, 48000⟩, dst := ⟨.s16, 2, 24000⟩ }, fresh := 512, encoded := 1024, len := 77
        pts := 40, org := 3, seq := 9 })] := by constructor <;> decide +kernel

/-- Recorded: connected to a ring of 16-bit samples after one of floats, the encoder reads past the frame. -/
theorem other_ring_misread :
    runOps step State.init [.config (some (params .aac 8000)) (good 500), .reader true,
      .frame (raw .fltp 8000 500) (fans 500), .frame (raw .s16p 8000 500) (fans 500)] = .ub := by decide +kernel

/-- Recorded: a first configuration that fails bars every later one. -/
theorem failed_configuration_bars :
    (runOps step State.init [.config (some (params .g711 8000)) (good 160), .config (some (params .aac 48000)) (good 1024),
      .reader true]).map Prod.snd = .ok [.config false, .config false, .reader none] := by decide +kernel

example : OfRing { fmt := .fltp, ch := 2, rate := 48000 } (raw .fltp 48000 1024) (fans 1024) :=
  ⟨rfl, rfl, by decide, rfl, rfl⟩

/-- A ring of 1 kHz whose frames hold 100 samples, asked for frames of 101. -/
example : ((AudioRing.ACB.create 1 1000 200 .u8p 0).bind fun
    | none => .ok none
    | some r => (r.pushBack [List.replicate 90 7] 90).bind fun (r, _) =>
      (r.pushBack [List.replicate 90 7] 90).bind fun (r, _) =>
      (r.setOutputFrameSamples 101).getFront.map fun q => q.2) = .ub := by decide +kernel

/-- **C73.** When the conversion could not be set up, the frame is refused and nothing undefined follows: the next one is refused too. -/
theorem failed_conversion_refuses (s s' : State) (f : In) (a b : FAns) (ha : a.swr.set = true) (hne : s.inp ≠ f.fmt)
    (h : s.reconfigure f.fmt a.swr = (s', false)) : s.process f a = .ok (s', none) ∧ s'.swr = some none ∧ s'.process f b = .ok (s', none) := by
  have h' := h
  unfold State.reconfigure at h
  rw [if_neg hne] at h
  have hsw : s'.swr = some none ∧ s'.inp = f.fmt := by
    unfold State.resamplingConfig at h
    rw [if_neg (by rw [ha]; simp)] at h
    split at h
    · cases h
    · simp only at h
      split at h
      · cases h
      · cases h; exact ⟨rfl, rfl⟩
  refine ⟨?_, hsw.1, ?_⟩
  · unfold State.process
    simp only [h', if_true]
  · have h2 : s'.reconfigure f.fmt b.swr = (s', true) := by
      unfold State.reconfigure
      rw [if_pos hsw.2]
    unfold State.process
    simp only [h2, Bool.true_eq_false, if_false]
    unfold State.convert
    rw [hsw.1]
    rfl

end Lms.AudioEnc
