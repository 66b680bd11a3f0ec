import Verif.VideoDec.Model

/-!
# C71: what the video decoder delivers, and with which decoder
-/

namespace Lms.VideoDec
open Lms.FrameAlloc

/-! ## The specification -/

/-- Codecs that can be decoded. -/
def Decodable (c : VC) : Prop := c = .h264 ∨ c = .h265 ∨ c = .vp8 ∨ c = .mjpeg

instance (c : VC) : Decidable (Decodable c) := by unfold Decodable; infer_instance

/-- An answer that brings a picture which can be copied. -/
def Dec.Picture (d : Dec) : Prop :=
  0 ≤ d.len ∧ d.got = true ∧ d.fmt ≠ .none ∧ d.w ≠ 0 ∧ d.h ≠ 0 ∧ d.copied = true

/-- Bytes used by a list of answers. -/
def used (ds : List Dec) : Int := (ds.map Dec.len).sum

/-- `d` is the answer whose picture is delivered: the first with a picture, reached with bytes left and without
an error. -/
def First (size : Nat) (ds : List Dec) (d : Dec) : Prop :=
  ∃ pre post, ds = pre ++ d :: post ∧ d.Picture ∧ (∀ e ∈ pre, 0 ≤ e.len ∧ ¬ e.Picture) ∧ used pre < size

/-- The frame wanted. -/
def Wanted (f : In) (d : Dec) (o : Out) : Prop :=
  o.w = d.w ∧ o.h = d.h ∧ libav o.pix = (if libav (pixOf d.fmt) = d.fmt then d.fmt else .none) ∧
  o.len = imageSize d.fmt d.w d.h ∧ o.pts = f.pts ∧ o.dts = f.pts ∧ o.org = f.org ∧ o.seq = f.seq

/-- The result of a frame: the first picture its own codec's decoder finds in it, or nothing if there is none or
no decoder for it. -/
def Right (f : In) (o : Option Out) : Prop :=
  match o with
  | some o => Decodable f.codec ∧ ∃ d, First f.size (f.dec f.codec) d ∧ Wanted f d o
  | none => ¬ Decodable f.codec ∨ ∀ d, ¬ First f.size (f.dec f.codec) d

/-- A setup that succeeds. -/
def Setup.Good (a : Setup) : Prop := a.found = true ∧ a.alloc = true ∧ a.opens = true

/-- A frame whose decoder can be set up, makes progress, and whose pictures fit the destination. -/
structure Fine (f : In) (cap : Nat) : Prop where
  setup : Decodable f.codec → f.setup.Good
  again : ∀ d ∈ f.dec f.codec, d.setup.Good
  moves : ∀ d ∈ f.dec f.codec, d.len ≠ 0 ∨ d.Picture
  enough : f.size ≤ (f.dec f.codec).length
  fits : ∀ d ∈ f.dec f.codec, d.fmt ≠ .none → d.w ≠ 0 → d.h ≠ 0 → imageSize d.fmt d.w d.h ≤ cap

/-- Histories in which no two frames in a row are of the same codec without a decoder (and the first is not of no
codec at all): `last` is the codec of the frame before. -/
def Steady : VC → List (In × Nat) → Prop
  | _, [] => True
  | last, x :: l => (Decodable x.1.codec ∨ x.1.codec ≠ last) ∧ Fine x.1 x.2 ∧ Steady x.1.codec l

/-- Every frame is answered right. -/
def AllRight : List (In × Nat) → List (Option Out) → Prop
  | [], [] => True
  | x :: l, o :: os => Right x.1 o ∧ AllRight l os
  | _, _ => False

/-! ## The loop -/

theorem known_iff (c : VC) : known c = true ↔ Decodable c := by cases c <;> simp [known, Decodable]

theorem known_false_iff (c : VC) : known c = false ↔ ¬ Decodable c := by
  rw [← known_iff]; cases known c <;> simp

theorem inputConfig_good {s : State} {a : Setup} (hd : Decodable s.codec) (hf : s.ctx ≠ .freed) (ha : a.Good) :
    s.inputConfig a = .ok ({ s with ctx := .opened s.codec }, true) := by
  unfold State.inputConfig
  rw [if_neg (by rw [known_false_iff]; simpa using hd), if_neg hf]
  simp only [ha.1, ha.2.1, ha.2.2, Bool.true_eq_false, if_false]

theorem used_cons (d : Dec) (ds : List Dec) : used (d :: ds) = d.len + used ds := by simp [used]

theorem used_nonneg {ds : List Dec} (h : ∀ d ∈ ds, 0 ≤ d.len) : 0 ≤ used ds := by
  induction ds with
  | nil => simp [used]
  | cons e l ih =>
    rw [used_cons]
    have := h e (by simp)
    have := ih (fun x hx => h x (by simp [hx]))
    omega

theorem first_cons {n : Int} {d d' : Dec} {ds : List Dec} :
    (∃ pre post, d :: ds = pre ++ d' :: post ∧ d'.Picture ∧ (∀ e ∈ pre, 0 ≤ e.len ∧ ¬ e.Picture) ∧ used pre < n) ↔
      (d = d' ∧ d.Picture ∧ 0 < n) ∨ ((0 ≤ d.len ∧ ¬ d.Picture) ∧
        ∃ pre post, ds = pre ++ d' :: post ∧ d'.Picture ∧ (∀ e ∈ pre, 0 ≤ e.len ∧ ¬ e.Picture) ∧
          used pre < n - d.len) := by
  constructor
  · rintro ⟨pre, post, h1, h2, h3, h4⟩
    cases pre with
    | nil =>
      simp only [List.nil_append, List.cons.injEq] at h1
      obtain ⟨rfl, _⟩ := h1
      exact Or.inl ⟨rfl, h2, by simpa [used] using h4⟩
    | cons e pre =>
      simp only [List.cons_append, List.cons.injEq] at h1
      obtain ⟨rfl, h1⟩ := h1
      rw [used_cons] at h4
      exact Or.inr ⟨h3 d (by simp), pre, post, h1, h2, fun x hx => h3 x (by simp [hx]), by omega⟩
  · rintro (⟨rfl, h1, h2⟩ | ⟨h0, pre, post, h1, h2, h3, h4⟩)
    · exact ⟨[], ds, rfl, h1, by simp, by simpa [used] using h2⟩
    · refine ⟨d :: pre, post, by rw [h1]; rfl, h2, ?_, by rw [used_cons]; omega⟩
      intro e he
      rcases List.mem_cons.1 he with rfl | he
      · exact h0
      · exact h3 e he

/-- A picture is found by `toBuffer` exactly when it can be laid out and copied. -/
theorem toBuffer_spec (s : State) (d : Dec) (cap : Nat)
    (hfit : d.fmt ≠ .none → d.w ≠ 0 → d.h ≠ 0 → imageSize d.fmt d.w d.h ≤ cap) :
    ∃ s' b, s.toBuffer d cap = .ok (s', b) ∧ s'.codec = s.codec ∧ s'.ctx = s.ctx ∧
      (b = true ↔ d.fmt ≠ .none ∧ d.w ≠ 0 ∧ d.h ≠ 0 ∧ d.copied = true) := by
  unfold State.toBuffer
  by_cases h : d.fmt = .none ∨ d.w = 0 ∨ d.h = 0
  · rw [if_pos h]
    refine ⟨s, false, rfl, rfl, rfl, ?_⟩
    constructor
    · intro h'; cases h'
    · rintro ⟨h1, h2, h3, _⟩; rcases h with h | h | h <;> contradiction
  · rw [if_neg h]
    simp only [not_or] at h
    rw [if_neg (by have := hfit h.1 h.2.1 h.2.2; omega)]
    exact ⟨_, _, rfl, rfl, rfl, ⟨fun hb => ⟨h.1, h.2.1, h.2.2, hb⟩, fun hb => hb.2.2.2⟩⟩

theorem deliver_wanted (f : In) (d : Dec) : Wanted f d (deliver f d) := by
  refine ⟨rfl, rfl, ?_, rfl, rfl, rfl, rfl, rfl⟩
  show libav (pixOf d.fmt) = _
  cases d.fmt <;> simp [pixOf, libav]

/-- The loop on answers that make progress. -/
theorem loop_spec (f : In) (cap : Nat) (ds : List Dec) :
    ∀ (s : State) (n : Int), Decodable s.codec → s.ctx = .opened s.codec →
      (∀ d ∈ ds, d.setup.Good) → (∀ d ∈ ds, d.len ≠ 0 ∨ d.Picture) → n ≤ ds.length →
      (∀ d ∈ ds, d.fmt ≠ .none → d.w ≠ 0 → d.h ≠ 0 → imageSize d.fmt d.w d.h ≤ cap) →
      ∃ s' o, s.loop f cap n ds = .ok (s', o) ∧ s'.codec = s.codec ∧ s'.ctx = .opened s.codec ∧
        (match o with
         | some o => ∃ d, (∃ pre post, ds = pre ++ d :: post ∧ d.Picture ∧ (∀ e ∈ pre, 0 ≤ e.len ∧ ¬ e.Picture) ∧
             used pre < n) ∧ Wanted f d o
         | none => ∀ d, ¬ ∃ pre post, ds = pre ++ d :: post ∧ d.Picture ∧ (∀ e ∈ pre, 0 ≤ e.len ∧ ¬ e.Picture) ∧
             used pre < n) := by
  induction ds with
  | nil =>
    intro s n hd hc _ _ hn _
    refine ⟨s, none, ?_, rfl, hc, ?_⟩
    · rw [State.loop, if_pos (by simpa using hn)]
    · rintro d ⟨pre, post, h, _⟩
      cases pre <;> cases h
  | cons d ds ih =>
    intro s n hd hc hset hmov hn hfit
    rw [State.loop]
    by_cases h0 : n ≤ 0
    · rw [if_pos h0]
      refine ⟨s, none, rfl, rfl, hc, ?_⟩
      rintro d' ⟨pre, post, _, _, h3, h4⟩
      have := used_nonneg (fun e he => (h3 e he).1)
      omega
    · rw [if_neg h0]
      by_cases h1 : d.len < 0
      · rw [if_pos h1, inputConfig_good hd (by rw [hc]; simp) (hset d (by simp))]
        refine ⟨_, none, rfl, rfl, rfl, ?_⟩
        intro d'
        rw [first_cons]
        rintro (⟨_, hp, _⟩ | ⟨⟨hp, _⟩, _⟩)
        · have := hp.1; omega
        · omega
      · rw [if_neg h1]
        have hset' : ∀ d ∈ ds, d.setup.Good := fun x hx => hset x (by simp [hx])
        have hmov' : ∀ d ∈ ds, d.len ≠ 0 ∨ d.Picture := fun x hx => hmov x (by simp [hx])
        have hfit' : ∀ d ∈ ds, d.fmt ≠ .none → d.w ≠ 0 → d.h ≠ 0 → imageSize d.fmt d.w d.h ≤ cap :=
          fun x hx => hfit x (by simp [hx])
        have hnp : ¬ d.Picture → n - d.len ≤ ds.length := by
          intro hp
          rcases hmov d (by simp) with h | h
          · rw [List.length_cons] at hn; omega
          · exact absurd h hp
        have next : ∀ s' : State, s'.codec = s.codec → s'.ctx = s.ctx → ¬ d.Picture →
            ∃ s'' o, s'.loop f cap (n - d.len) ds = .ok (s'', o) ∧ s''.codec = s.codec ∧
              s''.ctx = .opened s.codec ∧
              (match o with
               | some o => ∃ d', (∃ pre post, d :: ds = pre ++ d' :: post ∧ d'.Picture ∧
                   (∀ e ∈ pre, 0 ≤ e.len ∧ ¬ e.Picture) ∧ used pre < n) ∧ Wanted f d' o
               | none => ∀ d', ¬ ∃ pre post, d :: ds = pre ++ d' :: post ∧ d'.Picture ∧
                   (∀ e ∈ pre, 0 ≤ e.len ∧ ¬ e.Picture) ∧ used pre < n) := by
          intro s' e1 e2 hp
          obtain ⟨s'', o, h2, h3, h4, h5⟩ := ih s' (n - d.len) (by rw [e1]; exact hd) (by rw [e2, hc, e1])
            hset' hmov' (hnp hp) hfit'
          refine ⟨s'', o, h2, by rw [h3, e1], by rw [h4, e1], ?_⟩
          cases o with
          | some o =>
            obtain ⟨d', h6, h7⟩ := h5
            exact ⟨d', (first_cons).2 (Or.inr ⟨⟨by omega, hp⟩, h6⟩), h7⟩
          | none =>
            intro d' hx
            rcases (first_cons).1 hx with ⟨rfl, hq, _⟩ | ⟨_, hq⟩
            · exact hp hq
            · exact h5 d' hq
        by_cases hg : d.got = true
        · rw [if_pos hg]
          obtain ⟨s', b, h2, h3, h4, h5⟩ := toBuffer_spec s d cap (hfit d (by simp))
          rw [h2]
          simp only [Outcome.bind_ok]
          by_cases hb : b = true
          · rw [if_pos hb]
            have hpic : d.Picture := by
              obtain ⟨g1, g2, g3, g4⟩ := h5.1 hb
              exact ⟨by omega, hg, g1, g2, g3, g4⟩
            refine ⟨s', some (deliver f d), rfl, h3, by rw [h4, hc], d, ?_, deliver_wanted f d⟩
            exact (first_cons).2 (Or.inl ⟨rfl, hpic, by omega⟩)
          · rw [if_neg hb]
            exact next s' h3 h4 (fun hp => hb (h5.2 ⟨hp.2.2.1, hp.2.2.2.1, hp.2.2.2.2.1, hp.2.2.2.2.2⟩))
        · rw [if_neg hg]
          exact next s rfl rfl (fun hp => hg hp.2.1)

/-! ## Frames one after another -/

/-- The state after a frame of codec `last`. -/
def Ready (s : State) (last : VC) : Prop :=
  s.codec = last ∧ s.ctx ≠ .freed ∧ (Decodable last → s.ctx = .opened last)

theorem process_right {s : State} {last : VC} (hr : Ready s last) (f : In) (cap : Nat)
    (hc : Decodable f.codec ∨ f.codec ≠ last) (hf : Fine f cap) :
    ∃ s' o, s.process f cap = .ok (s', o) ∧ Right f o ∧ Ready s' f.codec := by
  obtain ⟨hl, hnf, hop⟩ := hr
  unfold State.process
  by_cases hd : Decodable f.codec
  · have hrec : ∃ s1, s.reconfigure f.codec f.setup = .ok (s1, true) ∧ s1.codec = f.codec ∧
        s1.ctx = .opened f.codec := by
      unfold State.reconfigure
      by_cases he : s.codec = f.codec
      · rw [if_pos he]
        have : last = f.codec := by rw [← hl, he]
        exact ⟨s, rfl, he, by rw [hop (by rw [this]; exact hd), this]⟩
      · rw [if_neg he, inputConfig_good (s := { s with codec := f.codec }) hd hnf (hf.setup hd)]
        exact ⟨_, rfl, rfl, rfl⟩
    obtain ⟨s1, h1, h2, h3⟩ := hrec
    rw [h1]
    simp only [Outcome.bind_ok, Bool.true_eq_false, if_false]
    by_cases h0 : f.size = 0
    · rw [if_pos h0]
      refine ⟨s1, none, rfl, Or.inr ?_, h2, by rw [h3]; simp, fun _ => h3⟩
      rintro d ⟨pre, post, _, _, g3, g4⟩
      have := used_nonneg (fun e he => (g3 e he).1)
      omega
    · rw [if_neg h0]
      have hdec : s1.decoder = some f.codec := by unfold State.decoder; rw [h3]
      rw [hdec]
      obtain ⟨s', o, g1, g2, g3, g4⟩ := loop_spec f cap (f.dec f.codec) s1 f.size (by rw [h2]; exact hd)
        (by rw [h3, h2]) hf.again hf.moves (by have := hf.enough; omega) hf.fits
      refine ⟨s', o, g1, ?_, by rw [g2, h2], by rw [g3]; simp, fun _ => by rw [g3, h2]⟩
      cases o with
      | some o => exact ⟨hd, g4⟩
      | none => exact Or.inr g4
  · have hne : s.codec ≠ f.codec := by
      rw [hl]
      rcases hc with h | h
      · exact absurd h hd
      · exact fun e => h e.symm
    have hrec : s.reconfigure f.codec f.setup = .ok ({ s with codec := f.codec }, false) := by
      unfold State.reconfigure State.inputConfig
      rw [if_neg hne, if_pos ((known_false_iff _).2 hd)]
    rw [hrec]
    simp only [Outcome.bind_ok, if_true]
    exact ⟨_, none, rfl, Or.inl hd, rfl, hnf, fun h => absurd h hd⟩

/-- Every history of such frames: nothing goes wrong, and every frame is answered with the first picture the
decoder of its own codec finds in it. -/
theorem decoding (fs : List (In × Nat)) (h : Steady .none fs) :
    ∃ s' os, runOps step State.init fs = .ok (s', os) ∧ AllRight fs os := by
  have main : ∀ (fs : List (In × Nat)) (s : State) (last : VC), Ready s last → Steady last fs →
      ∃ s' os, runOps step s fs = .ok (s', os) ∧ AllRight fs os := by
    intro fs
    induction fs with
    | nil => intro s _ _ _; exact ⟨s, [], rfl, trivial⟩
    | cons x l ih =>
      intro s last hr hs
      obtain ⟨s1, o, h1, h2, h3⟩ := process_right hr x.1 x.2 hs.1 hs.2.1
      obtain ⟨s2, os, h4, h5⟩ := ih s1 _ h3 hs.2.2
      refine ⟨s2, o :: os, ?_, h2, h5⟩
      have hstep : step s x = .ok (s1, o) := h1
      simp [runOps, hstep, h4]
  exact main fs _ _ ⟨rfl, by simp [State.init], fun hd => by rcases hd with h | h | h | h <;> cases h⟩ h

/-! ## Recorded exceptions -/

/-- Recorded: a codec that was refused is remembered, and the next frame of it is not refused but handed to
whatever context there is: none on a fresh decoder, otherwise the decoder of the codec before. -/
theorem refused_then_taken (s : State) (f g : In) (cap cap' : Nat) (hd : ¬ Decodable f.codec)
    (hne : s.codec ≠ f.codec) (hg : g.codec = f.codec) (hsz : g.size ≠ 0) :
    ∃ s1, s.process f cap = .ok (s1, none) ∧
      (s.ctx = .null → s1.process g cap' = .ub) ∧
      (∀ c, s.ctx = .opened c → s1.process g cap' = s1.loop g cap' g.size (g.dec c)) := by
  have hrec : s.reconfigure f.codec f.setup = .ok ({ s with codec := f.codec }, false) := by
    unfold State.reconfigure State.inputConfig
    rw [if_neg hne, if_pos ((known_false_iff _).2 hd)]
  refine ⟨{ s with codec := f.codec }, by unfold State.process; rw [hrec]; rfl, fun hn => ?_, fun c hc => ?_⟩
  · unfold State.process State.reconfigure
    rw [if_pos (by exact hg.symm)]
    simp only [Outcome.bind_ok, Bool.true_eq_false, if_false, if_neg hsz, State.decoder, hn]
  · unfold State.process State.reconfigure
    rw [if_pos (by exact hg.symm)]
    simp only [Outcome.bind_ok, Bool.true_eq_false, if_false, if_neg hsz, State.decoder, hc]

/-- Recorded: when a decoder cannot be set up, the next frame of the same codec is handed to a context that is
missing, freed or not open; and if the one before it was freed, a frame of another codec frees it again. -/
theorem failed_setup_then_used (s : State) (f g : In) (cap cap' : Nat) (hd : Decodable f.codec)
    (hnf : s.ctx ≠ .freed) (hne : s.codec ≠ f.codec) (hbad : ¬ f.setup.Good) :
    ∃ s1, s.process f cap = .ok (s1, none) ∧
      (g.codec = f.codec → g.size ≠ 0 → s1.process g cap' = .ub) ∧
      (Decodable g.codec → g.codec ≠ f.codec → s.ctx ≠ .null → f.setup.found = false → s1.process g cap' = .ub) := by
  have hk : ¬ known f.codec = false := by rw [known_false_iff]; simpa using hd
  obtain ⟨x, hx⟩ : ∃ x : Ctx, s.reconfigure f.codec f.setup = .ok ({ s with codec := f.codec, ctx := x }, false) ∧
      (∀ c, x ≠ .opened c) ∧ (s.ctx ≠ .null → f.setup.found = false → x = .freed) := by
    unfold State.reconfigure State.inputConfig
    rw [if_neg hne]
    simp only
    rw [if_neg hk, if_neg hnf]
    by_cases h1 : f.setup.found = false
    · rw [if_pos h1]
      by_cases h2 : s.ctx = .null
      · rw [if_pos h2]; exact ⟨.null, rfl, by simp, fun h => absurd h2 h⟩
      · rw [if_neg h2]; exact ⟨.freed, rfl, by simp, fun _ _ => rfl⟩
    · rw [if_neg h1]
      by_cases h2 : f.setup.alloc = false
      · rw [if_pos h2]; exact ⟨.null, rfl, by simp, fun _ h => absurd h h1⟩
      · rw [if_neg h2]
        by_cases h3 : f.setup.opens = false
        · rw [if_pos h3]; exact ⟨.unopened, rfl, by simp, fun _ h => absurd h h1⟩
        · exact absurd ⟨by simpa using h1, by simpa using h2, by simpa using h3⟩ hbad
  refine ⟨{ s with codec := f.codec, ctx := x }, by unfold State.process; rw [hx.1]; rfl, fun hg hsz => ?_,
    fun hgd hgne hnn hfd => ?_⟩
  · have hdec : ({ s with codec := f.codec, ctx := x } : State).decoder = none := by
      unfold State.decoder
      have := hx.2.1
      cases x with
      | opened c => exact absurd rfl (this c)
      | _ => rfl
    unfold State.process State.reconfigure
    rw [if_pos (by exact hg.symm)]
    simp only [Outcome.bind_ok, Bool.true_eq_false, if_false, if_neg hsz, hdec]
  · have : x = .freed := hx.2.2 hnn hfd
    subst this
    unfold State.process State.reconfigure State.inputConfig
    rw [if_neg (by exact fun e => hgne e.symm)]
    simp only
    rw [if_neg (by rw [known_false_iff]; simpa using hgd), if_pos trivial]
    rfl

/-- Recorded: a library that takes no bytes and brings no picture keeps the filter in its loop for good. -/
theorem no_progress_loops (s : State) (f : In) (cap n : Nat) (d : Dec) (hs : s.codec = f.codec)
    (hc : s.ctx = .opened f.codec) (hsz : f.size ≠ 0) (h0 : d.len = 0) (hg : d.got = false)
    (hdec : f.dec f.codec = List.replicate n d) : s.process f cap = .hang := by
  have loop : ∀ n, s.loop f cap f.size (List.replicate n d) = .hang := by
    intro n
    induction n with
    | zero => rw [List.replicate_zero, State.loop, if_neg (by omega)]
    | succ k ih =>
      rw [List.replicate_succ, State.loop, if_neg (by omega), if_neg (by omega), if_neg (by rw [hg]; simp), h0,
        Int.sub_zero]
      exact ih
  unfold State.process State.reconfigure
  rw [if_pos hs]
  simp only [Outcome.bind_ok, Bool.true_eq_false, if_false, if_neg hsz, State.decoder, hc, hdec]
  exact loop n

/-- Recorded: the first picture found is copied whatever its size. -/
theorem picture_overruns (s : State) (f : In) (cap : Nat) (d : Dec) (ds : List Dec) (hs : s.codec = f.codec)
    (hc : s.ctx = .opened f.codec) (hsz : f.size ≠ 0) (hdec : f.dec f.codec = d :: ds) (hp : d.Picture) :
    s.process f cap = .ub ↔ cap < imageSize d.fmt d.w d.h := by
  obtain ⟨p1, p2, p3, p4, p5, p6⟩ := hp
  unfold State.process State.reconfigure
  rw [if_pos hs]
  simp only [Outcome.bind_ok, Bool.true_eq_false, if_false, if_neg hsz, State.decoder, hc, hdec]
  rw [State.loop, if_neg (by omega), if_neg (by omega), if_pos p2]
  unfold State.toBuffer
  rw [if_neg (by simp [p3, p4, p5])]
  by_cases hb : imageSize d.fmt d.w d.h > cap
  · rw [if_pos hb]; simp [hb]
  · rw [if_neg hb]; simp [p6]; omega

/-- Recorded: a picture of a format the code has no name for is delivered without a format. -/
theorem unknown_format_delivered (f : In) (d : Dec) (n : Nat) (h : d.fmt = .other n) :
    (deliver f d).pix = .none := by unfold deliver; rw [h]; rfl

/-! ## Examples -/

def ok : Setup := { found := true, alloc := true, opens := true }
def pic (len : Int) : Dec :=
  { len := len, got := true, fmt := .yuv420p, w := 4, h := 2, copied := true, setup := ok }
def none' (len : Int) : Dec :=
  { len := len, got := false, fmt := .none, w := 0, h := 0, copied := false, setup := ok }
def frame (c : VC) (l : List Dec) : In :=
  { codec := c, size := 2, pts := 40, org := 3, seq := 9, setup := ok, dec := fun k => if k = .h264 then l else [] }

/-- Two answers, the second with the picture. -/
example : (step State.init (frame .h264 [none' 1, pic 1], 12)).map Prod.snd =
    .ok (some { w := 4, h := 2, pix := .yuv420p, len := 12, pts := 40, dts := 40, org := 3, seq := 9 }) := by
  decide +kernel

/-- An error, after which the next frame is decoded again. -/
example : (runOps step State.init [(frame .h264 [none' (-1), pic 1], 12), (frame .h264 [pic 2, pic 2], 12)]).map Prod.snd =
    .ok [none, some { w := 4, h := 2, pix := .yuv420p, len := 12, pts := 40, dts := 40, org := 3, seq := 9 }] := by
  decide +kernel

/-- A decoder that was given raw frames: refused, then taken. -/
example : runOps step State.init [(frame .raw [], 12), (frame .raw [], 12)] = .ub := by decide +kernel

example : Steady .none [(frame .h264 [none' 1, pic 1], 12)] := by
  refine ⟨Or.inl (by decide), ⟨fun _ => ⟨rfl, rfl, rfl⟩, ?_, ?_, by decide, ?_⟩, trivial⟩
  · intro d hd
    simp only [frame, if_true, List.mem_cons, List.not_mem_nil, or_false] at hd
    rcases hd with rfl | rfl <;> exact ⟨rfl, rfl, rfl⟩
  · intro d hd
    simp only [frame, if_true, List.mem_cons, List.not_mem_nil, or_false] at hd
    rcases hd with rfl | rfl <;> exact Or.inl (by decide)
  · intro d hd
    simp only [frame, if_true, List.mem_cons, List.not_mem_nil, or_false] at hd
    rcases hd with rfl | rfl
    · intro h; exact absurd rfl h
    · intros; decide

end Lms.VideoDec
