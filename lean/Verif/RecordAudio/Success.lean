import Verif.RecordAudio.Init

/-!
# C86: recordings that do not run over the buffers
-/

namespace Lms.RecordAudio

open Isoff (Ctx)

/-! ## Sizes -/

theorem init_length (c : Ctx) (h : c.media = .audio) : (Isoff.ftyp ++ Isoff.moov c).length = 594 + c.extra.length := by
  have hp : ∀ b : Bytes, (Isoff.patched b).length = 4 + b.length := by
    intro b; rw [Isoff.patched, List.length_append]; rfl
  have h32 : ∀ n, (be32 n).length = 4 := fun _ => rfl
  have h16 : ∀ n, (be16 n).length = 2 := fun _ => rfl
  have h8 : ∀ n, (be8 n).length = 1 := fun _ => rfl
  have hz : ∀ n, (Isoff.zeros n).length = n := fun n => List.length_replicate
  have hv : c.media.isVideo = false := by rw [h]; rfl
  have a0 : (ascii "ftyp").length = 4 := by decide +kernel
  have a1 : (ascii "iso6").length = 4 := by decide +kernel
  have a2 : (ascii "isom").length = 4 := by decide +kernel
  have a3 : (ascii "dash").length = 4 := by decide +kernel
  have a4 : (ascii "mvhd").length = 4 := by decide +kernel
  have a5 : (ascii "trex").length = 4 := by decide +kernel
  have a6 : (ascii "mvex").length = 4 := by decide +kernel
  have a7 : (ascii "tkhd").length = 4 := by decide +kernel
  have a8 : (ascii "mdhd").length = 4 := by decide +kernel
  have a9 : (ascii "hdlr").length = 4 := by decide +kernel
  have a10 : (ascii "soun").length = 4 := by decide +kernel
  have a11 : (ascii "SoundHandler").length = 12 := by decide +kernel
  have a12 : (ascii "smhd").length = 4 := by decide +kernel
  have a13 : (ascii "dref").length = 4 := by decide +kernel
  have a14 : (ascii "dinf").length = 4 := by decide +kernel
  have a15 : (ascii "esds").length = 4 := by decide +kernel
  have a16 : (ascii "mp4a").length = 4 := by decide +kernel
  have a17 : (ascii "stsd").length = 4 := by decide +kernel
  have a18 : (ascii "stts").length = 4 := by decide +kernel
  have a19 : (ascii "stsc").length = 4 := by decide +kernel
  have a20 : (ascii "stsz").length = 4 := by decide +kernel
  have a21 : (ascii "stco").length = 4 := by decide +kernel
  have a22 : (ascii "stbl").length = 4 := by decide +kernel
  have a23 : (ascii "minf").length = 4 := by decide +kernel
  have a24 : (ascii "mdia").length = 4 := by decide +kernel
  have a25 : (ascii "trak").length = 4 := by decide +kernel
  have a26 : (ascii "moov").length = 4 := by decide +kernel
  have a27 : (ascii "url ").length = 4 := by decide +kernel
  simp only [Isoff.ftyp, Isoff.moov, Isoff.mvhd, Isoff.mvex, Isoff.trex, Isoff.trak, Isoff.tkhd, Isoff.mdia, Isoff.mdhd, Isoff.hdlr, Isoff.minf,
    Isoff.smhd, Isoff.dinf, Isoff.dref, Isoff.url, Isoff.stbl, Isoff.stsd, Isoff.entry, h, Isoff.mp4a, Isoff.sound, Isoff.esds, Isoff.stts,
    Isoff.stsc, Isoff.stsz, Isoff.stco, Isoff.matrix, Isoff.Media.isVideo, Bool.false_eq_true, if_false, List.length_append, hp, h32, h16, h8, hz,
    List.length_singleton, a0, a1, a2, a3, a4, a5, a6, a7, a8, a9, a10, a11, a12, a13, a14, a15, a16, a17, a18, a19, a20, a21, a22, a23, a24, a25, a26, a27]
  clear a0 a1 a2 a3 a4 a5 a6 a7 a8 a9 a10 a11 a12 a13 a14 a15 a16 a17 a18 a19 a20 a21 a22 a23 a24 a25 a26 a27 hp h32 h16 h8 hz
  generalize List.length c.extra = n
  simp only [← Nat.add_assoc, Nat.reduceAdd]
  omega

theorem extra_le (a : Adts.State) (ha : a.extra = []) (d : Bytes) : (Adts.update a d).1.extra.length ≤ 2 := by
  unfold Adts.update
  split
  · split
    · simp [ha]
    · split
      · simp [ha]
      · simp [Adts.configBytes]
  · simp [ha]

theorem makeInit_ok {cap : Nat} (hcap : 596 ≤ cap) {a : Adts.State} (ha : a.extra.length ≤ 2) {s : Dash.State} (hm : s.ctx.media = .audio) :
    ∃ q, makeInit cap a s = .ok q := by
  unfold makeInit Adts.takeInit
  by_cases hx : a.extra = []
  · rw [if_pos hx]; exact ⟨_, rfl⟩
  · rw [if_neg hx]
    have hl := List.length_pos_iff.2 hx
    have : Isoff.initGenerator cap s.ctx a.extra = .ok (.out { s.ctx with extra := a.extra } (Isoff.ftyp ++ Isoff.moov { s.ctx with extra := a.extra })) := by
      unfold Isoff.initGenerator Isoff.store
      rw [if_neg (by omega)]
      have hi := init_length { s.ctx with extra := a.extra } hm
      simp only at hi ⊢
      rw [if_pos (by omega)]
    simp only [this, Outcome.bind_ok]
    exact ⟨_, rfl⟩

/-! ## Groups that fit -/

/-- A group that fits the buffers, with 176 bytes of boxes and 8 for each frame. -/
def AFits (cap : Nat) (g : List Dash.AFrm) : Prop :=
  (g.map fun f => f.data.length).sum ≤ Isoff.MAX_DAT ∧ g.length ≤ Isoff.MAX_MDAT_SAMPLE ∧
    176 + 8 * g.length + (g.map fun f => f.data.length).sum ≤ cap

theorem aflat_length (g : List Dash.AFrm) : (g.map Dash.AFrm.data).flatten.length = (g.map fun f => f.data.length).sum := by
  induction g with
  | nil => rfl
  | cons a l ih => simp only [List.map_cons, List.flatten_cons, List.length_append, List.sum_cons]; rw [ih]

theorem aclose_ok {cap : Nat} {s : Dash.State} {t : Dash.ASpec} (h : Dash.ARel s t) (hf : AFits cap t.group) : ∃ r, Dash.close cap s = .ok r := by
  by_cases h0 : s.ctx.data.length < 1
  · unfold Dash.close Isoff.segmentGenerator
    rw [if_pos h0]
    exact ⟨_, rfl⟩
  · refine Dash.close_ok (by omega) ?_
    have h3 := hf.2.2
    rw [h.audio, h.samples, h.data, aflat_length, List.length_map]
    show 176 + t.group.length * 2 * 4 + _ ≤ cap
    omega

theorem aadd_ok {cap : Nat} {s : Dash.State} {t : Dash.ASpec} (h : Dash.ARel s t) (f : Dash.Frm) (d : Nat) (hf : AFits cap (t.add f d).group) :
    ∃ r, Dash.addAudio s f d = .ok r := by
  unfold Dash.addAudio
  by_cases h1 : f.data.length < 1
  · rw [if_pos h1]; exact ⟨_, rfl⟩
  · rw [if_neg h1]
    by_cases h2 : d < 1
    · rw [if_pos h2]; exact ⟨_, rfl⟩
    · rw [if_neg h2]
      have e : (t.add f d).group = t.group ++ [⟨f.data, d, f.pts⟩] := by
        unfold Dash.ASpec.add
        rw [if_neg]
        rintro (e | e)
        · rw [e] at h1; simp at h1
        · omega
      rw [e] at hf
      obtain ⟨f1, f2, -⟩ := hf
      simp only [List.map_append, List.map_cons, List.map_nil, List.sum_append, List.sum_cons, List.sum_nil, List.length_append,
        List.length_singleton] at f1 f2
      rw [if_neg]
      · exact ⟨_, rfl⟩
      · rw [h.data, h.samples, aflat_length, List.length_map]
        omega

theorem audio_step_ok {cap : Nat} (hcap : cap < 2 ^ 32) {s : Dash.State} {t : Dash.ASpec} {o : Dash.AOp} (h : Dash.ARel s t)
    (h1 : AFits cap t.group) (h2 : AFits cap (t.step o).1.group) : ∃ r, Dash.audioStep cap s o = .ok r := by
  cases o with
  | force => exact aclose_ok h h1
  | append f d =>
    obtain ⟨q, hq⟩ := aadd_ok h f d h2
    exact ⟨_, by simp only [Dash.audioStep, hq, Outcome.bind_ok]; rfl⟩
  | frame f d =>
    simp only [Dash.ASpec.step] at h2
    have hg : ∃ r, Dash.generateAudio cap s = .ok r ∧
        Dash.ARel r.1 (if t.target ≤ Dash.audioDuration t.group then t.close else (t, none)).1 := by
      unfold Dash.generateAudio
      by_cases hc : t.target ≤ Dash.audioDuration t.group
      · rw [if_pos (by rw [h.target, h.cur]; exact hc), if_pos hc]
        obtain ⟨r, hr⟩ := aclose_ok h h1
        exact ⟨r, hr, (Dash.aclose_refines (s' := r.1) (o := r.2) hcap h hr).1⟩
      · rw [if_neg (by rw [h.target, h.cur]; exact hc), if_neg hc]
        exact ⟨_, rfl, h⟩
    obtain ⟨r, hr, hr'⟩ := hg
    obtain ⟨q, hq⟩ := aadd_ok hr' f d h2
    exact ⟨_, by simp only [Dash.audioStep, hr, Outcome.bind_ok, hq]; rfl⟩

/-- A time that can be converted. -/
def InRange (off : Int) (f : Sound) : Prop := -2 ^ 63 ≤ (f.pts - off) * f.rate ∧ (f.pts - off) * f.rate < 2 ^ 63

theorem step_ok {cap : Nat} (hcap : cap < 2 ^ 32) (hcap' : 596 ≤ cap) {rate secs : Nat} {off : Int} {alone : Bool} {r : State} {t : Dash.ASpec}
    {i : In} (hr : Rel rate secs r t) (hu : ∀ f w, i = .frame f w → f.rate = rate ∧ InRange off f) (h1 : AFits cap t.group)
    (h2 : AFits cap (t.step (op rate off alone i)).1.group) : ∃ q, step cap off alone r i = .ok q := by
  cases i with
  | cut =>
    have hc : ∃ q, Dash.close cap r.seg = .ok q := by
      have ha : Dash.ARel r.seg { t with target := r.seg.target } := by
        obtain ⟨h1, h2, h3, h4, h5, h6, h7, h8, h9⟩ := hr.seg
        exact ⟨h1, h2, h3, h4, h5, h6, rfl, h8, h9⟩
      exact aclose_ok ha h1
    obtain ⟨q, hq⟩ := hc
    exact ⟨_, by simp only [step, Dash.audioStep, hq, Outcome.bind_ok]; rfl⟩
  | frame f w =>
    obtain ⟨u1, u2⟩ := hu f w rfl
    subst u1
    have hs := setup_rel r.secs f (by rw [hr.secs]) hr.seg
    simp only [step]
    rcases update_cases r.adts hr.extra f.data with ⟨hv, e1, e2⟩ | ⟨hv, e1, e2⟩
    · rw [e1]
      simp only [Bool.true_eq_false, if_false]
      obtain ⟨⟨qa, qs, qo⟩, hq⟩ := makeInit_ok hcap' (extra_le r.adts hr.extra f.data) (s := setup r.secs r.seg f) hr.seg.audio
      obtain ⟨i1, -, -⟩ := init_rel hs hq
      rw [hq]
      simp only [Outcome.bind_ok]
      cases w with
      | false =>
        by_cases hc : qo.isSome = true ∧ false = false
        · rw [if_pos hc]; exact ⟨_, rfl⟩
        · exfalso; exact hc ⟨((init_rel hs hq).2.2 e2).2, rfl⟩
      | true =>
        rw [if_neg (by simp)]
        have hp : ticks f.rate off f.pts = .ok (at64 f.rate off f.pts) := by
          unfold ticks
          simp only
          rw [if_neg (by have := u2.1; have := u2.2; omega)]
          rfl
        rw [hp]
        simp only [Outcome.bind_ok]
        have eo : (if alone = true then Dash.AOp.frame ⟨(Adts.samplePart f.data).1, at64 f.rate off f.pts, at64 f.rate off f.pts, true⟩ f.samples
            else .append ⟨(Adts.samplePart f.data).1, at64 f.rate off f.pts, at64 f.rate off f.pts, true⟩ f.samples) = op f.rate off alone (.frame f true) := by
          simp [op, hv, frm]
          rfl
        rw [eo]
        obtain ⟨v, hv⟩ := audio_step_ok hcap i1 h1 h2
        rw [hv]
        exact ⟨_, rfl⟩
    · rw [e1, if_pos rfl]
      exact ⟨_, rfl⟩

/-- A recording succeeds if all groups formed on the way fit. -/
theorem run_ok {cap : Nat} (hcap : cap < 2 ^ 32) (hcap' : 596 ≤ cap) {rate secs : Nat} {off : Int} {alone : Bool} (l : List In) {r : State}
    {t : Dash.ASpec} (hr : Rel rate secs r t) (hu : Uniform rate l) (hi : ∀ f w, .frame f w ∈ l → InRange off f)
    (hf : ∀ n, AFits cap (t.run ((l.take n).map (op rate off alone))).1.group) : ∃ q, runOps (step cap off alone) r l = .ok q := by
  induction l generalizing r t with
  | nil => exact ⟨_, rfl⟩
  | cons i l ih =>
    obtain ⟨⟨r1, o⟩, h1⟩ := step_ok hcap hcap' hr (i := i) (fun f w e => ⟨(hu f w (by simp [e])).1, hi f w (by simp [e])⟩) (hf 0)
      (by simpa [Dash.ASpec.run] using hf 1)
    obtain ⟨e1, _, _⟩ := step_refines hcap hr (fun f w hj => hu f w (by simp at hj; simp [hj])) h1
    obtain ⟨q, hq⟩ := ih e1 (fun f w hj => hu f w (List.mem_cons_of_mem _ hj)) (fun f w hj => hi f w (List.mem_cons_of_mem _ hj))
      (fun n => by simpa [Dash.ASpec.run] using hf (n + 1))
    exact ⟨_, by simp only [runOps, h1, Outcome.bind_ok, hq]; rfl⟩

/-- The frames `g` fit the buffers of one segment. -/
def Fits (cap : Nat) (g : List Sound) : Prop :=
  (g.map fun f => f.raw.length).sum ≤ 10485760 ∧ g.length ≤ 65536 ∧ 176 + 8 * g.length + (g.map fun f => f.raw.length).sum ≤ cap

/-- **C86.** With video a recording succeeds if the good frames collected since the last cut always fit the buffers. -/
theorem recording_with_video_succeeds (cap : Nat) (hcap : cap < 2 ^ 32) (hcap' : 596 ≤ cap) (off : Int) (a b c : UInt8) (secs rate : Nat) (l : List In)
    (hu : Uniform rate l) (hi : ∀ f w, .frame f w ∈ l → InRange off f) (hf : ∀ n, Fits cap (between [] (l.take n)).2) :
    ∃ q, runOps (step cap off false) (new a b c secs) l = .ok q := by
  refine run_ok hcap hcap' l (new_rel a b c rate secs) hu hi fun n => ?_
  rw [(between_run rate off (l.take n) [] _ rfl).2]
  have := hf n
  simpa [AFits, Fits, toA, Function.comp_def] using this

/-! ## Without video -/

/-- What a group looks like when frames have between `m` and `M` samples and at most `B` bytes. -/
structure Bounded (target m M B : Nat) (g : List Dash.AFrm) : Prop where
  all : ∀ f ∈ g, m ≤ f.dur ∧ f.dur ≤ M ∧ f.data.length ≤ B
  due : g = [] ∨ (g.dropLast.map Dash.AFrm.dur).sum < max target 1

theorem sum_ge (m : Nat) (g : List Dash.AFrm) (h : ∀ f ∈ g, m ≤ f.dur) : g.length * m ≤ (g.map Dash.AFrm.dur).sum := by
  induction g with
  | nil => simp
  | cons x g ih =>
    have := ih fun f hf => h f (by simp [hf])
    have := h x (by simp)
    simp only [List.length_cons, List.map_cons, List.sum_cons, Nat.succ_mul]
    omega

theorem sum_le (B : Nat) (g : List Dash.AFrm) (h : ∀ f ∈ g, f.data.length ≤ B) : (g.map fun f => f.data.length).sum ≤ g.length * B := by
  induction g with
  | nil => simp
  | cons x g ih =>
    have := ih fun f hf => h f (by simp [hf])
    have := h x (by simp)
    simp only [List.length_cons, List.map_cons, List.sum_cons, Nat.succ_mul]
    omega

theorem bounded_fits {cap target m M B : Nat} (hm : 0 < m) {g : List Dash.AFrm} (h : Bounded target m M B g)
    (h1 : target / m + 1 ≤ 65536) (h2 : (target / m + 1) * B ≤ 10485760) (h3 : 176 + (target / m + 1) * (8 + B) ≤ cap) : AFits cap g := by
  have hl : g.length ≤ target / m + 1 := by
    rcases h.due with rfl | hd
    · simp
    · have hs := sum_ge m g.dropLast fun f hf => (h.all f (List.dropLast_subset g hf)).1
      rw [List.length_dropLast] at hs
      have : (g.length - 1) ≤ target / m := by
        rw [Nat.le_div_iff_mul_le hm]
        by_cases h0 : g.length - 1 = 0
        · rw [h0]; omega
        · have : 1 * 1 ≤ (g.length - 1) * m := Nat.mul_le_mul (by omega) hm
          omega
      omega
  have hb := sum_le B g fun f hf => (h.all f hf).2.2
  have hlb : g.length * B ≤ (target / m + 1) * B := Nat.mul_le_mul_right _ hl
  rw [Nat.mul_add] at h3
  refine ⟨by unfold Isoff.MAX_DAT; omega, by unfold Isoff.MAX_MDAT_SAMPLE; omega, by omega⟩

theorem bounded_step {target m M B : Nat} (hm : 0 < m) (hw : target + M < 2 ^ 32) (t : Dash.ASpec) (ht : t.target = target)
    (h : Bounded target m M B t.group) (o : Dash.AOp) (ho : o ≠ .force)
    (hf : ∀ f d, (o = .frame f d ∨ o = .append f d) → f.data = [] ∨ d = 0 ∨ ((∃ f d, o = .frame f d) ∧ m ≤ d ∧ d ≤ M ∧ f.data.length ≤ B)) :
    Bounded target m M B (t.step o).1.group := by
  cases o with
  | force => exact absurd rfl ho
  | append f d =>
    have : f.data = [] ∨ d = 0 := by
      rcases hf f d (.inr rfl) with h | h | ⟨⟨_, _, h⟩, _⟩
      · exact .inl h
      · exact .inr h
      · cases h
    simp only [Dash.ASpec.step, Dash.ASpec.add, if_pos this]
    exact h
  | frame f d =>
    have hadd : ∀ u : Dash.ASpec, Bounded target m M B u.group → (u.group = [] ∨ Dash.audioDuration u.group < target) →
        Bounded target m M B (u.add f d).group := by
      intro u hu hd
      unfold Dash.ASpec.add
      split
      · exact hu
      · rename_i hn
        obtain ⟨-, b1, b2, b3⟩ : (∃ f' d', Dash.AOp.frame f d = .frame f' d') ∧ m ≤ d ∧ d ≤ M ∧ f.data.length ≤ B := by
          rcases hf f d (.inl rfl) with h | h | h
          · exact absurd (.inl h) hn
          · exact absurd (.inr h) hn
          · exact h
        refine ⟨?_, .inr ?_⟩
        · intro x hx
          rcases List.mem_append.1 hx with hx | hx
          · exact hu.all x hx
          · simp only [List.mem_singleton] at hx
            subst hx
            exact ⟨b1, b2, b3⟩
        · simp only [List.dropLast_concat]
          rcases hd with e | hd
          · rw [e]; simp only [List.map_nil, List.sum_nil]; omega
          · have : (u.group.map Dash.AFrm.dur).sum < 2 ^ 32 := by
              rcases hu.due with e | e
              · rw [e]; simp
              · by_cases hg : u.group = []
                · rw [hg]; simp
                · have e2 := List.dropLast_append_getLast hg
                  have hx := (hu.all _ (List.getLast_mem hg)).2.1
                  rw [← e2]
                  simp only [List.map_append, List.map_cons, List.map_nil, List.sum_append, List.sum_cons, List.sum_nil]
                  have : target ≠ 0 := by omega
                  omega
            unfold Dash.audioDuration at hd
            rw [Nat.mod_eq_of_lt this] at hd
            omega
    simp only [Dash.ASpec.step]
    split
    · unfold Dash.ASpec.close
      split
      · rename_i h0; exact hadd t h (.inl h0)
      · exact hadd _ ⟨by simp, .inl rfl⟩ (.inl rfl)
    · exact hadd t h (.inr (by omega))

/-- **C86.** Without video a recording succeeds if its good frames have between `m` and `M` samples and at most `B` bytes of coded sound, and
the frames of one segment fit the buffers. -/
theorem recording_alone_succeeds (cap : Nat) (hcap : cap < 2 ^ 32) (hcap' : 596 ≤ cap) (off : Int) (a b c : UInt8) (secs rate m M B : Nat)
    (l : List In) (hu : Uniform rate l) (hl : .cut ∉ l) (hi : ∀ f w, .frame f w ∈ l → InRange off f) (hm : 0 < m)
    (hb : ∀ f w, .frame f w ∈ l → f.good = true → m ≤ f.samples ∧ f.samples ≤ M ∧ f.raw.length ≤ B) (hw : secs * rate + M < 2 ^ 32)
    (h1 : secs * rate / m + 1 ≤ 65536) (h2 : (secs * rate / m + 1) * B ≤ 10485760) (h3 : 176 + (secs * rate / m + 1) * (8 + B) ≤ cap) :
    ∃ q, runOps (step cap off true) (new a b c secs) l = .ok q := by
  have ht : secs * rate % 2 ^ 32 = secs * rate := Nat.mod_eq_of_lt (by omega)
  refine run_ok hcap hcap' l (new_rel a b c rate secs) hu hi fun n => ?_
  refine bounded_fits (M := M) hm ?_ h1 h2 h3
  rw [ht]
  have key : ∀ (k : List In) (t : Dash.ASpec), (∀ i ∈ k, i ∈ l) → t.target = secs * rate → Bounded (secs * rate) m M B t.group →
      Bounded (secs * rate) m M B (t.run (k.map (op rate off true))).1.group := by
    intro k
    induction k with
    | nil => intro t _ _ h; exact h
    | cons i k ih =>
      intro t hk ht h
      refine ih _ (fun j hj => hk j (List.mem_cons_of_mem _ hj)) ((step_target t _).trans ht) (bounded_step hm hw t ht h _ ?_ ?_)
      · cases i with
        | cut => exact absurd (hk _ (by simp)) hl
        | frame f w =>
          simp only [op]
          split <;> simp
      · cases i with
        | cut => exact absurd (hk _ (by simp)) hl
        | frame f w =>
          have hfw := hb f w (hk _ (by simp))
          simp only [op, if_true]
          by_cases hv : Adts.ValidHeader f.data ∧ w = true
          · rw [if_pos hv]
            rintro g d (e | e)
            · cases e
              show f.raw = [] ∨ f.samples = 0 ∨ _
              by_cases h0 : f.raw = []
              · exact .inl h0
              · by_cases hs : f.samples = 0
                · exact .inr (.inl hs)
                · refine .inr (.inr ⟨⟨_, _, rfl⟩, hfw ?_⟩)
                  unfold Sound.good
                  rw [decide_eq_true_eq]
                  have : ¬ f.data.length ≤ 7 := fun h => h0 ((raw_nil f).2 h)
                  exact ⟨hv.1, by omega, by omega⟩
            · cases e
          · rw [if_neg hv]
            rintro g d (e | e)
            · cases e
            · cases e; exact .inl rfl
  exact key (l.take n) _ (fun i hi => List.mem_of_mem_take hi) rfl ⟨by simp, .inl rfl⟩

/-- Ten seconds of AAC at 48 kHz, up to eight kilobytes a frame, fit into the ten megabytes. -/
example : 10 * 48000 + 1024 < 2 ^ 32 ∧ 10 * 48000 / 1024 + 1 ≤ 65536 ∧ (10 * 48000 / 1024 + 1) * 8191 ≤ 10485760 ∧
    176 + (10 * 48000 / 1024 + 1) * (8 + 8191) ≤ 10485760 := by decide

example : InRange 7000000 (demo 1 7500000) ∧ Fits 10485760 [demo 1 7000000, demo 3 7500000] := by
  constructor
  · constructor <;> decide
  · unfold Fits; decide +kernel

end Lms.RecordAudio
