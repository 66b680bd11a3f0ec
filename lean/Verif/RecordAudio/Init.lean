import Verif.RecordAudio.Props

/-!
# C86: the initialisation files of a recorded audio stream, and when its frames are heard
-/

namespace Lms.RecordAudio

/-! ## Initialisation files -/

/-- What an initialisation file says when it was written for the frame `f`: time scale and rate of the frame, its channels, the bits of a
sample, how long a frame is, and a decoder configuration with object type and rate index of the frame's header; the channels of
the header are stated correctly exactly if they are fewer than four. -/
def Announces (f : Sound) (b : Bytes) : Prop :=
  ∃ i x, Isoff.readInit b = some i ∧ i.handler = ascii "soun" ∧ i.entryType = ascii "mp4a" ∧ i.configType = ascii "esds" ∧
    i.timescale = f.rate % 2 ^ 32 ∧ i.defaultDuration = f.samples % 2 ^ 32 ∧
    Isoff.num i.entry 16 2 = f.channels % 2 ^ 16 ∧ Isoff.num i.entry 18 2 = f.bits % 2 ^ 16 ∧
    Isoff.decoderInfo i.config = some x ∧
    (Adts.headerFreq f.data ≠ 15 → ∃ c, Adts.readConfig x = some (Adts.headerProfile f.data + 1, Adts.headerFreq f.data, c, 0) ∧
      (c = Adts.headerChan f.data ↔ Adts.headerChan f.data < 4))

/-- What an event leaves as initialisation file. -/
def Told (i : In) (o : Out) : Prop :=
  match i with
  | .cut => o.init = none
  | .frame f w =>
    if Adts.ValidHeader f.data ∧ w = true then ∃ b, o.init = some b ∧ Announces f b else o.init = none ∧ o.seg = none

theorem extra_short (a : Adts.State) (ha : a.extra = []) (d : Bytes) : (Adts.update a d).1.extra.length < 105 := by
  unfold Adts.update
  split
  · split
    · simp [ha]
    · split
      · simp [ha]
      · simp [Adts.configBytes]
  · simp [ha]

theorem init_announces {cap : Nat} (hcap : cap < 2 ^ 32) {a a' : Adts.State} (ha : a.extra = []) {secs : Nat} {s s' : Dash.State}
    (hm : s.ctx.media = .audio) {f : Sound} (hv : Adts.ValidHeader f.data) {b : Bytes}
    (he : makeInit cap (Adts.update a f.data).1 (setup secs s f) = .ok (a', s', some b)) : Announces f b := by
  have hx := extra_short a ha f.data
  have hc := (Adts.config_of_header a ha [] f.data).2 hv
  simp only [runSpec] at hc
  unfold makeInit Adts.takeInit at he
  split at he
  · rename_i h
    split at h
    · cases he
    · cases h
  · rename_i e
    split at e
    · cases e
    · cases e
      cases hg : Isoff.initGenerator cap (setup secs s f).ctx (Adts.update a f.data).1.extra with
      | ub => rw [hg] at he; cases he
      | hang => rw [hg] at he; cases he
      | ok g =>
        rw [hg] at he
        cases g with
        | err n => cases he
        | out c bb =>
          cases he
          have hm' : (setup secs s f).ctx.media = .audio := hm
          obtain ⟨i, h1, h2, h3, h4, h5, h6⟩ := Isoff.init_segment_values cap hcap _ c _ b hg
          rw [hm'] at h6
          obtain ⟨h6, h7, h8, h9, h10, h11⟩ := h6
          obtain ⟨j, j1, j2⟩ := Isoff.audio_decoder_info cap hcap _ c _ b hm' hx hg
          rw [h1] at j1
          cases j1
          exact ⟨i, _, h1, h6, h7, h8, h5, h4, h9, h10, j2, hc⟩

theorem step_told {cap : Nat} (hcap : cap < 2 ^ 32) {rate secs : Nat} {off : Int} {alone : Bool} {r r' : State} {t : Dash.ASpec}
    {i : In} {o : Out} (hr : Rel rate secs r t) (he : step cap off alone r i = .ok (r', o)) : Told i o := by
  cases i with
  | cut =>
    simp only [step] at he
    cases hc : Dash.audioStep cap r.seg .force with
    | ub => rw [hc] at he; cases he
    | hang => rw [hc] at he; cases he
    | ok v =>
      rw [hc] at he
      cases he
      rfl
  | frame f w =>
    simp only [step] at he
    rcases update_cases r.adts hr.extra f.data with ⟨hv, e1, e2⟩ | ⟨hv, e1, e2⟩
    · rw [e1] at he
      simp only [Bool.true_eq_false, if_false] at he
      cases hm : makeInit cap (Adts.update r.adts f.data).1 (setup r.secs r.seg f) with
      | ub => rw [hm] at he; cases he
      | hang => rw [hm] at he; cases he
      | ok q =>
        obtain ⟨qa, qs, qo⟩ := q
        rw [hm] at he
        have hq : qo.isSome = true := by
          have hs : Dash.ARel (setup r.secs { r.seg with target := secs * rate % 2 ^ 32 } f) { t with target := r.secs * f.rate % 2 ^ 32 } := by
            obtain ⟨h1, h2, h3, h4, h5, h6, h7, h8, h9⟩ := hr.seg
            exact ⟨h1, h2, h3, h4, h5, h6, rfl, h8, h9⟩
          exact ((init_rel hs hm).2.2 e2).2
        simp only [Outcome.bind_ok] at he
        cases w with
        | false =>
          rw [if_pos ⟨hq, rfl⟩] at he
          cases he
          simp [Told]
        | true =>
          rw [if_neg (by simp)] at he
          cases hp : ticks f.rate off f.pts with
          | ub => rw [hp] at he; cases he
          | hang => rw [hp] at he; cases he
          | ok p =>
            rw [hp] at he
            simp only [Outcome.bind_ok] at he
            generalize (if alone = true then Dash.AOp.frame _ f.samples else _) = oo at he
            cases hst : Dash.audioStep cap qs oo with
            | ub => rw [hst] at he; cases he
            | hang => rw [hst] at he; cases he
            | ok v =>
              rw [hst] at he
              cases he
              obtain ⟨b, rfl⟩ := Option.isSome_iff_exists.1 hq
              show if _ then _ else _
              rw [if_pos ⟨hv, rfl⟩]
              exact ⟨b, rfl, init_announces hcap hr.extra hr.seg.audio hv hm⟩
    · rw [e1, if_pos rfl] at he
      cases he
      show if _ then _ else _
      rw [if_neg fun h => hv h.1]
      exact ⟨rfl, rfl⟩

/-- **C86.** With every accepted frame, and only then, an initialisation file is written, and it describes that frame. -/
theorem init_describes (cap : Nat) (hcap : cap < 2 ^ 32) (off : Int) (alone : Bool) (a b c : UInt8) (secs rate : Nat) (l : List In)
    (hu : Uniform rate l) (r : State) (outs : List Out) (he : runOps (step cap off alone) (new a b c secs) l = .ok (r, outs)) :
    List.Forall₂ Told l outs := by
  have key : ∀ (l : List In) (r r' : State) (t : Dash.ASpec) (outs : List Out), Rel rate secs r t → Uniform rate l →
      runOps (step cap off alone) r l = .ok (r', outs) → List.Forall₂ Told l outs := by
    intro l
    induction l with
    | nil =>
      intro r r' t outs _ _ he
      simp [runOps] at he
      rw [he.2]; exact .nil
    | cons i l ih =>
      intro r r' t outs hr hu he
      obtain ⟨r1, o, outs', h1, h2, rfl⟩ := runOps_cons_ok he
      obtain ⟨e1, _, _⟩ := step_refines hcap hr (fun f w hj => hu f w (by simp at hj; simp [hj])) h1
      exact .cons (step_told hcap hr h1) (ih r1 r' _ outs' e1 (fun f w hj => hu f w (List.mem_cons_of_mem _ hj)) h2)
  exact key l _ _ _ _ (new_rel a b c rate secs) hu he

/-- **C86 (recorded).** While the initialisation file cannot be written all sound is lost: nothing is collected, and no file is written. -/
theorem unwritable_loses_all (cap : Nat) (hcap : cap < 2 ^ 32) (off : Int) (alone : Bool) (a b c : UInt8) (secs rate : Nat) (l : List In)
    (hu : Uniform rate l) (hw : ∀ f w, .frame f w ∈ l → w = false) (r : State) (outs : List Out)
    (he : runOps (step cap off alone) (new a b c secs) l = .ok (r, outs)) :
    outs.filterMap Out.seg = [] ∧ outs.filterMap Out.init = [] := by
  have hs : sounds l = [] := by
    clear he hu
    induction l with
    | nil => rfl
    | cons i l ih =>
      have ih := ih fun f w h => hw f w (List.mem_cons_of_mem _ h)
      cases i with
      | cut => exact ih
      | frame f w =>
        obtain rfl := hw f w (by simp)
        exact ih
  constructor
  · obtain ⟨gs, rest, h1, h2, _⟩ := recording_plays_back cap hcap off alone a b c secs rate l hu r outs he
    rw [hs] at h2
    have h3 : gs.flatten = [] := by
      have := congrArg List.length h2
      simp at this
      exact List.eq_nil_of_length_eq_zero (by simp [this])
    generalize outs.filterMap Out.seg = ss at h1 ⊢
    cases h1 with
    | nil => rfl
    | cons hp hq =>
      obtain ⟨x, y, d, e, _⟩ := hp
      subst e
      simp at h3
  · have h1 := init_describes cap hcap off alone a b c secs rate l hu r outs he
    clear he hu hs
    induction h1 with
    | nil => rfl
    | @cons i o l outs ho _ ih =>
      have ih := ih fun f w h => hw f w (List.mem_cons_of_mem _ h)
      have : o.init = none := by
        cases i with
        | cut => exact ho
        | frame f w =>
          obtain rfl := hw f w (by simp)
          simp [Told] at ho
          exact ho.1
      simp [List.filterMap_cons, this, ih]

/-! ## When a frame is heard -/

/-- When a player hears the frame behind `before` in a segment: the start of the segment and as many ticks as there are samples before. -/
def heardAt (s : Dash.Seg) (before : List Sound) : Nat := s.ts + span before

/-- **C86.** In a segment whose frames follow each other without gap (each within less than a tick of the end of those before, as the
mixers and encoders stamp them), every frame is heard at its own time, but for at most one tick. -/
theorem heard_at_its_time (rate : Nat) (off : Int) (s : Dash.Seg) (fs before after : List Sound) (a f : Sound) (h : Plays rate off s fs)
    (hfs : fs = before ++ f :: after) (ha : fs.head? = some a) (h0 : off ≤ a.pts) (h1 : off ≤ f.pts)
    (ht : (f.pts - off) * rate < 2 ^ 32 * 1000000) (ht' : (a.pts - off) * rate < 2 ^ 32 * 1000000)
    (hgap : ((f.pts - a.pts) * rate - (span before : Int) * 1000000).natAbs < 1000000) :
    heardAt s before ≤ tick rate off f.pts + 1 ∧ tick rate off f.pts ≤ heardAt s before + 1 := by
  obtain ⟨a', l, d, e1, -, -, -, e2, -, -⟩ := h
  rw [e1] at ha
  cases ha
  have key : ∀ m : Int, off ≤ m → (m - off) * rate < 2 ^ 32 * 1000000 → (tick rate off m : Int) = (m - off) * rate / 1000000 := by
    intro m hm hl
    have hx : 0 ≤ (m - off) * (rate : Int) := Int.mul_nonneg (by omega) (by omega)
    unfold tick
    generalize (m - off) * (rate : Int) = x at *
    rw [Int.tdiv_eq_ediv_of_nonneg hx]
    omega
  have k1 := key a.pts h0 ht'
  have k2 := key f.pts h1 ht
  have e3 : (f.pts - a.pts) * (rate : Int) = (f.pts - off) * rate - (a.pts - off) * rate := by
    rw [← Int.sub_mul]; congr 1; omega
  rw [e3] at hgap
  unfold heardAt
  rw [e2]
  generalize (f.pts - off) * (rate : Int) = y at *
  generalize (a.pts - off) * (rate : Int) = x at *
  generalize tick rate off f.pts = u at *
  generalize tick rate off a.pts = v at *
  omega

/-! ## Concrete runs -/

/-- A stereo frame of AAC at 48 kHz (header of seven bytes) with half a second of sound. -/
def demo (x : UInt8) (pts : Int) : Sound := ⟨[0xFF, 0xF1, 0x4C, 0x80, 0x01, 0x1F, 0xFC, x, x + 1], pts, 2, 48000, 24000, 16⟩

/-- Start and length of a segment, with the coded sound and the lengths found in it. -/
structure Shown where
  ts : Nat
  dur : Nat
  sound : List Bytes
  lens : List (Option Nat)
  deriving DecidableEq

/-- The segments of a run. -/
def demoSegs (o : Outcome (State × List Out)) : Option (List Shown) :=
  match o with
  | .ok (_, outs) => some ((outs.filterMap Out.seg).map fun s =>
      match Isoff.demux s.bytes with
      | some d => ⟨s.ts, s.dur, d.samples.map (·.2), d.samples.map (·.1.duration)⟩
      | none => ⟨s.ts, s.dur, [], []⟩)
  | _ => none

/-- Segments of one second; without video; a frame with a wrong header is left out. -/
theorem demo_run : demoSegs (runOps (step 2000 7000000 true) (new 9 9 9 1)
    [.frame (demo 1 7000000) true, .frame (demo 3 7500000) true, .frame ⟨[0xFF, 0x00, 1, 2, 3, 4, 5, 6, 7], 7900000, 2, 48000, 1024, 16⟩ true,
      .frame (demo 5 8000000) true, .frame (demo 7 8500000) true, .frame (demo 9 9000000) true]) =
    some [⟨0, 48000, [[1, 2], [3, 4]], [some 24000, some 24000]⟩, ⟨48000, 48000, [[5, 6], [7, 8]], [some 24000, some 24000]⟩] := by
  decide +kernel

/-- With video; the frame that came while the initialisation file could not be written is missing. -/
theorem demo_cuts : demoSegs (runOps (step 2000 7000000 false) (new 9 9 9 1)
    [.frame (demo 1 7000000) true, .cut, .cut, .frame (demo 3 7500000) true, .frame (demo 4 8000000) false, .frame (demo 5 8000000) true, .cut]) =
    some [⟨0, 24000, [[1, 2]], [some 24000]⟩, ⟨24000, 48000, [[3, 4], [5, 6]], [some 24000, some 24000]⟩] := by
  decide +kernel

/-- **C86 (recorded).** A gap inside a segment is not in it: the second frame is ten seconds behind the first, and is heard half a second
behind it. -/
theorem gap_closed_up : demoSegs (runOps (step 2000 7000000 true) (new 9 9 9 1)
    [.frame (demo 1 7000000) true, .frame (demo 3 17000000) true, .frame (demo 5 17500000) true]) =
    some [⟨0, 48000, [[1, 2], [3, 4]], [some 24000, some 24000]⟩] ∧
    tick 48000 7000000 (demo 3 17000000).pts = 480000 := by
  decide +kernel

/-- **C86 (recorded).** After 2^32 ticks, a day and fifty minutes at 48 kHz, the times start again. -/
theorem times_start_again : demoSegs (runOps (step 2000 0 true) (new 9 9 9 1)
    [.frame (demo 1 89478486000) true, .frame (demo 3 89478986000) true, .frame (demo 5 89479486000) true]) =
    some [⟨32, 48000, [[1, 2], [3, 4]], [some 24000, some 24000]⟩] := by
  decide +kernel

example : Uniform 48000 [.frame (demo 1 7000000) true, .cut, .frame (demo 3 7500000) false] := by
  intro f w h
  simp at h
  rcases h with ⟨rfl, _⟩ | ⟨rfl, _⟩ <;> exact ⟨rfl, by decide⟩

example : Adts.ValidHeader (demo 1 7000000).data ∧ (demo 1 7000000).good = true ∧ Adts.headerFreq (demo 1 7000000).data = 3 := by decide +kernel

/-- The hypotheses of `heard_at_its_time`: three frames half a second apart. -/
example : ∃ s, Plays 48000 7000000 s [demo 1 7000000, demo 3 7500000] ∧
    (((demo 3 7500000).pts - (demo 1 7000000).pts) * 48000 - (span [demo 1 7000000] : Int) * 1000000).natAbs < 1000000 := by
  have hu : Uniform 48000 [.frame (demo 1 7000000) true, .frame (demo 3 7500000) true, .cut] := by
    intro f w h
    simp at h
    rcases h with ⟨rfl, _⟩ | ⟨rfl, _⟩ <;> exact ⟨rfl, by decide⟩
  have hd : demoSegs (runOps (step 2000 7000000 false) (new 9 9 9 1) [.frame (demo 1 7000000) true, .frame (demo 3 7500000) true, .cut]) =
      some [⟨0, 48000, [[1, 2], [3, 4]], [some 24000, some 24000]⟩] := by decide +kernel
  cases he : runOps (step 2000 7000000 false) (new 9 9 9 1) [.frame (demo 1 7000000) true, .frame (demo 3 7500000) true, .cut] with
  | ub => rw [he] at hd; simp [demoSegs] at hd
  | hang => rw [he] at hd; simp [demoSegs] at hd
  | ok v =>
    have h := recording_follows_video 2000 (by decide) 7000000 9 9 9 1 48000 _ hu v.1 v.2 he
    have hb : (between [] [.frame (demo 1 7000000) true, .frame (demo 3 7500000) true, .cut]).1 = [[demo 1 7000000, demo 3 7500000]] := by
      decide +kernel
    rw [hb] at h
    generalize v.2.filterMap Out.seg = ss at h
    cases h with
    | cons h _ => exact ⟨_, h, by decide +kernel⟩

end Lms.RecordAudio
