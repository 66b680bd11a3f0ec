import Verif.Encoder.Gop

/-!
# C56, C57: configuration of the encoder
-/

namespace Lms.Encoder

/-! ## C56: the configure event -/

/-- The values of a 32 bit int and unsigned. -/
def isInt (x : Int) : Prop := -2147483648 ≤ x ∧ x ≤ 2147483647

theorem s32_u32 (x : Int) (h : isInt x) : s32 (u32 x) = x := by
  obtain ⟨h1, h2⟩ := h
  unfold s32 u32
  split <;> omega

theorem u32_nonneg (x : Int) (h : 0 ≤ x) (h2 : isInt x) : u32 x = x.toNat := by
  obtain ⟨_, h3⟩ := h2
  unfold u32; omega

/-- The settings an event asks for: the values it names (natural numbers), the others as they are. -/
structure Wanted where
  bitrate : Nat
  fps : Nat
  gop : Nat
  lookahead : Nat
  threads : Nat
  bFrames : Int
  annexB : Bool
  preset : String
  gopTime : Nat

/-- What `p` asks of a filter with settings `c`. -/
def wanted (c : Cfg) (p : Params) : Wanted :=
  { bitrate := (p.bitrate.map Int.toNat).getD c.bitrate, fps := (p.fps.map Int.toNat).getD c.fps
    gop := (p.gop.map Int.toNat).getD c.gop, lookahead := (p.lookahead.map Int.toNat).getD c.lookahead
    threads := (p.threads.map Int.toNat).getD c.threads, bFrames := p.bFrames.getD c.bFrames
    annexB := p.annexB.getD c.annexB, preset := p.preset.getD c.preset, gopTime := (p.gopTime.map Int.toNat).getD c.gopTime }

/-- The event names no negative number except perhaps for the B pictures. -/
structure Sane (p : Params) : Prop where
  bitrate : ∀ x ∈ p.bitrate, 0 ≤ x ∧ isInt x
  fps : ∀ x ∈ p.fps, 0 ≤ x ∧ isInt x
  gop : ∀ x ∈ p.gop, 0 ≤ x ∧ isInt x
  lookahead : ∀ x ∈ p.lookahead, 0 ≤ x ∧ isInt x
  threads : ∀ x ∈ p.threads, 0 ≤ x ∧ isInt x
  bFrames : ∀ x ∈ p.bFrames, isInt x
  gopTime : ∀ x ∈ p.gopTime, 0 ≤ x ∧ isInt x

theorem u32_opt {o : Option Int} (h : ∀ x ∈ o, 0 ≤ x ∧ isInt x) (d : Nat) : (o.map u32).getD d = (o.map Int.toNat).getD d := by
  cases o with
  | none => rfl
  | some x => obtain ⟨h1, h2⟩ := h x (by simp); simp [u32_nonneg x h1 h2]

/-- **C56**: an event is refused without effect exactly when bit rate, GOP length or threads would be zero
or the preset empty; otherwise exactly the named settings change, a GOP time is raised to a second, a
zero frame rate means the default one, and the encoder will be configured anew. -/
theorem config_event (c : Cfg) (p : Params) (hp : Sane p) (hc : isInt c.bFrames) :
    if (wanted c p).bitrate = 0 ∨ (wanted c p).gop = 0 ∨ (wanted c p).threads = 0 ∨ (wanted c p).preset = "" then
      configEvent c p = (c, false)
    else
      (configEvent c p).2 = true ∧ (configEvent c p).1.bitrate = (wanted c p).bitrate ∧ (configEvent c p).1.gop = (wanted c p).gop ∧
      (configEvent c p).1.lookahead = (wanted c p).lookahead ∧ (configEvent c p).1.threads = (wanted c p).threads ∧
      (configEvent c p).1.bFrames = (wanted c p).bFrames ∧ (configEvent c p).1.annexB = (wanted c p).annexB ∧
      (configEvent c p).1.preset = (wanted c p).preset ∧
      (configEvent c p).1.fps = (if (wanted c p).fps = 0 then 25 else (wanted c p).fps) ∧
      (configEvent c p).1.gopTime = (if (wanted c p).gopTime = 0 then 0 else max 1000000 (wanted c p).gopTime) ∧
      (configEvent c p).1.needsConfig = true := by
  have hb : s32 ((p.bFrames.map u32).getD (u32 c.bFrames)) = p.bFrames.getD c.bFrames := by
    cases hx : p.bFrames with
    | none => exact s32_u32 _ hc
    | some x => exact s32_u32 _ (hp.bFrames x (by simp [hx]))
  have he : configEvent c p = configure0 c (wanted c p).bitrate (wanted c p).fps (wanted c p).gop (wanted c p).lookahead
      (wanted c p).bFrames (wanted c p).threads (wanted c p).annexB (wanted c p).preset (wanted c p).gopTime := by
    unfold configEvent wanted
    rw [hb, u32_opt hp.bitrate, u32_opt hp.fps, u32_opt hp.gop, u32_opt hp.lookahead, u32_opt hp.threads, u32_opt hp.gopTime]
  rw [he]
  unfold configure0
  by_cases h : (wanted c p).bitrate = 0 ∨ (wanted c p).gop = 0 ∨ (wanted c p).threads = 0 ∨ (wanted c p).preset = ""
  · rw [if_pos h, if_pos (by simp only [Nat.le_zero]; exact h)]
  · rw [if_neg h, if_neg (by simp only [Nat.le_zero]; exact h)]
    refine ⟨rfl, rfl, rfl, rfl, rfl, rfl, rfl, rfl, ?_, ?_, rfl⟩
    · simp only [Nat.le_zero, VIDEO_DEFAULT_FRAMERATE]
    · simp only [MIN_GOP_TIME]
      repeat' split
      all_goals omega

/-- The settings of a new filter, VideoEncoderX264or5.cpp:36-37. -/
def demoCfg : Cfg := ⟨2000, 25, 25, 25, 4, 4, true, "ultrafast", 0, 40000, true⟩

example : configEvent demoCfg { gopTime := some 5, bFrames := some (-1) } =
    ({ demoCfg with gopTime := 1000000, bFrames := -1 }, true) := by decide
example : configEvent demoCfg { gop := some 0, bitrate := some 500 } = (demoCfg, false) := by decide

/-- **The frame time depends on the wording**: after a frame rate of zero the filter runs untimed; any
later event, even one naming nothing, sets the default frame time. -/
theorem any_event_sets_frame_time (c : Cfg) (h : 0 < c.bitrate ∧ 0 < c.gop ∧ 0 < c.threads ∧ c.preset ≠ "") :
    (configEvent c { fps := some 0 }).1.frameTime = 0 ∧ (configEvent (configEvent c { fps := some 0 }).1 {}).1.frameTime = 40000 := by
  obtain ⟨h1, h2, h3, h4⟩ := h
  have e : configEvent c { fps := some 0 } = configure0 c c.bitrate 0 c.gop c.lookahead (s32 (u32 c.bFrames)) c.threads c.annexB c.preset c.gopTime := rfl
  have hn : ¬ (c.bitrate ≤ 0 ∨ c.gop ≤ 0 ∨ c.threads ≤ 0 ∨ c.preset = "") := by
    rintro (h | h | h | h)
    · omega
    · omega
    · omega
    · exact h4 h
  have e1 : (configEvent c { fps := some 0 }).1.frameTime = 0 := by rw [e]; unfold configure0; rw [if_neg hn]; rfl
  refine ⟨e1, ?_⟩
  obtain ⟨d, hd⟩ : ∃ d, (configEvent c { fps := some 0 }).1 = d := ⟨_, rfl⟩
  have f : d.bitrate = c.bitrate ∧ d.gop = c.gop ∧ d.threads = c.threads ∧ d.preset = c.preset ∧ d.fps = 25 := by
    rw [← hd, e]; unfold configure0; rw [if_neg hn]; exact ⟨rfl, rfl, rfl, rfl, rfl⟩
  rw [hd]
  have e2 : configEvent d {} = configure0 d d.bitrate d.fps d.gop d.lookahead (s32 (u32 d.bFrames)) d.threads d.annexB d.preset d.gopTime := rfl
  rw [e2, f.1, f.2.1, f.2.2.1, f.2.2.2.1, f.2.2.2.2]
  unfold configure0; rw [if_neg hn]; rfl

/-- A negative bit rate is taken as one of four thousand million. -/
theorem negative_accepted : (configEvent demoCfg { bitrate := some (-5) }).2 = true ∧
    (configEvent demoCfg { bitrate := some (-5) }).1.bitrate = 4294967291 := by decide

/-! ## C57: the library's encoder fits the picture -/

/-- The open encoder has the size in `xparams` and the last format, unless that is one it cannot take. -/
def Fits (e : Enc) : Prop := ∀ o, e.opened = some o → o.w = e.xw ∧ o.h = e.xh ∧ (o.fmt = e.fmt ∨ e.fmt.ok = false)

theorem reopen_eq (e : Enc) (p : Pic) (l : Lib) (hp : 0 < p.w) :
    reopen e p l = { e with xw := p.w, xh := p.h, opened := if l.openOk then some p else none } := by
  unfold reopen
  have : p.w ≠ 0 ∨ p.h ≠ 0 := Or.inl (by omega)
  simp only [this, if_true]

theorem fits_step (e : Enc) (ev : EncEv) (h : Fits e) (hp : ∀ p l, ev = .pic p l → 0 < p.w) : Fits (encStep e ev) := by
  cases ev with
  | config => exact h
  | pic p l =>
    have hw := hp p l rfl
    show Fits (reconfigure e p l).1
    unfold reconfigure
    split
    · exact h
    · simp only []
      cases hok : p.fmt.ok with
      | true =>
        rw [if_pos rfl, reopen_eq _ _ _ hw]
        cases hl : l.openOk with
        | true =>
          simp only [if_true]
          intro o ho
          injection ho with ho; subst ho; exact ⟨rfl, rfl, Or.inl rfl⟩
        | false =>
          simp only [Bool.false_eq_true, if_false, if_true]
          intro o ho; cases ho
      | false =>
        rw [if_neg (by decide)]
        intro o ho
        obtain ⟨h1, h2, _⟩ := h o ho
        exact ⟨h1, h2, Or.inr hok⟩

/-- A history. -/
def encSteps : Enc → List EncEv → Enc
  | e, [] => e
  | e, x :: r => encSteps (encStep e x) r

theorem fits_steps : ∀ (evs : List EncEv) (e : Enc), Fits e → (∀ p l, .pic p l ∈ evs → 0 < p.w) → Fits (encSteps e evs) := by
  intro evs
  induction evs with
  | nil => intro e h _; exact h
  | cons x r ih =>
    intro e h hp
    exact ih _ (fits_step e x h (fun p l hx => hp p l (by simp [hx]))) (fun p l hm => hp p l (by simp [hm]))

/-- **C57**: after any history of pictures, configurations and failures of the library, a picture is only
ever encoded by an encoder opened for exactly its size and pixel format. -/
theorem encoder_fits (evs : List EncEv) (xw xh : Nat) (p : Pic) (l : Lib) (hp : ∀ q m, .pic q m ∈ evs → 0 < q.w) (hw : 0 < p.w)
    (o : Pic) (h : encodes (encSteps (Enc.init xw xh) evs) p l = some o) : o = p := by
  have hf : Fits (encSteps (Enc.init xw xh) evs) := fits_steps evs _ (fun o ho => by cases ho) hp
  obtain ⟨e, he⟩ : ∃ e, encSteps (Enc.init xw xh) evs = e := ⟨_, rfl⟩
  rw [he] at hf h
  unfold encodes at h
  split at h
  · rename_i hc
    simp only [Bool.and_eq_true] at hc
    have hf' : Fits (reconfigure e p l).1 := fits_step e (.pic p l) hf (fun q m hq => by injection hq with h1 _; rw [← h1]; exact hw)
    obtain ⟨h1, h2, h3⟩ := hf' o h
    have h3 : o.fmt = (reconfigure e p l).1.fmt := h3.resolve_right (by rw [hc.2]; decide)
    -- size and format stored are the picture's
    have hst : (reconfigure e p l).1.xw = p.w ∧ (reconfigure e p l).1.xh = p.h ∧ (reconfigure e p l).1.fmt = p.fmt := by
      have hc2 := hc.2
      unfold reconfigure at hc2 ⊢
      by_cases hq : e.needsConfig = false ∧ p.w = e.xw ∧ p.h = e.xh ∧ p.fmt = e.fmt
      · rw [if_pos hq]; exact ⟨hq.2.1.symm, hq.2.2.1.symm, hq.2.2.2.symm⟩
      · rw [if_neg hq] at hc2 ⊢
        simp only [] at hc2 ⊢
        cases hok : p.fmt.ok with
        | true =>
          rw [if_pos rfl, reopen_eq _ _ _ hw]
          cases l.openOk <;> exact ⟨rfl, rfl, rfl⟩
        | false =>
          rw [hok, if_neg (by decide)] at hc2
          have hc2 : p.fmt.ok = true := hc2
          rw [hok] at hc2; cases hc2
    obtain ⟨s1, s2, s3⟩ := hst
    cases o; cases p
    simp only [Pic.mk.injEq]
    simp only [] at h1 h2 h3 s1 s2 s3
    exact ⟨h1.trans s1, h2.trans s2, h3.trans s3⟩
  · cases h

/-- A picture that can be taken is encoded when the library opens its encoder. -/
theorem encoder_opens (e : Enc) (p : Pic) (l : Lib) (hw : 0 < p.w) (hok : p.fmt.ok = true) (ho : l.openOk = true) (hh : l.headersOk = true)
    (hn : ¬ (e.needsConfig = false ∧ p.w = e.xw ∧ p.h = e.xh ∧ p.fmt = e.fmt)) : encodes e p l = some p := by
  have hr : reconfigure e p l = (⟨some p, p.w, p.h, p.fmt, false⟩, true) := by
    unfold reconfigure
    rw [if_neg hn]
    simp only []
    rw [if_pos hok, reopen_eq _ _ _ hw, ho, if_pos rfl]
    simp [hh]
  unfold encodes
  rw [hr]
  simp [hok]

example : encodes (encSteps (Enc.init 0 0) [.pic ⟨640, 480, .y420⟩ ⟨true, true, true⟩, .pic ⟨640, 480, .other 9⟩ ⟨true, true, true⟩])
    ⟨640, 480, .y420⟩ ⟨true, true, true⟩ = some ⟨640, 480, .y420⟩ := by decide

/-- **A failed opening sticks**: when the library fails to open an encoder for a new size, every later
picture of that size and format is dropped without another attempt, until something changes. -/
theorem open_failure_sticks (p : Pic) (e : Enc) (h : e.needsConfig = false ∧ e.xw = p.w ∧ e.xh = p.h ∧ e.fmt = p.fmt ∧ e.opened = none) :
    ∀ ls : List Lib, ∀ l, encodes (encSteps e (ls.map (.pic p))) p l = none := by
  obtain ⟨h1, h2, h3, h4, h5⟩ := h
  have hr : ∀ l, reconfigure e p l = (e, true) := fun l => by
    unfold reconfigure; rw [if_pos ⟨h1, h2.symm, h3.symm, h4.symm⟩]
  have hs : ∀ ls : List Lib, encSteps e (ls.map (.pic p)) = e := by
    intro ls
    induction ls with
    | nil => rfl
    | cons l ls ih =>
      show encSteps (reconfigure e p l).1 (ls.map (.pic p)) = e
      rw [hr l]; exact ih
  intro ls l
  rw [hs ls]
  unfold encodes
  rw [hr l]
  cases e.fmt.ok <;> simp [h5]

/-- So it happens: one picture of 640x480, then one of 320x240 for which opening fails once. -/
theorem open_failure_reached : encSteps (Enc.init 0 0) [.pic ⟨640, 480, .y420⟩ ⟨true, true, true⟩, .pic ⟨320, 240, .y420⟩ ⟨false, true, true⟩] =
    ⟨none, 320, 240, .y420, false⟩ := by decide

end Lms.Encoder
