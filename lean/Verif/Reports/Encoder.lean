import Verif.Encoder.Config
import Verif.Reports.Read

/-!
# C81: the video encoder reports the settings its events have set, and its report sets them
-/

namespace Lms.Reports

open Lms Lms.Json Lms.Control Lms.FilterEvents
open Lms.Encoder (u32 s32 isInt s32_u32)

theorem u32_lt (x : Int) : u32 x < 4294967296 := by unfold u32; omega
theorem s32_int (x : Nat) (h : x < 4294967296) : isInt (s32 x) := by unfold isInt s32; split <;> omega
theorem u32_s32 (x : Nat) (h : x < 4294967296) : u32 (s32 x) = x := by unfold u32 s32; split <;> omega

theorem map_u32_lt {o : Option Int} {d : Nat} (hd : d < 4294967296) : (o.map u32).getD d < 4294967296 := by
  cases o with
  | none => exact hd
  | some x => exact u32_lt x

/-- What holds of the settings at any time. -/
structure Enc.Ok (s : Enc) : Prop where
  bitrate : 0 < s.cfg.bitrate ∧ s.cfg.bitrate < 4294967296
  fps : 0 < s.cfg.fps ∧ s.cfg.fps < 4294967296
  gop : 0 < s.cfg.gop ∧ s.cfg.gop < 4294967296
  threads : 0 < s.cfg.threads ∧ s.cfg.threads < 4294967296
  lookahead : s.cfg.lookahead < 4294967296
  gopTime : (s.cfg.gopTime = 0 ∨ 1000000 ≤ s.cfg.gopTime) ∧ s.cfg.gopTime < 4294967296
  bFrames : isInt s.cfg.bFrames
  preset : s.cfg.preset ≠ ""

theorem Enc.ok_init : Enc.init.Ok := by
  constructor
  case bFrames => unfold isInt; decide +kernel
  all_goals decide +kernel

/-- The frame rate that is set: see `shown`. -/
def fpsSet (f : Nat) : Nat := if f = 0 then 25 else f
/-- The GOP time that is set: see `shown`. -/
def gopTimeSet (t : Nat) : Nat := if t = 0 then 0 else if t < 1000000 then 1000000 else t

/-- The settings after an accepted configuration. -/
theorem configure0_accepted (c c' : Encoder.Cfg) (b f g l : Nat) (bf : Int) (t : Nat) (a : Bool) (p : String) (gt : Nat)
    (h : Encoder.configure0 c b f g l bf t a p gt = (c', true)) : 0 < b ∧ 0 < g ∧ 0 < t ∧ p ≠ "" ∧
    c' = { bitrate := b, gop := g, lookahead := l, threads := t, bFrames := bf, annexB := a, preset := p
           fps := fpsSet f, frameTime := if f = 0 then 0 else 1000000 / f
           gopTime := gopTimeSet gt, needsConfig := true } := by
  unfold Encoder.configure0 at h
  by_cases hr : b ≤ 0 ∨ g ≤ 0 ∨ t ≤ 0 ∨ p = ""
  · rw [if_pos hr] at h; simp at h
  · rw [if_neg hr] at h
    simp only [not_or, Nat.not_le] at hr
    refine ⟨hr.1, hr.2.1, hr.2.2.1, hr.2.2.2, ?_⟩
    simp only [Prod.mk.injEq, and_true] at h
    rw [← h]
    simp only [Encoder.VIDEO_DEFAULT_FRAMERATE, Encoder.MIN_GOP_TIME]
    unfold fpsSet gopTimeSet
    congr 1
    · by_cases hf : f = 0
      · simp [hf]
      · rw [if_neg (by omega), if_neg hf]
    · by_cases hg : gt = 0
      · simp [hg]
      · rw [if_pos (by omega), if_neg hg]
    · by_cases hf : f = 0
      · simp [hf]
      · rw [if_neg (by omega), if_neg hf]

theorem configure0_refused (c c' : Encoder.Cfg) (b f g l : Nat) (bf : Int) (t : Nat) (a : Bool) (p : String) (gt : Nat)
    (h : Encoder.configure0 c b f g l bf t a p gt = (c', false)) : c' = c := by
  unfold Encoder.configure0 at h
  split at h
  · simp at h; exact h.symm
  · simp at h

theorem Enc.ok_config (s : Enc) (p : Encoder.Params) (h : s.Ok) : Enc.Ok { s with cfg := (Encoder.configEvent s.cfg p).1 } := by
  rcases hc : Encoder.configEvent s.cfg p with ⟨c', _ | _⟩
  · unfold Encoder.configEvent at hc
    rw [configure0_refused _ _ _ _ _ _ _ _ _ _ _ hc]; exact h
  · unfold Encoder.configEvent at hc
    obtain ⟨h1, h2, h3, h4, h5⟩ := configure0_accepted _ _ _ _ _ _ _ _ _ _ _ hc
    have kf := map_u32_lt (o := p.fps) h.fps.2
    have kg := map_u32_lt (o := p.gopTime) h.gopTime.2
    subst h5
    refine ⟨⟨h1, map_u32_lt h.bitrate.2⟩, ⟨?_, ?_⟩, ⟨h2, map_u32_lt h.gop.2⟩, ⟨h3, map_u32_lt h.threads.2⟩, map_u32_lt h.lookahead,
      ⟨?_, ?_⟩, s32_int _ (map_u32_lt (u32_lt _)), h4⟩
    · show 0 < fpsSet _
      unfold fpsSet; split <;> omega
    · show fpsSet _ < _
      unfold fpsSet; split <;> omega
    · show gopTimeSet _ = 0 ∨ _ ≤ gopTimeSet _
      unfold gopTimeSet
      split
      · exact Or.inl rfl
      · split <;> omega
    · show gopTimeSet _ < _
      unfold gopTimeSet
      split
      · omega
      · split <;> omega

theorem Enc.event_cases (s s' : Enc) (e : Node) (ok : Bool) (h : s.event e = .ok (s', ok)) :
    s' = s ∨ (∃ p, s' = { s with cfg := (Encoder.configEvent s.cfg p).1 }) ∨ ∃ r, s' = { s with ref := r } := by
  unfold Enc.event at h
  cases ht : taken .videoEncoder e with
  | ok t =>
    rw [ht] at h
    cases t with
    | called a args =>
      simp only [R.bind] at h
      split at h
      · simp only [R.ok.injEq, Prod.mk.injEq] at h
        exact Or.inr (Or.inl ⟨_, h.1.symm⟩)
      · split at h
        · simp only [R.ok.injEq, Prod.mk.injEq] at h
          exact Or.inr (Or.inr ⟨_, h.1.symm⟩)
        · simp only [R.ok.injEq, Prod.mk.injEq] at h
          exact Or.inl h.1.symm
    | unknown => simp only [R.bind, R.ok.injEq, Prod.mk.injEq] at h; exact Or.inl h.1.symm
    | refused => simp only [R.bind, R.ok.injEq, Prod.mk.injEq] at h; exact Or.inl h.1.symm
  | dies => rw [ht] at h; simp [R.bind] at h
  | ub => rw [ht] at h; simp [R.bind] at h

/-- Whatever events the encoder is sent, its settings stay such that its report can be sent back. -/
theorem Enc.ok_events (es : List Node) : ∀ (s s' : Enc) (ok : Bool), s.Ok → events Enc.event s es = .ok (s', ok) → s'.Ok := by
  induction es with
  | nil =>
    intro s s' ok h he
    simp only [events, R.ok.injEq, Prod.mk.injEq] at he
    rw [← he.1]; exact h
  | cons e es ih =>
    intro s s' ok h he
    unfold events at he
    cases h1 : s.event e with
    | ok r =>
      rw [h1] at he
      obtain ⟨s1, b1⟩ := r
      simp only [R.bind] at he
      have hs1 : s1.Ok := by
        rcases s.event_cases s1 e b1 h1 with rfl | ⟨p, rfl⟩ | ⟨r, rfl⟩
        · exact h
        · exact s.ok_config p h
        · exact ⟨h.bitrate, h.fps, h.gop, h.threads, h.lookahead, h.gopTime, h.bFrames, h.preset⟩
      cases h2 : events Enc.event s1 es with
      | ok q =>
        rw [h2] at he
        obtain ⟨s2, b2⟩ := q
        simp only [R.bind, R.ok.injEq, Prod.mk.injEq] at he
        rw [← he.1]
        exact ih s1 s2 b2 hs1 h2
      | dies => rw [h2] at he; simp [R.bind] at he
      | ub => rw [h2] at he; simp [R.bind] at he
    | dies => rw [h1] at he; simp [R.bind] at he
    | ub => rw [h1] at he; simp [R.bind] at he

/-! ## What a report says -/

/-- A value as the report is to show it: a frame rate of zero is 25, a GOP time is at least a second. -/
def shown (name : String) : Val → Option Node
  | .int z => some (intNode (if name = "fps" ∧ z = 0 then 25 else if name = "gopTime" ∧ 0 < z ∧ z < 1000000 then 1000000 else z))
  | .bool b => some (boolNode b)
  | .text t => some (ofString t)
  | _ => none

/-- The parameters of the encoder's `configure`. -/
def encPars : List Par := ((forms .videoEncoder)[0]?.map fun x => x.2.pars).getD []

theorem s32_zero : s32 0 = 0 := rfl

/-- A setting that is a plain unsigned number. -/
theorem plain_shown (p : Par) (ht : p.ty = .int) (hn : p.name ≠ "fps" ∧ p.name ≠ "gopTime") (n : Node) (old : Nat) :
    some (intNode (s32 (((intArg (p.read n)).map u32).getD old))) =
      (match p.read n with | some v => shown p.name v | none => some (intNode (s32 old))) := by
  rcases int_read p ht n with h | ⟨z, hz, h⟩
  · rw [h]; rfl
  · rw [h]
    simp only [intArg, Option.map_some, Option.getD_some, shown, hn.1, hn.2, false_and, if_false]
    rw [s32_u32 z hz]

/-- **C81**: after an accepted `configure` the video encoder reports every setting the event names as asked for (a frame rate of zero as
25, a GOP time raised to a second) and every other one as before. -/
theorem encoder_told (s s' : Enc) (hs : s.Ok) (m l : List (Str × Node)) (ha : actionOf (.obj m) = some "configure".toList)
    (hp : member "params" (.obj m) = some (.obj l)) (h : s.event (.obj m) = .ok (s', true)) (p : Par) (hq : p ∈ encPars) :
    s'.report.lookup p.name = (match p.read (.obj l) with | some v => shown p.name v | none => s.report.lookup p.name) := by
  unfold Enc.event at h
  cases ht : taken .videoEncoder (.obj m) with
  | dies => rw [ht] at h; simp [R.bind] at h
  | ub => rw [ht] at h; simp [R.bind] at h
  | ok t =>
    rw [ht] at h
    cases t with
    | unknown => simp [R.bind] at h
    | refused => simp [R.bind] at h
    | called a args =>
      obtain ⟨rfl, hw⟩ := carried_out .videoEncoder "configure" 0 _ rfl m l ha hp a args ht
      simp only [Option.some.injEq] at hw
      simp only [R.bind, if_true, R.ok.injEq, Prod.mk.injEq] at h
      obtain ⟨h1, h2⟩ := h
      have hc : Encoder.configEvent s.cfg (encParams args) = (s'.cfg, true) := by
        rw [← h1, ← h2]
      unfold Encoder.configEvent at hc
      obtain ⟨_, _, _, _, h5⟩ := configure0_accepted _ _ _ _ _ _ _ _ _ _ _ hc
      rw [← hw] at h5
      simp only [List.map_cons, List.map_nil, encParams] at h5
      simp only [encPars, forms, List.getElem?_cons_zero, Option.map_some, Option.getD_some, List.mem_cons, List.not_mem_nil, or_false] at hq
      unfold Enc.report
      rw [h5]
      rcases hq with rfl | rfl | rfl | rfl | rfl | rfl | rfl | rfl | rfl
      · exact plain_shown _ rfl (by decide) _ _
      · show some (intNode (s32 (fpsSet _))) = _
        rcases int_read (mayBe "fps" .int) rfl (.obj l) with h | ⟨z, hz, h⟩
        · rw [h]
          simp only [intArg, Option.map_none, Option.getD_none]
          have := hs.fps.1
          unfold fpsSet
          rw [if_neg (by omega)]
          rfl
        · rw [h]
          simp only [intArg, Option.map_some, Option.getD_some, shown]
          have hz0 : u32 z = 0 ↔ z = 0 := by have := hz.1; have := hz.2; unfold u32; omega
          by_cases hzz : z = 0
          · subst hzz; rfl
          · rw [if_neg (fun hx : _ ∧ z = 0 => hzz hx.2), if_neg (fun hx => absurd hx.1 (by decide))]
            unfold fpsSet
            rw [if_neg (fun hx => hzz (hz0.1 hx)), s32_u32 z hz]
      · exact plain_shown _ rfl (by decide) _ _
      · exact plain_shown _ rfl (by decide) _ _
      · show some (intNode (s32 (((intArg _).map u32).getD (u32 s.cfg.bFrames)))) = _
        rw [plain_shown _ rfl (by decide), s32_u32 _ hs.bFrames]
        rfl
      · exact plain_shown _ rfl (by decide) _ _
      · show some (boolNode ((boolArg _).getD _)) = _
        rcases bool_read (mayBe "annexb" .bool) rfl (.obj l) with h | ⟨b, h⟩ <;> rw [h] <;> rfl
      · show some (ofString (((textArg _).map String.ofList).getD s.cfg.preset).toList) = _
        rcases text_read (may "preset" .text) rfl (.obj l) with h | ⟨b, h⟩
        · rw [h]; rfl
        · rw [h]
          simp only [textArg, Option.map_some, Option.getD_some, shown, String.toList_ofList]
      · show some (intNode (s32 (gopTimeSet _))) = _
        rcases int_read (mayBe "gopTime" .int) rfl (.obj l) with h | ⟨z, hz, h⟩
        · rw [h]
          simp only [intArg, Option.map_none, Option.getD_none]
          rcases hs.gopTime.1 with hg | hg
          · show _ = some (intNode (s32 s.cfg.gopTime))
            rw [hg]; rfl
          · unfold gopTimeSet
            rw [if_neg (by omega), if_neg (by omega)]; rfl
        · rw [h]
          simp only [intArg, Option.map_some, Option.getD_some, shown]
          have hz1 := hz.1
          have hz2 := hz.2
          rw [if_neg (fun hx => absurd hx.1 (by decide))]
          by_cases h0 : z = 0
          · subst h0; rfl
          · have hu : u32 z ≠ 0 := by unfold u32; omega
            by_cases h1 : 0 < z ∧ z < 1000000
            · have hv : u32 z < 1000000 := by unfold u32; omega
              rw [if_pos ⟨rfl, h1⟩]
              unfold gopTimeSet
              rw [if_neg hu, if_pos hv]; rfl
            · have hv : ¬ u32 z < 1000000 := by unfold u32; omega
              rw [if_neg (fun hx : _ ∧ 0 < z ∧ z < 1000000 => h1 hx.2)]
              unfold gopTimeSet
              rw [if_neg hu, if_neg hv, s32_u32 z hz]

/-- The reference time and, after a refused event, everything is reported as before. -/
theorem encoder_refused_unchanged (s s' : Enc) (e : Node) (h : s.event e = .ok (s', false)) : s' = s := by
  unfold Enc.event at h
  cases ht : taken .videoEncoder e with
  | ok t =>
    rw [ht] at h
    cases t with
    | called a args =>
      simp only [R.bind] at h
      split at h
      · simp only [R.ok.injEq, Prod.mk.injEq] at h
        have hc : Encoder.configEvent s.cfg (encParams args) = (s'.cfg, false) := by rw [← h.1, ← h.2]
        unfold Encoder.configEvent at hc
        have := configure0_refused _ _ _ _ _ _ _ _ _ _ _ hc
        rw [← h.1] at this ⊢
        exact congrArg (fun c => { s with cfg := c }) this
      · split at h <;> simp at h
    | unknown => simp only [R.bind, R.ok.injEq, Prod.mk.injEq] at h; exact h.1.symm
    | refused => simp only [R.bind, R.ok.injEq, Prod.mk.injEq] at h; exact h.1.symm
  | dies => rw [ht] at h; simp [R.bind] at h
  | ub => rw [ht] at h; simp [R.bind] at h

/-! ## The report sent back -/

local macro "given" : tactic =>
  `(tactic| simp [must, may, mustBe, mayBe, List.lookup, entry, Enc.report, int_value, text_value, bool_value, flt_value, int_proper,
    text_proper, bool_proper, flt_proper, *])

/-- **C81**: the entry of one encoder in the state report, sent as parameters of `configure` to another one, is accepted and makes the
other one report the same, but for the reference time. -/
theorem encoder_restored (s t : Enc) (hs : s.Ok) (hb : '\\' ∉ s.cfg.preset.toList) (type role : String) :
    ∃ t', t.event (apiEvent "configure" (entry type role s.report)) = .ok (t', true) ∧ t'.ref = t.ref ∧
      Enc.report { t' with ref := s.ref } = s.report := by
  have f1 := s32_int _ hs.bitrate.2
  have f2 := s32_int _ hs.fps.2
  have f3 := s32_int _ hs.gop.2
  have f4 := s32_int _ hs.threads.2
  have f5 := s32_int _ hs.lookahead
  have f6 := s32_int _ hs.gopTime.2
  have f7 := hs.bFrames
  have hc : taken .videoEncoder (apiEvent "configure" (entry type role s.report)) = .ok (.called "configure".toList
      [some (.int (s32 s.cfg.bitrate)), some (.int (s32 s.cfg.fps)), some (.int (s32 s.cfg.gop)), some (.int (s32 s.cfg.lookahead)),
       some (.int s.cfg.bFrames), some (.int (s32 s.cfg.threads)), some (.bool s.cfg.annexB), some (.text s.cfg.preset.toList),
       some (.int (s32 s.cfg.gopTime))]) := by
    simp only [isInt] at f1 f2 f3 f4 f5 f6 f7
    change Fits _ at f1 f2 f3 f4 f5 f6 f7
    refine sent .videoEncoder "configure" 0 _ rfl (by decide) _ _ ?_ ?_ rfl
    · given
    · given
  have hcfg : Encoder.configEvent t.cfg (encParams
      [some (.int (s32 s.cfg.bitrate)), some (.int (s32 s.cfg.fps)), some (.int (s32 s.cfg.gop)), some (.int (s32 s.cfg.lookahead)),
       some (.int s.cfg.bFrames), some (.int (s32 s.cfg.threads)), some (.bool s.cfg.annexB), some (.text s.cfg.preset.toList),
       some (.int (s32 s.cfg.gopTime))]) = ({ s.cfg with frameTime := 1000000 / s.cfg.fps, needsConfig := true }, true) := by
    simp only [Encoder.configEvent, encParams, intArg, boolArg, textArg, Option.map_some, Option.getD_some, String.ofList_toList]
    rw [u32_s32 _ hs.bitrate.2, u32_s32 _ hs.fps.2, u32_s32 _ hs.gop.2, u32_s32 _ hs.threads.2, u32_s32 _ hs.lookahead,
      u32_s32 _ hs.gopTime.2, s32_u32 _ hs.bFrames]
    unfold Encoder.configure0
    have e1 := hs.bitrate.1
    have e2 := hs.gop.1
    have e3 := hs.threads.1
    have e4 := hs.fps.1
    rw [if_neg (by rintro (h | h | h | h) <;> first | omega | exact hs.preset h)]
    have : (if s.cfg.gopTime > 0 then if s.cfg.gopTime < Encoder.MIN_GOP_TIME then Encoder.MIN_GOP_TIME else s.cfg.gopTime else 0) =
        s.cfg.gopTime := by
      have := hs.gopTime.1
      simp only [Encoder.MIN_GOP_TIME]
      split
      · split <;> omega
      · omega
    rw [this, if_neg (by omega), if_neg (by omega)]
  refine ⟨{ t with cfg := { s.cfg with frameTime := 1000000 / s.cfg.fps, needsConfig := true } }, ?_, rfl, rfl⟩
  unfold Enc.event
  rw [hc]
  simp only [R.bind, if_true, hcfg]

/-- **C81**: the reported reference time, sent as `referenceTime` of `gopReferenceTime`, is taken over as well. -/
theorem encoder_reference_restored (s t : Enc) (hr : -9223372036854775808 ≤ s.ref ∧ s.ref < 9223372036854775808) (n : Node)
    (hn : s.report.lookup "refTime" = some n) :
    t.event (apiEvent "gopReferenceTime" [("referenceTime", n)]) = .ok ({ t with ref := s.ref }, true) := by
  have hn' : n = .val .str (showInt s.ref) := by
    have hpl : '\\' ∉ showInt s.ref := by
      unfold showInt
      split
      · intro h
        rcases List.mem_cons.1 h with h | h
        · exact absurd h (by decide)
        · exact dec_no_backslash _ h
      · exact dec_no_backslash _
    have : s.report.lookup "refTime" = some (ofString (showInt s.ref)) := rfl
    rw [this, ofString_plain _ hpl] at hn
    exact (Option.some.inj hn).symm
  have ht : taken .videoEncoder (apiEvent "gopReferenceTime" [("referenceTime", n)]) =
      .ok (.called "gopReferenceTime".toList [some (.int s.ref)]) := by
    refine reference_round_trip _ _ [("referenceTime".toList, n)] s.ref hr (api_action _ (by decide) _) (api_params _ _) ?_
    refine (member_object [("referenceTime", n)] "referenceTime").trans ?_
    rw [hn']; rfl
  unfold Enc.event
  rw [ht]
  simp only [R.bind]
  rw [if_neg (by decide), if_pos trivial]
  rfl

/-! ## Cases and recorded exceptions -/

/-- A new encoder told to use 30 frames per second, three B frames and a GOP time of half a second. -/
def demoEvent : Node := apiEvent "configure" [("fps", intNode 30), ("bframes", intNode 3), ("gopTime", intNode 500000)]

example : Enc.init.event demoEvent =
    .ok (⟨{ Enc.init.cfg with fps := 30, bFrames := 3, gopTime := 1000000, frameTime := 33333 }, 0⟩, true) := by decide +kernel

example : ('\\' ∉ Enc.init.cfg.preset.toList) ∧ Enc.init.Ok := ⟨by decide, Enc.ok_init⟩

/-- An encoder told to run untimed (a frame rate of zero) reports 25 frames per second like one that runs at 25; its report makes
another one run at 25. -/
theorem untimed_reported_as_25 : ∃ s : Enc, Enc.init.event (apiEvent "configure" [("fps", intNode 0)]) = .ok (s, true) ∧
    s.report = Enc.init.report ∧ s.cfg.frameTime = 0 ∧ Enc.init.cfg.frameTime = 40000 ∧
    ∃ t, s.event (apiEvent "configure" s.report) = .ok (t, true) ∧ t.cfg.frameTime = 40000 :=
  ⟨{ Enc.init with cfg := { Enc.init.cfg with frameTime := 0 } }, by decide +kernel, rfl, rfl, rfl,
    Enc.init, by decide +kernel, rfl⟩

/-- A bit rate of two to the 31st, which only a negative number can ask for, is reported as that negative number. -/
theorem negative_reported : ∃ s : Enc, Enc.init.event (apiEvent "configure" [("bitrate", intNode (-2147483648))]) = .ok (s, true) ∧
    s.cfg.bitrate = 2147483648 ∧ s.report.lookup "bitrate" = some (intNode (-2147483648)) :=
  ⟨{ Enc.init with cfg := { Enc.init.cfg with bitrate := 2147483648 } }, by decide +kernel, rfl, rfl⟩

/-- What a new encoder reports. -/
theorem new_encoder_report : Enc.init.report =
    [("bitrate", intNode 2000), ("fps", intNode 25), ("gop", intNode 25), ("gopTime", intNode 0), ("refTime", ofString (showInt 0)),
     ("lookahead", intNode 25), ("threads", intNode 4), ("annexb", boolNode true), ("bframes", intNode 4),
     ("preset", ofString "ultrafast".toList)] := by rfl

end Lms.Reports
