import Verif.Reports.Encoder

/-!
# C81: the audio decoder and the audio encoder
-/

namespace Lms.Reports

open Lms Lms.Json Lms.Control Lms.FilterEvents
open Lms.Encoder (u32 s32 isInt s32_u32)

theorem codec_text (c : FrameAlloc.AC) : codecOf (codecText c) = c ∧ '\\' ∉ codecText c := by cases c <;> decide +kernel
theorem fmt_text (f : FrameAlloc.SF) : fmtOf (fmtText f) = f ∧ '\\' ∉ fmtText f := by cases f <;> decide +kernel

/-- A value as the audio filters are to report it: a codec or sample format by its name, an unknown one by the empty name. -/
def audioShown (name : String) : Val → Option Node
  | .int z => some (intNode z)
  | .text t => some (ofString (if name = "codec" then codecText (codecOf t) else fmtText (fmtOf t)))
  | _ => none

theorem audio_int (p : Par) (ht : p.ty = .int) (n : Node) (old : Nat) :
    some (intNode (s32 (((intArg (p.read n)).map u32).getD old))) =
      (match p.read n with | some v => audioShown p.name v | none => some (intNode (s32 old))) := by
  rcases int_read p ht n with h | ⟨z, hz, h⟩
  · rw [h]; rfl
  · rw [h]
    simp only [intArg, Option.map_some, Option.getD_some, audioShown]
    rw [s32_u32 z hz]

local macro "given" : tactic =>
  `(tactic| simp [must, may, mustBe, mayBe, List.lookup, entry, decReport, aencReport, int_value, text_value, bool_value, flt_value,
    int_proper, text_proper, bool_proper, flt_proper, *])

/-! ## Decoder -/

theorem outputConfig_keeps (s : AudioDec.State) (a : AudioDec.SwrAns) : (s.outputConfig a).1.out = s.out ∧ (s.outputConfig a).1.key = s.key := by
  unfold AudioDec.State.outputConfig AudioDec.State.inputConfig
  split
  · exact ⟨rfl, rfl⟩
  · split
    · exact ⟨rfl, rfl⟩
    · split
      · exact ⟨rfl, rfl⟩
      · simp only []
        split <;> exact ⟨rfl, rfl⟩

theorem dec_codec (s : AudioDec.State) : (decReport s).lookup "codec" = some (ofString (codecText s.key.codec)) := by
  simp [decReport, List.lookup]

theorem dec_fmt (s : AudioDec.State) : (decReport s).lookup "sampleFormat" = some (ofString (fmtText s.out.fmt)) := by
  simp [decReport, List.lookup]

theorem dec_rate (s : AudioDec.State) : (decReport s).lookup "sampleRate" = some (intNode (s32 s.out.rate)) := by
  simp [decReport, List.lookup]

theorem dec_ch (s : AudioDec.State) : (decReport s).lookup "channels" = some (intNode (s32 s.out.ch)) := by
  simp [decReport, List.lookup]

theorem shown_fmt (t : Str) : audioShown "sampleFormat" (.text t) = some (ofString (fmtText (fmtOf t))) := by
  simp [audioShown]

theorem shown_codec (t : Str) : audioShown "codec" (.text t) = some (ofString (codecText (codecOf t))) := by
  simp [audioShown]

/-- The parameters of the decoder's `configure`. -/
def decPars : List Par := ((forms .audioDecoder)[0]?.map fun x => x.2.pars).getD []

/-- **C81**: after a `configure`, accepted by the library or not, the audio decoder reports every setting the event names as asked for and every
other one, and the codec, as before. -/
theorem decoder_told (s s' : AudioDec.State) (a : AudioDec.SwrAns) (ok : Bool) (m l : List (Str × Node))
    (ha : actionOf (.obj m) = some "configure".toList) (hp : member "params" (.obj m) = some (.obj l))
    (h : decEvent s a (.obj m) = .ok (s', ok)) :
    (decReport s').lookup "codec" = (decReport s).lookup "codec" ∧
    ∀ p ∈ decPars, (decReport s').lookup p.name =
      (match p.read (.obj l) with | some v => audioShown p.name v | none => (decReport s).lookup p.name) := by
  unfold decEvent at h
  have htab := event_by_table (fun _ => .ok none) .audioDecoder m "configure" _ (List.mem_of_getElem? (i := 0) rfl) ha
  cases ht : taken .audioDecoder (.obj m) with
  | dies => rw [ht] at h; simp [R.bind] at h
  | ub => rw [ht] at h; simp [R.bind] at h
  | ok t =>
    rw [ht] at h
    cases t with
    | unknown =>
      unfold taken at ht
      rw [ht] at htab
      generalize Form.read _ _ = v at htab
      cases v <;> simp [Verdict.taken] at htab
    | refused =>
      unfold taken at ht
      rw [ht, hp] at htab
      simp only [Form.read] at htab
      have hn : ([may "sampleRate" .int, may "channels" .int, may "sampleFormat" .text].any fun x => x.refuses (.obj l)) = false := by
        simp only [List.any_cons, List.any_nil, Bool.or_false, Bool.or_eq_false_iff]
        refine ⟨?_, ?_, ?_⟩ <;> (unfold Par.refuses; split <;> rfl)
      rw [hn] at htab
      simp only [Bool.false_eq_true, if_false] at htab
      split at htab <;> simp [Verdict.taken] at htab
    | called b args =>
      obtain ⟨rfl, hw⟩ := carried_out .audioDecoder "configure" 0 _ rfl m l ha hp b args ht
      simp only [Option.some.injEq] at hw
      simp only [R.bind, R.ok.injEq] at h
      unfold AudioDec.State.configEvent at h
      simp only [] at h
      have hk := outputConfig_keeps { s with out :=
        { fmt := (decParams args).fmt.getD s.out.fmt, ch := (decParams args).ch.getD s.out.ch, rate := (decParams args).rate.getD s.out.rate } } a
      rw [h] at hk
      simp only [] at hk
      obtain ⟨h1, h2⟩ := hk
      rw [← hw] at h1
      simp only [List.map_cons, List.map_nil, decParams] at h1
      refine ⟨?_, ?_⟩
      · rw [dec_codec, dec_codec, h2]
      · intro p hq
        simp only [decPars, forms, List.getElem?_cons_zero, Option.map_some, Option.getD_some, List.mem_cons, List.not_mem_nil, or_false] at hq
        rcases hq with rfl | rfl | rfl
        · refine (dec_rate s').trans ?_
          rw [h1]
          refine (audio_int (may "sampleRate" .int) rfl (.obj l) s.out.rate).trans ?_
          rw [← dec_rate s]; rfl
        · refine (dec_ch s').trans ?_
          rw [h1]
          refine (audio_int (may "channels" .int) rfl (.obj l) s.out.ch).trans ?_
          rw [← dec_ch s]; rfl
        · refine (dec_fmt s').trans ?_
          rw [h1]
          rcases text_read (may "sampleFormat" .text) rfl (.obj l) with h | ⟨b, h⟩
          · rw [h]; exact (dec_fmt s).symm
          · rw [h]; exact (shown_fmt b).symm

/-- **C81**: the entry of one audio decoder, sent as parameters of `configure` to another one, makes the other one report the same, but for
the codec, which comes from its input; it is accepted if the other one has had no input yet. -/
theorem decoder_restored (s t : AudioDec.State) (a : AudioDec.SwrAns) (hr : s.out.rate < 4294967296) (hc : s.out.ch < 4294967296)
    (type role : String) :
    ∃ t' ok, decEvent t a (apiEvent "configure" (entry type role (decReport s))) = .ok (t', ok) ∧ t'.out = s.out ∧ t'.key = t.key ∧
      (∀ n, n ≠ "codec" → (decReport t').lookup n = (decReport s).lookup n) ∧
      (decReport t').lookup "codec" = (decReport t).lookup "codec" ∧ (t.key.ch = 0 ∧ t.key.rate = 0 → ok = true) := by
  have hcl : taken .audioDecoder (apiEvent "configure" (entry type role (decReport s))) = .ok (.called "configure".toList
      [some (.int (s32 s.out.rate)), some (.int (s32 s.out.ch)), some (.text (fmtText s.out.fmt))]) := by
    have f1 : Fits _ := s32_int _ hr
    have f2 : Fits _ := s32_int _ hc
    have f3 := (fmt_text s.out.fmt).2
    refine sent .audioDecoder "configure" 0 _ rfl (by decide) _ _ ?_ ?_ rfl
    · given
    · given
  have hpar : decParams [some (.int (s32 s.out.rate)), some (.int (s32 s.out.ch)), some (.text (fmtText s.out.fmt))] =
      ⟨some s.out.fmt, some s.out.ch, some s.out.rate⟩ := by
    simp only [decParams, intArg, textArg, Option.map_some, (fmt_text s.out.fmt).1, u32_s32 _ hr, u32_s32 _ hc]
  refine ⟨(AudioDec.State.outputConfig { t with out := s.out } a).1, (AudioDec.State.outputConfig { t with out := s.out } a).2, ?_⟩
  obtain ⟨h1, h2⟩ := outputConfig_keeps { t with out := s.out } a
  simp only [] at h1 h2
  refine ⟨?_, h1, h2, ?_, ?_, ?_⟩
  · unfold decEvent
    rw [hcl]
    simp only [R.bind, hpar]
    rfl
  · intro n hn
    unfold decReport
    rw [h1]
    have : (n == "codec") = false := by simpa using hn
    simp only [List.lookup_cons, this]
  · rw [dec_codec, dec_codec, h2]
  · intro hk
    unfold AudioDec.State.outputConfig
    rw [if_pos hk]

/-- A decoder told to deliver mono, before it has an input and afterwards when the library fails: both report mono. -/
def monoEvent : Node := apiEvent "configure" [("channels", intNode 1), ("sampleFormat", ofString "s16p".toList)]

example : decEvent (AudioDec.State.init .opus) ⟨true, true⟩ monoEvent =
    .ok ({ AudioDec.State.init .opus with out := ⟨.s16p, 1, 48000⟩ }, true) := by decide +kernel

/-- A configuration the library does not carry out is reported as though it had been made. -/
theorem decoder_failure_reported : ∃ s s' : AudioDec.State, decEvent s ⟨false, true⟩ monoEvent = .ok (s', false) ∧
    (decReport s).lookup "channels" = some (intNode 2) ∧ (decReport s').lookup "channels" = some (intNode 1) :=
  ⟨{ AudioDec.State.init .opus with key := ⟨.opus, 2, 48000⟩ },
   { AudioDec.State.init .opus with key := ⟨.opus, 2, 48000⟩, out := ⟨.s16p, 1, 48000⟩ }, by decide +kernel, dec_ch _, dec_ch _⟩

/-! ## Encoder -/

theorem frameSetup_keeps (s s' : AudioEnc.State) (a : AudioEnc.Ans) (ok : Bool) (h : s.frameSetup a = .ok (s', ok)) : s'.info = s.info := by
  unfold AudioEnc.State.frameSetup at h
  generalize (if a.frameSize ≠ 0 then Outcome.ok a.frameSize else FrameAlloc.defaultSamples s.inp.rate) = x at h
  cases x with
  | ok n =>
    rw [Outcome.bind_ok] at h
    simp only [] at h
    split at h
    · simp only [Outcome.ok.injEq, Prod.mk.injEq] at h; rw [← h.1]
    · simp only [Outcome.ok.injEq, Prod.mk.injEq] at h; rw [← h.1]
  | ub => simp at h
  | hang => simp at h

theorem codingConfig_keeps (s s' : AudioEnc.State) (k : Bool) (a : AudioEnc.Ans) (ok : Bool) (h : s.codingConfig k a = .ok (s', ok)) :
    s'.info = s.info := by
  unfold AudioEnc.State.codingConfig at h
  split at h
  · simp only [Outcome.ok.injEq, Prod.mk.injEq] at h; rw [← h.1]
  · split at h
    · simp only [Outcome.ok.injEq, Prod.mk.injEq] at h; rw [← h.1]
    · simp only [] at h
      split at h
      · simp only [Outcome.ok.injEq, Prod.mk.injEq] at h; rw [← h.1]
      · split at h
        · simp only [Outcome.ok.injEq, Prod.mk.injEq] at h; rw [← h.1]
        · exact (frameSetup_keeps _ _ _ _ h).trans rfl

theorem choose_keeps (s : AudioEnc.State) (c : FrameAlloc.AC) : (s.choose c).1.info.codec = s.info.codec ∧
    (s.choose c).1.info.rate = s.info.rate ∧ (s.choose c).1.info.channels = s.info.channels := by
  cases c <;> exact ⟨rfl, rfl, rfl⟩

theorem defaults_codec (i : FrameAlloc.AInfo) : i.defaults.codec = i.codec := by
  unfold FrameAlloc.AInfo.defaults
  split <;> rfl

theorem configure0_sets (s s' : AudioEnc.State) (c : FrameAlloc.AC) (ch rate : Nat) (b : Int) (a : AudioEnc.Ans) (ok : Bool)
    (hn : s.info.codec = .none) (h : s.configure0 c ch rate b a = .ok (s', ok)) :
    s'.info.codec = c ∧ s'.info.rate = rate ∧ s'.info.channels = ch := by
  unfold AudioEnc.State.configure0 at h
  rw [if_neg (by simp [hn])] at h
  simp only [] at h
  rw [codingConfig_keeps _ _ _ _ _ h]
  obtain ⟨h1, h2, h3⟩ := choose_keeps { s with
    info := { FrameAlloc.AInfo.defaults { s.info with codec := c } with channels := ch, rate := rate }, bitrate := b } c
  exact ⟨h1.trans (defaults_codec { s.info with codec := c }), h2, h3⟩

theorem aenc_codec (s : AudioEnc.State) : (aencReport s).lookup "codec" = some (ofString (codecText s.info.codec)) := by
  simp [aencReport, List.lookup]

theorem aenc_rate (s : AudioEnc.State) : (aencReport s).lookup "sampleRate" = some (intNode (s32 s.info.rate)) := by
  simp [aencReport, List.lookup]

theorem aenc_ch (s : AudioEnc.State) : (aencReport s).lookup "channels" = some (intNode (s32 s.info.channels)) := by
  simp [aencReport, List.lookup]

/-- The reported parameters of the encoder's `configure`. -/
def aencPars : List Par := [may "codec" .text, may "sampleRate" .int, may "channels" .int]

/-- **C81**: after its first `configure`, accepted by the library or not, the audio encoder reports every setting the event names as asked
for and every other one as before; any further one changes nothing. -/
theorem audio_encoder_told (s s' : AudioEnc.State) (a : AudioEnc.Ans) (ok : Bool) (m l : List (Str × Node))
    (ha : actionOf (.obj m) = some "configure".toList) (hp : member "params" (.obj m) = some (.obj l))
    (h : aencEvent s a (.obj m) = .ok (s', ok)) :
    (s.info.codec ≠ .none → s' = s ∧ ok = false) ∧
    (s.info.codec = .none → ∀ p ∈ aencPars, (aencReport s').lookup p.name =
      (match p.read (.obj l) with | some v => audioShown p.name v | none => (aencReport s).lookup p.name)) := by
  unfold aencEvent at h
  have htab := event_by_table (fun _ => .ok none) .audioEncoder m "configure" _ (List.mem_of_getElem? (i := 0) rfl) ha
  cases ht : taken .audioEncoder (.obj m) with
  | dies => rw [ht] at h; simp [R.bind] at h
  | ub => rw [ht] at h; simp [R.bind] at h
  | ok t =>
    rw [ht] at h
    cases t with
    | unknown =>
      unfold taken at ht
      rw [ht] at htab
      generalize Form.read _ _ = v at htab
      cases v <;> simp [Verdict.taken] at htab
    | refused =>
      unfold taken at ht
      rw [ht, hp] at htab
      simp only [Form.read] at htab
      have hn : ([may "codec" .text, may "sampleRate" .int, may "channels" .int, may "bitrate" .int].any fun x => x.refuses (.obj l)) =
          false := by
        simp only [List.any_cons, List.any_nil, Bool.or_false, Bool.or_eq_false_iff]
        refine ⟨?_, ?_, ?_, ?_⟩ <;> (unfold Par.refuses; split <;> rfl)
      rw [hn] at htab
      simp only [Bool.false_eq_true, if_false] at htab
      split at htab <;> simp [Verdict.taken] at htab
    | called b args =>
      obtain ⟨rfl, hw⟩ := carried_out .audioEncoder "configure" 0 _ rfl m l ha hp b args ht
      simp only [Option.some.injEq] at hw
      simp only [R.bind, AudioEnc.State.configEvent] at h
      have h' : s.configure0 ((aencParams args).codec.getD s.info.codec) ((aencParams args).ch.getD s.info.channels)
          ((aencParams args).rate.getD s.info.rate) ((aencParams args).bitrate.getD s.bitrate) a = .ok (s', ok) := by
        generalize AudioEnc.State.configure0 _ _ _ _ _ _ = x at h ⊢
        cases x <;> simp [fromOutcome] at h ⊢
        exact h
      refine ⟨fun hn => ?_, fun hn p hq => ?_⟩
      · unfold AudioEnc.State.configure0 at h'
        rw [if_pos hn] at h'
        simp only [Outcome.ok.injEq, Prod.mk.injEq] at h'
        exact ⟨h'.1.symm, h'.2.symm⟩
      · obtain ⟨h1, h2, h3⟩ := configure0_sets _ _ _ _ _ _ _ _ hn h'
        rw [← hw] at h1 h2 h3
        simp only [List.map_cons, List.map_nil, aencParams] at h1 h2 h3
        simp only [aencPars, List.mem_cons, List.not_mem_nil, or_false] at hq
        rcases hq with rfl | rfl | rfl
        · refine (aenc_codec s').trans ?_
          rw [h1]
          rcases text_read (may "codec" .text) rfl (.obj l) with h | ⟨b, h⟩
          · rw [h]; exact (aenc_codec s).symm
          · rw [h]; exact (shown_codec b).symm
        · refine (aenc_rate s').trans ?_
          rw [h2]
          refine (audio_int (may "sampleRate" .int) rfl (.obj l) s.info.rate).trans ?_
          rw [← aenc_rate s]; rfl
        · refine (aenc_ch s').trans ?_
          rw [h3]
          refine (audio_int (may "channels" .int) rfl (.obj l) s.info.channels).trans ?_
          rw [← aenc_ch s]; rfl

/-- **C81**: the entry of one audio encoder, sent as parameters of `configure` to one not configured yet, makes the other one report the
same. -/
theorem audio_encoder_restored (s t t' : AudioEnc.State) (a : AudioEnc.Ans) (ok : Bool) (hr : s.info.rate < 4294967296)
    (hc : s.info.channels < 4294967296) (hn : t.info.codec = .none) (type role : String)
    (h : aencEvent t a (apiEvent "configure" (entry type role (aencReport s))) = .ok (t', ok)) : aencReport t' = aencReport s := by
  have hcl : taken .audioEncoder (apiEvent "configure" (entry type role (aencReport s))) = .ok (.called "configure".toList
      [some (.text (codecText s.info.codec)), some (.int (s32 s.info.rate)), some (.int (s32 s.info.channels)), none]) := by
    have f1 : Fits _ := s32_int _ hr
    have f2 : Fits _ := s32_int _ hc
    have f3 := (codec_text s.info.codec).2
    refine sent .audioEncoder "configure" 0 _ rfl (by decide) _ _ ?_ ?_ rfl
    · given
    · given
  have hpar : aencParams [some (.text (codecText s.info.codec)), some (.int (s32 s.info.rate)), some (.int (s32 s.info.channels)), none] =
      ⟨some s.info.codec, some s.info.channels, some s.info.rate, none⟩ := by
    simp only [aencParams, intArg, textArg, Option.map_some, (codec_text s.info.codec).1, u32_s32 _ hr, u32_s32 _ hc]
  unfold aencEvent at h
  rw [hcl] at h
  simp only [R.bind, hpar, AudioEnc.State.configEvent, Option.getD_some, Option.getD_none] at h
  have h' : t.configure0 s.info.codec s.info.channels s.info.rate t.bitrate a = .ok (t', ok) := by
    generalize AudioEnc.State.configure0 _ _ _ _ _ _ = x at h ⊢
    cases x <;> simp [fromOutcome] at h ⊢
    exact h
  obtain ⟨h1, h2, h3⟩ := configure0_sets _ _ _ _ _ _ _ _ hn h'
  unfold aencReport
  rw [h1, h2, h3]

/-- The library agrees to everything, with 1024 samples per frame. -/
def goodAns : AudioEnc.Ans := ⟨true, true, true, true, true, true, 1024, true⟩

/-- A new encoder told to code AAC. -/
def aacEvent : Node :=
  apiEvent "configure" [("codec", ofString "aac".toList), ("sampleRate", intNode 48000), ("channels", intNode 2), ("bitrate", intNode 128000)]

/-- What it is then. -/
def aacState (ok : Bool) : AudioEnc.State :=
  { AudioEnc.State.init with info := ⟨.aac, 48000, 2, .s16⟩, bitrate := 128000, internal := .s16, ctx := if ok then .opened else .null
                             nb := if ok then 1024 else 0, spf := if ok then 1024 else 0, buf := if ok then some (.s16, 2, 1024) else none }

example : aencEvent .init goodAns aacEvent = .ok (aacState true, true) := by decide +kernel
example : (aencReport (aacState true)).lookup "codec" = some (ofString "aac".toList) := aenc_codec _

/-- The bit rate is not reported: encoders that differ in it report the same. -/
theorem bitrate_not_reported (s : AudioEnc.State) (b : Int) : aencReport { s with bitrate := b } = aencReport s := rfl

/-- A configuration the library refuses (no such encoder) is reported as though it had been made, and no other is taken afterwards. -/
theorem refused_encoder_reported : ∃ s, aencEvent .init { goodAns with found := false } aacEvent = .ok (s, false) ∧
    (aencReport s).lookup "codec" = some (ofString "aac".toList) ∧ aencEvent s goodAns aacEvent = .ok (s, false) :=
  ⟨aacState false, by decide +kernel, aenc_codec _, by decide +kernel⟩

end Lms.Reports
