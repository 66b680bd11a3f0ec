import Verif.Offer.Spec
import Verif.Sdp.Props
import Verif.Adts.Props

namespace Lms.Offer
open Lms.Names Lms.Sdp

/-- Over RTSP a stream is announced as over plain RTP, but for the number of one without a number of its own. -/
theorem rtsp_as_plain (dyn : Nat) (s : Stream) :
    rtspSink dyn s = (plainSink s).map fun k => if k.pt < 96 then k else { k with pt := dyn } := by
  cases s with
  | video c => rcases c with _ | c <;> first | rfl | (cases c <;> rfl)
  | audio c ch r f =>
    simp only [rtspSink, plainSink, Option.map_some, Option.some.injEq, rtspAudio, plainAudio, audioChoice]
    rcases c with _ | c
    · simp
    · cases c <;> simp <;> (repeat' split) <;> simp_all

/-- The codec by a name in any letters. -/
def byName (n : Str) : Option ACodec := audioRead ⟨[], 97, n.map Char.toUpper, 0, 0⟩

theorem up_names : byName "pcmu".toList = some .pcmu ∧ byName "opus".toList = some .opus ∧ byName "pcm".toList = some .pcm ∧
    byName "g711".toList = none ∧ byName "MPEG4-GENERIC".toList = some .aac ∧ byName "L16".toList = none ∧
    ("H264".toList.map Char.toUpper = "H264".toList) ∧ ("H265".toList.map Char.toUpper = "H265".toList) ∧
    ("VP8".toList.map Char.toUpper = "VP8".toList) := by decide +kernel

/-- A section with a number of its own, and one with a dynamic number, as the receiver reads them. -/
theorem told_section (k : Sink) (bw : Nat) (f : List Str) :
    told (section_ k bw f) =
      if 96 ≤ k.pt then (if k.name = [] then none else some ⟨k.medium, k.pt, k.name.map Char.toUpper, k.clock, k.channels⟩)
      else (staticOf k.pt).map fun x => ⟨k.medium, k.pt, x.1, x.2.1, x.2.2⟩ := by
  by_cases h : 96 ≤ k.pt
  · simp only [told, section_, if_pos h]
    by_cases hc : k.channels = 1 <;> simp [hc]
  · simp only [told, section_, if_neg h]

/-- What the receiver makes of an announced audio stream, by its codec. -/
def audioReadAs (c : Option ACodec) (ch r : Nat) (f : Option SampleFmt) : Option Info :=
  match c with
  | some .opus => some (.audio .opus ch r (some .s16))
  | some .aac => some (.audio .aac ch r (some .s16))
  | some .pcmu => if r = 8000 ∧ ch = 1 then some (.audio .g711 ch r (some .u8)) else some (.audio .pcmu ch r none)
  | some .pcm => if f = some .s16 then none else some (.audio .pcm ch r none)
  | some .g711 => if r = 8000 ∧ ch = 1 then some (.audio .g711 ch r (some .u8)) else none
  | _ => none

/-- Audio with a dynamic number. -/
theorem dyn_audio (dyn : Nat) (hd : 96 ≤ dyn) (n : Str) (hn : n ≠ []) (r ch bw : Nat) (l : List Str) :
    received (section_ ⟨"audio".toList, dyn, n, r, ch⟩ bw l) = (byName n).map fun c => .audio c ch r (defaultFmt c) := by
  have hd0 : dyn ≠ 0 := by omega
  have e : audioRead ⟨"audio".toList, dyn, n.map Char.toUpper, r, ch⟩ = byName n := by
    unfold byName audioRead
    rw [if_neg hd0, if_neg (by decide : ¬(97 = 0))]
  rw [received, told_section, if_pos hd, if_neg hn, Option.bind_some, createInfo, if_pos rfl, e]

theorem audio_section (dyn : Nat) (hd : 96 ≤ dyn) (c : Option ACodec) (ch r : Nat) (f : Option SampleFmt) (bw : Nat) (l : List Str) :
    received (section_ (rtspAudio dyn c ch r f) bw l) = audioReadAs c ch r f := by
  obtain ⟨u1, u2, u3, u4, u5, u6, -, -, -⟩ := up_names
  rcases c with _ | c
  · simp [received, told_section, rtspAudio, audioChoice, aCodecName, hd, audioReadAs]
  · cases c
    case g711 =>
      by_cases h : r = 8000 ∧ ch = 1
      · obtain ⟨rfl, rfl⟩ := h; rfl
      · have e : rtspAudio dyn (some .g711) ch r f = ⟨"audio".toList, dyn, "g711".toList, r, ch⟩ := by simp [rtspAudio, audioChoice, h, aCodecName]
        rw [e, dyn_audio dyn hd _ (by decide), u4]
        simp only [Option.map_some, Option.map_none, defaultFmt, audioReadAs, if_neg h]
    case pcmu =>
      by_cases h : r = 8000 ∧ ch = 1
      · obtain ⟨rfl, rfl⟩ := h; rfl
      · have e : rtspAudio dyn (some .pcmu) ch r f = ⟨"audio".toList, dyn, "pcmu".toList, r, ch⟩ := by simp [rtspAudio, audioChoice, h, aCodecName]
        rw [e, dyn_audio dyn hd _ (by decide), u1]
        simp only [Option.map_some, Option.map_none, defaultFmt, audioReadAs, if_neg h]
    case opus =>
      have e : rtspAudio dyn (some .opus) ch r f = ⟨"audio".toList, dyn, "opus".toList, r, ch⟩ := by simp [rtspAudio, audioChoice, aCodecName]
      rw [e, dyn_audio dyn hd _ (by decide), u2]
      simp only [Option.map_some, Option.map_none, defaultFmt, audioReadAs]
    case aac =>
      have e : rtspAudio dyn (some .aac) ch r f = ⟨"audio".toList, dyn, "MPEG4-GENERIC".toList, r, ch⟩ := by simp [rtspAudio]
      rw [e, dyn_audio dyn hd _ (by decide), u5]
      simp only [Option.map_some, Option.map_none, defaultFmt, audioReadAs]
    case mp3 =>
      have e : rtspAudio dyn (some .mp3) ch r f = ⟨"audio".toList, 14, "MPA".toList, 90000, 1⟩ := by simp [rtspAudio]
      rw [e]; rfl
    case pcm =>
      by_cases hf : f = some .s16
      · subst hf
        simp only [audioReadAs, if_true]
        by_cases hr : r = 44100
        · subst hr
          by_cases h2 : ch = 2
          · subst h2; rfl
          · by_cases h1 : ch = 1
            · subst h1; rfl
            · have e : rtspAudio dyn (some .pcm) ch 44100 (some .s16) = ⟨"audio".toList, dyn, "L16".toList, 44100, ch⟩ := by
                simp [rtspAudio, audioChoice, h1, h2]
              rw [e, dyn_audio dyn hd _ (by decide), u6]
              simp only [Option.map_some, Option.map_none, defaultFmt]
        · have e : rtspAudio dyn (some .pcm) ch r (some .s16) = ⟨"audio".toList, dyn, "L16".toList, r, ch⟩ := by
            simp [rtspAudio, audioChoice, hr]
          rw [e, dyn_audio dyn hd _ (by decide), u6]
          simp only [Option.map_some, Option.map_none, defaultFmt]
      · have e : rtspAudio dyn (some .pcm) ch r f = ⟨"audio".toList, dyn, "pcm".toList, r, ch⟩ := by
          simp [rtspAudio, audioChoice, hf, aCodecName]
        rw [e, dyn_audio dyn hd _ (by decide), u3]
        simp only [Option.map_some, Option.map_none, defaultFmt, audioReadAs, if_neg hf]

theorem dyn_video (dyn : Nat) (hd : 96 ≤ dyn) (n : Str) (hn : n ≠ []) (bw : Nat) (l : List Str) :
    received (section_ ⟨"video".toList, dyn, n, 90000, 1⟩ bw l) = createInfo ⟨"video".toList, dyn, n.map Char.toUpper, 90000, 1⟩ := by
  rw [received, told_section, if_pos hd, if_neg hn, Option.bind_some]

theorem video_section (dyn : Nat) (hd : 96 ≤ dyn) (c : Option VCodec) (bw : Nat) (l : List Str) (k : Sink) (h : videoSink dyn c = some k) :
    ∃ c', c = some c' ∧ (c' = .h264 ∨ c' = .h265 ∨ c' = .vp8) ∧
      received (section_ k bw l) = some (.video c' (c' = .h264 ∨ c' = .h265) (c' = .h264 ∨ c' = .h265)) := by
  obtain ⟨-, -, -, -, -, -, v1, v2, v3⟩ := up_names
  rcases c with _ | c
  · simp [videoSink] at h
  · cases c <;> simp only [videoSink, Option.some.injEq, reduceCtorEq] at h <;> subst h <;> refine ⟨_, rfl, by simp, ?_⟩ <;>
      rw [dyn_video dyn hd _ (by decide)] <;> simp only [v1, v2, v3] <;> rfl

/-- The plain announcement is the one over RTSP with 96 or 97. -/
theorem plain_is_rtsp (s : Stream) : ∃ dyn, 96 ≤ dyn ∧ plainSink s = rtspSink dyn s := by
  cases s with
  | video c => exact ⟨96, by omega, rfl⟩
  | audio c ch r f =>
    refine ⟨97, by omega, ?_⟩
    simp only [rtspSink, plainSink, Option.some.injEq, rtspAudio, plainAudio, audioChoice]
    rcases c with _ | c
    · simp
    · cases c <;> simp

/-- A stream announced over RTSP is understood as the stream it is, or not at all. -/
theorem understood_is_sent (dyn : Nat) (hd : 96 ≤ dyn) (s : Stream) (k : Sink) (h : rtspSink dyn s = some k) (bw : Nat) (l : List Str)
    (i : Info) (hi : received (section_ k bw l) = some i) : Same s i := by
  cases s with
  | video c =>
    obtain ⟨c', rfl, -, e⟩ := video_section dyn hd c bw l k h
    rw [e, Option.some.injEq] at hi
    subst hi; rfl
  | audio c ch r f =>
    simp only [rtspSink, Option.some.injEq] at h
    subst h
    rw [audio_section dyn hd] at hi
    rcases c with _ | c
    · cases hi
    · cases c <;> simp only [audioReadAs, reduceCtorEq] at hi
      case g711 | pcmu | pcm => split at hi <;> cases hi <;> simp [Same]
      case opus | aac => cases hi; simp [Same]

/-- Which announced streams are understood. -/
theorem understood_iff (dyn : Nat) (hd : 96 ≤ dyn) (s : Stream) (bw : Nat) (l : List Str) :
    (∃ k i, rtspSink dyn s = some k ∧ received (section_ k bw l) = some i) ↔ Understood s := by
  cases s with
  | video c =>
    constructor
    · rintro ⟨k, i, h, -⟩
      obtain ⟨c', rfl, hc, -⟩ := video_section dyn hd c bw l k h
      simpa [Understood] using hc
    · intro h
      have : ∃ k, videoSink dyn c = some k := by rcases h with rfl | rfl | rfl <;> exact ⟨_, rfl⟩
      obtain ⟨k, hk⟩ := this
      obtain ⟨c', -, -, e⟩ := video_section dyn hd c bw l k hk
      exact ⟨k, _, hk, e⟩
  | audio c ch r f =>
    simp only [rtspSink, Option.some.injEq, exists_and_left, exists_eq_left', audio_section dyn hd]
    rcases c with _ | c
    · simp [audioReadAs, Understood]
    · cases c <;> simp [audioReadAs, Understood]
      split <;> exact ⟨_, rfl⟩

/-- The same over plain RTP. -/
theorem understood_is_sent_plain (s : Stream) (k : Sink) (h : plainSink s = some k) (bw : Nat) (l : List Str)
    (i : Info) (hi : received (section_ k bw l) = some i) : Same s i := by
  obtain ⟨dyn, hd, e⟩ := plain_is_rtsp s
  exact understood_is_sent dyn hd s k (e ▸ h) bw l i hi

theorem understood_iff_plain (s : Stream) (bw : Nat) (l : List Str) :
    (∃ k i, plainSink s = some k ∧ received (section_ k bw l) = some i) ↔ Understood s := by
  obtain ⟨dyn, hd, e⟩ := plain_is_rtsp s
  rw [e]
  exact understood_iff dyn hd s bw l

/-- A transport stream is announced as such, and the receiver does not know it. -/
theorem transport_not_understood (bw : Nat) (l : List Str) :
    told (section_ tsSink bw l) = some ⟨"video".toList, 33, "MP2T".toList, 90000, 1⟩ ∧ received (section_ tsSink bw l) = none := ⟨rfl, rfl⟩

/-- A stream has the number RFC 3551 gives it, or else the dynamic one. -/
theorem number_of_stream (dyn : Nat) (s : Stream) (k : Sink) (h : rtspSink dyn s = some k) : k.pt = (ownNumber s).getD dyn := by
  cases s with
  | video c =>
    rcases c with _ | c
    · cases h
    · cases c <;> simp only [rtspSink, videoSink, Option.some.injEq, reduceCtorEq] at h <;> subst h <;> rfl
  | audio c ch r f =>
    simp only [rtspSink, Option.some.injEq] at h
    subst h
    rcases c with _ | c
    · rfl
    · cases c
      case opus | aac | mp3 => rfl
      case g711 =>
        by_cases hr : r = 8000
        · by_cases hc : ch = 1
          · subst hr hc; rfl
          · have e : ownNumber (.audio (some .g711) ch r f) = none := ownNumber.eq_6 _ (by simp) (by simp) (by simp [hc]) (by simp [hc]) (by simp)
            rw [e]; simp [rtspAudio, audioChoice, hc]
        · have e : ownNumber (.audio (some .g711) ch r f) = none := ownNumber.eq_6 _ (by simp) (by simp) (by simp [hr]) (by simp [hr]) (by simp)
          rw [e]; simp [rtspAudio, audioChoice, hr]
      case pcmu =>
        by_cases hr : r = 8000
        · by_cases hc : ch = 1
          · subst hr hc; rfl
          · have e : ownNumber (.audio (some .pcmu) ch r f) = none := ownNumber.eq_6 _ (by simp) (by simp) (by simp [hc]) (by simp [hc]) (by simp)
            rw [e]; simp [rtspAudio, audioChoice, hc]
        · have e : ownNumber (.audio (some .pcmu) ch r f) = none := ownNumber.eq_6 _ (by simp) (by simp) (by simp [hr]) (by simp [hr]) (by simp)
          rw [e]; simp [rtspAudio, audioChoice, hr]
      case pcm =>
        by_cases hf : f = some .s16
        · by_cases hr : r = 44100
          · by_cases h2 : ch = 2
            · subst hr hf h2; rfl
            · by_cases h1 : ch = 1
              · subst hr hf h1; rfl
              · have e : ownNumber (.audio (some .pcm) ch r f) = none := ownNumber.eq_6 _ (by simp [h2]) (by simp [h1]) (by simp) (by simp) (by simp)
                rw [e]; simp [rtspAudio, audioChoice, h1, h2, hf]
          · have e : ownNumber (.audio (some .pcm) ch r f) = none := ownNumber.eq_6 _ (by simp [hr]) (by simp [hr]) (by simp) (by simp) (by simp)
            rw [e]; simp [rtspAudio, audioChoice, hr, hf]
        · have e : ownNumber (.audio (some .pcm) ch r f) = none := ownNumber.eq_6 _ (by simp [hf]) (by simp [hf]) (by simp) (by simp) (by simp)
          rw [e]; simp [rtspAudio, audioChoice, hf]

/-- A number of RFC 3551 is used with the clock and channels the RFC has for it, and a reader finds the sink's own clock and
channels, whichever way the stream is announced. -/
theorem numbers_are_rfc (dyn : Nat) (hd : 96 ≤ dyn) (s : Stream) (k : Sink) (h : rtspSink dyn s = some k) (hk : k.pt < 96) :
    ∃ n, (k.pt, n, k.clock, k.channels) ∈ rfc3551 ∧ (n = "PCMU" ↔ (∃ ch r f, s = .audio (some .pcmu) ch r f ∨ s = .audio (some .g711) ch r f)) ∧
      (n = "L16" ↔ ∃ ch r f, s = .audio (some .pcm) ch r f) ∧ (n = "MPA" ↔ ∃ ch r f, s = .audio (some .mp3) ch r f) := by
  have hn := number_of_stream dyn s k h
  cases s with
  | video c =>
    have : ownNumber (.video c) = none := by cases c <;> rfl
    rw [this, Option.getD_none] at hn; omega
  | audio c ch r f =>
    simp only [rtspSink, Option.some.injEq] at h
    subst h
    unfold ownNumber at hn
    split at hn
    · rename_i e; cases e; exact ⟨"L16", List.mem_of_getElem? (i := 1) rfl, by simp, by simp, by simp⟩
    · rename_i e; cases e; exact ⟨"L16", List.mem_of_getElem? (i := 2) rfl, by simp, by simp, by simp⟩
    · rename_i e; cases e; exact ⟨"PCMU", List.mem_of_getElem? (i := 0) rfl, by simp, by simp, by simp⟩
    · rename_i e; cases e; exact ⟨"PCMU", List.mem_of_getElem? (i := 0) rfl, by simp, by simp, by simp⟩
    · rename_i e; cases e; exact ⟨"MPA", List.mem_of_getElem? (i := 3) rfl, by simp, by simp, by simp⟩
    · rw [Option.getD_none] at hn; omega

/-- The clock announced is the stream's, and the channels are told, but for MPEG audio, whose format carries them itself. -/
theorem clock_announced (dyn : Nat) (s : Stream) (k : Sink) (h : rtspSink dyn s = some k) :
    k.clock = clockOf s ∧ ∀ c ch r f, s = .audio c ch r f → c ≠ some .mp3 → k.channels = ch := by
  cases s with
  | video c =>
    rcases c with _ | c
    · cases h
    · cases c <;> simp only [rtspSink, videoSink, Option.some.injEq, reduceCtorEq] at h <;> subst h <;> exact ⟨rfl, by simp⟩
  | audio c ch r f =>
    simp only [rtspSink, Option.some.injEq] at h
    subst h
    rcases c with _ | c
    · exact ⟨rfl, by rintro _ _ _ _ ⟨⟩ -; rfl⟩
    · cases c <;> refine ⟨rfl, ?_⟩ <;> rintro _ _ _ _ ⟨⟩ h <;> first | rfl | exact absurd rfl h

/-- A connection (as C46 has it) takes exactly the streams there is a sink for, plain and over RTSP. -/
theorem accepted_iff (s : Stream) : Lms.Sink.sinkFor false (toSink s) = (plainSink s).isSome ∧
    ∀ dyn (b : Lms.Sink.Build) r, r ∉ b.listed → (Lms.Sink.addSub b false r (toSink s)).isSome = (rtspSink dyn s).isSome := by
  cases s with
  | video c =>
    rcases c with _ | c
    · refine ⟨rfl, fun dyn b r h => ?_⟩
      simp [Lms.Sink.addSub, toSink, h, rtspSink, videoSink]
    · cases c <;> refine ⟨rfl, fun dyn b r h => ?_⟩ <;> simp [Lms.Sink.addSub, toSink, h, rtspSink, videoSink]
  | audio c ch r f =>
    rcases c with _ | c
    · refine ⟨rfl, fun dyn b r h => ?_⟩
      simp [Lms.Sink.addSub, toSink, h, rtspSink]
    · cases c <;> refine ⟨rfl, fun dyn b r h => ?_⟩ <;> simp [Lms.Sink.addSub, toSink, h, rtspSink]

/-- A transport stream takes exactly the streams it has a kind for. -/
theorem transport_accepts (s : Stream) (b : Lms.Sink.Build) (r : Int) (h : r ∉ b.listed) (hv : b.v = -1) (ha : b.a = -1) :
    (Lms.Sink.addSub b true r (toSink s)).isSome = match s with
      | .video c => (tsVideo c).isSome
      | .audio c _ _ _ => (tsAudio c).isSome := by
  cases s with
  | video c =>
    rcases c with _ | c
    · simp [Lms.Sink.addSub, toSink, h, tsVideo]
    · cases c <;> simp [Lms.Sink.addSub, toSink, h, tsVideo, hv]
  | audio c ch r f =>
    rcases c with _ | c
    · simp [Lms.Sink.addSub, toSink, h, tsAudio]
    · cases c <;> simp [Lms.Sink.addSub, toSink, h, tsAudio, ha]

/-! ## Plain RTP between two of these programs -/

/-- A plain RTP stream whose receiver was told of it by a request: the numbers agree unless the sender uses a number of its own
while the receiver expects 97; and the receiver takes it for what it is, except MP3. -/
theorem plain_loop (q : Sub) (s : Stream) (hq : Describes q s) (k : Sink) (hk : plainSink s = some k) (m : Media) (hm : wanted q = some m) :
    (m.format = k.pt ↔ ownNumber s = none ∨ ∃ ch r f, s = .audio (some .mp3) ch r f) ∧
    ((∀ ch r f, s ≠ .audio (some .mp3) ch r f) → ∃ i, received m = some i ∧ Same s i) ∧
    ((∃ ch r f, s = .audio (some .mp3) ch r f) → received m = none) := by
  obtain ⟨dyn, hd, e⟩ := plain_is_rtsp s
  have hn := number_of_stream dyn s k (e ▸ hk)
  obtain ⟨u1, u2, u3, -, u5, -, v1, -, -⟩ := up_names
  cases s with
  | video c =>
    obtain ⟨h1, rfl, h2⟩ := hq
    cases hk
    rw [wanted, if_neg (by rw [h2]; decide), if_pos h2, Option.some.injEq] at hm
    subst hm
    refine ⟨by simp [ownNumber], fun _ => ⟨.video .h264 true true, ?_, rfl⟩, by simp⟩
    simp only [received, told, h1, h2, if_neg (show ¬("H264".toList = []) by decide), v1]
    rfl
  | audio c ch r f =>
    obtain ⟨h1, h2, h3, h4, h5⟩ := hq
    have hc0 : u32 q.channels ≠ 0 := by omega
    have key : ∀ (n : Str) (fm : List Str) (c' : ACodec), n ≠ [] → byName n = some c' →
        received
          { medium := q.medium, port := u32 q.port, format := 97, bandwidth := some (u32 q.bandwidth)
            rtpmap := some (n, u32 q.freq, if u32 q.channels = 0 then none else some (u32 q.channels)), fmtp := fm } =
        some (.audio c' ch r (defaultFmt c')) := by
      intro n fm c' hn hb
      simp only [received, told, h1, if_neg hn, if_neg hc0, h2, Option.bind_some, Option.getD_some]
      rw [h3]
      rw [createInfo, if_pos rfl]
      have : audioRead ⟨"audio".toList, 97, n.map Char.toUpper, r, ch⟩ = byName n := rfl
      rw [this, hb]; rfl
    have num : c ≠ some .mp3 → (97 = k.pt ↔ ownNumber (.audio c ch r f) = none) := by
      intro hc
      have hk2 : k.pt = (ownNumber (.audio c ch r f)).getD 97 := number_of_stream 97 _ k (by
        rw [rtsp_as_plain, hk, Option.map_some, Option.some.injEq]
        split
        · rfl
        · simp only [plainSink, Option.some.injEq] at hk
          subst hk
          rename_i hlt
          have : (plainAudio c ch r f).pt = 97 := by
            unfold plainAudio at hlt ⊢
            unfold audioChoice at hlt ⊢
            revert hlt
            rcases c with _ | c
            · simp
            · cases c <;> simp <;> (repeat' split) <;> simp_all
          rw [← this])
      rw [hk2]
      cases ho : ownNumber (.audio c ch r f) with
      | none => simp
      | some x =>
        simp only [Option.getD_some, reduceCtorEq, iff_false]
        unfold ownNumber at ho
        split at ho <;> cases ho <;> decide
    have fin : ∀ (n : Str) (fm : List Str) (c' : ACodec), c = some c' → c' ≠ .mp3 → n ≠ [] → byName n = some c' →
        m = { medium := q.medium, port := u32 q.port, format := 97, bandwidth := some (u32 q.bandwidth), rtpmap := some (n, u32 q.freq, if u32 q.channels = 0 then none else some (u32 q.channels)), fmtp := fm } →
        (m.format = k.pt ↔ ownNumber (.audio c ch r f) = none ∨ ∃ ch' r' f', Stream.audio c ch r f = .audio (some .mp3) ch' r' f') ∧
        ((∀ ch' r' f', Stream.audio c ch r f ≠ .audio (some .mp3) ch' r' f') → ∃ i, received m = some i ∧ Same (.audio c ch r f) i) ∧
        ((∃ ch' r' f', Stream.audio c ch r f = .audio (some .mp3) ch' r' f') → received m = none) := by
      intro n fm c' hc hne hn' hb hm'
      have hno : ¬∃ ch' r' f', Stream.audio c ch r f = .audio (some .mp3) ch' r' f' := by
        rintro ⟨_, _, _, e⟩
        rw [hc] at e
        cases e; exact hne rfl
      have hf : m.format = 97 := by rw [hm']
      refine ⟨?_, fun _ => ⟨.audio c' ch r (defaultFmt c'), ?_, ?_⟩, fun h => absurd h hno⟩
      · rw [hf]
        exact (num (by rw [hc]; intro e; cases e; exact hne rfl)).trans ⟨.inl, fun h => h.elim id fun h => absurd h hno⟩
      · rw [hm']; exact key n fm c' hn' hb
      · rw [hc]; exact ⟨rfl, rfl, .inl rfl⟩
    rcases h5 with ⟨hx, hc⟩ | ⟨hx, hc⟩ | ⟨hx, hc⟩ | ⟨hx, hc⟩ | ⟨rfl, hc⟩
    · rw [wanted, if_neg (by rw [hc]; decide), if_neg (by rw [hc]; decide), if_neg (by rw [hc]; decide), if_pos (.inl hc), Option.some.injEq] at hm
      exact fin q.codec _ .opus hx (by decide) (by rw [hc]; decide) (by rw [hc]; exact u2) hm.symm
    · rw [wanted, if_neg (by rw [hc]; decide), if_neg (by rw [hc]; decide), if_pos hc, Option.some.injEq] at hm
      exact fin q.codec _ .aac hx (by decide) (by rw [hc]; decide) (by rw [hc]; exact u5) hm.symm
    · rw [wanted, if_neg (by rw [hc]; decide), if_neg (by rw [hc]; decide), if_neg (by rw [hc]; decide), if_pos (.inr (.inl hc)), Option.some.injEq] at hm
      exact fin q.codec _ .pcm hx (by decide) (by rw [hc]; decide) (by rw [hc]; exact u3) hm.symm
    · rw [wanted, if_neg (by rw [hc]; decide), if_neg (by rw [hc]; decide), if_neg (by rw [hc]; decide), if_pos (.inr (.inr hc)), Option.some.injEq] at hm
      exact fin q.codec _ .pcmu hx (by decide) (by rw [hc]; decide) (by rw [hc]; exact u1) hm.symm
    · rw [wanted, if_pos hc, Option.some.injEq] at hm
      subst hm
      cases hk
      refine ⟨by simp [plainAudio], fun h => absurd rfl (h ch r f), fun _ => ?_⟩
      simp only [received, told, h1]
      rfl

/-- No request for a plain stream gives a stream of H.265, VP8, MJPEG, MP3 or G.711. -/
theorem plain_only (q : Sub) (m : Media) (hm : wanted q = some m) (i : Info) (hi : received m = some i) :
    (∃ a b, i = .video .h264 a b) ∨ ∃ c ch r f, i = .audio c ch r f ∧ (c = .opus ∨ c = .aac ∨ c = .pcm ∨ c = .pcmu) := by
  obtain ⟨u1, u2, u3, -, u5, -, v1, -, -⟩ := up_names
  have key : ∀ (n : Str) (p : Nat) (f : Nat) (c : Option Nat) (fm : List Str) (po : Nat) (bw : Option Nat), n ≠ [] → p ≠ 0 →
      received { medium := q.medium, port := po, format := p, bandwidth := bw, rtpmap := some (n, f, c), fmtp := fm } = some i →
      (∃ a b x, videoRead ⟨[], 0, n.map Char.toUpper, 0, 0⟩ = some x ∧ i = .video x a b) ∨ ∃ c ch r f, i = .audio c ch r f ∧ byName n = some c := by
    intro n p f c fm po bw hn hp h
    simp only [received, told, if_neg hn, Option.bind_some, createInfo] at h
    by_cases ha : q.medium = "audio".toList
    · rw [if_pos ha] at h
      have : audioRead ⟨q.medium, p, n.map Char.toUpper, f, c.getD 1⟩ = byName n := by
        unfold byName audioRead; rw [if_neg hp, if_neg (by decide : ¬(97 = 0))]
      rw [this] at h
      cases hb : byName n with
      | none => rw [hb] at h; cases h
      | some x => rw [hb] at h; cases h; exact .inr ⟨_, _, _, _, rfl, rfl⟩
    · rw [if_neg ha] at h
      by_cases hv : q.medium = "video".toList
      · rw [if_pos hv] at h
        have : videoRead ⟨q.medium, p, n.map Char.toUpper, f, c.getD 1⟩ = videoRead ⟨[], 0, n.map Char.toUpper, 0, 0⟩ := rfl
        rw [this] at h
        cases hb : videoRead ⟨[], 0, n.map Char.toUpper, 0, 0⟩ with
        | none => rw [hb] at h; cases h
        | some x => rw [hb] at h; cases h; exact .inl ⟨_, _, _, rfl, rfl⟩
      · rw [if_neg hv] at h; cases h
  have names : ∀ n ∈ ["H264".toList, "MPEG4-GENERIC".toList, "opus".toList, "pcm".toList, "pcmu".toList],
      n ≠ [] ∧ (videoRead ⟨[], 0, n.map Char.toUpper, 0, 0⟩ = none ∨ videoRead ⟨[], 0, n.map Char.toUpper, 0, 0⟩ = some .h264) ∧
      (byName n = none ∨ byName n = some .opus ∨ byName n = some .aac ∨ byName n = some .pcm ∨ byName n = some .pcmu) := by decide +kernel
  have fin : ∀ n ∈ ["H264".toList, "MPEG4-GENERIC".toList, "opus".toList, "pcm".toList, "pcmu".toList],
      ((∃ a b x, videoRead ⟨[], 0, n.map Char.toUpper, 0, 0⟩ = some x ∧ i = .video x a b) ∨ ∃ c ch r f, i = .audio c ch r f ∧ byName n = some c) →
      (∃ a b, i = .video .h264 a b) ∨ ∃ c ch r f, i = .audio c ch r f ∧ (c = .opus ∨ c = .aac ∨ c = .pcm ∨ c = .pcmu) := by
    intro n hn h
    obtain ⟨-, h1, h2⟩ := names n hn
    rcases h with ⟨a, b, x, hx, rfl⟩ | ⟨c, ch, r, f, rfl, hx⟩
    · rw [hx] at h1
      rcases h1 with h1 | h1
      · cases h1
      · cases h1; exact .inl ⟨_, _, rfl⟩
    · rw [hx] at h2
      refine .inr ⟨_, _, _, _, rfl, ?_⟩
      simpa using h2
  unfold wanted at hm
  simp only at hm
  split at hm
  · rename_i hc
    cases hm
    simp only [received, told, staticOf] at hi
    by_cases ha : q.medium = "audio".toList
    · rw [ha] at hi; cases hi
    · by_cases hv : q.medium = "video".toList
      · rw [hv] at hi; cases hi
      · have e : createInfo ⟨q.medium, 14, "MPA".toList, 90000, 1⟩ = none := by rw [createInfo, if_neg ha, if_neg hv]
        have hi' : createInfo ⟨q.medium, 14, "MPA".toList, 90000, 1⟩ = some i := hi
        rw [e] at hi'; cases hi'
  · split at hm
    · rename_i hc
      cases hm
      rw [hc] at hi
      exact fin _ (List.mem_of_getElem? (i := 0) rfl) (key _ _ _ _ _ _ _ (by decide) (by decide) hi)
    · split at hm
      · rename_i hc
        cases hm
        rw [hc] at hi
        exact fin _ (List.mem_of_getElem? (i := 1) rfl) (key _ _ _ _ _ _ _ (by decide) (by decide) hi)
      · split at hm
        · rename_i hc
          cases hm
          rcases hc with hc | hc | hc <;> rw [hc] at hi
          · exact fin _ (List.mem_of_getElem? (i := 2) rfl) (key _ _ _ _ _ _ _ (by decide) (by decide) hi)
          · exact fin _ (List.mem_of_getElem? (i := 3) rfl) (key _ _ _ _ _ _ _ (by decide) (by decide) hi)
          · exact fin _ (List.mem_of_getElem? (i := 4) rfl) (key _ _ _ _ _ _ _ (by decide) (by decide) hi)
        · cases hm

/-! ## Transport streams -/

/-- ISO/IEC 13818-1, table 2-34: the type of an elementary stream. -/
def esType : Stream → Option Nat
  | .video (some .h264) => some 0x1B
  | .video (some .h265) => some 0x24
  | .audio (some .aac) _ _ _ => some 0x0F
  | .audio (some .mp3) _ _ _ => some 0x03
  | _ => none

/-- The type the library announces for a video stream of a kind: 1 and 2 MPEG, 4 MPEG-4, 5 H.264, 6 H.265. -/
def videoType (k : Nat) : Option Nat := [(1, 0x01), (2, 0x02), (4, 0x10), (5, 0x1B), (6, 0x24)].lookup k

/-- The type the library announces for an audio stream of a kind: 1 and 2 MPEG, 4 AAC. -/
def audioType (k : Nat) : Option Nat := [(1, 0x03), (2, 0x04), (4, 0x0F)].lookup k

/-- **C82.** Within a transport stream each stream is announced with the type the standard gives to its codec, and only streams that have
such a type are taken. -/
theorem transport_types (t : Stream) :
    (match t with
      | .video c => (tsVideo c).bind videoType
      | .audio c _ _ _ => (tsAudio c).bind audioType) = esType t := by
  cases t with
  | video c => rcases c with _ | c; · rfl
               cases c <;> rfl
  | audio c ch r f => rcases c with _ | c; · rfl
                      cases c <;> rfl

/-- **C82.** The clock with which a transport stream is sent is the one the receiver assumes. -/
theorem transport_clock (bw : Nat) (l : List Str) : (told (section_ tsSink bw l)).map Told.clock = some tsSink.clock := rfl

/-- **C82.** Which names of video codecs are understood. -/
theorem video_names (n : Str) (p clock ch : Nat) (c : VCodec) : videoRead ⟨"video".toList, p, n, clock, ch⟩ = some c ↔
    (n, c) ∈ [("H264".toList, .h264), ("H265".toList, .h265), ("VP8".toList, .vp8), ("MJPEG".toList, VCodec.mjpeg)] := by
  have key : ∀ (l : List (Str × VCodec)), (l.map (·.1)).Nodup → ((n, c) ∈ l ↔ l.lookup n = some c) := by
    intro l
    induction l with
    | nil => simp
    | cons x l ih =>
      intro hn
      obtain ⟨a, d⟩ := x
      simp only [List.map_cons, List.nodup_cons] at hn
      rw [List.mem_cons, ih hn.2, List.lookup_cons]
      by_cases hna : n = a
      · subst hna
        have h0 : l.lookup n ≠ some c := fun h => by
          have := (ih hn.2).2 h
          exact hn.1 (List.mem_map_of_mem this (f := (·.1)))
        simp [h0]
        exact ⟨fun h => h.symm, fun h => h.symm⟩
      · have : (n == a) = false := by simpa using hna
        simp [this, hna]
  rw [key _ (by decide)]
  simp only [List.lookup_cons, List.lookup_nil, videoRead]
  by_cases h1 : n = "H264".toList
  · subst h1; rfl
  by_cases h2 : n = "H265".toList
  · subst h2; rfl
  by_cases h3 : n = "VP8".toList
  · subst h3; rfl
  by_cases h4 : n = "MJPEG".toList
  · subst h4; rfl
  simp only [if_neg h1, if_neg h2, if_neg h3, if_neg h4, beq_eq_false_iff_ne.2 h1, beq_eq_false_iff_ne.2 h2, beq_eq_false_iff_ne.2 h3,
    beq_eq_false_iff_ne.2 h4]

example : esType (.audio (some .aac) 2 48000 none) = some 15 ∧ tsAudio (some .aac) = some 4 := ⟨rfl, rfl⟩

end Lms.Offer
