import Verif.Offer.Props

/-! The format line of AAC, the bandwidth announced, and recorded findings. -/

namespace Lms.Offer
open Lms.Names Lms.Sdp

theorem dec_len (n : Nat) (h : n < 1000) : (dec n).length ≤ 3 := by
  by_cases h1 : n < 10
  · rw [dec, if_pos h1]; simp
  · by_cases h2 : n / 10 < 10
    · rw [dec, if_neg h1, dec, if_pos h2]; simp
    · rw [dec, if_neg h1, dec, if_neg h2, dec, if_pos (by omega)]; simp

/-- The format line always fits its buffer, whatever the number (a byte), the mode and the configuration. -/
theorem fmtp_fits (pt : Nat) (hp : pt < 256) (mode config : Str) : (fmtpText pt mode config).length + 1 ≤ fmtpSize mode config := by
  have h := dec_len pt (by omega)
  have h5 : dec 5 = ['5'] := by rw [dec, if_pos (by decide)]
  have hf : fmtpFmt.length = 109 := by decide +kernel
  have e1 : "a=fmtp:".toList.length = 7 := by decide +kernel
  have e2 : " streamtype=".toList.length = 12 := by decide +kernel
  have e3 : ";profile-level-id=1;mode=".toList.length = 25 := by decide +kernel
  have e4 : ";sizelength=13;indexlength=3;indexdeltalength=3;config=".toList.length = 55 := by decide +kernel
  have e5 : "\r\n".toList.length = 2 := by decide +kernel
  unfold fmtpText fmtpSize
  rw [hf, h5]
  simp only [List.length_append, e1, e2, e3, e4, e5, List.length_cons, List.length_nil]
  omega

theorem cut_last {c : Char} {a b : Str} (h : c ∉ a) (h2 : c ∉ b) : cut c (a ++ c :: b) = [a, b] := by rw [cut_append h, cut_free h2]

/-- A reader gets back from the line, for the stream's number, the mode and the configuration, and the field sizes that C38's
packets have. -/
theorem fmtp_reads (pt : Nat) (mode config : Str) (hm : ∀ c ∈ [' ', ';', '=', '\r', '\n'], c ∉ mode) (hc : ∀ c ∈ [' ', ';', '=', '\r', '\n'], c ∉ config) :
    ∃ l, lines2 (fmtpText pt mode config) = [l] ∧ ((after "a=fmtp:".toList l).bind (readFmtp pt)).map pairs =
      some [("streamtype".toList, "5".toList), ("profile-level-id".toList, "1".toList), ("mode".toList, mode), ("sizelength".toList, "13".toList),
        ("indexlength".toList, "3".toList), ("indexdeltalength".toList, "3".toList), ("config".toList, config)] := by
  have h5 : dec 5 = ['5'] := by rw [dec, if_pos (by decide)]
  have hcr := dec_free pt (c := '\r') (by decide)
  have hnl := dec_nl pt
  obtain ⟨par, hpar⟩ : ∃ p, p = "streamtype=5".toList ++ ';' :: ("profile-level-id=1".toList ++ ';' :: ("mode=".toList ++ mode ++ ';' ::
      ("sizelength=13".toList ++ ';' :: ("indexlength=3".toList ++ ';' :: ("indexdeltalength=3".toList ++ ';' :: ("config=".toList ++ config)))))) := ⟨_, rfl⟩
  obtain ⟨l, hl⟩ : ∃ l, l = "a=fmtp:".toList ++ (dec pt ++ ' ' :: par) := ⟨_, rfl⟩
  have e1 : " streamtype=".toList ++ ['5'] ++ ";profile-level-id=1;mode=".toList = ' ' :: ("streamtype=5".toList ++ ';' :: ("profile-level-id=1".toList ++ ';' :: "mode=".toList)) := by decide +kernel
  have e2 : ";sizelength=13;indexlength=3;indexdeltalength=3;config=".toList =
      ';' :: ("sizelength=13".toList ++ ';' :: ("indexlength=3".toList ++ ';' :: ("indexdeltalength=3".toList ++ ';' :: "config=".toList))) := by decide +kernel
  have ht : fmtpText pt mode config = l ++ '\r' :: '\n' :: [] := by
    have e3 : "\r\n".toList = ['\r', '\n'] := by decide +kernel
    have : fmtpText pt mode config = "a=fmtp:".toList ++ dec pt ++ (" streamtype=".toList ++ ['5'] ++ ";profile-level-id=1;mode=".toList) ++ mode ++
      (";sizelength=13;indexlength=3;indexdeltalength=3;config=".toList) ++ config ++ ['\r', '\n'] := by
        unfold fmtpText; rw [h5, e3]; simp only [List.append_assoc]
    rw [this, e1, e2, hl, hpar]
    simp only [List.append_assoc, List.cons_append]
  have lits : ∀ c ∈ [' ', '\r', '\n'], c ∉ "streamtype=5".toList ∧ c ∉ "profile-level-id=1".toList ∧ c ∉ "mode=".toList ∧ c ∉ "sizelength=13".toList ∧
      c ∉ "indexlength=3".toList ∧ c ∉ "indexdeltalength=3".toList ∧ c ∉ "config=".toList ∧ c ≠ ';' ∧ c ∈ [' ', ';', '=', '\r', '\n'] := by decide +kernel
  have free : ∀ c ∈ [' ', '\r', '\n'], c ∉ par := by
    intro c hcc
    obtain ⟨l1, l2, l3, l4, l5, l6, l7, l8, l9⟩ := lits c hcc
    have m1 : c ∉ mode := hm c l9
    have m2 : c ∉ config := hc c l9
    rw [hpar]
    simp only [List.mem_append, List.mem_cons, not_or]
    exact ⟨l1, l8, l2, l8, ⟨l3, m1⟩, l8, l4, l8, l5, l8, l6, l8, l7, m2⟩
  have pre : ∀ c ∈ ['\r', '\n'], c ∉ "a=fmtp:".toList ∧ c ≠ ' ' := by decide +kernel
  have lfree : ∀ c ∈ ['\r', '\n'], c ∉ l := by
    intro c hcc
    rw [hl]
    simp only [List.mem_append, List.mem_cons, not_or]
    refine ⟨(pre c hcc).1, ?_, (pre c hcc).2, free c (List.mem_cons_of_mem _ hcc)⟩
    simp only [List.mem_cons, List.not_mem_nil, or_false] at hcc
    rcases hcc with rfl | rfl
    · exact hcr
    · exact hnl
  have lne : l ≠ [] := by
    rw [hl]
    exact List.append_ne_nil_of_left_ne_nil (by decide) _
  refine ⟨l, ?_, ?_⟩
  · have hn2 : '\n' ∉ l ++ ['\r'] := by
      rw [List.mem_append, not_or]
      exact ⟨lfree _ (by decide), by decide⟩
    have : fmtpText pt mode config = (l ++ ['\r']) ++ '\n' :: [] := by rw [ht]; simp
    rw [lines2, this, cut_append hn2, List.flatMap_cons, cut_append (lfree '\r' (by decide))]
    simp [cut, lne]
  · rw [hl, after_append, Option.bind_some, readFmtp_line pt (free ' ' (by decide)), Option.map_some, Option.some.injEq]
    have semi : ';' ∉ "streamtype=5".toList ∧ ';' ∉ "profile-level-id=1".toList ∧ ';' ∉ "mode=".toList ∧ ';' ∉ "sizelength=13".toList ∧
      ';' ∉ "indexlength=3".toList ∧ ';' ∉ "indexdeltalength=3".toList ∧ ';' ∉ "config=".toList := by decide +kernel
    obtain ⟨s1, s2, s3, s4, s5, s6, s7⟩ := semi
    have hmode : ';' ∉ "mode=".toList ++ mode := by rw [List.mem_append, not_or]; exact ⟨s3, hm _ (by decide)⟩
    have hcfg : ';' ∉ "config=".toList ++ config := by rw [List.mem_append, not_or]; exact ⟨s7, hc _ (by decide)⟩
    have kv : cut '=' "streamtype=5".toList = ["streamtype".toList, "5".toList] ∧ cut '=' "profile-level-id=1".toList = ["profile-level-id".toList, "1".toList] ∧
      cut '=' "sizelength=13".toList = ["sizelength".toList, "13".toList] ∧ cut '=' "indexlength=3".toList = ["indexlength".toList, "3".toList] ∧
      cut '=' "indexdeltalength=3".toList = ["indexdeltalength".toList, "3".toList] := by decide +kernel
    obtain ⟨k1, k2, k3, k4, k5⟩ := kv
    have km : cut '=' ("mode=".toList ++ mode) = ["mode".toList, mode] := by
      have : "mode=".toList ++ mode = "mode".toList ++ '=' :: mode := by
        have e : "mode=".toList = "mode".toList ++ ['='] := by decide +kernel
        rw [e, List.append_assoc]; rfl
      rw [this, cut_last (by decide) (hm _ (by decide))]
    have kc : cut '=' ("config=".toList ++ config) = ["config".toList, config] := by
      have : "config=".toList ++ config = "config".toList ++ '=' :: config := by
        have e : "config=".toList = "config".toList ++ ['='] := by decide +kernel
        rw [e, List.append_assoc]; rfl
      rw [this, cut_last (by decide) (hc _ (by decide))]
    rw [pairs, hpar, cut_append s1, cut_append s2, cut_append hmode, cut_append s4, cut_append s5, cut_append s6, cut_free hcfg]
    simp only [List.filterMap_cons, List.filterMap_nil, k1, k2, k3, k4, k5, km, kc]

/-- A frame with a header: the configuration bytes and the text they give, if there is room for it. -/
theorem update_valid (cap : Nat) (d : Bytes) (h : Adts.ValidHeader d) :
    ∃ x y, (Adts.update ⟨0, 0, 0, []⟩ d).1.extra = [x, y] ∧
      Adts.updateConfig cap d = if cap < 5 then .ub else .ok (some (Adts.hexText x y)) := by
  match d, h with
  | b0 :: b1 :: b2 :: b3 :: b4 :: b5 :: b6 :: r, h =>
    rw [Adts.valid_iff b0 b1 (b2 :: b3 :: b4 :: b5 :: b6 :: r) (by simp only [List.length_cons]; omega)] at h
    obtain ⟨rfl, rfl⟩ := h
    refine ⟨((Adts.profile b2 + 1) <<< 3) ||| (Adts.freqIdx b2 >>> 1), (Adts.freqIdx b2 <<< 7) ||| (Adts.chanConf b2 b3 <<< 3), ?_, ?_⟩
    · simp only [Adts.update]
      rw [if_neg (by simp), if_neg (by simp)]
      rfl
    · simp only [Adts.updateConfig]
      rw [if_neg (by simp)]
      rfl
  | [], h | [_], h | [_, _], h | [_, _, _], h | [_, _, _, _], h | [_, _, _, _, _], h | [_, _, _, _, _, _], h =>
    simp [Adts.ValidHeader] at h

/-- A frame without one changes nothing. -/
theorem update_invalid (cap : Nat) (d : Bytes) (h : ¬Adts.ValidHeader d) : Adts.updateConfig cap d = .ok none := by
  match d, h with
  | b0 :: b1 :: b2 :: b3 :: b4 :: b5 :: b6 :: r, h =>
    rw [Adts.valid_iff b0 b1 (b2 :: b3 :: b4 :: b5 :: b6 :: r) (by simp only [List.length_cons]; omega)] at h
    simp only [Adts.updateConfig]
    rw [if_pos (Decidable.byCases (p := b0 = 0xFF) (fun h1 => .inr (fun e => h ⟨h1, e⟩)) (fun h1 => .inl h1))]
  | [], _ | [_], _ | [_, _], _ | [_, _, _], _ | [_, _, _, _], _ | [_, _, _, _, _], _ | [_, _, _, _, _, _], _ => rfl

/-- Recorded: an AAC stream cannot be described over RTSP without undefined behaviour, whatever frames arrive before it is asked
for: with a frame that has a header the text overruns its array, and without one it is read uninitialised. -/
theorem aac_description_undefined (pt : Nat) (frames : List Bytes) : describeAac Adts.CONFIG_CAP pt frames = .ub := by
  have h : feed Adts.CONFIG_CAP none frames = .ub ∨ feed Adts.CONFIG_CAP none frames = .ok none := by
    induction frames with
    | nil => exact .inr rfl
    | cons d l ih =>
      by_cases hv : Adts.ValidHeader d
      · obtain ⟨x, y, -, e⟩ := update_valid Adts.CONFIG_CAP d hv
        rw [if_pos (by decide)] at e
        left; rw [feed, e]
      · rw [feed, update_invalid _ d hv]; exact ih
  unfold describeAac
  rcases h with h | h <;> rw [h] <;> rfl

theorem feed_quiet (cap : Nat) (c : Option Bytes) (l : List Bytes) (h : ∀ d ∈ l, ¬Adts.ValidHeader d) : feed cap c l = .ok c := by
  induction l with
  | nil => rfl
  | cons d l ih =>
    rw [feed, update_invalid cap d (h d (by simp))]
    exact ih fun x hx => h x (List.mem_cons_of_mem _ hx)

theorem feed_append (cap : Nat) (hcap : 5 ≤ cap) (c : Option Bytes) (a b : List Bytes) : ∃ c', feed cap c (a ++ b) = feed cap c' b := by
  induction a generalizing c with
  | nil => exact ⟨c, rfl⟩
  | cons d a ih =>
    by_cases hv : Adts.ValidHeader d
    · obtain ⟨x, y, -, e⟩ := update_valid cap d hv
      rw [if_neg (by omega)] at e
      rw [List.cons_append, feed, e]; exact ih _
    · rw [List.cons_append, feed, update_invalid _ d hv]; exact ih _

theorem hex_plain : ∀ (u : Bool) (n : Fin 16), Adts.hexDigit u n.val ≠ 0 ∧
    ∀ c ∈ [' ', ';', '=', '\r', '\n'], c ≠ Char.ofNat (Adts.hexDigit u n.val).toNat := by decide +kernel

theorem hex_cstr (x y : UInt8) : cstr (Adts.hexText x y) = (Adts.hexText x y).dropLast.map (fun b => Char.ofNat b.toNat) ∧
    ∀ c ∈ [' ', ';', '=', '\r', '\n'], c ∉ cstr (Adts.hexText x y) := by
  have hx := x.toNat_lt
  have hy := y.toNat_lt
  have a := hex_plain true ⟨x.toNat / 16, by omega⟩
  have b := hex_plain true ⟨x.toNat % 16, by omega⟩
  have c := hex_plain false ⟨y.toNat / 16, by omega⟩
  have d := hex_plain false ⟨y.toNat % 16, by omega⟩
  have e : cstr (Adts.hexText x y) = (Adts.hexText x y).dropLast.map (fun b => Char.ofNat b.toNat) := by
    unfold cstr Adts.hexText
    simp [List.takeWhile, a.1, b.1, c.1, d.1]
  refine ⟨e, fun z hz => ?_⟩
  rw [e]
  have l : (Adts.hexText x y).dropLast.map (fun b => Char.ofNat b.toNat) = [Char.ofNat (Adts.hexDigit true (x.toNat / 16)).toNat,
    Char.ofNat (Adts.hexDigit true (x.toNat % 16)).toNat, Char.ofNat (Adts.hexDigit false (y.toNat / 16)).toNat,
    Char.ofNat (Adts.hexDigit false (y.toNat % 16)).toNat] := rfl
  rw [l]
  simp only [List.mem_cons, List.not_mem_nil, or_false, not_or]
  exact ⟨a.2 z hz, b.2 z hz, c.2 z hz, d.2 z hz⟩

theorem aux_fits (pt : Nat) (hp : pt < 256) (mode : Str) (b : Bytes) : auxLine pt mode (some b) = .ok (fmtpText pt mode (cstr b)) := by
  have := fmtp_fits pt hp mode (cstr b)
  unfold auxLine
  exact if_neg (by omega)

/-- With room for the text and a frame that has a header, the description carries the configuration of the last such frame, in
hexadecimal (`hex_text_reads_back`, C24), with the field sizes of C38's packets. -/
theorem aac_description_repaired (cap : Nat) (hcap : 5 ≤ cap) (pt : Nat) (hp : pt < 256) (before after_ : List Bytes) (d : Bytes)
    (hd : Adts.ValidHeader d) (ha : ∀ x ∈ after_, ¬Adts.ValidHeader x) :
    ∃ t l x y, describeAac cap pt (before ++ d :: after_) = .ok t ∧ (Adts.update ⟨0, 0, 0, []⟩ d).1.extra = [x, y] ∧ lines2 t = [l] ∧
      ((after "a=fmtp:".toList l).bind (readFmtp pt)).map pairs =
        some [("streamtype".toList, "5".toList), ("profile-level-id".toList, "1".toList), ("mode".toList, "AAC-hbr".toList),
          ("sizelength".toList, "13".toList), ("indexlength".toList, "3".toList), ("indexdeltalength".toList, "3".toList),
          ("config".toList, (Adts.hexText x y).dropLast.map fun b => Char.ofNat b.toNat)] := by
  obtain ⟨c', hc'⟩ := feed_append cap hcap none before (d :: after_)
  obtain ⟨x, y, hxy, e⟩ := update_valid cap d hd
  rw [if_neg (by omega)] at e
  obtain ⟨h1, h2⟩ := hex_cstr x y
  obtain ⟨l, hl, hr⟩ := fmtp_reads pt "AAC-hbr".toList (cstr (Adts.hexText x y)) (by decide +kernel) h2
  refine ⟨_, l, x, y, ?_, hxy, hl, ?_⟩
  · unfold describeAac
    rw [hc', feed, e]
    simp only
    rw [feed_quiet cap _ after_ ha, Outcome.bind_ok, aux_fits pt hp]
  · rw [hr, h1]

/-! ## Bandwidth -/

/-- What is announced as the bandwidth of an uncompressed audio stream (a number of kilobits a second) is its number of
kilobytes a second, to the nearest. -/
theorem bandwidth_told (c : Option ACodec) (hc : c ≠ some .aac) (ch r : Nat) (h1 : 0 < r * 2 * ch) (h2 : r * 2 * ch + 500 < 2 ^ 32) :
    let w := bandwidth (.audio c ch r (some .s16))
    16 * r * ch ≤ 8 * (1000 * w + 500) ∧ 8 * (1000 * w) ≤ 16 * r * ch + 8 * 500 := by
  have e : r * 2 * ch % 2 ^ 32 = r * 2 * ch := Nat.mod_eq_of_lt (by omega)
  have e2 : (r * 2 * ch + 500) % 2 ^ 32 = r * 2 * ch + 500 := Nat.mod_eq_of_lt h2
  have w : bandwidth (.audio c ch r (some .s16)) = (r * 2 * ch + 500) / 1000 := by
    simp only [bandwidth, if_neg hc, if_true, e, e2, if_pos h1]
  have e3 : 16 * r * ch = 8 * (r * 2 * ch) := by
    rw [Nat.mul_comm r 2, Nat.mul_assoc, Nat.mul_assoc, ← Nat.mul_assoc 8 2]
  simp only [w, e3]
  omega

/-- Recorded: 48 kHz stereo needs 1536 kbit/s and 192 are announced. -/
theorem bandwidth_an_eighth : bandwidth (.audio (some .pcm) 2 48000 (some .s16)) = 192 ∧ 48000 * 16 * 2 = 1536 * 1000 := by decide +kernel

/-! ## Recorded exceptions and cases -/

/-- Only `pcmu` of 8000 Hz mono changes its name on the way. -/
theorem renamed_iff (dyn : Nat) (hd : 96 ≤ dyn) (c c' : ACodec) (ch r : Nat) (f f' : Option SampleFmt) (bw : Nat) (l : List Str)
    (h : received (section_ (rtspAudio dyn (some c) ch r f) bw l) = some (.audio c' ch r f')) : c' ≠ c ↔ c = .pcmu ∧ r = 8000 ∧ ch = 1 := by
  rw [audio_section dyn hd] at h
  cases c <;> simp only [audioReadAs, reduceCtorEq] at h
  case g711 | pcmu | pcm =>
    split at h <;> cases h <;> simp_all
  case opus | aac => cases h; simp

/-- Recorded: A-law (`G711` for the demuxer) at 8 kHz mono is announced by the number of mu-law. -/
theorem alaw_announced_as_mulaw : aCodecOfLibav "pcm_alaw".toList = some .g711 ∧
    plainSink (.audio (some .g711) 1 8000 (some .u8)) = some ⟨"audio".toList, 0, "g711".toList, 8000, 1⟩ ∧
    told (section_ ⟨"audio".toList, 0, "g711".toList, 8000, 1⟩ 64 []) = some ⟨"audio".toList, 0, "PCMU".toList, 8000, 1⟩ := by decide +kernel

/-- Recorded: samples of 8 bits are announced as `PCM`, without their format, and the receiver does not know it. -/
theorem sample_format_lost : received (section_ (plainAudio (some .pcm) 2 48000 (some .u8)) 96 []) = some (.audio .pcm 2 48000 none) ∧
    received (section_ (plainAudio (some .pcm) 2 48000 (some .flt)) 128 []) = some (.audio .pcm 2 48000 none) := by decide +kernel

/-- Recorded: a sender of 8 kHz mono `pcmu` uses number 0 while the receiver it was announced to by a request expects 97. -/
theorem plain_numbers_differ :
    Describes ⟨"audio".toList, "pcmu".toList, 64, 8000, 5004, 1⟩ (.audio (some .pcmu) 1 8000 none) ∧
    (wanted ⟨"audio".toList, "pcmu".toList, 64, 8000, 5004, 1⟩).map Media.format = some 97 ∧
    (plainSink (.audio (some .pcmu) 1 8000 none)).map Sink.pt = some 0 := by
  refine ⟨⟨rfl, by decide, by decide, by decide, .inr (.inr (.inr (.inl ⟨rfl, rfl⟩)))⟩, by decide +kernel, by decide +kernel⟩

/-- Stereo opus over plain RTP, described by a request: both sides use 97 and the receiver gets opus, 48000, 2. -/
example : Describes ⟨"audio".toList, "opus".toList, 192, 48000, 5006, 2⟩ (.audio (some .opus) 2 48000 (some .s16)) ∧
    (wanted ⟨"audio".toList, "opus".toList, 192, 48000, 5006, 2⟩).bind received = some (.audio .opus 2 48000 (some .s16)) := by
  refine ⟨⟨rfl, by decide, by decide, by decide, .inl ⟨rfl, rfl⟩⟩, by decide +kernel⟩

/-- H.264 and AAC over RTSP with the numbers 96 and 97. -/
example : (rtspSink 96 (.video (some .h264))).bind (fun k => received (section_ k 2000 [])) = some (.video .h264 true true) ∧
    (rtspSink 97 (.audio (some .aac) 2 48000 (some .fltp))).bind (fun k => received (section_ k 128 [])) = some (.audio .aac 2 48000 (some .s16)) := by
  decide +kernel

/-- CD sound has the number 10; at 48 kHz it has a dynamic one. -/
example : ownNumber (.audio (some .pcm) 2 44100 (some .s16)) = some 10 ∧ ownNumber (.audio (some .pcm) 2 48000 (some .s16)) = none := by decide

/-- A line of AAC (48 kHz stereo) with number 97, had there been room for the configuration. -/
example : describeAac 5 97 [[0xFF, 0xF1, 0x4C, 0x80, 0x01, 0x1F, 0xFC, 1, 2]] =
    .ok "a=fmtp:97 streamtype=5;profile-level-id=1;mode=AAC-hbr;sizelength=13;indexlength=3;indexdeltalength=3;config=1190\r\n".toList := by
  decide +kernel

/-- The same of eight-bit audio; of any other sample format, and of AAC, 128 is announced. -/
theorem bandwidth_of_bytes (c : Option ACodec) (hc : c ≠ some .aac) (ch r : Nat) (h1 : 0 < r * ch) (h2 : r * ch + 500 < 2 ^ 32) :
    bandwidth (.audio c ch r (some .u8)) = (r * ch + 500) / 1000 ∧
    (∀ f, f ≠ some .s16 → f ≠ some .u8 → bandwidth (.audio c ch r f) = 128) ∧ (∀ f, bandwidth (.audio (some .aac) ch r f) = 128) := by
  have e : r * 1 * ch % 2 ^ 32 = r * ch := by rw [Nat.mul_one]; exact Nat.mod_eq_of_lt (by omega)
  have e2 : (r * ch + 500) % 2 ^ 32 = r * ch + 500 := Nat.mod_eq_of_lt h2
  refine ⟨?_, ?_, ?_⟩
  · have hs : (some SampleFmt.u8 : Option SampleFmt) ≠ some .s16 := by decide
    simp only [bandwidth, if_neg hc, if_neg hs, if_true, e, if_pos h1, e2]
  · intro f a b; simp [bandwidth, hc, a, b]
  · intro f; simp [bandwidth]

example : bandwidth (.audio (some .pcmu) 1 8000 (some .u8)) = 8 := by decide +kernel

/-- The check counts the NUL: the longest number that fits has twelve digits (payload numbers have at most three). -/
example : auxLine 999999999999 [] (some [0]) = .ok (fmtpText 999999999999 [] []) ∧ auxLine 1000000000000 [] (some [0]) = .ub := by decide +kernel

end Lms.Offer
