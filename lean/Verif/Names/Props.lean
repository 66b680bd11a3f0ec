import Verif.Names.Model

/-!
# C25: names of enumerated values
-/

namespace Lms.Names

/-! ## Specification -/

/-- A parser and a printer that fit: every value is read back from its name; a string is read as a value exactly if it is
the value's name; distinct values (including "none") have distinct names. -/
structure Fits {E : Type} (parse : String → Option E) (print : Option E → String) : Prop where
  back : ∀ e, parse (print e) = e
  only : ∀ s e, parse s = some e ↔ s = print (some e)
  distinct : ∀ a b, print a = print b → a = b

theorem fits_of {E : Type} {parse : String → Option E} {print : Option E → String} (hn : parse (print none) = none)
    (only : ∀ s e, parse s = some e ↔ s = print (some e)) : Fits parse print := by
  have back : ∀ e, parse (print e) = e := by
    intro e
    cases e with
    | none => exact hn
    | some e => exact (only _ e).2 rfl
  exact ⟨back, only, fun a b h => by rw [← back a, ← back b, h]⟩

theorem ite_some {E : Type} {c : Prop} [Decidable c] {a e : E} {r : Option E} (h : (if c then some a else r) = some e) :
    (c ∧ a = e) ∨ r = some e := by
  split at h
  · exact .inl ⟨by assumption, Option.some.inj h⟩
  · exact .inr h

/-! ## C25 -/

/-- **C25**, sample formats. -/
theorem sampleFmt_names_fit : Fits sampleFmtOf sampleFmtName := by
  refine fits_of rfl ?_
  intro s e
  constructor
  · intro h
    unfold sampleFmtOf at h
    repeat
      rcases ite_some h with ⟨hh, rfl⟩ | h
      · exact hh
    cases h
  · rintro rfl
    cases e <;> decide

/-- **C25**, audio codecs. -/
theorem aCodec_names_fit : Fits aCodecOf aCodecName := by
  refine fits_of rfl ?_
  intro s e
  constructor
  · intro h
    unfold aCodecOf at h
    repeat
      rcases ite_some h with ⟨hh, rfl⟩ | h
      · exact hh
    cases h
  · rintro rfl
    cases e <;> decide

/-- **C25**, video codecs. -/
theorem vCodec_names_fit : Fits vCodecOf vCodecName := by
  refine fits_of rfl ?_
  intro s e
  constructor
  · intro h
    unfold vCodecOf at h
    repeat
      rcases ite_some h with ⟨hh, rfl⟩ | h
      · exact hh
    cases h
  · rintro rfl
    cases e <;> decide

/-- **C25**, filter types. -/
theorem filterType_names_fit : Fits filterTypeOf filterTypeName := by
  refine fits_of rfl ?_
  intro s e
  constructor
  · intro h
    unfold filterTypeOf at h
    repeat
      rcases ite_some h with ⟨hh, rfl⟩ | h
      · exact hh
    cases h
  · rintro rfl
    cases e <;> decide

/-- **C25**, roles. -/
theorem role_names_fit : Fits roleOf roleName := by
  refine fits_of rfl ?_
  intro s e
  constructor
  · intro h
    unfold roleOf at h
    repeat
      rcases ite_some h with ⟨hh, rfl⟩ | h
      · exact hh
    cases h
  · rintro rfl
    cases e <;> decide

/-- **C25**, transmission formats. -/
theorem txFormat_names_fit : Fits txFormatOf txFormatName := by
  refine fits_of rfl ?_
  intro s e
  constructor
  · intro h
    unfold txFormatOf at h
    repeat
      rcases ite_some h with ⟨hh, rfl⟩ | h
      · exact hh
    cases h
  · rintro rfl
    cases e <;> decide

/-- **C25**, pixel formats: the recorded exception.  Exactly one value is read back from its name; a string is read as a
value exactly if it is one of five names, of which only `RGB24` is a printed one. -/
theorem pixel_names_do_not_fit :
    (∀ e, pixTypeOf (pixTypeName e) = e ↔ e = some .rgb24 ∨ e = none) ∧
    (∀ a b, pixTypeName a = pixTypeName b → a = b) ∧
    (∀ s e, pixTypeOf s = some e ↔ (s, e) ∈ [("YUYV", PixType.yuyv422), ("YUV420", .yuv420p), ("RGB24", .rgb24),
      ("YUV422", .yuv422p), ("YUVJ", .yuvj420p)]) := by
  refine ⟨?_, ?_, ?_⟩
  · intro e
    rcases e with _ | e
    · decide
    · cases e <;> decide
  · intro a b
    rcases a with _ | a <;> rcases b with _ | b
    · intro _; rfl
    · cases b <;> simp [pixTypeName]
    · cases a <;> simp [pixTypeName]
    · cases a <;> cases b <;> simp [pixTypeName]
  · intro s e
    unfold pixTypeOf
    (repeat' split) <;> cases e <;> simp_all

/-- Codec names of the demultiplexing library: what a string is read as. -/
theorem libav_audio_names (s : List Char) :
    (aCodecOfLibav s = some .g711 ↔ s = "pcm_alaw".toList ∨ s = "pcm_mulaw".toList) ∧
    (aCodecOfLibav s = some .pcmu ↔ ∃ r, s = "pcm_u".toList ++ r) ∧
    (aCodecOfLibav s = some .pcm ↔ ∃ r, s = "pcm_s".toList ++ r) ∧
    (aCodecOfLibav s = some .opus ↔ s = "opus".toList) ∧ (aCodecOfLibav s = some .aac ↔ s = "aac".toList) ∧
    (aCodecOfLibav s = some .mp3 ↔ s = "mp3".toList) := by
  have pre : ∀ (t : List Char), t.length = 5 → (s.take 5 = t ↔ ∃ r, s = t ++ r) := by
    intro t ht
    constructor
    · intro h; exact ⟨s.drop 5, by rw [← h, List.take_append_drop]⟩
    · rintro ⟨r, rfl⟩; rw [← ht, List.take_left']; rfl
  have hu := pre "pcm_u".toList (by decide)
  have hs := pre "pcm_s".toList (by decide)
  rw [← hu, ← hs]
  by_cases h1 : s = "pcm_alaw".toList ∨ s = "pcm_mulaw".toList
  · rcases h1 with rfl | rfl <;> decide
  by_cases h2 : s.take 5 = "pcm_u".toList
  · have h3 : s ≠ "opus".toList := by rintro rfl; exact absurd h2 (by decide)
    have h4 : s ≠ "aac".toList := by rintro rfl; exact absurd h2 (by decide)
    have h5 : s ≠ "mp3".toList := by rintro rfl; exact absurd h2 (by decide)
    have h6 : s.take 5 ≠ "pcm_s".toList := by rw [h2]; decide
    unfold aCodecOfLibav
    simp only [if_neg h1, if_pos h2, h1, h2, h3, h4, h5, h6]
    decide
  by_cases h3 : s = "opus".toList
  · subst h3; decide
  by_cases h4 : s.take 5 = "pcm_s".toList
  · have h5 : s ≠ "aac".toList := by rintro rfl; exact absurd h4 (by decide)
    have h6 : s ≠ "mp3".toList := by rintro rfl; exact absurd h4 (by decide)
    unfold aCodecOfLibav
    simp only [if_neg h1, if_neg h2, if_neg h3, if_pos h4, h1, h2, h3, h4, h5, h6]
    decide
  by_cases h5 : s = "aac".toList
  · subst h5; decide
  by_cases h6 : s = "mp3".toList
  · subst h6; decide
  unfold aCodecOfLibav
  simp only [if_neg h1, if_neg h2, if_neg h3, if_neg h4, if_neg h5, if_neg h6, h1, h2, h3, h4, h5, h6]
  decide

/-- Two names of the demultiplexing library never mean the same video codec, and every codec has one. -/
theorem libav_video_names (s : String) (e : VCodec) :
    vCodecOfLibav s = some e ↔
      (s, e) ∈ [("h264", VCodec.h264), ("hevc", .h265), ("vp8", .vp8), ("mjpeg", .mjpeg), ("rawvideo", .raw)] := by
  unfold vCodecOfLibav
  (repeat' split) <;> cases e <;> simp_all

example : filterTypeOf "videoMixer" = some .videoMixer ∧ filterTypeOf "VideoMixer" = none ∧
    pixTypeOf (pixTypeName (some .yuv420p)) = none ∧ aCodecOfLibav "pcm_s16le".toList = some .pcm := by decide

/-- The bits of a sample of a format: a byte, a short, a float (libavutil/samplefmt.h). -/
def sampleBits : List (SampleFmt × Nat) := [(.u8, 8), (.u8p, 8), (.s16, 16), (.s16p, 16), (.flt, 32), (.fltp, 32)]

/-- A sample of every format takes the bytes its bits need, an unknown one none. -/
theorem bytes_of_sample (f : SampleFmt) : sampleBits.lookup f = some (8 * bytesPerSample (some f)) ∧ bytesPerSample none = 0 := by
  cases f <;> exact ⟨rfl, rfl⟩

end Lms.Names
