import Mathlib.Data.List.Induction
import Verif.Names.Props
import Verif.V4L.Model

/-!
# What a capture device says it delivers (src/modules/V4LCapture/V4LCapture.cpp)

The format asked for by name, the format the driver settles on (any), the description the filters behind read, the name reported, and
which connections can be made.  The device itself is the subject of `Verif.V4L.Model`; here a history is the list of formats the driver
settled on, one for each initialisation that came as far as V4LCapture.cpp:416.
-/

namespace Lms.V4L

open Lms Lms.Names

/-- V4LCapture.cpp:590-607 `pixelType`. -/
def pixelType : Fourcc → Option PixType
  | .yuyv => some .yuyv422
  | .yuv420 => some .yuv420p
  | .rgb24 => some .rgb24
  | _ => none

/-- V4LCapture.cpp:609-623 `codecType`. -/
def codecType : Fourcc → Option VCodec
  | .h264 => some .h264
  | .mjpeg => some .mjpeg
  | _ => none

/-- V4LCapture.cpp:625-659 `getFormatFromString`. -/
def formatOf (s : String) : Fourcc :=
  match pixTypeOf s with
  | some .yuyv422 => .yuyv
  | some .yuv420p => .yuv420
  | some .yuv422p => .yuv422p
  | some .rgb24 => .rgb24
  | _ => match vCodecOf s with
    | some .h264 => .h264
    | some .mjpeg => .mjpeg
    | _ => .yuyv

/-- `oStreamInfo` as far as used: V4LCapture.cpp:44-46, src/StreamInfo.hh:46-48. -/
structure Told where
  codec : Option VCodec
  pix : Option PixType
  deriving DecidableEq

/-- V4LCapture.cpp:44-46. -/
def Told.init : Told := ⟨some .raw, none⟩

/-- V4LCapture.cpp:416-419: the codec is only written when the pixel format is unknown. -/
def Told.settle (t : Told) (f : Fourcc) : Told :=
  { pix := pixelType f, codec := if pixelType f = none then codecType f else t.codec }

/-- V4LCapture.cpp:416-419, for one initialisation after another. -/
def told (fs : List Fourcc) : Told := fs.foldl Told.settle Told.init

/-- V4LCapture.cpp:176-183 `allocQueue` with src/AVFramedQueue.cpp:144-176 `setup`: can a connection be made? -/
def Told.connects (t : Told) : Bool :=
  match t.codec with
  | some .h264 => true
  | some .h265 => true
  | some .vp8 => true
  | some .raw => t.pix.isSome
  | _ => false

/-- V4LCapture.cpp:542-548: the name of the format in the state of a capturing device. -/
def reported (f : Fourcc) : String :=
  if pixelType f ≠ none then pixTypeName (pixelType f)
  else if codecType f ≠ none then vCodecName (codecType f)
  else "unknown format"

/-! ## What is meant -/

/-- Uncompressed formats the filters behind know, with their pixel formats. -/
def rawFormats : List (Fourcc × PixType) := [(.yuyv, .yuyv422), (.yuv420, .yuv420p), (.rgb24, .rgb24)]

def IsRaw (f : Fourcc) : Prop := ∃ p, (f, p) ∈ rawFormats

/-- The description fits what the device delivers. -/
def Right (t : Told) (f : Fourcc) : Prop :=
  (∃ p, (f, p) ∈ rawFormats ∧ t = ⟨some .raw, some p⟩) ∨ (f = .h264 ∧ t = ⟨some .h264, none⟩) ∨ (f = .mjpeg ∧ t = ⟨some .mjpeg, none⟩) ∨
    ((f = .yuv422p ∨ f = .other) ∧ t = ⟨none, none⟩)

theorem isRaw_iff (f : Fourcc) : IsRaw f ↔ pixelType f ≠ none := by
  unfold IsRaw
  cases f <;> simp [rawFormats, pixelType]

theorem told_snoc (fs : List Fourcc) (f : Fourcc) : told (fs ++ [f]) = (told fs).settle f := by
  unfold told
  rw [List.foldl_append]
  rfl

theorem codecType_ne_raw (f : Fourcc) : codecType f ≠ some .raw := by cases f <;> simp [codecType]

theorem codec_raw_iff (fs : List Fourcc) : (told fs).codec = some .raw ↔ ∀ g ∈ fs, IsRaw g := by
  induction fs using List.reverseRecOn with
  | nil => exact ⟨fun _ g h => (by cases h), fun _ => rfl⟩
  | append_singleton fs f ih =>
    rw [told_snoc]
    unfold Told.settle
    simp only
    by_cases h : pixelType f = none
    · rw [if_pos h]
      exact ⟨fun c => absurd c (codecType_ne_raw f), fun c => absurd h ((isRaw_iff f).1 (c f (by simp)))⟩
    · rw [if_neg h, ih]
      constructor
      · intro c g hg
        rcases List.mem_append.1 hg with hg | hg
        · exact c g hg
        · rw [List.mem_singleton.1 hg]; exact (isRaw_iff f).2 h
      · exact fun c g hg => c g (List.mem_append_left _ hg)

/-! ## The theorems -/

/-- **C98.** The description fits the format the driver settled on exactly if that is compressed (or unknown), or all those it settled on
before were uncompressed too. -/
theorem described_right_iff (fs : List Fourcc) (f : Fourcc) : Right (told (fs ++ [f])) f ↔ (IsRaw f → ∀ g ∈ fs, IsRaw g) := by
  rw [← codec_raw_iff, told_snoc, isRaw_iff]
  cases f <;> simp [Right, rawFormats, Told.settle, pixelType, codecType]

/-- **C98.** A device whose description fits can be connected exactly if it delivers H.264 or an uncompressed format that is known. -/
theorem connects_iff (t : Told) (f : Fourcc) (h : Right t f) : t.connects = true ↔ IsRaw f ∨ f = .h264 := by
  rw [isRaw_iff]
  cases f <;> simp [Right, rawFormats] at h <;> subst h <;> simp [Told.connects, pixelType]

/-- **C98.** A device that came from H.264 to an uncompressed format is still announced as H.264, however often that happens, and connected so. -/
theorem stale_codec (fs gs : List Fourcc) (f : Fourcc) (hg : ∀ g ∈ gs, IsRaw g) (hf : IsRaw f) :
    (told (fs ++ [.h264] ++ gs ++ [f])).codec = some .h264 ∧ (told (fs ++ [.h264] ++ gs ++ [f])).connects = true ∧
    ¬ Right (told (fs ++ [.h264] ++ gs ++ [f])) f := by
  have hc : (told (fs ++ [.h264] ++ gs)).codec = some .h264 := by
    induction gs using List.reverseRecOn with
    | nil => rw [List.append_nil, told_snoc]; rfl
    | append_singleton gs g ih =>
      rw [← List.append_assoc, told_snoc]
      unfold Told.settle
      simp only
      rw [if_neg ((isRaw_iff g).1 (hg g (by simp)))]
      exact ih fun x hx => hg x (List.mem_append_left _ hx)
  have hc' : (told (fs ++ [.h264] ++ gs ++ [f])).codec = some .h264 := by
    rw [told_snoc]
    unfold Told.settle
    simp only
    rw [if_neg ((isRaw_iff f).1 hf)]
    exact hc
  refine ⟨hc', by unfold Told.connects; rw [hc'], fun hr => ?_⟩
  have := (described_right_iff _ f).1 hr hf .h264 (by simp)
  rw [isRaw_iff] at this
  exact this rfl

/-- **C98.** The names that ask for a format; every other asks for YUYV. -/
theorem asked_format (s : String) (f : Fourcc) : formatOf s = f ↔
    (s, f) ∈ [("YUV420", Fourcc.yuv420), ("YUV422", .yuv422p), ("RGB24", .rgb24), ("H264", .h264), ("MJPEG", .mjpeg)] ∨
    (f = .yuyv ∧ s ∉ ["YUV420", "YUV422", "RGB24", "H264", "MJPEG"]) := by
  unfold formatOf pixTypeOf vCodecOf
  by_cases h1 : s = "YUYV"
  · subst h1; cases f <;> simp
  by_cases h2 : s = "YUV420"
  · subst h2; cases f <;> simp
  by_cases h3 : s = "RGB24"
  · subst h3; cases f <;> simp
  by_cases h4 : s = "YUV422"
  · subst h4; cases f <;> simp
  by_cases h5 : s = "H264"
  · subst h5; cases f <;> simp
  by_cases h6 : s = "MJPEG"
  · subst h6; cases f <;> simp
  by_cases h7 : s = "YUVJ"
  · subst h7; cases f <;> simp
  by_cases h8 : s = "H265"
  · subst h8; cases f <;> simp
  by_cases h9 : s = "VP8"
  · subst h9; cases f <;> simp
  by_cases h10 : s = "RAW"
  · subst h10; cases f <;> simp
  cases f <;> simp [h1, h2, h3, h4, h5, h6, h7, h8, h9, h10]

/-- **C98.** The name reported asks for the same format again exactly for YUYV, RGB24, H.264 and MJPEG. -/
theorem reported_asks_again_iff (f : Fourcc) : formatOf (reported f) = f ↔ f ∈ [Fourcc.yuyv, .rgb24, .h264, .mjpeg] := by
  cases f <;> decide

example : reported .yuv420 = "YUV420P" ∧ formatOf "YUV420P" = .yuyv ∧ formatOf "YUV420" = .yuv420 ∧ told [.yuyv, .yuv420] = ⟨some .raw, some .yuv420p⟩ ∧
    told [.h264, .yuyv] = ⟨some .h264, some .yuyv422⟩ ∧ (told [.mjpeg]).connects = false ∧ (told [formatOf "YUV422"]).connects = false := by decide

example : IsRaw .yuyv ∧ Right (told [.yuyv]) .yuyv ∧ Right (told [.yuyv, .h264]) .h264 :=
  ⟨⟨.yuyv422, by decide⟩, (described_right_iff [] .yuyv).2 (fun _ g h => (by cases h)),
    (described_right_iff [.yuyv] .h264).2 (fun h => absurd rfl ((isRaw_iff .h264).1 h))⟩

/-- Before any format is settled on the queue of a connection could not be made. -/
example : (told []).connects = false := rfl

end Lms.V4L
