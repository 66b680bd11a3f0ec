import Verif.Offer.Model

/-!
# Specification: streams announced and understood
-/

namespace Lms.Offer
open Lms.Names Lms.Sdp

/-- The static payload numbers of RFC 3551 (tables 4 and 5) that this program uses: encoding name, clock and channels. -/
def rfc3551 : List (Nat × String × Nat × Nat) :=
  [(0, "PCMU", 8000, 1), (10, "L16", 44100, 2), (11, "L16", 44100, 1), (14, "MPA", 90000, 1), (33, "MP2T", 90000, 1)]

/-- A received stream is the sent one: same kind, codec, channels and rate (`pcmu` and `g711` are told apart by name only). -/
def Same : Stream → Info → Prop
  | .video c, .video c' _ _ => c = some c'
  | .audio c ch r _, .audio c' ch' r' _ => ch' = ch ∧ r' = r ∧ (c = some c' ∨ (c = some .pcmu ∧ c' = .g711))
  | _, _ => False

/-- The streams a receiver understands when they are announced. -/
def Understood : Stream → Prop
  | .video c => c = some .h264 ∨ c = some .h265 ∨ c = some .vp8
  | .audio c ch r f => c = some .opus ∨ c = some .aac ∨ c = some .pcmu ∨ (c = some .pcm ∧ f ≠ some .s16) ∨
      (c = some .g711 ∧ r = 8000 ∧ ch = 1)

/-- Streams for which RFC 3551 has a number of their own. -/
def ownNumber : Stream → Option Nat
  | .audio (some .pcm) 2 44100 (some .s16) => some 10
  | .audio (some .pcm) 1 44100 (some .s16) => some 11
  | .audio (some .pcmu) 1 8000 _ => some 0
  | .audio (some .g711) 1 8000 _ => some 0
  | .audio (some .mp3) _ _ _ => some 14
  | _ => none

/-- The clock of a stream over RTP: 90 kHz for video and MPEG audio, the sampling rate for other audio. -/
def clockOf : Stream → Nat
  | .video _ => 90000
  | .audio (some .mp3) _ _ _ => 90000
  | .audio _ _ r _ => r

/-- A request for a plain RTP stream that describes a sent stream: its medium, the name of its codec in such requests, its
clock and channels. -/
def Describes (q : Sub) : Stream → Prop
  | .video c => q.medium = "video".toList ∧ c = some .h264 ∧ q.codec = "H264".toList
  | .audio c ch r _ => q.medium = "audio".toList ∧ u32 q.freq = r ∧ u32 q.channels = ch ∧ 1 ≤ ch ∧
      ((c = some .opus ∧ q.codec = "opus".toList) ∨ (c = some .aac ∧ q.codec = "MPEG4-GENERIC".toList) ∨
       (c = some .pcm ∧ q.codec = "pcm".toList) ∨ (c = some .pcmu ∧ q.codec = "pcmu".toList) ∨
       (c = some .mp3 ∧ q.codec = "mp3".toList))

/-- `name=value` pairs of a format line. -/
def pairs (s : Str) : List (Str × Str) := (cut ';' s).filterMap fun p => match cut '=' p with
  | [n, v] => some (n, v)
  | _ => none

end Lms.Offer
