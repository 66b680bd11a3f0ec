import Verif.Common.Outcome
import Verif.Common.Mem

/-!
# ADTS headers and AAC decoder configuration
-/

namespace Lms.Adts

open Lms

/-- src/modules/dasher/DashAudioSegmenter.hh:27-29, src/modules/transmitter/ADTSStreamParser.cpp:27-29. -/
abbrev HEADER : Nat := 7

/-- src/modules/dasher/DashAudioSegmenter.cpp:202-205, src/modules/transmitter/ADTSStreamParser.cpp:107-110
`getProfileFromADTSHeader`. -/
def profile (b2 : UInt8) : UInt8 := (b2 >>> 6) &&& (3 : UInt8)

/-- DashAudioSegmenter.cpp:207-210, ADTSStreamParser.cpp:112-115 `getSamplingFreqIdxFromADTSHeader`. -/
def freqIdx (b2 : UInt8) : UInt8 := (b2 >>> 2) &&& (0x0F : UInt8)

/-- DashAudioSegmenter.cpp:212-215, ADTSStreamParser.cpp:117-120 `getChannelConfFromADTSHeader`. -/
def chanConf (b2 b3 : UInt8) : UInt8 := (b2 &&& (1 : UInt8)) ||| ((b3 >>> 6) &&& (3 : UInt8))

/-- DashAudioSegmenter.cpp:217-225, ADTSStreamParser.cpp:122-130: the two bytes, each computed as `int` and truncated. -/
def configBytes (aot idx chan : UInt8) : Bytes := [(aot <<< 3) ||| (idx >>> 1), (idx <<< 7) ||| (chan <<< 3)]

/-- src/modules/dasher/DashAudioSegmenter.hh: the members `updateExtradata` uses (the three fields start uninitialised:
any value) (src/modules/dasher/DashAudioSegmenter.hh:88-91). -/
structure State where
  prof : UInt8
  idx : UInt8
  chan : UInt8
  extra : Bytes

/-- src/modules/dasher/DashAudioSegmenter.cpp:168-200 `updateExtradata` (and :37-60 `manageFrame` after a successful
setup): `d` is the frame's data. -/
def update (s : State) (d : Bytes) : State × Bool :=
  match d with
  | b0 :: b1 :: b2 :: b3 :: _ :: _ :: _ :: _ =>
    if b0 ≠ 0xFF ∨ b1 ≠ 0xF1 then (s, false)
    else if s.prof = profile b2 ∧ s.idx = freqIdx b2 ∧ s.chan = chanConf b2 b3 ∧ s.extra ≠ [] then (s, true)
    else
      (⟨profile b2, freqIdx b2, chanConf b2 b3, configBytes (profile b2 + 1) (freqIdx b2) (chanConf b2 b3)⟩, true)
  | _ => (s, false)

/-- src/modules/dasher/DashAudioSegmenter.cpp:88-114 `generateInitSegment`, as far as `extradata` is concerned (the
handler is C20's): the configuration handed to the writer, which is then forgotten. -/
def takeInit (s : State) : State × Option Bytes :=
  if s.extra = [] then (s, none) else ({ s with extra := [] }, some s.extra)

/-- src/modules/dasher/DashAudioSegmenter.cpp:144-145 in `appendFrameToDashSegment`: the sample without its header, with
the length the code computes (unsigned). -/
def samplePart (d : Bytes) : Bytes × Nat := (d.drop HEADER, (d.length + 2 ^ 32 - HEADER) % 2 ^ 32)

/-- One hexadecimal digit of `%02X` / `%02x` (src/modules/transmitter/ADTSStreamParser.cpp:97). -/
def hexDigit (upper : Bool) (n : Nat) : UInt8 :=
  if n < 10 then UInt8.ofNat (48 + n) else UInt8.ofNat ((if upper then 55 else 87) + n)

/-- `sprintf(dst, "%02X%02x", a, b)`: four digits and a NUL (src/modules/transmitter/ADTSStreamParser.cpp:97). -/
def hexText (a b : UInt8) : Bytes :=
  [hexDigit true (a.toNat / 16), hexDigit true (a.toNat % 16), hexDigit false (b.toNat / 16), hexDigit false (b.toNat % 16), 0]

/-- src/modules/transmitter/ADTSStreamParser.cpp:75-105 `updateConfigString`; `cap` is the size of `configString`
(ADTSStreamParser.hh:69: 2). -/
def updateConfig (cap : Nat) (d : Bytes) : Outcome (Option Bytes) :=
  match d with
  | b0 :: b1 :: b2 :: b3 :: _ :: _ :: _ :: _ =>
    if b0 ≠ 0xFF ∨ b1 ≠ 0xF1 then .ok none
    else
      match configBytes (profile b2 + 1) (freqIdx b2) (chanConf b2 b3) with
      | [x, y] =>
        let t := hexText x y
        if cap < t.length then .ub else .ok (some t)
      | _ => .ok none
  | _ => .ok none

/-- src/modules/transmitter/ADTSStreamParser.hh:69. -/
abbrev CONFIG_CAP : Nat := 2

end Lms.Adts
