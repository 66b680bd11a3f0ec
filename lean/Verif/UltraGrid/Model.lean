import Verif.Common.Outcome
import Verif.Common.Bytes

/-!
# Model of the payload formats written by the RTP sinks

src/modules/transmitter/UltraGridVideoRTPSink.cpp (the fragmenter), UltraGridAudioRTPSink.cpp and CustomMPEG4GenericRTPSink.cpp
(the payload headers).

Simplifications: the frame rate enters as its rounded value and the flag of the 1.001 rates; the RTP header itself, the
timestamps and the sending are the library's.
-/

namespace Lms.UltraGrid

/-- UltraGridVideoRTPSink.hh:34-35. -/
abbrev HDR : Nat := 24
/-- src/modules/transmitter/UltraGridVideoRTPSink.hh:35. -/
abbrev INBUF : Nat := 6220800

/-- UltraGridVideoRTPSink.cpp:68-82: the fragmenter's variables; `data` is the valid part of the input buffer. -/
structure St where
  maxOut : Nat
  data : Bytes
  off : Nat
  buf : Nat
  tile : Nat
  width : Nat
  height : Nat
  fps : Nat
  fd : Bool
  words : List Nat

/-- A payload handed to the RTP sink, with `fLastFragmentCompletedFrameUnit`. -/
structure Packet where
  bytes : Bytes
  last : Bool
  deriving DecidableEq

/-- UltraGridVideoRTPSink.cpp:321-328 `loadPayloadHeader` (24 is also the largest shift). -/
def load (words : List Nat) : Bytes :=
  words.flatMap fun w => [UInt8.ofNat (w >>> 24), UInt8.ofNat (w >>> 16), UInt8.ofNat (w >>> 8), UInt8.ofNat (w >>> 0)]

/-- UltraGridVideoRTPSink.cpp:235-276: the words of the first packet. -/
def firstWords (s : St) : List Nat :=
  [ ((s.tile <<< 22) % 2 ^ 32) ||| (0x3fffff &&& s.buf),                                       -- 271-273
    0,                                                                                         -- 276
    s.data.length,                                                                             -- 268
    ((s.width <<< 16) % 2 ^ 32) ||| s.height,                                                  -- 235
    0x41564331,                                                                                -- 238
    ((s.fps <<< 19) % 2 ^ 32) ||| (1 <<< 15) ||| ((if s.fd then 1 else 0) <<< 14) ]            -- 241-255

/-- UltraGridVideoRTPSink.cpp:311-315. -/
def advance (s : St) (n : Nat) : St :=
  if s.off + n = s.data.length then { s with data := [], off := 0, buf := s.buf + 1 } else { s with off := s.off + n }

/-- UltraGridVideoRTPSink.cpp:223-318 `doGetNextFrame` with data in the buffer; `avail` is the room the sink offers. -/
def next (s : St) (avail : Nat) : Outcome (Packet × St) :=
  let mx := min avail s.maxOut                                                                 -- 224-229
  if mx < HDR then .ub                                                                         -- 283, 305: sizes wrap
  else if s.off = 0 then
    if s.data.length + HDR > INBUF ∨ HDR + (s.data.length + HDR) > avail then .ub              -- 280
    else
      let n := min (s.data.length + HDR) mx                                                    -- 258-264
      .ok (⟨load (firstWords s) ++ s.data.take (n - HDR), decide (s.data.length + HDR ≤ mx)⟩,
        advance { s with words := firstWords s } (n - HDR))
  else
    let n := min (HDR + (s.data.length - s.off)) mx                                            -- 288-297
    .ok (⟨load (s.words.set 1 s.off) ++ (s.data.drop s.off).take (n - HDR), decide (HDR + (s.data.length - s.off) ≤ mx)⟩,
      advance { s with words := s.words.set 1 s.off } (n - HDR))

/-- The sink asking for payloads until the buffer is empty (UltraGridVideoRTPSink.cpp:217); the `i`-th time it offers `avail i`. -/
def sendFrame (avail : Nat → Nat) : Nat → Nat → St → Outcome (List Packet × St)
  | 0, _, s => if s.data = [] then .ok ([], s) else .hang
  | fuel + 1, i, s =>
    if s.data = [] then .ok ([], s)
    else (next s (avail i)).bind fun r =>
      (sendFrame avail fuel (i + 1) r.2).bind fun r' => Outcome.ok (r.1 :: r'.1, r'.2)

/-- UltraGridVideoRTPSink.cpp:339-349 `afterGettingFrame1`. -/
def give (s : St) (frame : Bytes) : St := { s with data := frame }

/-! ## Audio -/

/-- UltraGridAudioRTPSink.cpp:37-67: the sink's variables (`bps` 0 and `tag` 0 when unknown). -/
structure Audio where
  channel : Nat
  buf : Nat
  bps : Nat
  rate : Nat
  tag : Nat

/-- UltraGridAudioRTPSink.cpp:120-128: neighbouring bytes swapped; an odd last byte is swapped with the one behind it. -/
def swap : Bytes → Bytes
  | a :: b :: l => b :: a :: swap l
  | l => l

/-- UltraGridAudioRTPSink.cpp:85-134 `doSpecialFrameHandling` for a whole frame: header, marker, payload.  A fragment aborts
(109).  An odd frame of 16 bit PCM is taken as undefined: the byte behind it is touched (121-126). -/
def audioPacket (s : Audio) (fragOff : Nat) (frame : Bytes) (remaining : Nat) : Outcome ((Bytes × Bool × Bytes) × Audio) :=
  if fragOff ≠ 0 then .ub
  else if s.tag = 1 ∧ s.bps = 16 ∧ frame.length % 2 = 1 then .ub
  else .ok
    ((be32 ((s.channel <<< 22) ||| s.buf) ++ be32 fragOff ++ be32 frame.length ++ be32 ((s.bps <<< 26) ||| s.rate) ++ be32 s.tag,
      remaining == 0, if s.tag = 1 ∧ s.bps = 16 then swap frame else frame),
     if remaining = 0 then { s with buf := (s.buf + 1) &&& 0x3fffff } else s)

/-! ## AAC -/

/-- CustomMPEG4GenericRTPSink.cpp:94-103: header bytes and marker of a fragment. -/
def auHeader (fragOff bytes remaining : Nat) : Bytes × Bool :=
  let full := (fragOff + bytes + remaining) % 2 ^ 32
  ([0, 16, UInt8.ofNat (full >>> 5), UInt8.ofNat ((full &&& 0x1f) <<< 3)], remaining == 0)

end Lms.UltraGrid
