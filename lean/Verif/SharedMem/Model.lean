import Verif.Common.Outcome
import Verif.Common.Mem
import Verif.Names.Model

/-!
# Model of the shared memory exporter

src/modules/sharedMemory/SharedMemory.cpp and .hh.

Simplifications: memory is sequentially consistent at byte granularity (the code uses plain accesses without barriers); numbers
are stored by a little-endian host; the creation and removal of the segment, the copy of the frame to the filter's output
(lines 172-185) and the error messages are left out.  A frame's buffer is its data followed by whatever the buffer held before.
-/

namespace Lms.SharedMem

open Lms.Names (VCodec PixType)

/-- SharedMemory.hh:41-44. -/
abbrev SHMSIZE : Nat := 6220824
/-- src/modules/sharedMemory/SharedMemory.hh:42. -/
abbrev HEADER : Nat := 24
/-- src/modules/sharedMemory/SharedMemory.hh:43. -/
abbrev READING : UInt8 := 49
/-- src/modules/sharedMemory/SharedMemory.hh:44. -/
abbrev WRITING : UInt8 := 48

/-- The parts of a video frame that are used (src/VideoFrame.hh:34-87, src/Frame.hh:37-153). -/
structure Frame where
  codec : Option VCodec
  pix : Option PixType
  seq : Nat
  pts : Int
  w : Int
  h : Int
  data : Bytes
  rest : Nat → UInt8

/-- A byte of the frame's buffer. -/
def Frame.byte (f : Frame) (i : Nat) : UInt8 := (f.data[i]?).getD (f.rest i)

/-- SharedMemory.cpp:324-345 `getCodecFromVCodec`. -/
def codecCode : Option VCodec → Nat
  | some .h264 => 1
  | some .vp8 => 2
  | some .mjpeg => 3
  | some .raw => 4
  | _ => 0

/-- SharedMemory.cpp:347-368 `getVCodecFromCodecType`. -/
def codecOfCode (n : Nat) : Option VCodec :=
  if n = 1 then some .h264 else if n = 2 then some .vp8 else if n = 3 then some .mjpeg else if n = 4 then some .raw else none

/-- SharedMemory.cpp:370-400 `getPixelFormatFromPixType`. -/
def pixCode : Option PixType → Nat
  | some .rgb24 => 1
  | some .rgb32 => 2
  | some .yuv420p => 3
  | some .yuv422p => 4
  | some .yuv444p => 5
  | some .yuyv422 => 6
  | some .yuvj420p => 7
  | none => 0

/-- SharedMemory.cpp:402-432 `getPixTypeFromPixelFormat`. -/
def pixOfCode (n : Nat) : Option PixType :=
  if n = 1 then some .rgb24 else if n = 2 then some .rgb32 else if n = 3 then some .yuv420p else if n = 4 then some .yuv422p
  else if n = 5 then some .yuv444p else if n = 6 then some .yuyv422 else if n = 7 then some .yuvj420p else none

/-- An unsigned number as the host stores it (src/modules/sharedMemory/SharedMemory.cpp:310-314). -/
def le16 (n : Nat) : Bytes := [UInt8.ofNat n, UInt8.ofNat (n / 2 ^ 8)]
/-- src/modules/sharedMemory/SharedMemory.cpp:315-317. -/
def le32 (n : Nat) : Bytes := [UInt8.ofNat n, UInt8.ofNat (n / 2 ^ 8), UInt8.ofNat (n / 2 ^ 16), UInt8.ofNat (n / 2 ^ 24)]

/-- `memcpy(access + off, …)`, byte by byte (src/modules/sharedMemory/SharedMemory.cpp:310-317). -/
def blk : Nat → Bytes → List (Nat × UInt8)
  | _, [] => []
  | off, b :: bs => (off, b) :: blk (off + 1) bs

/-- SharedMemory.cpp:299-318 `writeFramePayload`. -/
def header (f : Frame) : List (Nat × UInt8) :=
  blk 2 (le16 (f.seq % 2 ^ 16)) ++ blk 4 (le16 (pixCode f.pix)) ++ blk 6 (le16 (codecCode f.codec)) ++
  blk 8 (le16 (f.h % 2 ^ 16).toNat) ++ blk 10 (le16 (f.w % 2 ^ 16).toNat) ++
  blk 12 (le32 ((f.pts.tdiv 1000000) % 2 ^ 32).toNat) ++ blk 16 (le32 ((f.pts.tmod 1000000) % 2 ^ 32).toNat) ++
  blk 20 (le32 (f.data.length % 2 ^ 32))

/-- SharedMemory.cpp:201-204, the end of `writeSharedMemoryH264`. -/
def bodyH264 (d : Bytes) : List (Nat × UInt8) :=
  (0, WRITING) :: (blk 20 (le32 (d.length % 2 ^ 32)) ++ blk HEADER d ++ [(0, READING)])

/-- SharedMemory.cpp:292-294, `writeSharedMemoryRAW`. -/
def bodyRaw (d : Bytes) : List (Nat × UInt8) := (0, WRITING) :: (blk HEADER d ++ [(0, READING)])

/-- The exporter's variables: `newFrame`, `frameData`, whether `frameData` owns storage, `seqNum`.
(src/modules/sharedMemory/SharedMemory.hh:138-141.) -/
structure Exp where
  newFrame : Bool
  data : Bytes
  stored : Bool
  seq : Nat

/-- SharedMemory.cpp:55, 93. -/
def Exp.init : Exp := ⟨false, [], false, 1⟩

/-- SharedMemory.cpp:237-249 `detectStartCode`. -/
def startCode (f : Frame) : Nat :=
  if f.byte 0 = 0 ∧ f.byte 1 = 0 ∧ f.byte 2 = 1 then 3
  else if f.byte 0 = 0 ∧ f.byte 1 = 0 ∧ f.byte 2 = 0 ∧ f.byte 3 = 1 then 4
  else 0

/-- SharedMemory.cpp:255: the type of a unit. -/
def nalType (f : Frame) : Nat := (f.byte (startCode f)).toNat % 32

/-- SharedMemory.cpp:208-287 `parseNal` with `appendNalToFrame`. -/
def parseNal (e : Exp) (f : Frame) : Outcome Exp :=
  if startCode f = 0 then .ok e                                                                -- 216-219
  else if f.data.length = 0 then .ok e                                                         -- 224-227
  else if nalType f = 9 then .ok { e with newFrame := true }                                   -- 267-269
  else if nalType f = 1 ∨ nalType f = 5 ∨ nalType f = 6 ∨ nalType f = 7 ∨ nalType f = 8 then
    if f.data.length < startCode f then .ub                                                    -- 283: range ends before it starts
    else .ok { e with newFrame := false, data := e.data ++ [0, 0, 0, 1] ++ f.data.drop (startCode f), stored := true }
  else .ok e                                                                                   -- 276-278

/-- A picture offered to the peer: the frame whose fields go to the header, and the bytes. -/
structure Offer where
  frame : Frame
  data : Bytes

/-- SharedMemory.cpp:113-149 `doProcessFrame`: what is written, what is thereby offered, and the new variables. -/
def process (e : Exp) (f : Frame) (writable : Bool) : Outcome (List (Nat × UInt8) × Option Offer × Exp) :=
  if f.codec = some .h264 then
    if f.seq ≠ e.seq ∧ e.newFrame = true then
      (parseNal { e with seq := f.seq % 2 ^ 16, data := [] } f).bind fun e' =>
        if writable = false then Outcome.ok ([], none, e')                                     -- 118-127
        else if e.data = [] ∧ e.stored = false then Outcome.ok (header f, none, e')            -- 196-199
        else if HEADER + e.data.length > SHMSIZE then Outcome.ub                               -- 203
        else Outcome.ok (header f ++ bodyH264 e.data, some ⟨f, e.data⟩, e')                    -- 130-138
    else (parseNal e f).bind fun e' => Outcome.ok ([], none, e')
  else if f.codec = some .raw then
    if writable = false then .ok ([], none, e)
    else if HEADER + f.data.length > SHMSIZE then .ub                                          -- 293
    else .ok (header f ++ bodyRaw f.data, some ⟨f, f.data⟩, e)                                 -- 139-142
  else .ok ([], none, e)                                                                       -- 143-145

/-- One byte written. -/
def set (m : Nat → UInt8) (w : Nat × UInt8) : Nat → UInt8 := fun i => if i = w.1 then w.2 else m i

/-- Exporter and peer.  `offers` and `taken` record what was offered and, for each time the peer took the area, what it read. -/
structure Sys where
  mem : Nat → UInt8
  pend : List (Nat × UInt8)
  exp : Exp
  reading : Bool
  log : List (Nat × UInt8)
  offers : List Offer
  taken : List (List (Nat × UInt8))

/-- SharedMemory.cpp:83-93: the area zeroed, then handed to the exporter. -/
def Sys.init : Sys := ⟨fun i => if i = 0 then WRITING else 0, [], Exp.init, false, [], [], []⟩

inductive Act where
  /-- a frame comes in; the exporter looks whether it may write (SharedMemory.cpp:113, 118, 320-322) -/
  | arrive (f : Frame)
  /-- the exporter writes its next byte -/
  | write
  /-- the peer looks whether it may read -/
  | look
  /-- the peer reads a byte -/
  | read (off : Nat)
  /-- the peer hands the area back -/
  | release

/-- One step of the two processes; a step that a process cannot take changes nothing.
Calls `READING` (src/modules/sharedMemory/SharedMemory.hh:43), `WRITING` (src/modules/sharedMemory/SharedMemory.hh:44),
`process` (SharedMemory.cpp:113-149). -/
def step (s : Sys) : Act → Outcome Sys
  | .arrive f =>
    if s.pend ≠ [] then .ok s
    else (process s.exp f (s.mem 0 == WRITING)).bind fun r =>
      Outcome.ok { s with pend := r.1, exp := r.2.2, offers := s.offers ++ r.2.1.toList }
  | .write =>
    match s.pend with
    | [] => .ok s
    | w :: p => .ok { s with mem := set s.mem w, pend := p }
  | .look => if s.reading = false ∧ s.mem 0 = READING then .ok { s with reading := true, log := [] } else .ok s
  | .read off => if s.reading then .ok { s with log := s.log ++ [(off, s.mem off)] } else .ok s
  | .release =>
    if s.reading then .ok { s with mem := set s.mem (0, WRITING), reading := false, log := [], taken := s.taken ++ [s.log] } else .ok s

def run : Sys → List Act → Outcome Sys
  | s, [] => .ok s
  | s, a :: l => (step s a).bind fun s' => run s' l

end Lms.SharedMem
