import Verif.FrameQueue.Lemmas

/-!
# Model of `SlicedVideoFrameQueue` (src/SlicedVideoFrameQueue.cpp) and `SlicedVideoFrame`
(src/VideoFrame.cpp:105-141)

The frames of the ring are the interleaved frames the reader gets; the picture being built by the
encoder lives beside the ring.  A `Slice` of the code is a pointer into the encoder's output with a
length; it is modelled by the bytes pointed to (the encoder's output buffer stays valid until its
next call, which comes after the commit).
-/

namespace Lms.SlicedQueue
open Lms.FrameQueue

/-- Metadata of a frame: presentation, decode and origin time, sequence number, width, height
(src/Frame.hh:148-151, src/VideoFrame.hh:61). -/
structure Meta where
  pts : Int
  dts : Int
  org : Int
  seq : Nat
  width : Nat
  height : Nat
  deriving DecidableEq, Repr

/-- A coded frame as the reader sees it: `getDataBuf()[0 .. getLength())` and the metadata.
(src/VideoFrame.hh:65-87, src/Frame.hh:37-153.) -/
structure Coded where
  data : List UInt8
  info : Meta
  deriving DecidableEq, Repr

/-- src/VideoFrame.hh:32 `MAX_SLICES`. -/
abbrev MAX_SLICES : Nat := 16

/-- src/SlicedVideoFrameQueue.hh:76 (`inputFrame`) with src/VideoFrame.hh:129-131 (`pointedSlices`,
`pointedSliceNum`) beside the inherited ring; `maxSlice` is the size of each frame buffer
(src/SlicedVideoFrameQueue.cpp:118-124). -/
structure SQ where
  ring : Ring Coded
  slices : List (List UInt8)
  inMeta : Meta
  maxSlice : Nat

/-- src/SlicedVideoFrameQueue.cpp:28-46 `createNew` and 110-127 `setup`: `none` is NULL.  The
content of the fresh buffers and the metadata of the fresh input frame are parameters. -/
def SQ.create (maxFrames maxSlice : Nat) (d : Nat → Coded) (m : Meta) : Option SQ :=
  if maxFrames = 0 ∨ maxSlice = 0 then none
  else some { ring := Ring.create maxFrames d, slices := [], inMeta := m, maxSlice := maxSlice }

/-- src/VideoFrame.cpp:130-141 `setSlice`. -/
def SQ.setSlice (s : SQ) (b : List UInt8) : SQ × Bool :=
  if s.slices.length ≥ MAX_SLICES then (s, false)
  else ({ s with slices := s.slices ++ [b] }, true)

/-- src/SlicedVideoFrameQueue.cpp:105-108 `innerAddFrame`: no test for a full queue. -/
def innerAddFrame (r : Ring Coded) : Outcome (Ring Coded) :=
  if r.max = 0 then .ub else .ok { r with rear := (r.rear + 1) % r.max }

/-- One turn of the loop in src/SlicedVideoFrameQueue.cpp:134-150: get a slot
(`innerGetRear`/`innerForceGetRear`, lines 86-103, which repeat the code of
`AVFramedQueue::getRear`/`forceGetRear`, hence `writerSlot true`), copy the slice and the
metadata, advance.  `memcpy` of more bytes than the buffer holds is undefined behaviour. -/
def pushSlice (maxSlice : Nat) (m : Meta) (r : Ring Coded) (b : List UInt8) :
    Outcome (Ring Coded) :=
  (r.writerSlot true).bind fun (r', slot) =>
    match slot with
    | none => .ub
    | some i =>
      if b.length > maxSlice then .ub
      else innerAddFrame (r'.write i { data := b, info := m })

/-- src/SlicedVideoFrameQueue.cpp:129-151 `pushBackSliceGroup`. -/
def pushBackSliceGroup (maxSlice : Nat) (m : Meta) :
    Ring Coded → List (List UInt8) → Outcome (Ring Coded)
  | r, [] => .ok r
  | r, b :: bs => (pushSlice maxSlice m r b).bind fun r' => pushBackSliceGroup maxSlice m r' bs

/-- src/SlicedVideoFrameQueue.cpp:67-79 `addFrame` (the returned reader ids are constant). -/
def SQ.addFrame (s : SQ) : Outcome SQ :=
  (pushBackSliceGroup s.maxSlice s.inMeta s.ring s.slices).bind fun r =>
    .ok { s with ring := r, slices := [] }

/-- What the encoder and the reader do with the queue.
* `setSlice b`, `setMeta m`: the encoder describes the picture (src/modules/videoEncoder/
  VideoEncoderX264or5.cpp:47-110);
* `commit`: the picture is complete, src/Filter.cpp:201-217 calls `addFrame`;
* `giveUp`: the encoder failed, the frame is not marked consumed, src/Filter.cpp:207 skips it:
  nothing happens to the queue;
* `room`: `getRear() != NULL`, src/SlicedVideoFrameQueue.cpp:58-65;
* `take`, `old`, `count`: reader side, inherited from `AVFramedQueue`. -/
inductive Op where
  | setSlice (b : List UInt8) | setMeta (m : Meta) | commit | giveUp | room | take | old | count
  deriving DecidableEq, Repr

inductive Out where
  | unit
  | bool (b : Bool)
  | ring (o : FrameQueue.Out Coded)
  deriving DecidableEq, Repr

def SQ.onRing (s : SQ) (op : FrameQueue.Op Coded) : Outcome (SQ × Out) :=
  (FrameQueue.step s.ring op).bind fun (r, o) => .ok ({ s with ring := r }, .ring o)

/-- Calls `SQ.setSlice` (src/VideoFrame.cpp:130-141), `SQ.addFrame` (src/SlicedVideoFrameQueue.cpp:67-79). -/
def SQ.step (s : SQ) : Op → Outcome (SQ × Out)
  | .setSlice b => let (s', r) := s.setSlice b; .ok (s', .bool r)
  | .setMeta m => .ok ({ s with inMeta := m }, .unit)
  | .commit => s.addFrame.bind fun s' => .ok (s', .unit)
  | .giveUp => .ok (s, .unit)
  | .room => s.ring.getRear.bind fun o => .ok (s, .bool o.isSome)
  | .take => s.onRing .take
  | .old => s.onRing .old
  | .count => s.onRing .count

end Lms.SlicedQueue
