import Verif.Common.Mem

/-!
# Model of `AudioCircularBuffer` (src/AudioCircularBuffer.cpp)

One caller at a time (the mutex covers only part of the code; see `Concurrent` for the
consequences).  `size_t rear, front` count bytes since the last synchronisation and are natural
numbers (64 bits); the 32-bit truncations of the sample indices and of the padding count are kept.
Products that would overflow `int64` (time differences beyond 6 years) are not represented.
Origin times are not modelled.
-/

namespace Lms.AudioRing

/-- `x` stored in a C++ `unsigned` (32 bits). -/
abbrev u32 (n : Nat) : Nat := n % 4294967296

/-- src/AudioFrame.hh:31 `MAX_CHANNELS`. -/
abbrev MAX_CHANNELS : Nat := 2

/-- src/AudioCircularBuffer.hh:106-128 with src/FrameQueue.hh:222-226.  `data` holds the channel
buffers, `bufSamples` is the capacity in samples of the input, output and dummy frames
(src/AudioCircularBuffer.cpp:208-210), `outN` is `outputFrame->getSamples()`, `outPts` and
`outPlanes` the buffers of its first `channels` planes (the others are never touched). -/
structure ACB where
  channels : Nat
  sampleRate : Nat
  bps : Nat
  chMax : Nat
  maxLen : Nat
  thr : Int
  bufSamples : Nat
  data : List Bytes
  rear : Nat
  front : Nat
  elements : Nat
  fillNew : Bool
  sync : Int
  synced : Bool
  outN : Nat
  outPts : Int
  outPlanes : List Bytes
  lost : Nat

/-- Sample formats, src/Types.hh:57-89 `SampleFmt`; only the planar ones are accepted. -/
inductive Fmt where
  | u8p | s16p | fltp | other
  deriving DecidableEq, Repr

/-- src/AudioCircularBuffer.cpp:186-200. -/
def Fmt.bytes : Fmt → Nat
  | .u8p => 1 | .s16p => 2 | .fltp => 4 | .other => 0

/-- src/AudioCircularBuffer.cpp:30-49 `createNew`, 180-220 `setup`; `none` is NULL.
`data[MAX_CHANNELS]` is overrun for more channels.  `20000 * sampleRate` and `100 * sampleRate`
are `int` products (src/AudioFrame.cpp:29-37): signed overflow is undefined.
`sync0` is the indeterminate initial value of `syncTimestamp`. -/
def ACB.create (channels sampleRate maxSamples : Nat) (fmt : Fmt) (sync0 : Int) :
    Outcome (Option ACB) :=
  if channels = 0 ∨ sampleRate = 0 ∨ maxSamples = 0 then .ok none
  else if fmt = .other then .ok none
  else if channels > MAX_CHANNELS then .ub
  else if 20000 * sampleRate ≥ 2147483648 then .ub
  else
    let maxLen := u32 (maxSamples * (sampleRate / 1000) * fmt.bytes)
    .ok (some {
      channels := channels, sampleRate := sampleRate, bps := fmt.bytes, chMax := maxSamples
      maxLen := maxLen
      thr := (64 * 1000000 / sampleRate : Nat)
      bufSamples := 100 * sampleRate / 1000
      data := List.replicate channels (List.replicate maxLen 0)
      rear := 0, front := 0, elements := 0, fillNew := true, sync := sync0, synced := false
      outN := 20000 * sampleRate / 1000000
      outPts := 0
      outPlanes := List.replicate channels (List.replicate (100 * sampleRate / 1000 * fmt.bytes) 0)
      lost := 0 })

/-- A planar audio frame: time stamp, number of samples, the buffers of the planes (src/AudioFrame.hh:102-104, src/Frame.hh:148). -/
structure Frame where
  pts : Int
  samples : Nat
  planes : List Bytes
  deriving DecidableEq, Repr

/-- `for (i = 0; i < channels; i++) f(data[i], buffer[i])`; more channels than buffers is an
access outside the array of planes (src/AudioCircularBuffer.cpp:237, 245, 277, 284). -/
def forChannels (f : Bytes → Bytes → Outcome Bytes) : List Bytes → List Bytes → Outcome (List Bytes)
  | [], _ => .ok []
  | _ :: _, [] => .ub
  | d :: ds, b :: bs =>
    (f d b).bind fun d' => (forChannels f ds bs).bind fun ds' => .ok (d' :: ds')

/-- Copying one channel in, src/AudioCircularBuffer.cpp:233-249. -/
def copyIn (maxLen rear n : Nat) (d b : Bytes) : Outcome Bytes :=
  let rearMod := rear % maxLen
  if rearMod + n < maxLen then memcpy d rearMod b 0 n
  else
    let first := maxLen - rearMod
    (memcpy d rearMod b 0 first).bind fun d' =>
      if n < first then .ub else memcpy d' 0 b first (n - first)

/-- src/AudioCircularBuffer.cpp:223-254 `pushBack`. -/
def ACB.pushBack (s : ACB) (planes : List Bytes) (samples : Nat) : Outcome (ACB × Bool) :=
  let n := u32 (samples * s.bps)
  if n > s.maxLen - s.elements then .ok (s, false)
  else if s.maxLen = 0 then .ub
  else (forChannels (copyIn s.maxLen s.rear n) s.data planes).bind fun data =>
    .ok ({ s with data := data, elements := s.elements + n, rear := s.rear + n }, true)

/-- Copying one channel out, src/AudioCircularBuffer.cpp:274-288; `b` is the output buffer. -/
def copyOut (maxLen front n : Nat) (d b : Bytes) : Outcome Bytes :=
  let frontMod := front % maxLen
  if frontMod + n < maxLen then memcpy b 0 d frontMod n
  else
    let first := maxLen - frontMod
    (memcpy b 0 d frontMod first).bind fun b' =>
      if n < first then .ub else memcpy b' first d 0 (n - first)

/-- src/AudioCircularBuffer.cpp:256-292 `popFront` and `fillOutputBuffers`, with the output frame's
buffers as destination; `none` is `false`. -/
def ACB.popFront (s : ACB) (samples : Nat) : Outcome (Option ACB) :=
  let n := u32 (samples * s.bps)
  if s.elements < n then .ok none
  else if s.maxLen = 0 then .ub
  else
    (forChannels (copyOut s.maxLen s.front n) s.data s.outPlanes).bind fun bufs =>
    .ok (some { s with elements := s.elements - n, front := s.front + n, outPlanes := bufs })

/-- What a reader sees in the output frame: the time stamp and the first `getLength()` bytes of each
plane (src/AudioCircularBuffer.cpp:213-214, 318-322). -/
def ACB.outFrame (s : ACB) : Int × List Bytes :=
  (s.outPts, s.outPlanes.map (List.take (s.outN * s.bps)))

/-- src/AudioCircularBuffer.cpp:69-93 `getFront`; `none` is NULL. -/
def ACB.getFront (s : ACB) : Outcome (ACB × Option (Int × List Bytes)) :=
  if !s.fillNew then .ok (s, some s.outFrame)
  else if s.bps = 0 ∨ s.sampleRate = 0 then .ub
  else
    let ts := ((u32 (s.front / s.bps) * 1000000 / s.sampleRate : Nat) : Int) + s.sync
    (({ s with outPts := ts } : ACB).popFront s.outN).bind fun
      | none => .ok ({ s with outPts := ts }, none)
      | some s' => .ok ({ s' with fillNew := false }, some s'.outFrame)

/-- What a call of `addFrame` did: refused as late; reset of the buffer; refused for lack of room;
only the silence fitted; stored after `pad` silent samples.  The code reports `stored` by returning
the reader ids and everything else by returning none. -/
inductive Pushed where
  | late | reset | noRoom | padOnly (pad : Nat) | stored (pad : Nat)
  deriving DecidableEq, Repr

/-- src/FrameQueue.hh:114-118 `flush` and src/AudioCircularBuffer.cpp:160-167 `doFlush`. -/
def ACB.flush (s : ACB) : ACB :=
  { s with rear := 0, front := 0, elements := 0, synced := false, lost := s.lost + 1 }

/-- The dummy frame, src/AudioCircularBuffer.cpp:210-211: `bufSamples` samples of zero bytes. -/
def ACB.dummy (s : ACB) : List Bytes :=
  List.replicate MAX_CHANNELS (List.replicate (s.bufSamples * s.bps) 0)

/-- src/AudioCircularBuffer.cpp:96-152 `addFrame` for the input frame `f`. -/
def ACB.addFrame (s : ACB) (f : Frame) : Outcome (ACB × Pushed) :=
  let s := if s.synced then s else { s with sync := f.pts, synced := true }
  if s.bps = 0 ∨ s.sampleRate = 0 then .ub
  else
    let rearTs := ((u32 (s.rear / s.bps) * 1000000 / s.sampleRate : Nat) : Int) + s.sync
    let deviation := f.pts - rearTs
    if deviation < -s.thr then .ok (s, .late)
    else if deviation > s.thr then
      let pad := u32 ((deviation.toNat * s.sampleRate) / 1000000)
      if pad ≥ s.chMax then .ok (s.flush, .reset)
      else (s.pushBack s.dummy pad).bind fun (s1, ok1) =>
        if !ok1 then .ok (s1, .noRoom)
        else (s1.pushBack f.planes f.samples).bind fun (s2, ok2) =>
          .ok (s2, if ok2 then .stored pad else .padOnly pad)
    else (s.pushBack f.planes f.samples).bind fun (s2, ok2) =>
      .ok (s2, if ok2 then .stored 0 else .noRoom)

/-- src/AudioCircularBuffer.cpp:154-158 `removeFrame`. -/
def ACB.removeFrame (s : ACB) : ACB := { s with fillNew := true }

/-- src/AudioCircularBuffer.cpp:318-322 `setOutputFrameSamples`. -/
def ACB.setOutputFrameSamples (s : ACB) (n : Nat) : ACB := { s with outN := n }

/-- src/AudioCircularBuffer.cpp:324-327 `getElements`; division by zero is undefined. -/
def ACB.getElements (s : ACB) : Outcome Nat :=
  if s.outN * s.bps = 0 then .ub else .ok (s.elements / (s.outN * s.bps))

/-- src/AudioCircularBuffer.cpp:294-303 `getFreeSamples`. -/
def ACB.getFreeSamples (s : ACB) : Outcome Nat :=
  if s.maxLen - s.elements = 0 then .ok 0
  else if s.bps = 0 then .ub else .ok ((s.maxLen - s.elements) / s.bps)

/-- Operations of the two filters at the ends. `again` is `forceGetFront`
(src/AudioCircularBuffer.cpp:175-178), used when there is no new frame. -/
inductive Op where
  | push (f : Frame) | get | remove | again | setOut (n : Nat) | count | free
  deriving DecidableEq, Repr

inductive Out where
  | pushed (p : Pushed)
  | frame (o : Option (Int × List Bytes))
  | num (n : Nat)
  | unit
  deriving DecidableEq, Repr

/-- Calls `ACB.outFrame` (src/AudioCircularBuffer.cpp:213-214, 318-322), `ACB.getFront` (src/AudioCircularBuffer.cpp:69-93),
`ACB.addFrame` (src/AudioCircularBuffer.cpp:96-152), `ACB.removeFrame` (src/AudioCircularBuffer.cpp:154-158),
`ACB.setOutputFrameSamples` (src/AudioCircularBuffer.cpp:318-322), `ACB.getElements` (src/AudioCircularBuffer.cpp:324-327)
and others. -/
def ACB.step (s : ACB) : Op → Outcome (ACB × Out)
  | .push f => (s.addFrame f).bind fun (s', p) => .ok (s', .pushed p)
  | .get => s.getFront.bind fun (s', o) => .ok (s', .frame o)
  | .remove => .ok (s.removeFrame, .unit)
  | .again => .ok (s, .frame (some s.outFrame))
  | .setOut n => .ok (s.setOutputFrameSamples n, .unit)
  | .count => s.getElements.bind fun n => .ok (s, .num n)
  | .free => s.getFreeSamples.bind fun n => .ok (s, .num n)

end Lms.AudioRing
