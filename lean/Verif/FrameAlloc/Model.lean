import Verif.Common.Outcome

/-!
# Model of the frames a queue is filled with (src/AVFramedQueue.cpp, src/VideoFrame.cpp, src/AudioFrame.cpp,
src/StreamInfo.hh)

Which frames a queue allocates for a stream description, how many bytes each can hold, and what the queue
does when it has no frames.  The indices of a working queue are the area `FrameQueue`; here the slots may be
NULL.  Buffers are their sizes.  How much room a picture takes (`imageSize`) is libav's documented layout with
alignment 1 and is trusted.
-/

namespace Lms.FrameAlloc

/-- src/Types.hh:67 `PixType`. -/
inductive Pix where
  | none | rgb24 | rgb32 | yuv420p | yuv422p | yuv444p | yuyv422 | yuvj420p
  deriving DecidableEq, Repr

/-- src/Types.hh:62 `VCodecType`. -/
inductive VC where
  | none | h264 | h265 | vp8 | mjpeg | raw
  deriving DecidableEq, Repr

/-- src/Types.hh:72 `ACodecType`. -/
inductive AC where
  | none | g711 | pcmu | opus | pcm | aac | mp3
  deriving DecidableEq, Repr

/-- src/Types.hh:77 `SampleFmt`. -/
inductive SF where
  | none | u8 | s16 | flt | u8p | s16p | fltp
  deriving DecidableEq, Repr

/-- libav's pixel formats as far as the code names them; `other n`: any other, whose picture takes `n` bytes. -/
inductive AV where
  | none | rgb24 | rgb32 | yuv420p | yuv422p | yuv444p | yuyv422 | yuvj420p | other (n : Nat)
  deriving DecidableEq, Repr

/-- What libav's av_image_fill_arrays / av_image_get_buffer_size with alignment 1 lay out (trusted). -/
def imageSize (p : AV) (w h : Nat) : Nat :=
  match p with
  | .none => 0
  | .rgb24 => 3 * w * h
  | .rgb32 => 4 * w * h
  | .yuv420p | .yuvj420p => w * h + 2 * (((w + 1) / 2) * ((h + 1) / 2))
  | .yuv422p => w * h + 2 * (((w + 1) / 2) * h)
  | .yuv444p => 3 * w * h
  | .yuyv422 => 4 * ((w + 1) / 2) * h
  | .other n => n

/-- src/modules/videoResampler/VideoResampler.cpp:234-264 `getLibavPixFmt`. -/
def libav : Pix → AV
  | .rgb24 => .rgb24
  | .rgb32 => .rgb32
  | .yuyv422 => .yuyv422
  | .yuv420p => .yuv420p
  | .yuv422p => .yuv422p
  | .yuv444p => .yuv444p
  | .yuvj420p => .yuvj420p
  | .none => .none

/-- src/modules/videoDecoder/VideoDecoderLibav.cpp:244-274 `getPixelFormat`. -/
def pixOf : AV → Pix
  | .rgb24 => .rgb24
  | .rgb32 => .rgb32
  | .yuyv422 => .yuyv422
  | .yuv420p => .yuv420p
  | .yuv422p => .yuv422p
  | .yuv444p => .yuv444p
  | .yuvj420p => .yuvj420p
  | _ => .none

/-- src/VideoFrame.cpp:79-94, src/Types.hh:38 `DEFAULT_BYTES_PER_PIXEL`. -/
def bytesPerPixel : Pix → Nat
  | .rgb24 => 3
  | .rgb32 => 4
  | .yuyv422 => 2
  | _ => 3

/-- src/VideoFrame.hh: an `InterleavedVideoFrame` as far as its room is concerned (src/VideoFrame.hh:65-86). -/
structure VFrame where
  codec : VC
  cap : Nat
  deriving DecidableEq, Repr

/-- src/VideoFrame.cpp:69-74. -/
def VFrame.coded (c : VC) (maxLength : Nat) : VFrame := { codec := c, cap := maxLength }

/-- src/VideoFrame.cpp:76-98 (the product of the sizes used here fits an `int`). -/
def VFrame.raw (c : VC) (w h : Nat) (p : Pix) : VFrame := { codec := c, cap := w * h * bytesPerPixel p }

/-- src/AVFramedQueue.hh:27, AVFramedQueue.cpp:32-36. -/
def clamp (maxFrames : Nat) : Nat := if maxFrames > 250 then 250 else maxFrames

/-- src/AVFramedQueue.cpp:124-136 `createNew`, 144-175 `VideoFrameQueue::setup`; `none`: NULL is returned.
The buffer sizes are those of src/Types.hh:34-35, 42, 44. -/
def videoFrames (c : VC) (p : Pix) (maxFrames : Nat) : Option (List VFrame) :=
  match c with
  | .h264 | .h265 => some (List.replicate (clamp maxFrames) (VFrame.coded c (1024 * 1024 * 2)))
  | .vp8 => some (List.replicate (clamp maxFrames) (VFrame.coded c (512 * 1024)))
  | .raw =>
    if p = .none then Option.none
    else some (List.replicate (clamp maxFrames) (VFrame.raw c 1920 1080 p))
  | _ => Option.none

/-- src/Utils.cpp:456-479 `getBytesPerSampleFromFormat`. -/
def bytesPerSample : SF → Nat
  | .u8 | .u8p => 1
  | .s16 | .s16p => 2
  | .flt | .fltp => 4
  | .none => 0

/-- src/AudioFrame.hh: an audio frame as far as its room is concerned; `cap` bytes in its one buffer
(interleaved) or in each of its two buffers (planar, `MAX_CHANNELS`, AudioFrame.hh:31). -/
structure AFrame where
  codec : AC
  planar : Bool
  channels : Nat
  rate : Nat
  fmt : SF
  maxSamples : Nat
  cap : Nat
  deriving DecidableEq, Repr

/-- src/AudioFrame.cpp:29-32 `getMaxSamples`: a product of `int`s. -/
def maxSamples (rate : Nat) : Outcome Nat :=
  if 100 * rate ≥ 2147483648 then .ub else .ok (100 * rate / 1000)

/-- src/AudioFrame.cpp:34-37 `getDefaultSamples`: a product of `int`s. -/
def defaultSamples (rate : Nat) : Outcome Nat :=
  if 20000 * rate ≥ 2147483648 then .ub else .ok (20000 * rate / 1000000)

/-- src/AudioFrame.cpp:57-72 `InterleavedAudioFrame::createNew`; `none` is NULL. -/
def interleaved (ch rate n : Nat) (c : AC) (f : SF) : Option AFrame :=
  if f ≠ .u8 ∧ f ≠ .s16 ∧ f ≠ .flt then Option.none
  else some { codec := c, planar := false, channels := ch, rate := rate, fmt := f, maxSamples := n
              cap := bytesPerSample f * n * 2 }

/-- src/AudioFrame.cpp:90-108 `PlanarAudioFrame::createNew`; `none` is NULL. -/
def planar (ch rate n : Nat) (c : AC) (f : SF) : Option AFrame :=
  if f ≠ .u8p ∧ f ≠ .s16p ∧ f ≠ .fltp then Option.none
  else some { codec := c, planar := true, channels := ch, rate := rate, fmt := f, maxSamples := n
              cap := bytesPerSample f * n }

/-- src/StreamInfo.hh:39-44. -/
structure AInfo where
  codec : AC
  rate : Nat
  channels : Nat
  fmt : SF
  deriving DecidableEq, Repr

/-- src/StreamInfo.hh:97-112 `setCodecDefaults` of an audio stream. -/
def AInfo.defaults (i : AInfo) : AInfo :=
  match i.codec with
  | .opus | .aac | .mp3 => { i with fmt := .s16 }
  | .g711 => { i with channels := 1, rate := 8000, fmt := .u8 }
  | _ => i

/-- The loop of src/AVFramedQueue.cpp:208-213 and its likes: `max` times the same frame. -/
def fill (max rate : Nat) (mk : Nat → Option AFrame) : Outcome (Option (List (Option AFrame))) :=
  if max = 0 then .ok (some [])
  else (maxSamples rate).bind fun n => .ok (some (List.replicate max (mk n)))

/-- src/AVFramedQueue.cpp:183-195 `createNew`, 202-256 `AudioFrameQueue::setup`; the outer `none`: NULL is
returned; a slot `none`: the frame in it is NULL, which is not looked at. -/
def audioFrames (i : AInfo) (maxFrames : Nat) : Outcome (Option (List (Option AFrame))) :=
  match i.codec with
  | .opus | .aac | .mp3 | .g711 =>
    fill (clamp maxFrames) i.rate fun n => interleaved i.channels i.rate n i.codec i.fmt
  | .pcmu | .pcm =>
    if i.fmt = .u8 ∨ i.fmt = .s16 ∨ i.fmt = .flt then
      fill (clamp maxFrames) i.rate fun n => interleaved i.channels i.rate n i.codec i.fmt
    else if i.fmt = .u8p ∨ i.fmt = .s16p ∨ i.fmt = .fltp then
      fill (clamp maxFrames) i.rate fun n => planar i.channels i.rate n i.codec i.fmt
    else .ok Option.none
  | .none => .ok Option.none

/-- src/AVFramedQueue.hh:91-92, FrameQueue.hh:222-226: the slots (possibly NULL) and the indices. -/
structure Queue (F : Type) where
  slots : List (Option F)
  rear : Nat
  front : Nat

/-- src/AVFramedQueue.cpp:47-54 `getRear`; `% max` with `max = 0` is undefined. -/
def Queue.getRear {F : Type} (q : Queue F) : Outcome (Option F) :=
  if q.slots.length = 0 then .ub
  else if (q.rear + 1) % q.slots.length = q.front then .ok none
  else .ok (q.slots[q.rear]?.getD none)

/-- src/AVFramedQueue.cpp:90-93 `doFlush`. -/
def Queue.flush {F : Type} (q : Queue F) : Queue F :=
  { q with rear := (q.rear + (q.slots.length - 1)) % q.slots.length }

/-- src/AVFramedQueue.cpp:95-103 `forceGetRear`, with a budget of tests. -/
def Queue.forceGetRear {F : Type} : Nat → Queue F → Outcome (Queue F × F)
  | 0, _ => .hang
  | fuel + 1, q =>
    q.getRear.bind fun
      | some f => .ok (q, f)
      | none => Queue.forceGetRear fuel q.flush

/-- src/AudioFrame.cpp:79-82, 117-122 `fillWithValue`: the bytes written to each buffer, for an interleaved
frame `bufferMaxLen*channels` to its one buffer; outside the buffers is undefined. -/
def AFrame.fillWithValue (f : AFrame) : Outcome Unit :=
  if f.planar then (if f.channels > 2 then .ub else .ok ())
  else if f.cap * f.channels > f.cap then .ub else .ok ()

end Lms.FrameAlloc
