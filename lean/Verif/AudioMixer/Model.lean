import Verif.Common.Outcome

/-!
# Audio mixer

Model of src/modules/audioMixer/AudioMixer.cpp.  The arithmetic on samples is a parameter (`Alg`), so that the timeline theorems
hold for the machine's single-precision arithmetic as well as for exact numbers; `Verif.AudioMixer.Level` studies the compressor
over every ordered field.

Simplifications: the input frames carry decoded samples (the bytes of an FLTP sample are its value, AudioMixer.cpp:237-239; the
conversion of S16P samples is treated in `Verif.AudioMixer.Level`); a frame in another format is one that fails to convert; the
product of a time difference and the sampling rate is assumed to fit 64 bits (differences up to six years).
-/

namespace Lms.AudioMixer

open Lms

/-- Single-precision arithmetic as used by the mixer: AudioMixer.cpp:212 and 168-177 `mixSample`. -/
structure Alg (α : Type) where
  zero : α
  /-- sample, channel gain, master gain, value so far. -/
  mix : α → α → α → α → α

/-- AudioMixer.cpp:33-43 and AudioFrame.cpp:34-37: the constants of a mixer. -/
structure Cfg where
  channels : Nat
  rate : Nat
  /-- `inputFrameSamples`, `outputSamples` -/
  out : Nat
  /-- `mixBufferMaxSamples` -/
  cap : Nat
  /-- `mixingThreshold` -/
  thr : Nat

/-- AudioMixer.cpp:34-43 with AudioFrame.hh:30-34: two channels, 48 kHz, frames of 20 ms. -/
def cfg48 : Cfg := ⟨2, 48000, 960, 960 * 5, 960 * 3⟩

/-- What the theorems need to know about the constants. -/
structure Cfg.WF (c : Cfg) : Prop where
  pos : 0 < c.out
  le1 : c.out ≤ c.thr
  le2 : c.thr ≤ c.cap
  small : c.cap < 2 ^ 31

theorem cfg48_wf : cfg48.WF := ⟨by decide, by decide, by decide, by decide⟩

/-- An input frame: presentation time in microseconds, number of samples, whether its format is supported, and the planes.
(src/AudioFrame.hh:87-105, src/Frame.hh:37-153.) -/
structure Frame (α : Type) where
  pts : Int
  n : Nat
  fmtOk : Bool
  plane : Nat → Nat → α

/-- An output frame: presentation time and the samples of each channel (src/AudioFrame.hh:87-105, src/Frame.hh:37-153). -/
structure Out (α : Type) where
  pts : Int
  planes : List (List α)

/-- AudioMixer.hh:143-160: the mutable fields.  `front` and `rear` are 32 bit counters; `bufs c i` is `mixBuffers[c][i]`. -/
structure St (α : Type) where
  sync : Int
  front : Nat
  rear : Nat
  bufs : Nat → Nat → α
  gains : Nat → Option α
  master : α

/-- AudioMixer.cpp:33-50: a new mixer; the buffers are zeroed (46). -/
def init {α : Type} (A : Alg α) (master : α) : St α := ⟨-1, 0, 0, fun _ _ => A.zero, fun _ => none, master⟩

/-- 32 bit unsigned arithmetic. -/
def sub32 (a b : Nat) : Nat := (a + 2 ^ 32 - b % 2 ^ 32) % 2 ^ 32
def add32 (a b : Nat) : Nat := (a + b) % 2 ^ 32

/-- AudioMixer.cpp:128: microseconds to samples in 64 bits (division truncates), stored in 32 bits. -/
def position (c : Cfg) (pts sync : Int) : Nat := (((pts - sync) * c.rate).tdiv 1000000 % 2 ^ 32).toNat

/-- A store into one plane (src/modules/audioMixer/AudioMixer.cpp:170-175). -/
def setAt {α : Type} (row : Nat → α) (i : Nat) (v : α) : Nat → α := fun k => if k = i then v else row k

/-- AudioMixer.cpp:149-158: the inner loop, `j` samples done, `k` to go. -/
def mixLoop {α : Type} (A : Alg α) (cap : Nat) (gain master : α) (src : Nat → α) : Nat → Nat → Nat → (Nat → α) → (Nat → α)
  | 0, _, _, row => row
  | k + 1, j, idx, row =>
    mixLoop A cap gain master src k (j + 1) ((idx + 1) % cap) (setAt row idx (A.mix (src j) gain master (row idx)))

/-- AudioMixer.cpp:124-126: the first frame sets the origin of time. -/
def syncIn {α : Type} (s : St α) (pts : Int) : St α := if s.sync < 0 then { s with sync := pts } else s

/-- AudioMixer.cpp:137-139: the counters restart; the buffers keep their contents. -/
def resync {α : Type} (s : St α) (pts : Int) : St α := { s with front := 0, rear := 0, sync := pts }

/-- AudioMixer.cpp:156: `gains[id]`, which makes a zero entry for an unknown channel. -/
def gainOf {α : Type} (A : Alg α) (s : St α) (id : Nat) : α := (s.gains id).getD A.zero

/-- AudioMixer.cpp:156: the table of gains after the loop (`gains[id]` was evaluated if there was a sample). -/
def touched {α : Type} (A : Alg α) (c : Cfg) (s : St α) (id : Nat) (n : Nat) : Nat → Option α :=
  if 0 < n ∧ 0 < c.channels then (fun k => if k = id then some (gainOf A s id) else s.gains k) else s.gains

/-- AudioMixer.cpp:143-159: the mixing loops. -/
def mixIn {α : Type} (A : Alg α) (c : Cfg) (s : St α) (id : Nat) (f : Frame α) (p : Nat) : Nat → Nat → α :=
  fun ch => if ch < c.channels then mixLoop A c.cap (gainOf A s id) s.master (f.plane ch) f.n 0 (p % c.cap) (s.bufs ch)
    else s.bufs ch

/-- AudioMixer.cpp:143-165. -/
def deposit {α : Type} (A : Alg α) (c : Cfg) (s : St α) (id : Nat) (f : Frame α) (p : Nat) : Bool × St α :=
  if f.fmtOk = false ∧ 0 < f.n ∧ 0 < c.channels then (false, s)                                -- 151-154
  else (true, { s with
    gains := touched A c s id f.n
    bufs := mixIn A c s id f p
    rear := if add32 p f.n > s.rear then add32 p f.n else s.rear })                            -- 161-163

/-- AudioMixer.cpp:128-165. -/
def pushAt {α : Type} (A : Alg α) (c : Cfg) (s : St α) (id : Nat) (f : Frame α) : Bool × St α :=
  if position c f.pts s.sync < s.front then (false, s)                                         -- 130-133
  else if position c f.pts s.sync > sub32 (add32 s.front c.cap) f.n then deposit A c (resync s f.pts) id f 0   -- 135-141
  else deposit A c s id f (position c f.pts s.sync)

/-- AudioMixer.cpp:101-166 `pushToBuffer`. -/
def push {α : Type} (A : Alg α) (c : Cfg) (s : St α) (id : Nat) (f : Frame α) : Bool × St α :=
  if sub32 c.cap (sub32 s.rear s.front) < f.n then (false, s)                                  -- 117-122
  else pushAt A c (syncIn s f.pts) id f

/-- AudioMixer.cpp:205-213: the inner loop of `extractMixedFrame`. -/
def takeLoop {α : Type} (A : Alg α) (cap pos : Nat) : Nat → Nat → (Nat → α) → List α × (Nat → α)
  | 0, _, row => ([], row)
  | k + 1, j, row =>
    let r := takeLoop A cap pos k (j + 1) (setAt row ((pos + j) % cap) A.zero)
    (row ((pos + j) % cap) :: r.1, r.2)

/-- AudioMixer.cpp:179-226 `extractMixedFrame`: `none` when there is no frame yet. -/
def extract {α : Type} (A : Alg α) (c : Cfg) (s : St α) : Option (Out α) × St α :=
  if sub32 s.rear s.front < c.thr then (none, s) else                                          -- 181-190
  let pos := s.front % c.cap                                                                   -- 202
  let row := fun ch => takeLoop A c.cap pos c.out 0 (s.bufs ch)
  (some ⟨(s.front * 1000000 / c.rate : Nat) + s.sync, (List.range c.channels).map fun ch => (row ch).1⟩,
   { s with front := add32 s.front c.out
            bufs := fun ch => if ch < c.channels then (row ch).2 else s.bufs ch })             -- 199-224

/-- AudioMixer.cpp:70-83: the frames of one round, in the order of `newFrames`. -/
def pushAll {α : Type} (A : Alg α) (c : Cfg) (s : St α) : List (Nat × Frame α) → St α
  | [] => s
  | (id, f) :: l => pushAll A c (push A c s id f).2 l

/-- AudioMixer.cpp:65-99 `doProcessFrame`. -/
def process {α : Type} (A : Alg α) (c : Cfg) (s : St α) (fs : List (Nat × Frame α)) : Option (Out α) × St α :=
  extract A c (pushAll A c s fs)

end Lms.AudioMixer
