import Verif.FrameAlloc.Model

/-!
# C69: the frames in a queue are there and have room for the stream
-/

namespace Lms.FrameAlloc

/-! ## Video -/

/-- The bytes a frame of a coded stream is promised to hold. -/
def codedRoom : VC → Nat
  | .h264 | .h265 => 2097152
  | .vp8 => 524288
  | _ => 0

theorem clamp_eq (n : Nat) : clamp n = min n 250 := by unfold clamp; split <;> omega

theorem imageSize_le (p : Pix) (w h : Nat) (hw : w ≤ 1920) (hh : h ≤ 1080) :
    imageSize (libav p) w h ≤ 1920 * 1080 * bytesPerPixel p := by
  have e1 : w * h ≤ 1920 * 1080 := Nat.mul_le_mul hw hh
  have e2 : ((w + 1) / 2) * ((h + 1) / 2) ≤ 960 * 540 := Nat.mul_le_mul (by omega) (by omega)
  have e3 : ((w + 1) / 2) * h ≤ 960 * 1080 := Nat.mul_le_mul (by omega) hh
  have a1 : ∀ k : Nat, k * w * h = k * (w * h) := fun k => Nat.mul_assoc k w h
  have a2 : 4 * ((w + 1) / 2) * h = 4 * (((w + 1) / 2) * h) := Nat.mul_assoc _ _ _
  cases p <;> simp only [libav, imageSize, bytesPerPixel, a1, a2] <;> omega

/-- The two tables of pixel formats agree. -/
theorem pixOf_libav (p : Pix) : pixOf (libav p) = p := by cases p <;> rfl

/-- A video queue is refused exactly for codecs it has no frames for and for raw pictures of unknown format. -/
theorem video_refused_iff (c : VC) (p : Pix) (n : Nat) :
    videoFrames c p n = none ↔ c = .none ∨ c = .mjpeg ∨ (c = .raw ∧ p = .none) := by
  cases c <;> simp [videoFrames]

/-- The frames of a coded video queue: as many as asked for (at most 250), all of the stream's codec, with the
promised room. -/
theorem video_coded_frames (c : VC) (p : Pix) (n : Nat) (fs : List VFrame) (hc : c ≠ .raw)
    (h : videoFrames c p n = some fs) :
    fs.length = min n 250 ∧ ∀ f ∈ fs, f.codec = c ∧ f.cap = codedRoom c := by
  cases c <;> simp only [videoFrames, reduceCtorEq, Option.some.injEq] at h
  case raw => exact absurd rfl hc
  all_goals
    subst h
    refine ⟨by rw [List.length_replicate, clamp_eq], fun f hf => ?_⟩
    rw [(List.mem_replicate.1 hf).2]
    exact ⟨rfl, rfl⟩

/-- Every raw frame has room for every picture up to 1920×1080 of the stream's pixel format. -/
theorem video_raw_frames (p : Pix) (n : Nat) (fs : List VFrame) (h : videoFrames .raw p n = some fs) :
    fs.length = min n 250 ∧
    ∀ f ∈ fs, f.codec = .raw ∧ ∀ w h, w ≤ 1920 → h ≤ 1080 → imageSize (libav p) w h ≤ f.cap := by
  simp only [videoFrames] at h
  split at h
  · cases h
  · cases h
    refine ⟨by rw [List.length_replicate, clamp_eq], fun f hf => ?_⟩
    rw [(List.mem_replicate.1 hf).2]
    exact ⟨rfl, fun w h hw hh => imageSize_le p w h hw hh⟩

/-- The room is tight: a full picture of a format that takes as many bytes per pixel fills the frame. -/
theorem video_raw_room_exact (p : Pix) (n : Nat) (fs : List VFrame) (f : VFrame)
    (hp : p = .rgb24 ∨ p = .rgb32 ∨ p = .yuyv422 ∨ p = .yuv444p)
    (h : videoFrames .raw p n = some fs) (hf : f ∈ fs) : f.cap = imageSize (libav p) 1920 1080 := by
  simp only [videoFrames] at h
  split at h
  · cases h
  · cases h
    rw [(List.mem_replicate.1 hf).2]
    rcases hp with rfl | rfl | rfl | rfl <;> rfl

/-- Queues announced for RGB24 (all decoders and resamplers announce it) hold pictures up to 1920×1080 of
every format but RGB32. -/
theorem rgb24_holds (q : Pix) (w h : Nat) (hq : q ≠ .rgb32) (hw : w ≤ 1920) (hh : h ≤ 1080) :
    imageSize (libav q) w h ≤ (VFrame.raw .raw 1920 1080 .rgb24).cap := by
  refine Nat.le_trans (imageSize_le q w h hw hh) ?_
  cases q <;> first | exact absurd rfl hq | decide

/-- A full RGB32 picture and a 4K picture of the smallest format do not fit them. -/
theorem rgb24_does_not_hold :
    imageSize .rgb32 1920 1080 > (VFrame.raw .raw 1920 1080 .rgb24).cap ∧
    imageSize .yuv420p 3840 2160 > (VFrame.raw .raw 1920 1080 .rgb24).cap := by decide

example : ∃ fs, videoFrames .raw .yuv420p 10 = some fs ∧ fs.length = 10 := ⟨_, rfl, rfl⟩
example : ∃ fs, videoFrames .h264 .none 300 = some fs ∧ fs.length = 250 := ⟨_, rfl, List.length_replicate⟩

/-! ## Audio -/

/-- The room a stream needs in one buffer for `n` samples: the channels side by side, or one per buffer. -/
def audioRoom (fmt : SF) (channels n : Nat) : Nat :=
  match fmt with
  | .u8 => n * channels
  | .s16 => 2 * n * channels
  | .flt => 4 * n * channels
  | .u8p => n
  | .s16p => 2 * n
  | .fltp => 4 * n
  | .none => 0

/-- Sample formats whose channels lie side by side. -/
def sideBySide (f : SF) : Prop := f = .u8 ∨ f = .s16 ∨ f = .flt

/-- Codecs whose frames are always interleaved. -/
def oneBuffer (c : AC) : Prop := c = .opus ∨ c = .aac ∨ c = .mp3 ∨ c = .g711

/-- Streams for which there are frames. -/
def Framed (i : AInfo) : Prop :=
  (oneBuffer i.codec ∧ sideBySide i.fmt) ∨ ((i.codec = .pcm ∨ i.codec = .pcmu) ∧ i.fmt ≠ .none)

/-- A frame fit for the stream: its codec, format and rate, and room for a tenth of a second of up to two
channels. -/
def Fit (i : AInfo) (f : AFrame) : Prop :=
  f.codec = i.codec ∧ f.fmt = i.fmt ∧ f.rate = i.rate ∧ f.channels = i.channels ∧
  (f.planar = true ↔ ¬ sideBySide i.fmt) ∧ f.maxSamples = i.rate / 10 ∧
  ∀ n ch, n * 10 ≤ i.rate → ch ≤ 2 → audioRoom i.fmt ch n ≤ f.cap

theorem fill_spec {max rate : Nat} {mk : Nat → Option AFrame} {i : AInfo} (hr : rate < 21474836)
    (hmk : ∃ f, mk (100 * rate / 1000) = some f ∧ Fit i f) :
    ∃ fs, fill max rate mk = .ok (some fs) ∧ fs.length = max ∧ ∀ s ∈ fs, ∃ f, s = some f ∧ Fit i f := by
  unfold fill
  by_cases h0 : max = 0
  · rw [if_pos h0]; exact ⟨[], rfl, h0.symm, by simp⟩
  · rw [if_neg h0]
    unfold maxSamples
    rw [if_neg (by omega)]
    obtain ⟨f, hf, hfit⟩ := hmk
    refine ⟨_, rfl, by simp, fun s hs => ⟨f, ?_, hfit⟩⟩
    rw [(List.mem_replicate.1 hs).2]; exact hf

theorem room_side {n r ch k : Nat} (hn : n * 10 ≤ r) (hc : ch ≤ 2) :
    k * n * ch ≤ k * (100 * r / 1000) * 2 := by
  have h1 : k * n ≤ k * (100 * r / 1000) := Nat.mul_le_mul_left k (by omega)
  exact Nat.mul_le_mul h1 hc

theorem interleaved_fit {i : AInfo} (hs : sideBySide i.fmt) :
    ∃ f, interleaved i.channels i.rate (100 * i.rate / 1000) i.codec i.fmt = some f ∧ Fit i f := by
  have hm : 100 * i.rate / 1000 = i.rate / 10 := by omega
  unfold interleaved
  rw [if_neg (by rcases hs with h | h | h <;> simp [h])]
  refine ⟨_, rfl, rfl, rfl, rfl, rfl, by simp [hs], hm, fun n ch hn hc => ?_⟩
  rcases hs with h | h | h <;> simp only [h, audioRoom, bytesPerSample]
  · have := room_side (k := 1) hn hc; rw [Nat.one_mul] at this; omega
  · exact room_side hn hc
  · exact room_side hn hc

theorem planar_fit {i : AInfo} (hs : ¬ sideBySide i.fmt) (hn : i.fmt ≠ .none) :
    ∃ f, planar i.channels i.rate (100 * i.rate / 1000) i.codec i.fmt = some f ∧ Fit i f := by
  have hm : 100 * i.rate / 1000 = i.rate / 10 := by omega
  have hp : i.fmt = .u8p ∨ i.fmt = .s16p ∨ i.fmt = .fltp := by
    cases hf : i.fmt <;> simp_all [sideBySide]
  unfold planar
  rw [if_neg (by rcases hp with h | h | h <;> simp [h])]
  refine ⟨_, rfl, rfl, rfl, rfl, rfl, by simp [hs], hm, fun n ch hn hc => ?_⟩
  rcases hp with h | h | h <;> simp only [h, audioRoom, bytesPerSample] <;> omega

/-- The slots of the queue of a framed stream all hold fit frames. -/
theorem audio_frames (i : AInfo) (n : Nat) (hi : Framed i) (hr : i.rate < 21474836) :
    ∃ fs, audioFrames i n = .ok (some fs) ∧ fs.length = min n 250 ∧ ∀ s ∈ fs, ∃ f, s = some f ∧ Fit i f := by
  rw [← clamp_eq]
  unfold audioFrames
  rcases hi with ⟨hc, hs⟩ | ⟨hc, hn⟩
  · rcases hc with h | h | h | h <;> simp only [h] <;>
      (have := interleaved_fit (i := i) hs; rw [h] at this; exact fill_spec hr this)
  · by_cases hs : sideBySide i.fmt
    · rcases hc with h | h <;> simp only [h] <;>
        (rw [if_pos (show i.fmt = .u8 ∨ i.fmt = .s16 ∨ i.fmt = .flt from hs)]; have := interleaved_fit (i := i) hs; rw [h] at this; exact fill_spec hr this)
    · have hp : i.fmt = .u8p ∨ i.fmt = .s16p ∨ i.fmt = .fltp := by
        cases hf : i.fmt <;> simp_all [sideBySide]
      rcases hc with h | h <;> simp only [h] <;>
        (rw [if_neg (show ¬ (i.fmt = .u8 ∨ i.fmt = .s16 ∨ i.fmt = .flt) from hs), if_pos hp]; have := planar_fit (i := i) hs hn; rw [h] at this; exact fill_spec hr this)

/-- A queue is refused exactly without a codec, or for samples of unknown format. -/
theorem audio_refused_iff (i : AInfo) (n : Nat) :
    audioFrames i n = .ok none ↔ i.codec = .none ∨ ((i.codec = .pcm ∨ i.codec = .pcmu) ∧ i.fmt = .none) := by
  have hfill : ∀ m r mk, fill m r mk ≠ .ok none := by
    intro m r mk
    unfold fill maxSamples
    split
    · simp
    · split <;> simp
  unfold audioFrames
  cases hc : i.codec <;> simp only [reduceCtorEq, false_or, or_false, false_and, true_or, true_and, or_true,
    iff_false, iff_true]
  all_goals first | exact hfill _ _ _ | skip
  all_goals
    by_cases h1 : i.fmt = .u8 ∨ i.fmt = .s16 ∨ i.fmt = .flt
    · rw [if_pos h1]
      constructor
      · intro h; exact absurd h (hfill _ _ _)
      · intro h; rw [h] at h1; simp at h1
    · rw [if_neg h1]
      by_cases h2 : i.fmt = .u8p ∨ i.fmt = .s16p ∨ i.fmt = .fltp
      · rw [if_pos h2]
        constructor
        · intro h; exact absurd h (hfill _ _ _)
        · intro h; rw [h] at h2; simp at h2
      · rw [if_neg h2]
        cases hf : i.fmt <;> simp_all

/-- A stream description with its codec's defaults set always has frames. -/
theorem defaults_framed (i : AInfo) (hc : oneBuffer i.codec) : Framed i.defaults := by
  unfold Framed AInfo.defaults
  rcases hc with h | h | h | h <;> simp [h, oneBuffer, sideBySide]

/-- Recorded: for a codec whose frames are interleaved and a planar (or no) sample format, the queue is
created all the same, and every slot is NULL. -/
theorem audio_null_slots (i : AInfo) (n : Nat) (hc : oneBuffer i.codec) (hs : ¬ sideBySide i.fmt)
    (hr : i.rate < 21474836) :
    audioFrames i n = .ok (some (List.replicate (min n 250) none)) := by
  rw [← clamp_eq]
  have hi : ∀ k, interleaved i.channels i.rate k i.codec i.fmt = none := by
    intro k
    unfold interleaved
    rw [if_pos (by cases hf : i.fmt <;> simp_all [sideBySide])]
  have hfill : ∀ m, fill m i.rate (fun k => interleaved i.channels i.rate k i.codec i.fmt)
      = .ok (some (List.replicate m none)) := by
    intro m
    unfold fill
    by_cases h0 : m = 0
    · subst h0; rw [if_pos rfl]; rfl
    · rw [if_neg h0]
      unfold maxSamples
      rw [if_neg (by omega)]
      show Outcome.ok (some (List.replicate m (interleaved i.channels i.rate (100 * i.rate / 1000) i.codec i.fmt))) = _
      rw [hi]
  unfold audioFrames
  rcases hc with h | h | h | h <;> simp only [h] <;> (have := hfill (clamp n); rw [h] at this; exact this)

/-- Recorded: a rate of 21474837 samples per second or more overflows while the frames are made. -/
theorem audio_rate_overflow (i : AInfo) (n : Nat) (hi : Framed i) (hn : n ≠ 0) (hr : 21474837 ≤ i.rate) :
    audioFrames i n = .ub := by
  have hfill : ∀ mk, fill (clamp n) i.rate mk = .ub := by
    intro mk
    unfold fill maxSamples
    rw [if_neg (by rw [clamp_eq]; omega), if_pos (by omega)]
    rfl
  unfold audioFrames
  rcases hi with ⟨hc, hs⟩ | ⟨hc, hs⟩
  · rcases hc with h | h | h | h <;> simp only [h] <;> exact hfill _
  · rcases hc with h | h <;> simp only [h] <;>
      (by_cases h1 : i.fmt = .u8 ∨ i.fmt = .s16 ∨ i.fmt = .flt
       · rw [if_pos h1]; exact hfill _
       · rw [if_neg h1, if_pos (by cases hf : i.fmt <;> simp_all)]; exact hfill _)

example : Framed { codec := .aac, rate := 48000, channels := 2, fmt := .s16 } := by
  unfold Framed oneBuffer sideBySide; decide
example : ∃ f, audioFrames { codec := .pcm, rate := 48000, channels := 2, fmt := .s16p } 2 = .ok (some [some f, some f])
    ∧ f.cap = 9600 := ⟨_, rfl, rfl⟩

/-! ## Asking a queue for a frame to write to -/

/-- The queue's slots and indices as they are whenever it is used. -/
def Queue.Valid {F : Type} (q : Queue F) : Prop := q.rear < q.slots.length ∧ q.front < q.slots.length

/-- A queue of at least two slots that all hold frames hands one out after at most one flush. -/
theorem force_returns {F : Type} (q : Queue F) (hv : q.Valid) (h2 : 2 ≤ q.slots.length)
    (hall : ∀ s ∈ q.slots, s ≠ none) (fuel : Nat) :
    ∃ q' f, q.forceGetRear (fuel + 2) = .ok (q', f) ∧ some f ∈ q.slots ∧ q'.slots = q.slots := by
  obtain ⟨hr, hf⟩ := hv
  have get : ∀ k, k < q.slots.length → ∃ f, q.slots[k]?.getD none = some f ∧ some f ∈ q.slots := by
    intro k hk
    have hm : q.slots[k] ∈ q.slots := List.getElem_mem hk
    cases hs : q.slots[k] with
    | none => exact absurd hs (hall _ hm)
    | some f => exact ⟨f, by rw [List.getElem?_eq_getElem hk, hs]; rfl, hs ▸ hm⟩
  unfold Queue.forceGetRear Queue.getRear
  rw [if_neg (by omega)]
  by_cases hfull : (q.rear + 1) % q.slots.length = q.front
  · rw [if_pos hfull]
    show ∃ q' f, Queue.forceGetRear (fuel + 1) q.flush = _ ∧ _
    unfold Queue.forceGetRear Queue.getRear
    have hl : q.flush.slots = q.slots := rfl
    have hrear : q.flush.rear = (q.rear + (q.slots.length - 1)) % q.slots.length := rfl
    have hfr : q.flush.front = q.front := rfl
    rw [hl, if_neg (by omega), hrear, hfr]
    have hlt : (q.rear + (q.slots.length - 1)) % q.slots.length < q.slots.length := Nat.mod_lt _ (by omega)
    have hback : ((q.rear + (q.slots.length - 1)) % q.slots.length + 1) % q.slots.length = q.rear := by
      rw [Nat.mod_add_mod]
      have : q.rear + (q.slots.length - 1) + 1 = q.rear + q.slots.length := by omega
      rw [this, Nat.add_mod_right, Nat.mod_eq_of_lt hr]
    have hne : q.rear ≠ q.front := by
      rw [← hfull]
      by_cases hw : q.rear + 1 = q.slots.length
      · rw [hw, Nat.mod_self]; omega
      · rw [Nat.mod_eq_of_lt (by omega)]; omega
    rw [hback, if_neg hne]
    obtain ⟨f, h1, h3⟩ := get _ hlt
    rw [h1]
    exact ⟨_, f, rfl, h3, rfl⟩
  · rw [if_neg hfull]
    obtain ⟨f, h1, h3⟩ := get _ hr
    rw [h1]
    exact ⟨q, f, rfl, h3, rfl⟩

/-- Recorded: a queue whose slots are all NULL never returns from being asked, however long it is given. -/
theorem force_never_returns {F : Type} (n : Nat) (hn : 0 < n) :
    ∀ (fuel rear front : Nat),
      Queue.forceGetRear fuel ({ slots := List.replicate n none, rear := rear, front := front } : Queue F)
        = .hang := by
  intro fuel
  induction fuel with
  | zero => intro r f; rfl
  | succ k ih =>
    intro r f
    unfold Queue.forceGetRear Queue.getRear
    have hl : (List.replicate n (none : Option F)).length = n := List.length_replicate
    have hg : ∀ k : Nat, (List.replicate n (none : Option F))[k]?.getD none = none := by
      intro k
      rw [List.getElem?_replicate]
      split <;> rfl
    simp only [hl]
    rw [if_neg (by omega), hg]
    have hflush : ({ slots := List.replicate n none, rear := r, front := f } : Queue F).flush
        = { slots := List.replicate n none, rear := (r + (n - 1)) % n, front := f } := by
      unfold Queue.flush; simp only [hl]
    split <;> (show Queue.forceGetRear k _ = .hang; rw [hflush]; exact ih _ _)

/-- So a stream of MP3 announced with planar samples blocks its writer for good. -/
theorem mp3_planar_blocks (ch rate n fuel : Nat) (hr : rate < 21474836) (hn : 0 < n) :
    ∃ fs, audioFrames { codec := .mp3, rate := rate, channels := ch, fmt := .s16p } n = .ok (some fs) ∧
      Queue.forceGetRear fuel ({ slots := fs, rear := 0, front := 0 } : Queue AFrame) = .hang :=
  ⟨_, audio_null_slots _ n (by simp [oneBuffer]) (by simp [sideBySide]) hr,
    force_never_returns _ (by omega) _ _ _⟩

example : ∃ q' f, Queue.forceGetRear 2 ({ slots := [some 5, some 7], rear := 0, front := 1 } : Queue Nat)
    = .ok (q', f) ∧ f = 7 := ⟨_, _, rfl, rfl⟩

/-! ## Clearing a frame -/

/-- A planar frame of one or two channels can be cleared. -/
theorem planar_clear (ch rate n : Nat) (c : AC) (s : SF) (f : AFrame) (h : planar ch rate n c s = some f)
    (hc : ch ≤ 2) : f.fillWithValue = .ok () := by
  unfold planar at h
  split at h
  · cases h
  · cases h
    unfold AFrame.fillWithValue
    rw [if_pos rfl, if_neg (by show ¬ ch > 2; omega)]

/-- Recorded: clearing an interleaved frame of two or more channels writes past its buffer (no caller does). -/
theorem interleaved_clear (ch rate n : Nat) (c : AC) (s : SF) (f : AFrame) (h : interleaved ch rate n c s = some f)
    (hc : 2 ≤ ch) (hn : 0 < n) : f.fillWithValue = .ub := by
  unfold interleaved at h
  split at h
  · cases h
  · rename_i hs
    cases h
    unfold AFrame.fillWithValue
    have hb : 0 < bytesPerSample s := by cases s <;> simp_all [bytesPerSample]
    have hp : 0 < bytesPerSample s * n * 2 := by
      have := Nat.mul_pos hb hn
      omega
    rw [if_neg (by simp)]
    show (if bytesPerSample s * n * 2 * ch > bytesPerSample s * n * 2 then Outcome.ub else Outcome.ok ()) = Outcome.ub
    rw [if_pos]
    calc bytesPerSample s * n * 2 < bytesPerSample s * n * 2 * 2 := by omega
      _ ≤ bytesPerSample s * n * 2 * ch := Nat.mul_le_mul_left _ hc

/-- **C69.** The usual number of samples of a frame is that of 20 ms, rounded down; it is defined for rates up to 107374 Hz. -/
theorem twenty_milliseconds (rate : Nat) :
    (rate ≤ 107374 → ∃ n, defaultSamples rate = .ok n ∧ 50 * n ≤ rate ∧ rate < 50 * n + 50) ∧
    (107374 < rate → defaultSamples rate = .ub) := by
  unfold defaultSamples
  constructor
  · intro h
    exact ⟨20000 * rate / 1000000, if_neg (by omega), by omega, by omega⟩
  · intro h
    exact if_pos (by omega)

example : defaultSamples 48000 = .ok 960 := by decide

/-- **C69.** G.711 is one channel of 8000 samples of eight bits a second, whatever was asked for; the other codecs keep rate and channels. -/
theorem codec_defaults (i : AInfo) :
    i.defaults.codec = i.codec ∧
    (i.codec = .g711 → i.defaults.rate = 8000 ∧ i.defaults.channels = 1 ∧ i.defaults.fmt = .u8) ∧
    (i.codec ≠ .g711 → i.defaults.rate = i.rate ∧ i.defaults.channels = i.channels) := by
  unfold AInfo.defaults
  cases h : i.codec <;> simp [h]

end Lms.FrameAlloc
