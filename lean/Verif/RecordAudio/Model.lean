import Verif.Dash.Audio
import Verif.Adts.Props

/-!
# Model of one audio input of the DASH filter (src/modules/dasher/Dasher.cpp, DashAudioSegmenter.cpp)

The areas `Adts` (headers and decoder configuration), `Isoff` (bytes of the files) and `Dash` (frames to segments) put together
in the order in which the filter calls them.  The origin of the times is a parameter (the area `DashTop` models how it is
chosen).  The context of the segmenter, created with the first frame (DashAudioSegmenter.cpp:66-68), is there from the start,
empty.  Logs, the reporting to the manifest (C51) and the copies of the configuration that are never freed
(i2libisoff.c:190) are not modelled.
-/

namespace Lms.RecordAudio

/-- An audio frame as the filter looks at it: data with ADTS header, time, channels, rate, number of samples and bits of one
(DashAudioSegmenter.cpp:46-47). -/
structure Sound where
  data : Bytes
  pts : Int
  channels : Nat
  rate : Nat
  samples : Nat
  bits : Nat
  deriving DecidableEq

/-- What happens to the input: a frame arrives, with the initialisation file writable or not; or, when there is video too, the
video segment is complete (Dasher.cpp:262, 351-377). -/
inductive In where
  | frame (f : Sound) (writable : Bool)
  | cut

/-- src/modules/dasher/DashAudioSegmenter.hh:36-92, src/modules/dasher/Dasher.hh:143-228. -/
structure State where
  adts : Adts.State
  seg : Dash.State
  /-- `segDur` (Dasher.hh:216). -/
  secs : Nat

/-- What a round leaves: the initialisation file, and the segment. -/
structure Out where
  init : Option Bytes
  seg : Option Dash.Seg

/-- src/modules/dasher/Dasher.cpp:680-683 `microsToTimeBase`, the time base being the rate (DashAudioSegmenter.cpp:74). -/
def ticks (rate : Nat) (off micros : Int) : Outcome Nat :=
  let p : Int := (micros - off) * rate
  if p < -2 ^ 63 ∨ 2 ^ 63 ≤ p then .ub
  else .ok ((p.tdiv 1000000) % 2 ^ 64).toNat

/-- src/modules/dasher/DashAudioSegmenter.cpp:62-86 `setup` with i2libdash.c:38-42, 168-185; the target is a number of 32 bits
(Dasher.hh:220). -/
def setup (secs : Nat) (s : Dash.State) (f : Sound) : Dash.State :=
  { s with
    ctx := { s.ctx with channels := f.channels, sampleRate := f.rate, sampleSize := f.bits, timeBase := f.rate, sampleDuration := f.samples }
    target := secs * f.rate % 2 ^ 32 }

/-- src/modules/dasher/DashAudioSegmenter.cpp:88-114 `generateInitSegment` with i2libdash.c:279-297; the written
initialisation segments are longer than the error codes. -/
def makeInit (cap : Nat) (a : Adts.State) (s : Dash.State) : Outcome (Adts.State × Dash.State × Option Bytes) :=
  match Adts.takeInit a with
  | (_, none) => .ok (a, s, none)
  | (a', some x) =>
    (Isoff.initGenerator cap s.ctx x).bind fun
    | .err _ => .ok (a, s, none)
    | .out c b => .ok (a', { s with ctx := c }, some b)

/-- src/modules/dasher/Dasher.cpp:111-130, 188-198, 227-231 and 351-377; DashAudioSegmenter.cpp:37-60, 131-157.  `alone`: there is no
video input. -/
def step (cap : Nat) (off : Int) (alone : Bool) (r : State) : In → Outcome (State × Out)
  | .cut => (Dash.audioStep cap r.seg .force).bind fun v => .ok ({ r with seg := v.1 }, ⟨none, v.2⟩)
  | .frame f w =>
    let s := setup r.secs r.seg f
    let u := Adts.update r.adts f.data
    if u.2 = false then .ok ({ r with adts := u.1, seg := s }, ⟨none, none⟩)
    else
      (makeInit cap u.1 s).bind fun q =>
        if q.2.2.isSome ∧ w = false then .ok ({ r with adts := q.1, seg := q.2.1 }, ⟨none, none⟩)
        else
          (ticks f.rate off f.pts).bind fun p =>
            let x : Dash.Frm := ⟨(Adts.samplePart f.data).1, p, p, true⟩
            (Dash.audioStep cap q.2.1 (if alone then .frame x f.samples else .append x f.samples)).bind fun v =>
              .ok ({ r with adts := q.1, seg := v.1 }, ⟨q.2.2, v.2⟩)

/-- A new segmenter: DashAudioSegmenter.cpp:25-29 (the three fields of the header are not set), Dasher.cpp:630-635, i2libdash.c:75-150. -/
def new (a b c : UInt8) (secs : Nat) : State :=
  { adts := ⟨a, b, c, []⟩, seg := Dash.fresh .audio 0 [] 0 0 0, secs := secs }

end Lms.RecordAudio
