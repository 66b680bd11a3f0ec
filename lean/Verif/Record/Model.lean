import Verif.Dash.Props
import Verif.Nalu.Assembly

/-!
# Model of one video input of the DASH filter (src/modules/dasher/Dasher.cpp, DashVideoSegmenter.cpp)

The areas `Nalu` (units to frames), `Isoff` (bytes of the files) and `Dash` (frames to segments) put together in the order in
which the filter calls them.  The origin of the times is a parameter here (the area `DashTop` models how it is chosen, and how
the finished segments of several inputs are written together; with a single video input each is written when it is finished).
The context of the segmenter, which the code creates with the first frame (DashVideoSegmenter.cpp:72-74), is there from the
start, empty.  Logs are not modelled.
-/

namespace Lms.Record

/-- src/modules/dasher/Dasher.hh:40 `DASH_VIDEO_TIME_BASE`. -/
abbrev BASE : Nat := 12800

/-- src/modules/dasher/Dasher.cpp:680-683 `microsToTimeBase`, for times of either sign: a missing decode time is -1
(Frame.hh:32) and is converted like any other. -/
def ticks (off micros : Int) : Outcome Nat :=
  let p : Int := (micros - off) * BASE
  if p < -2 ^ 63 ∨ 2 ^ 63 ≤ p then .ub
  else .ok ((p.tdiv 1000000) % 2 ^ 64).toNat

/-- src/modules/dasher/DashVideoSegmenter.hh:39-115, src/modules/dasher/Dasher.hh:143-228. -/
structure State where
  asm : Nalu.State
  seg : Dash.State
  /-- `segDur` (Dasher.hh:216). -/
  secs : Nat

/-- What a round leaves: the initialisation file, and the segment. -/
structure Out where
  init : Option Bytes
  seg : Option Dash.Seg

/-- src/modules/dasher/DashVideoSegmenter.cpp:68-87 `setup` with i2libdash.c:39-42, 151-167; Dasher.cpp:619: the target is
cut to 32 bits. -/
def setup (secs : Nat) (s : Dash.State) (w h : Nat) : Dash.State :=
  { s with ctx := { s.ctx with width := w, height := h, timeBase := BASE }, target := secs * BASE % 2 ^ 32 }

/-- src/modules/dasher/DashVideoSegmenter.cpp:89-114 `generateInitSegment` with i2libdash.c:185-212; the written
initialisation segments are longer than the error codes. -/
def makeInit (cap : Nat) (a : Nalu.State) (s : Dash.State) : Outcome (Nalu.State × Dash.State × Option Bytes) :=
  if a.extra = [] then .ok (a, s, none)
  else if s.ctx.width = 0 ∨ s.ctx.height = 0 then .ok (a, s, none)
  else (Isoff.initGenerator cap s.ctx a.extra).bind fun
    | .err _ => .ok (a, s, none)
    | .out c b => .ok ({ a with extra := [] }, { s with ctx := c }, some b)

/-- src/modules/dasher/Dasher.cpp:111-130 and 173-186, for one unit; `w`: the initialisation file can be written. -/
def step (cap : Nat) (off : Int) (r : State) (i : Nalu.Nal × Bool) : Outcome (State × Out) :=
  (Nalu.manageFrame r.asm i.1).bind fun m =>
    match m.2 with
    | none => .ok ({ r with asm := m.1 }, ⟨none, none⟩)
    | some au =>
      (makeInit cap m.1 (setup r.secs r.seg au.width au.height)).bind fun q =>
        if q.2.2.isSome ∧ i.2 = false then .ok ({ r with asm := q.1, seg := q.2.1 }, ⟨none, none⟩)
        else
          (ticks off au.pts).bind fun p => (ticks off au.dts).bind fun d =>
            (Dash.videoFrame cap q.2.1 ⟨au.data, p, d, au.intra⟩).bind fun v =>
              .ok ({ r with asm := q.1, seg := v.1 }, ⟨q.2.2, v.2⟩)

def media : Nalu.Codec → Isoff.Media
  | .avc => .avc
  | .hevc => .hevc

/-- A new segmenter for frames of up to `max` bytes: DashVideoSegmenter.cpp:28-33, DashVideoSegmenterAVC.cpp:28-34,
DashVideoSegmenterHEVC.cpp:28-34, Dasher.cpp:614-620, i2libdash.c:75-91. -/
def new (c : Nalu.Codec) (max secs : Nat) : State :=
  { asm := ⟨c, max, ⟨[], 0, -1, 0, 0⟩, ⟨[], 0, -1, 0, 0⟩, false, false, [], [], [], []⟩
    seg := Dash.fresh (media c) (secs * BASE % 2 ^ 32) [] BASE 0 0
    secs := secs }

end Lms.Record
