import Verif.Common.Outcome
import Verif.Common.Bytes

/-!
# Model of the sources that feed the transmitter's packetisers

src/modules/transmitter/QueueSource.cpp, H264or5QueueSource.cpp, H264VideoStreamSampler.cpp, H264or5StartCodeInjector.cpp and the
frame loop of SinkManager.cpp.

The library side (live555's `FramedSource`) is modelled as it is documented: a request stores the buffer and its size and
calls `doGetNextFrame`; asking again while a request is outstanding aborts; delivering ends the request; stopping ends it too.
A consumer that asks again from inside the delivery does so as the last action of `deliverFrame`, so it is the next operation.
Not modelled: `saveCopyOfSPS`/`saveCopyOfPPS` of the library; `updateSPSInfo` is covered by the area `Sps`.
-/

namespace Lms.Sources

/-! ## Annex B extradata -/

/-- H264or5QueueSource.cpp:42-52 `startOffset`; reads three bytes, and a fourth unless they are a short start code. -/
def startOffset : Bytes → Outcome Nat
  | a :: b :: c :: r =>
    if a.toNat * 2 ^ 16 + b.toNat * 2 ^ 8 + c.toNat = 1 then .ok 3
    else
      match r with
      | d :: _ => if a.toNat * 2 ^ 24 + b.toNat * 2 ^ 16 + c.toNat * 2 ^ 8 + d.toNat = 1 then .ok 4 else .ok 0
      | [] => .ub
  | _ => .ub

/-- H264or5QueueSource.cpp:94-107: `left` bytes of extradata remain at `rest` (which goes on with whatever is behind it), `acc` are
the bytes since `nalStart`.  A start code that reaches behind the end makes the last size negative. -/
def scan (left : Nat) (rest acc : Bytes) : Outcome (List Bytes) :=
  if h : left = 0 then .ok [acc]
  else
    match startOffset rest with
    | .ok 0 => scan (left - 1) (rest.drop 1) (acc ++ rest.take 1)
    | .ok (k + 1) => if left < k + 1 then .ub else (scan (left - (k + 1)) (rest.drop (k + 1)) []).map (acc :: ·)
    | .ub => .ub
    | .hang => .hang
termination_by left

/-- src/Types.hh:62. -/
inductive Codec where
  | h264 | h265 | other
  deriving DecidableEq

/-- The three parameter sets with the sizes stored beside them (src/modules/transmitter/H264or5QueueSource.hh:54-60). -/
structure Params where
  vps : Option (Bytes × Nat) := none
  sps : Option (Bytes × Nat) := none
  pps : Option (Bytes × Nat) := none
  deriving DecidableEq

/-- H264or5QueueSource.cpp:121-152 `feedHeaders`; the size is passed in eight bits, the first byte of an empty unit does not exist. -/
def feed (codec : Codec) (p : Params) (nal : Bytes) : Outcome Params :=
  match codec, nal with
  | .other, _ => .ok p
  | _, [] => .ub
  | .h264, b :: _ =>
    let t := b.toNat % 32
    if t = 7 then .ok { p with sps := some (nal, nal.length % 256) }
    else if t = 8 then .ok { p with pps := some (nal, nal.length % 256) } else .ok p
  | .h265, b :: _ =>
    let t := b.toNat / 2 % 64
    if t = 33 then .ok { p with sps := some (nal, nal.length % 256) }
    else if t = 34 then .ok { p with pps := some (nal, nal.length % 256) }
    else if t = 32 then .ok { p with vps := some (nal, nal.length % 256) } else .ok p

/-- The calls of `feedHeaders` one after the other.
Calls `feed` (H264or5QueueSource.cpp:121-152). -/
def feedAll (codec : Codec) : Params → List Bytes → Outcome Params
  | p, [] => .ok p
  | p, n :: l => (feed codec p n).bind fun p' => feedAll codec p' l

/-- H264or5QueueSource.cpp:82-119 `parseExtradata` for Annex B; `behind` is the memory behind the extradata. -/
def parseExtradata (codec : Codec) (p : Params) (extra behind : Bytes) : Outcome (Params × Bool) :=
  if extra.length = 0 then .ok (p, false)                                                      -- 88-90
  else (startOffset (extra ++ behind)).bind fun k =>
    if extra.length < k then .ub
    else (if k = 0 then Outcome.ok p
      else (scan (extra.length - k) ((extra ++ behind).drop k) []).bind (feedAll codec p)).bind fun p' =>
    Outcome.ok (p', match codec with
      | .h264 => p'.sps.isSome && p'.pps.isSome
      | .h265 => p'.sps.isSome && p'.pps.isSome && p'.vps.isSome
      | .other => false)

/-! ## Queue sources -/

/-- A frame: its buffer, of which `len` bytes are valid, and its presentation time in microseconds (src/Frame.hh:37-153). -/
structure Frame where
  buf : Bytes
  len : Nat
  pts : Int
  deriving DecidableEq

/-- QueueSource.hh:28-32, with the outstanding request of `FramedSource` (its room). -/
structure Src where
  frame : Option Frame := none
  processed : Bool := false
  stop : Bool := true
  waiting : Option Nat := none
  deriving DecidableEq

/-- What a request is answered with: bytes, truncated bytes, time. -/
structure Answer where
  bytes : Bytes
  truncated : Nat
  sec : Int
  usec : Int
  deriving DecidableEq

inductive Kind where
  | plain | h26x
  deriving DecidableEq

/-- H264or5QueueSource.cpp:171: the bytes left out in front. -/
def headLen (k : Kind) (f : Frame) : Outcome Nat :=
  match k with
  | .plain => .ok 0
  | .h26x => startOffset f.buf

/-- QueueSource.cpp:49-60 and H264or5QueueSource.cpp:168-187: the answer made of a frame.  The size is unsigned. -/
def answer (k : Kind) (f : Frame) (room : Nat) : Outcome Answer :=
  (headLen k f).bind fun o =>
    let size := if o ≤ f.len then f.len - o else f.len + 2 ^ 32 - o
    let n := if room < size then room else size
    if f.buf.length < o + n then .ub
    else .ok ⟨(f.buf.drop o).take n, if room < size then size - room else 0, f.pts.tdiv 1000000, f.pts.tmod 1000000⟩

/-- QueueSource.cpp:39-64 and H264or5QueueSource.cpp:154-191 `deliverFrame`. -/
def deliver (k : Kind) (s : Src) : Outcome (Src × Option Answer) :=
  match s.waiting, s.frame with
  | none, _ => .ok (s, none)
  | _, none => .ok (s, none)
  | some room, some f =>
    if k = .plain ∧ s.processed = true then .ok (s, none)
    else (answer k f room).bind fun a => Outcome.ok ({ s with processed := true, waiting := none }, some a)

inductive Op where
  /-- `SinkManager` offers a frame -/
  | set (f : Frame)
  /-- the packetiser asks for a frame -/
  | ask (room : Nat)
  /-- the event trigger fires -/
  | trigger
  /-- `SinkManager` asks whether the frame is done with -/
  | got
  /-- the packetiser stops -/
  | stop

inductive Out where
  | set (accepted : Bool)
  | answer (a : Option Answer)
  | got (released : Bool)
  | none
  deriving DecidableEq

/-- QueueSource.cpp:18-101, H264or5QueueSource.cpp:154-191; asking twice aborts in the library. -/
def step (k : Kind) (s : Src) : Op → Outcome (Src × Out)
  | .set f => if s.frame = none then .ok ({ s with frame := some f }, .set true) else .ok (s, .set false)       -- 78-85
  | .ask room =>                                                                                               -- 18-33
    if s.waiting ≠ none then .ub
    else
      let s := { s with waiting := some room, stop := false }
      if s.frame ≠ none then (deliver k s).bind fun r => Outcome.ok (r.1, .answer r.2) else .ok (s, .answer none)
  | .trigger => (deliver k s).bind fun r => Outcome.ok (r.1, .answer r.2)                                      -- 35-37
  | .got =>                                                                                                    -- 66-76
    if s.processed = true ∨ s.stop = true then
      if s.frame ≠ none then .ok ({ s with processed := false, frame := none }, .got true)
      else .ok ({ s with processed := false }, .got false)
    else .ok (s, .got false)
  | .stop => .ok ({ s with waiting := none, stop := true }, .none)                                             -- 97-101

/-! ## The frame loop of the transmitter -/

/-- What a packetiser may do on its own. -/
inductive Act where
  | ask (room : Nat)
  | trigger
  | stop

def Act.op : Act → Op
  | .ask r => .ask r
  | .trigger => .trigger
  | .stop => .stop

/-- The sources by reader id. -/
abbrev Sources := List (Nat × Kind × Src)

/-- One action on one source (none, if the id is unknown).
Calls `step` (QueueSource.cpp:18-101). -/
def act (i : Nat) (a : Act) : Sources → Outcome Sources
  | [] => .ok []
  | (j, k, s) :: l =>
    if i = j then (step k s a.op).bind fun r => Outcome.ok ((j, k, r.1) :: l)
    else (act i a l).bind fun l' => Outcome.ok ((j, k, s) :: l')

/-- `SingleStep`: whatever the packetisers do in it. -/
def single : List (Nat × Act) → Sources → Outcome Sources
  | [], l => .ok l
  | (i, a) :: as, l => (act i a l).bind (single as)

/-- SinkManager.cpp:141-148: the frames offered; the trigger itself fires in a later `SingleStep`. -/
def offer (new : List (Nat × Frame)) : Sources → Sources × Nat
  | [] => ([], 0)
  | (j, k, s) :: l =>
    let r := offer new l
    match new.lookup j with
    | some f => if s.frame = none then ((j, k, { s with frame := some f }) :: r.1, r.2 + 1) else ((j, k, s) :: r.1, r.2)
    | none => ((j, k, s) :: r.1, r.2)

/-- SinkManager.cpp:159-163: `gotFrame` of every source, and how many said yes. -/
def collect : Sources → Sources × Nat
  | [] => ([], 0)
  | (j, k, s) :: l =>
    let r := collect l
    if s.processed = true ∨ s.stop = true then
      if s.frame ≠ none then ((j, k, { s with processed := false, frame := none }) :: r.1, r.2 + 1)
      else ((j, k, { s with processed := false }) :: r.1, r.2)
    else ((j, k, s) :: r.1, r.2)

/-- SinkManager.cpp:157-164: `pending` frames are out; the list holds what happens in each `SingleStep`. -/
def loop : List (List (Nat × Act)) → Sources → Int → Outcome Sources
  | sched, l, pending =>
    if pending ≤ 0 then .ok l
    else
      match sched with
      | [] => .hang
      | acts :: sched => (single acts l).bind fun l' => loop sched (collect l').1 (pending - (collect l').2)

/-- SinkManager.cpp:133-167 `doProcessFrame`. -/
def processFrames (new : List (Nat × Frame)) (sched : List (List (Nat × Act))) (l : Sources) : Outcome (Sources × Bool) :=
  let r := offer new l
  if r.2 = 0 then
    match sched with
    | [] => .hang
    | acts :: _ => (single acts r.1).bind fun l' => Outcome.ok (l', false)
  else (loop sched r.1 r.2).bind fun l' => Outcome.ok (l', true)

/-! ## Sampler -/

/-- A NAL unit handed to the sampler, with its time. -/
structure Nal where
  data : Bytes
  time : Int
  deriving DecidableEq

/-- An access unit delivered: bytes, truncated bytes, time. -/
structure Unit' where
  bytes : Bytes
  truncated : Nat
  time : Int
  deriving DecidableEq

/-- H264VideoStreamSampler.cpp:64-72: what is written before a unit. -/
def preamble (annexB : Bool) (n : Nat) : Bytes := if annexB then [0, 0, 0, 1] else be32 n

/-- H264VideoStreamSampler.cpp:75-81. -/
def nalType : Bytes → Nat
  | b :: _ => b.toNat % 32
  | [] => 0xff

/-- H264VideoStreamSampler.cpp:42-113, one unit: `acc` is what lies before `offset` in the buffer of size `max`.  Without room for
the prefix the size offered wraps. -/
def sample (annexB : Bool) (max : Nat) (acc : Bytes) (u : Nal) : Outcome (Bytes × Option Unit') :=
  if max < acc.length + 4 then .ub
  else
    let room := max - acc.length - 4
    let got := u.data.take room
    let truncated := u.data.length - room
    if nalType got = 9 ∨ truncated > 0 then .ok ([], some ⟨acc, truncated, u.time⟩)
    else .ok (acc ++ preamble annexB got.length ++ got, none)

/-- Units one after the other; the consumer offers `max j` for its `j`-th request.
Calls `sample` (H264VideoStreamSampler.cpp:42-113). -/
def sampler (annexB : Bool) (max : Nat → Nat) : Nat → Bytes → List Nal → Outcome (List Unit' × Bytes)
  | _, acc, [] => .ok ([], acc)
  | j, acc, u :: us =>
    (sample annexB (max j) acc u).bind fun r =>
      match r.2 with
      | some o => (sampler annexB max (j + 1) r.1 us).bind fun r' => Outcome.ok (o :: r'.1, r'.2)
      | none => sampler annexB max j r.1 us

/-- H264or5StartCodeInjector.cpp:55-103: bytes, truncated bytes and the end-of-picture mark (the library's `isVCL`: types 1 to 5 of
H.264, up to 31 of H.265), which is only set here (the packetiser clears it). -/
def inject (h265 : Bool) (max : Nat) (u : Bytes) (mark : Bool) : Outcome (Bytes × Nat × Bool) :=
  if max < 4 then .ub
  else
    let got := u.take (max - 4)
    let vcl := match h265, got with
      | false, b :: _ => decide (1 ≤ b.toNat % 32 ∧ b.toNat % 32 ≤ 5)
      | true, b :: _ :: _ => decide (b.toNat / 2 % 64 ≤ 31)
      | _, _ => false
    .ok ([0, 0, 0, 1] ++ got, u.length - (max - 4), mark || vcl)

end Lms.Sources
