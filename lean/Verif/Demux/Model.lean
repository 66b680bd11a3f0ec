import Verif.Common.Mem

/-!
# Model of the libav demultiplexer filter (`src/modules/headDemuxer/HeadDemuxerLibav.cpp`)

libav itself (reading packets, the AVCC to Annex B bit stream filter) is the environment: every
call gets an arbitrary answer.  The filter's own work is modelled: framing, time stamps, release of
packets and buffers.  An access outside a buffer, or a signed overflow, is undefined behaviour.
-/

namespace Lms.Demux

/-- `AV_NOPTS_VALUE` of libav (used HeadDemuxerLibav.cpp:127, 204): the smallest `int64_t`. -/
abbrev NOPTS : Int := -9223372036854775808

/-- The bounds of `int64_t`. -/
def i64 (x : Int) : Prop := -9223372036854775808 ≤ x ∧ x ≤ 9223372036854775807

instance (x : Int) : Decidable (i64 x) := inferInstanceAs (Decidable (_ ∧ _))

/-- `PrivateStreamInfo`, HeadDemuxerLibav.hh:64-77.  The time base is kept as the fraction libav
gives instead of the `double` computed from it at HeadDemuxerLibav.cpp:357-359. -/
structure Psi where
  num : Int
  den : Int
  needsFraming : Bool
  isAnnexB : Bool
  lastPTS : Int := 0
  lastDTS : Int := 0
deriving DecidableEq

/-- What `av_read_frame` fills in (HeadDemuxerLibav.cpp:114-119): the fields of `AVPacket` used. -/
structure Pkt where
  data : Bytes
  stream : Nat
  pts : Int
  dts : Int
deriving DecidableEq

/-- The working buffer, HeadDemuxerLibav.hh:101-105: the bytes `buffer` points to, whether they are
a separate allocation (`buffer != av_pkt.data`), `bufferSize` and `bufferOffset`. -/
structure Buf where
  mem : Bytes
  own : Bool
  size : Nat
  offset : Nat
deriving DecidableEq

/-- Answers of `av_bitstream_filter_filter`, HeadDemuxerLibav.cpp:134-148: an error, a pointer
inside the packet (`res == 0`) with a size, or a new allocation (`res > 0`). -/
inductive FilterRes where
  | fail
  | inside (k size : Nat)
  | fresh (bytes : Bytes)
deriving DecidableEq

/-- What one call of `doProcessFrame` meets: the packet `av_read_frame` would give, the answer of
the bit stream filter, and the destination frames' capacities (`dstFrames`, by stream).
(src/modules/headDemuxer/HeadDemuxerLibav.cpp:117.) -/
structure Env where
  read : Option Pkt
  filter : FilterRes
  dst : Nat → Option Nat

/-- The state of the filter, HeadDemuxerLibav.hh:87-105.  `av_pkt.data == NULL` is `pkt = none`.
`start` is `av_ctx->start_time_realtime`.  `live` counts the separate buffers not yet freed and
`held` the packets not yet unreferenced: bookkeeping of the model, the code has no such counters. -/
structure St where
  opened : Bool
  start : Int
  psi : Nat → Option Psi
  pkt : Option Pkt
  buf : Option Buf
  live : Nat
  held : Nat

/-- An output frame: stream, bytes written and their number (`setLength`), the two times set,
HeadDemuxerLibav.cpp:193-216. -/
structure Out where
  stream : Nat
  bytes : Bytes
  pts : Int
  dts : Int
deriving DecidableEq

/-- Are the next four bytes `00 00 01 xx` or `00 00 00 01`?  The test of
HeadDemuxerLibav.cpp:93-100. -/
def isCode (a b c d : UInt8) : Bool := a == 0 && b == 0 && (c == 1 || (c == 0 && d == 1))

/-- `findStartCode`, HeadDemuxerLibav.cpp:90-104.  All four bytes are taken to be read although the
code may stop earlier: this only matters when `len` exceeds the buffer. -/
def findStartCode (mem : Bytes) (offs : Nat) (len : Int) : Outcome (Option Nat) :=
  if h : (offs : Int) < len - 3 then
    match mem.drop offs with
    | a :: b :: c :: d :: _ => if isCode a b c d then .ok (some offs) else findStartCode mem (offs + 1) len
    | _ => .ub
  else .ok none
termination_by (len - offs).toNat
decreasing_by omega

/-- `(int64_t)(ticks * streamTimeBase * 1000000)`, HeadDemuxerLibav.cpp:212, 215.  The rounding of
the `double` product is not modelled: the exact product is truncated towards zero.  A value
outside `int64_t` (and a zero denominator) is undefined behaviour. -/
def micros (psi : Psi) (ticks : Int) : Outcome Int :=
  if psi.den = 0 then .ub
  else if i64 (Int.tdiv (ticks * psi.num * 1000000) psi.den) then .ok (Int.tdiv (ticks * psi.num * 1000000) psi.den)
  else .ub

/-- Signed 64 bit addition. -/
def add64 (a b : Int) : Outcome Int := if i64 (a + b) then .ok (a + b) else .ub

/-- The time stamps of a frame, HeadDemuxerLibav.cpp:204-216. -/
def times (start : Int) (psi : Psi) (p : Pkt) : Outcome (Int × Int) :=
  if p.pts = NOPTS then
    (add64 psi.lastPTS start).bind fun a => (add64 psi.lastDTS start).bind fun b => .ok (a, b)
  else
    (micros psi p.pts).bind fun x => (add64 x start).bind fun a =>
    (micros psi p.dts).bind fun y => (add64 y start).bind fun b => .ok (a, b)

/-- The bytes from `start` to `stop`, behind a byte 0 when the start code is short: lines 186-194
(`buffer[start + 2] == 1`).  The destination frame has room for `cap` bytes. -/
def copyUnit (mem : Bytes) (start stop cap : Nat) : Outcome Bytes :=
  if stop ≤ mem.length ∧ start ≤ stop ∧ start + 2 < mem.length then
    if mem[start + 2]? = some 1 then
      if stop - start + 1 ≤ cap then .ok (0 :: (mem.drop start).take (stop - start)) else .ub
    else if stop - start ≤ cap then .ok ((mem.drop start).take (stop - start)) else .ub
  else .ub

/-- Framing, HeadDemuxerLibav.cpp:174-200: the bytes of the frame and the new `bufferOffset`
(`none` for -1).  Without a start code `start` is -1 and the copy begins before the buffer. -/
def nextPiece (psi : Psi) (b : Buf) (cap : Nat) : Outcome (Bytes × Option Nat) :=
  if psi.needsFraming then
    (findStartCode b.mem b.offset b.size).bind fun start =>
    match start with
    | none => .ub
    | some st =>
      (findStartCode b.mem (b.offset + 4) ((b.size : Int) - 4)).bind fun stop =>
      (copyUnit b.mem st (stop.getD b.size) cap).bind fun bytes => .ok (bytes, stop)
  else if b.size ≤ b.mem.length ∧ b.size ≤ cap then .ok (b.mem.take b.size, none) else .ub

/-- Freeing the buffer (when separate) and the packet: HeadDemuxerLibav.cpp:160-164 and 218-224. -/
def release (s : St) (b : Buf) : St :=
  { s with pkt := none, buf := none, live := if b.own then s.live - 1 else s.live, held := s.held - 1 }

/-- The second half of `doProcessFrame`, HeadDemuxerLibav.cpp:158-226. -/
def emit (e : Env) (s : St) (p : Pkt) (psi : Psi) (b : Buf) : Outcome (St × Option Out) :=
  match e.dst p.stream with
  | none => .ok (release s b, none)
  | some cap =>
    (nextPiece psi b cap).bind fun x =>
    (times s.start psi p).bind fun t =>
    match x.2 with
    | none => .ok (release s b, some ⟨p.stream, x.1, t.1, t.2⟩)
    | some o => .ok ({ s with buf := some { b with offset := o } }, some ⟨p.stream, x.1, t.1, t.2⟩)

/-- The last time stamps seen, HeadDemuxerLibav.cpp:127-130. -/
def remember (psi : Psi) (p : Pkt) : Psi :=
  if p.pts = NOPTS then psi else { psi with lastPTS := p.pts, lastDTS := p.dts }

/-- A new packet, HeadDemuxerLibav.cpp:113-153.  A failing filter releases the packet (139-141).  A
result inside the packet is taken at its offset with the filter's size (143-148). -/
def start (e : Env) (s : St) (p : Pkt) (psi0 : Psi) : Outcome (St × Option Out) :=
  let psi := remember psi0 p
  let s1 := { s with psi := fun i => if i = p.stream then some psi else s.psi i }
  if psi.needsFraming && !psi.isAnnexB then
    match e.filter with
    | .fail => .ok ({ s1 with pkt := none, buf := none }, none)
    | .inside k size =>
      let b : Buf := ⟨p.data, false, size, k⟩
      emit e { s1 with pkt := some p, buf := some b, held := s.held + 1 } p psi b
    | .fresh bytes =>
      let b : Buf := ⟨bytes, true, bytes.length, 0⟩
      emit e { s1 with pkt := some p, buf := some b, held := s.held + 1, live := s.live + 1 } p psi b
  else
    let b : Buf := ⟨p.data, false, p.data.length, 0⟩
    emit e { s1 with pkt := some p, buf := some b, held := s.held + 1 } p psi b

/-- `doProcessFrame`, HeadDemuxerLibav.cpp:106-227.  A packet pending without a stream entry would
be a null pointer (line 155), a packet without buffer a null buffer. -/
def call (e : Env) (s : St) : Outcome (St × Option Out) :=
  if s.opened then
    match s.pkt with
    | some p =>
      match s.psi p.stream, s.buf with
      | some psi, some b => emit e s p psi b
      | _, _ => .ub
    | none =>
      match e.read with
      | none => .ok (s, none)
      | some p =>
        match s.psi p.stream with
        | none => .ok (s, none)
        | some psi => start e s p psi
  else .ok (s, none)

/-- `reset`, HeadDemuxerLibav.cpp:56-88. -/
def reset (s : St) : St :=
  { s with
    opened := false, psi := fun _ => none, pkt := none, buf := none
    live := match s.buf with
      | some b => if b.own then s.live - 1 else s.live
      | none => s.live
    held := match s.pkt with
      | some _ => s.held - 1
      | none => s.held }

/-- A stream as libav describes it: what HeadDemuxerLibav.cpp:298-364 looks at. -/
structure Desc where
  h264 : Bool
  extradata : Bytes
  num : Int
  den : Int
deriving DecidableEq

/-- The private entry of a stream, HeadDemuxerLibav.cpp:302-305 and 330-359 (`memset` clears the
flags).  `hasFilter`: `av_bitstream_filter_init` succeeds. -/
def classify (hasFilter : Bool) (d : Desc) : Psi :=
  if d.extradata.length > 4 && d.h264 then
    let annexB := d.extradata.head? == some 0
    { num := d.num, den := d.den, needsFraming := annexB || hasFilter, isAnnexB := annexB }
  else { num := d.num, den := d.den, needsFraming := false, isAnnexB := false }

/-- How the stream is announced (`annexb && framed`), HeadDemuxerLibav.cpp:352-354. -/
def announcedFramed (d : Desc) : Bool := d.extradata.length > 4 && d.h264

/-- What opening a URI meets: it cannot be opened, its streams cannot be found, or the start time
and the streams (src/modules/headDemuxer/HeadDemuxerLibav.cpp:280, 289). -/
inductive Opening where
  | fails
  | noStreams (start : Int)
  | streams (start : Int) (ds : List Desc)

/-- `setURI`, HeadDemuxerLibav.cpp:270-367.  When the streams cannot be found the input stays open
without streams (289-295). -/
def setURI (hasFilter : Bool) (file : Opening) (s : St) : St × Bool :=
  match file with
  | .fails => (reset s, false)
  | .noStreams t => ({ reset s with opened := true, start := t }, false)
  | .streams t ds =>
    ({ reset s with opened := true, start := t, psi := fun i => (ds[i]?).map (classify hasFilter) }, true)

/-- The constructor, HeadDemuxerLibav.cpp:28-45. -/
def init : St := ⟨false, 0, fun _ => none, none, none, 0, 0⟩

end Lms.Demux
