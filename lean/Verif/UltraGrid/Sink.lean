import Verif.Sources.Model
import Verif.Sps.Model
import Verif.UltraGrid.Model

/-!
# Model of the UltraGrid video sink

src/modules/transmitter/UltraGridVideoRTPSink.cpp: the sink around the fragmenter, fed by the sampler
(H264VideoStreamSampler.cpp).  Units arrive one at a time; what leaves are RTP payloads with their marker and time.

Simplifications: between two units all packets of the access unit that was completed are sent (the library asks for the next one
when the last has gone).  The frame rate is a whole number or unknown (C28); for a whole number `r` the comparison of 244-248,
`|r - r/1.001| < 0.005` in `double`, is taken exactly, which is `r ≤ 5` (the values next to the limit, 0.004995 and 0.005994, are far
from it).  The sequence number and the rest of the RTP header are the library's.
-/

namespace Lms.UltraGrid

open Lms.Sources (Nal nalType sample)
open Lms.Sps (Info)

/-- The parameters: format of the units, UltraGridVideoRTPSink.cpp:119-121 (payload size), what the rate's memory holds before it is
set (H264VideoStreamSampler.cpp:33-37 does not initialise it): a positive rate, rounded, with the flag of the 1.001 rates, or nothing
positive; `avail j i` is the room for packet `i` of access unit `j`. -/
structure Cfg where
  annexB : Bool
  maxOut : Nat
  junk : Option (Nat × Bool)
  avail : Nat → Nat → Nat

/-- UltraGridVideoRTPSink.hh:72-80, H264VideoStreamSampler.hh:58-66: units gathered, size and rate seen, the library's
`fPictureEndMarker`, access units delivered so far, and the fragmenter once there is one (`validVideoSize`). -/
structure Sk where
  acc : Bytes
  info : Info
  mark : Bool
  count : Nat
  frag : Option St

/-- A payload on its way: bytes, marker bit, time. -/
structure Sent where
  bytes : Bytes
  marker : Bool
  time : Int
  deriving DecidableEq

/-- UltraGridVideoRTPSink.cpp:92-96, H264VideoStreamSampler.cpp:33-37. -/
def Sk.start : Sk := ⟨[], ⟨0, 0, none⟩, false, 0, none⟩

/-- UltraGridVideoRTPSink.cpp:192-201: the fragmenter's constructor. -/
def fresh (maxOut : Nat) : St := ⟨maxOut, [], 0, 0, 0, 0, 0, 25, false, []⟩

/-- UltraGridVideoRTPSink.cpp:155: `getWidth` and `getHeight` are `int`. -/
def known (i : Info) : Bool := decide (0 < i.width ∧ i.width < 2 ^ 31 ∧ 0 < i.height ∧ i.height < 2 ^ 31)

/-- UltraGridVideoRTPSink.cpp:213-215, 351-364: size always, rate if positive. -/
def refresh (junk : Option (Nat × Bool)) (i : Info) (s : St) : St :=
  let s := { s with width := i.width, height := i.height }
  match i.rate with
  | some r => if 0 < r then { s with fps := r.toNat, fd := decide (r ≤ 5) } else s
  | none => match junk with
    | some (f, d) => { s with fps := f, fd := d }
    | none => s

/-- UltraGridVideoRTPSink.cpp:164-182 `doSpecialFrameHandling`, packet after packet: the mark is used up by the first packet that
completes the access unit. -/
def stamp (time : Int) : Bool → List Packet → List Sent × Bool
  | mark, [] => ([], mark)
  | mark, p :: l =>
    let m := p.last && mark
    let r := stamp time (mark && !m) l
    (⟨p.bytes, m, time⟩ :: r.1, r.2)

/-- H264VideoStreamSampler.cpp:83-92: what a unit (as far as it was read) tells of the size; one with a start code is of type 0. -/
def learn (i : Info) (got : Bytes) : Outcome Info := if nalType got = 7 then Sps.update i got else .ok i

/-- UltraGridVideoRTPSink.cpp:131-162 (`continuePlayingDummy`: units go to a buffer that is thrown away until the size is known),
113-129 and 208-222, 330-349 (then the fragmenter). -/
def deliver (c : Cfg) (k : Sk) (bytes : Bytes) (time : Int) : Outcome (List Sent × Sk) :=
  let k := { k with mark := true, count := k.count + 1 }                                       -- sampler 98
  match k.frag with
  | none => .ok ([], if known k.info then { k with frag := some (refresh c.junk k.info (fresh c.maxOut)) } else k)
  | some s =>
    let s := give (refresh c.junk k.info s) bytes
    (sendFrame (c.avail k.count) bytes.length 0 s).bind fun r =>
      let p := stamp time k.mark r.1
      .ok (p.1, { k with mark := p.2, frag := some r.2 })

/-- H264VideoStreamSampler.cpp:42-113 with the sink behind it, one unit. -/
def feed (c : Cfg) (k : Sk) (u : Nal) : Outcome (List Sent × Sk) :=
  (sample c.annexB INBUF k.acc u).bind fun r =>
    (learn k.info (u.data.take (INBUF - k.acc.length - 4))).bind fun i =>
      let k := { k with acc := r.1, info := i }
      match r.2 with
      | none => .ok ([], k)
      | some o => deliver c k o.bytes o.time

/-- Unit after unit. -/
def stream (c : Cfg) : Sk → List Nal → Outcome (List Sent × Sk)
  | k, [] => .ok ([], k)
  | k, u :: us => (feed c k u).bind fun r => (stream c r.2 us).bind fun r' => .ok (r.1 ++ r'.1, r'.2)

end Lms.UltraGrid
