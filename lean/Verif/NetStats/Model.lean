import Verif.Common.Outcome
import Mathlib.Data.Rat.Floor

/-!
# Timers and statistics of network streams

The keep-alive and duration timers of an RTSP session (`receiver/Handlers.cpp`), the statistics of received streams
(`receiver/SourceManager.cpp`) and of transmitted ones (`transmitter/Connection.cpp`, `transmitter/SinkManager.cpp`).

* Times are microseconds.  A task runs when it is due or later; how much later is an argument.  Negative delays count as none
  (live555's `scheduleDelayedTask`).
* `double` is exact (`ℚ`): rounding is left out.
* What the library counted (bytes, packets, jitter, ...) is an argument.
* A measurement and the planning of the next one happen at the same instant.
-/

namespace Lms.NetStats

/-! ## Timers of an RTSP session -/

/-- `Handlers.cpp:171-175, 252-256`: the delay of the next keep-alive for the server's timeout `t` (0 if it gave none), computed in
32-bit unsigned arithmetic; `dflt` is 60 (171) after PLAY and 30 (252, `Handlers.hh:30`) later. -/
def keepDelay (dflt t : Nat) : Nat :=
  let timeout := if t = 0 then dflt else t
  ((if timeout ≤ 5 then 1 else timeout - 5) * 1000000) % 2 ^ 32

/-- `Handlers.cpp:157-162`: the delay of the end of a stream with a known duration; the conversion to `unsigned` is undefined when the
value does not fit. -/
def durDelay (d : ℚ) : Outcome (Option Nat) :=
  if d > 0 then
    if (d + 2) * 1000000 < 2 ^ 32 then .ok (some ⌊(d + 2) * 1000000⌋.toNat) else .ub
  else .ok none

/-- A session being played: the server's timeout, whether the client was freed, when its tasks are due, and the times at which
keep-alives were sent (last first). -/
structure Play where
  timeout : Nat
  freed : Bool := false
  keepDue : Option Nat := none
  timerDue : Option Nat := none
  sent : List Nat := []
  deriving DecidableEq, Repr

/-- `continueAfterPLAY` at time `now` (`Handlers.cpp:144-185`) when the server agreed; `keep` is the request's `keepAlive`. -/
def play (now t : Nat) (d : ℚ) (keep : Bool) : Outcome Play :=
  (durDelay d).map fun x =>
    { timeout := t, timerDue := x.map (now + ·), keepDue := if keep then some (now + keepDelay 60 t) else none }

inductive PlayOp where
  /-- The keep-alive task runs, so much after it is due. -/
  | keep (late : Nat)
  /-- The stream's duration is over. -/
  | timer
  /-- The session is deleted (`SourceManager.cpp:632-647` takes the tasks back). -/
  | delete
  deriving DecidableEq, Repr

/-- One event.  A task that is not planned does not run.
Calls `keepDelay` (Handlers.cpp:171-175, 252-256). -/
def playStep (s : Play) : PlayOp → Outcome Play
  | .keep late => match s.keepDue with
    | none => .ok s
    | some d =>
      if s.freed then .ub                                                            -- 238-240: the client is gone
      else .ok { s with sent := (d + late) :: s.sent, keepDue := some (d + late + keepDelay 30 s.timeout) }   -- 250-257
  | .timer => match s.timerDue with
    | none => .ok s
    | some _ => if s.freed then .ub else .ok { s with freed := true, timerDue := none }                     -- 227-234, 290
  | .delete => .ok { s with keepDue := none, timerDue := none }

/-- A history of events. -/
def playRun (s : Play) : List PlayOp → Outcome Play
  | [] => .ok s
  | o :: l => (playStep s o).bind fun s' => playRun s' l

/-! ## When statistics are measured -/

/-- Conversion to `int`. -/
def toInt32 (x : Nat) : Int := if x % 2 ^ 32 < 2 ^ 31 then (x % 2 ^ 32 : Nat) else (x % 2 ^ 32 : Nat) - (2 ^ 32 : Int)

/-- `SourceManager.cpp:730-731`, `Connection.cpp:767-768`: the delay until `next` (`size_t`), with the present in an `unsigned`. -/
def statDelay (next now : Nat) : Int := toInt32 ((next + 2 ^ 64 - now % 2 ^ 32) % 2 ^ 64)

/-- The measurements (`SourceManager.cpp:712-735`, `Connection.cpp:752-772`): planned at `now`, each so much later than due. -/
def statTimes (next now : Nat) : List Nat → List Nat
  | [] => []
  | late :: l =>
    let next' := next + 1000000                                                      -- 727, `Types.hh:51`
    let t := now + (statDelay next' now).toNat + late
    t :: statTimes next' t l

/-! ## Received streams -/

/-- What the library knows of a stream when asked: kilobytes, packets received and expected (`unsigned`), jitter. -/
structure Sample where
  kB : ℚ
  received : Nat
  expected : Nat
  jitter : Nat

/-- `SCSSubsessionStats` (src/modules/receiver/SourceManager.hh:197, 239-253). -/
structure RecvStat where
  start : Nat
  stop : Nat
  kMin : ℚ
  kMax : ℚ
  kB : ℚ
  lMin : ℚ
  lMax : ℚ
  received : Nat
  expected : Nat
  jitter : Nat
  jMin : Nat
  jMax : Nat

/-- `SourceManager.cpp:739-755`: a new one; `none` if the library has not seen any packet. -/
def RecvStat.new (now : Nat) (x : Option Sample) : RecvStat :=
  { start := now, stop := now, kMin := 10 ^ 20, kMax := 0, kB := (x.map (·.kB)).getD 0, lMin := 1, lMax := 0,
    received := (x.map (·.received)).getD 0, expected := (x.map (·.expected)).getD 0, jitter := 0, jMin := 40000, jMax := 0 }

/-- `SourceManager.cpp:763-765`, 443-445: seconds between two times, the whole seconds in an `unsigned`. -/
def secsBetween (t u : Nat) : ℚ :=
  (((u / 1000000 + 2 ^ 32 - t / 1000000 % 2 ^ 32) % 2 ^ 32 : Nat) : ℚ) + (((u % 1000000 : Nat) : ℚ) - ((t % 1000000 : Nat) : ℚ)) / 1000000

/-- Difference in `unsigned`. -/
def sub32 (a b : Nat) : Nat := (a + 2 ^ 32 - b % 2 ^ 32) % 2 ^ 32

/-- `SourceManager.cpp:773-777`: kilobits per second since the last measurement. -/
def rateNow (before now : ℚ) (secs : ℚ) : ℚ :=
  if secs = 0 then 0 else if 8 * (now - before) / secs < 0 then 0 else 8 * (now - before) / secs

/-- `SourceManager.cpp:783-788`: share of packets lost since then (not clamped, 789). -/
def lossNow (received expected : Nat) : ℚ := if expected = 0 then 0 else 1 - (received : ℚ) / (expected : ℚ)

/-- `SourceManager.cpp:761-804` `periodicStatMeasurement`. -/
def RecvStat.measure (s : RecvStat) (now : Nat) (x : Option Sample) : RecvStat :=
  match x with
  | none => { s with stop := now }
  | some x =>
    let k := rateNow s.kB x.kB (secsBetween s.stop now)
    let l := lossNow (sub32 x.received s.received) (sub32 x.expected s.expected)
    { start := s.start, stop := now, kB := x.kB
      kMin := if k < s.kMin then k else s.kMin
      kMax := if k > s.kMax then k else s.kMax
      received := x.received, expected := x.expected
      lMin := if l < s.lMin then l else s.lMin
      lMax := if l > s.lMax then l else s.lMax
      jitter := x.jitter
      jMax := if s.jMax < x.jitter then x.jitter else s.jMax
      jMin := if s.jMin > x.jitter then x.jitter else s.jMin }

/-- Measurements one after the other (src/modules/receiver/SourceManager.cpp:761-804, once per period). -/
def RecvStat.run (s : RecvStat) : List (Nat × Option Sample) → RecvStat
  | [] => s
  | m :: l => (s.measure m.1 m.2).run l

/-- What the state of the filter says of a stream (`SourceManager.cpp:439-476`): bit rates and loss in per cent as least,
greatest and average, and jitter. -/
structure Told where
  rateMin : ℚ
  rateMax : ℚ
  rateAvg : ℚ
  lossMin : ℚ
  lossMax : ℚ
  lossAvg : ℚ
  jitMin : Nat
  jitMax : Nat
  jitCur : Nat

def RecvStat.tell (s : RecvStat) : Told :=
  let t := secsBetween s.start s.stop
  let l : ℚ := if s.expected = 0 then 1 else 1 - s.received / s.expected
  let l := if l < 0 then 0 else l
  { rateMin := if s.kMax = 0 then 0 else s.kMin
    rateMax := if s.kMax = 0 then 0 else s.kMax
    rateAvg := if s.kMax = 0 then 0 else if t = 0 then 0 else 8 * s.kB / t
    lossMin := 100 * s.lMin
    lossMax := if l = 1 then 100 else 100 * s.lMax
    lossAvg := 100 * l
    jitMin := s.jMin, jitMax := s.jMax, jitCur := s.jitter }

/-! ## Transmitted streams -/

/-- A receiver's report as the library keeps it. -/
structure Report where
  ssrc : Nat
  loss : Nat
  rtt : Nat
  jitter : Nat
  deriving DecidableEq, Repr

/-- `ConnRTCPInstance` with what the constructor sets (`Connection.cpp:730-738`). -/
structure SendStat where
  ssrc : Nat := 0
  loss : Nat := 0
  lossMin : Nat := 100
  lossMax : Nat := 0
  rate : Nat := 0
  rateMin : Nat := 1000000
  rateMax : Nat := 0
  rtt : Nat := 0
  rttMin : Nat := 1000000
  rttMax : Nat := 0
  jitter : Nat := 0
  jitMin : Nat := 1000000
  jitMax : Nat := 0
  deriving DecidableEq, Repr

/-- `Connection.cpp:788-801`: the report of one receiver. -/
def SendStat.report (s : SendStat) (r : Report) : SendStat :=
  { s with
    ssrc := r.ssrc
    loss := r.loss, lossMin := if s.lossMin > r.loss then r.loss else s.lossMin, lossMax := if s.lossMax < r.loss then r.loss else s.lossMax
    rtt := r.rtt, rttMin := if s.rttMin > r.rtt then r.rtt else s.rttMin, rttMax := if s.rttMax < r.rtt then r.rtt else s.rttMax
    jitter := r.jitter, jitMin := if s.jitMin > r.jitter then r.jitter else s.jitMin, jitMax := if s.jitMax < r.jitter then r.jitter else s.jitMax }

/-- `Connection.cpp:783`: kilobits per second for `bytes` (`unsigned`, the product wraps) in `us` microseconds, cut to a whole number. -/
def kbps (bytes us : Nat) : Nat := if us = 0 then 0 else ((8 * bytes) % 2 ^ 32) * 1000 / us

/-- `Connection.cpp:774-802` `periodicStatMeasurement`. -/
def SendStat.measure (s : SendStat) (bytes us : Nat) (rs : List Report) : SendStat :=
  let k := kbps bytes us
  rs.foldl SendStat.report
    { s with rate := k, rateMin := if s.rateMin > k then k else s.rateMin, rateMax := if s.rateMax < k then k else s.rateMax }

/-- Measurements one after the other (src/modules/transmitter/Connection.cpp:774-802, once per period). -/
def SendStat.run (s : SendStat) : List (Nat × Nat × List Report) → SendStat
  | [] => s
  | m :: l => (s.measure m.1 m.2.1 m.2.2).run l

/-- The members told of a stream (`SinkManager.cpp:661-673`), by their names. -/
def SendStat.members (s : SendStat) : List (String × Nat) :=
  [("SSRC", s.ssrc), ("avgBitrateInKbps", s.rate), ("minBitrateInKbps", s.rateMin), ("maxBitrateInKbps", s.rateMax),
   ("packetLossRatio", s.loss), ("minPacketLossRatio", s.lossMin), ("maxPacketLossRatio", s.lossMax),
   ("jitterInMicroseconds", s.jitter), ("minJitterInMicroseconds", s.jitMin), ("maxJitterInMicroseconds", s.jitMax),
   ("roundTripDelayMilliseconds", s.rtt), ("minRoundTripDelayMilliseconds", s.rttMin), ("maxRoundTripDelayMilliseconds", s.rttMax)]

/-- `SinkManager.cpp:655, 660-676, 680-696`: the objects told of a connection's streams.  One object is used for all of them, and
`Object::Add` (`Jzon.cpp:577-580`) appends. -/
def tellStreams (acc : List (String × Nat)) : List SendStat → List (List (String × Nat))
  | [] => []
  | s :: l => (acc ++ s.members) :: tellStreams (acc ++ s.members) l

end Lms.NetStats
