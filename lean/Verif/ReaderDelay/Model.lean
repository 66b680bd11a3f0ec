import Verif.Common.Outcome

/-!
# Model of the delay statistics of a `Reader` (src/IOInterface.cpp:32-36, 122-169, src/Frame.cpp:52-59)

One step for each frame all filters have released (`measureDelay` is called once then, 130-131; who releases what is the subject
of `Verif.SharedReader`).  Durations are 64 bit counts of microseconds, whose overflow is undefined.  The clock enters as the age of
the frame in nanoseconds.
-/

namespace Lms.ReaderDelay

/-- What is read of a frame: presentation and decode time in microseconds (src/Frame.hh), and its age when it is released,
`system_clock::now() - frame->getOriginTime()` (src/IOInterface.cpp:160), in nanoseconds. -/
structure F where
  pres : Int
  dec : Int
  age : Int

/-- src/Frame.hh:32 `NO_DTS`. -/
def NO_DTS : Int := -1

/-- src/Frame.cpp:52-59 `getFrameTime`. -/
def F.time (f : F) : Int := if f.dec ≠ NO_DTS ∧ f.dec ≤ f.pres then f.dec else f.pres

/-- `duration_cast<microseconds>` (src/IOInterface.cpp:160): cut towards zero. -/
def F.delay (f : F) : Int := f.age.tdiv 1000

/-- src/IOInterface.hh:222-227. -/
structure S where
  avg : Int
  delay : Int
  last : Int
  time : Int
  n : Nat
  deriving DecidableEq

/-- src/IOInterface.cpp:32-36. -/
def S.init : S := ⟨0, 0, -1, 0, 0⟩

/-- A 64 bit result. -/
def i64 (z : Int) : Outcome Int := if -9223372036854775808 ≤ z ∧ z ≤ 9223372036854775807 then .ok z else .ub

/-- Conversion of an unsigned 64 bit number to a signed one. -/
def toI64 (n : Int) : Int := if n < 9223372036854775808 then n else n - 18446744073709551616

/-- src/IOInterface.cpp:154 `delay / frameCounter`: the divisor is a `size_t`, so the division is that of unsigned numbers. -/
def average (delay : Int) (n : Nat) : Int := toI64 ((delay % 18446744073709551616) / n)

/-- src/IOInterface.cpp:140-162 `measureDelay` with the window `w`. -/
def measure (w : Int) (s : S) (f : F) : Outcome S :=
  let last := if s.last < 0 then f.time else s.last
  if last = f.time then .ok { s with last := last }
  else
    (i64 (f.time - last)).bind fun d =>
    (i64 (s.time + d)).bind fun t =>
    let s := { s with time := t, last := f.time }
    let s := if t ≥ w ∧ s.n > 0 then { s with avg := average s.delay s.n, time := 0, delay := 0, n := 0 } else s
    (i64 (s.delay + f.delay)).bind fun d =>
    .ok { s with delay := d, n := s.n + 1 }

/-- The frames released, in order.
Calls `measure` (src/IOInterface.cpp:140-162). -/
def run (w : Int) (s : S) : List F → Outcome S
  | [] => .ok s
  | f :: fs => (measure w s f).bind fun s => run w s fs

end Lms.ReaderDelay
