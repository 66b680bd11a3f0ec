import Verif.Common.Outcome

/-!
# Model of the event queue of a filter (src/Filter.cpp:422-467, src/Event.cpp)

`eventQueue` is a `std::priority_queue<Event>` (src/Filter.hh:265); `std::priority_queue` itself is not
code of the project, and only its contract is used: `top` is an element that is not less than any other
one, and `pop` removes it.  Which one among equals is unspecified, so every choice is considered.  Events
have an identity (`id`), used only to tell them apart.  Time is in nanoseconds (`system_clock`); the clock
may do anything between two readings.  Every function runs under the mutex of the filter, so pushes do
not happen during a poll.  What the handlers do is not modelled; `known` tells whether the action has a
handler (435).
-/

namespace Lms.Events

/-- src/Event.hh:41-44.  `delay` in milliseconds. -/
structure Ev where
  id : Nat
  ts : Int
  delay : Int
  known : Bool
  deriving DecidableEq, Repr

/-- src/Event.cpp:29-32 `operator<`. -/
def Ev.lt (a b : Ev) : Bool := decide (a.ts > b.ts)

/-- src/Event.cpp:46-49 `canBeExecuted`; `duration_cast` truncates towards zero. -/
def Ev.can (e : Ev) (now : Int) : Bool := decide (Int.tdiv (now - e.ts) 1000000 ≥ e.delay)

/-- The contract of `std::priority_queue::top`. -/
def IsTop (e : Ev) (q : List Ev) : Prop := e ∈ q ∧ ∀ x ∈ q, e.lt x = false

/-- src/Filter.cpp:463-467 `pushEvent`. -/
def push (q : List Ev) (e : Ev) : List Ev := q ++ [e]

/-- One iteration taken by `processEvent` (429-446): the event at the top and the clock reading at which
it was found executable. -/
structure Exec where
  ev : Ev
  now : Int
  deriving DecidableEq, Repr

/-- The handler was called (441); otherwise the event is discarded (435-439). -/
def Exec.handled (x : Exec) : Bool := x.ev.known

/-- src/Filter.cpp:422-461 `processEvent` with `newEvent`: `Poll q xs last q'` says that from queue `q`
the loop can take the iterations `xs` and leave with queue `q'`; `last` is the final clock reading, made
only if the queue was not empty. -/
inductive Poll : List Ev → List Exec → Option Int → List Ev → Prop where
  | empty : Poll [] [] none []
  | wait {q e now} : IsTop e q → e.can now = false → Poll q [] (some now) q
  | exec {q e now xs last q'} : IsTop e q → e.can now = true → Poll (q.erase e) xs last q' →
      Poll q (⟨e, now⟩ :: xs) last q'

/-- What callers and the filter's thread do. -/
inductive Op where
  | push (e : Ev)
  | poll (xs : List Exec) (last : Option Int)

/-- Executions of a sequence of pushes and polls; the trace is the list of events taken. -/
inductive Run : List Ev → List Op → List Exec → List Ev → Prop where
  | nil {q} : Run q [] [] q
  | push {q e ops tr q'} : Run (push q e) ops tr q' → Run q (.push e :: ops) tr q'
  | poll {q xs last q1 ops tr q'} : Poll q xs last q1 → Run q1 ops tr q' →
      Run q (.poll xs last :: ops) (xs ++ tr) q'

end Lms.Events
