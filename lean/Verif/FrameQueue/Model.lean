import Verif.Common.Outcome

/-!
# Model of `AVFramedQueue` (src/AVFramedQueue.cpp) and the index/loss part of `FrameQueue`
(src/FrameQueue.hh)

A frame buffer is a slot number; what the writer put into that buffer is the value of type `α`
stored for the slot.  `size_t rear, front` are natural numbers: they stay below `max ≤ 250`, so
no machine overflow is possible.
-/

namespace Lms.FrameQueue

/-- src/FrameQueue.hh:222-226 (`rear`, `front`, `lostBlocs`) and src/AVFramedQueue.hh:91-92
(`frames[MAX_FRAMES]`, `max`).  `slots i` is the content of the buffer `*frames[i]`.
The ids of writer and readers only label return values and are modelled in `Reader`. -/
structure Ring (α : Type) where
  max : Nat
  slots : Nat → α
  rear : Nat
  front : Nat
  lost : Nat

/-- src/AVFramedQueue.hh:27 `MAX_FRAMES`. -/
def MAX_FRAMES : Nat := 250

variable {α : Type}

/-- Constructor, src/AVFramedQueue.cpp:29-38 with src/FrameQueue.hh:78-80: indices 0, capacity
clamped to `MAX_FRAMES`.  The content of freshly allocated buffers is the parameter `d`. -/
def Ring.create (maxFrames : Nat) (d : Nat → α) : Ring α :=
  { max := if maxFrames > MAX_FRAMES then MAX_FRAMES else maxFrames
    slots := d, rear := 0, front := 0, lost := 0 }

/-- src/AVFramedQueue.cpp:47-54 `getRear`: `none` is NULL, `some i` is `frames[i]`.
`% max` with `max = 0` is undefined behaviour. -/
def Ring.getRear (r : Ring α) : Outcome (Option Nat) :=
  if r.max = 0 then .ub
  else if (r.rear + 1) % r.max = r.front then .ok none
  else .ok (some r.rear)

/-- src/AVFramedQueue.cpp:56-63 `getFront`. -/
def Ring.getFront (r : Ring α) : Option Nat :=
  if r.rear = r.front then none else some r.front

/-- src/AVFramedQueue.cpp:65-79 `addFrame` (index effect; the returned reader ids are constant). -/
def Ring.addFrame (r : Ring α) : Outcome (Ring α) :=
  if r.max = 0 then .ub
  else if (r.rear + 1) % r.max = r.front then .ok r
  else .ok { r with rear := (r.rear + 1) % r.max }

/-- src/AVFramedQueue.cpp:81-88 `removeFrame`: the Boolean is "a frame was removed" (the code
returns the writer's filter id, or -1 on an empty queue). -/
def Ring.removeFrame (r : Ring α) : Outcome (Ring α × Bool) :=
  if r.rear = r.front then .ok (r, false)
  else if r.max = 0 then .ub
  else .ok ({ r with front := (r.front + 1) % r.max }, true)

/-- src/AVFramedQueue.cpp:90-93 `doFlush` and src/FrameQueue.hh:114-118 `flush`. -/
def Ring.flush (r : Ring α) : Outcome (Ring α) :=
  if r.max = 0 then .ub
  else .ok { r with rear := (r.rear + (r.max - 1)) % r.max, lost := r.lost + 1 }

/-- src/AVFramedQueue.cpp:95-103 `forceGetRear`: `while ((frame = getRear()) == NULL) flush();`.
`fuel` bounds the number of loop tests; running out of it is `hang`.  `Props` shows that the
result does not depend on the fuel (from 2 on) when `max ≥ 2` and is `hang` for every fuel when
`max = 1`. -/
def Ring.forceGetRear : Nat → Ring α → Outcome (Ring α × Nat)
  | 0, _ => .hang
  | fuel + 1, r =>
    r.getRear.bind fun
      | some i => .ok (r, i)
      | none => r.flush.bind fun r' => Ring.forceGetRear fuel r'

/-- src/AVFramedQueue.cpp:105-108 `forceGetFront`: slot before the front. -/
def Ring.forceGetFront (r : Ring α) : Outcome Nat :=
  if r.max = 0 then .ub else .ok ((r.front + (r.max - 1)) % r.max)

/-- src/AVFramedQueue.cpp:110-113 `getElements`. -/
def Ring.getElements (r : Ring α) : Nat :=
  if r.front > r.rear then r.max - r.front + r.rear else r.rear - r.front

/-- src/AVFramedQueue.cpp:115-118 `isFull`: `((float) elements) / max >= 0.9`, written over the
integers.  The literal is the double 0.9000000000000000222, which is above every evaluation of the
exact quotient 9/10 (as a float 0.89999998), so the comparison is strict at exactly 9/10; any other
quotient with `max ≤ 250` is at least 1/2500 away from 9/10, far more than the rounding error.
`max = 0` gives NaN, hence false. -/
def Ring.isFull (r : Ring α) : Bool :=
  decide (0 < r.max) && decide (10 * r.getElements > 9 * r.max)

/-- The writer stores a new content in a buffer it was handed (e.g. src/IOInterface.cpp:319-335
followed by `doProcessFrame` filling the frame). -/
def Ring.write (r : Ring α) (i : Nat) (x : α) : Ring α :=
  { r with slots := fun j => if j = i then x else r.slots j }

/-! ### Operations of the two users of a queue -/

/-- What the filters at the two ends do with the queue.
* `fill x`: the writer gets a slot unforced (src/IOInterface.cpp:328), fills it, but the
  processing fails and it does not commit;
* `put x`: same and commits (src/IOInterface.cpp:337-340);
* `forceFill x`, `forcePut x`: same with `force = true` (src/IOInterface.cpp:330-332);
* `peek`: the reader looks at the front frame (src/IOInterface.cpp:85);
* `take`: the reader looks at the front frame and releases it (src/IOInterface.cpp:85 and 134);
* `old`: the reader asks for the last frame when there is no new one (src/IOInterface.cpp:90);
* `count`: number of elements (src/IOInterface.cpp:223-232). -/
inductive Op (α : Type) where
  | fill (x : α) | put (x : α) | forceFill (x : α) | forcePut (x : α)
  | peek | take | old | count
  deriving DecidableEq, Repr

inductive Out (α : Type) where
  | refused | done
  | frame (o : Option α)
  | num (n : Nat)
  deriving DecidableEq, Repr

/-- `Writer::getFrame(force)` src/IOInterface.cpp:328-334 on a connected queue, with a loop
budget of `3` tests for `forceGetRear` (see there). -/
def Ring.writerSlot (r : Ring α) (force : Bool) : Outcome (Ring α × Option Nat) :=
  r.getRear.bind fun
    | some i => .ok (r, some i)
    | none => if force then (r.forceGetRear 3).bind fun (r', i) => .ok (r', some i)
              else .ok (r, none)

/-- One operation of a queue user; see `Op`.
Calls `Ring.getFront` (src/AVFramedQueue.cpp:56-63), `Ring.addFrame` (src/AVFramedQueue.cpp:65-79), `Ring.removeFrame`
(src/AVFramedQueue.cpp:81-88), `Ring.forceGetFront` (src/AVFramedQueue.cpp:105-108), `Ring.getElements`
(src/AVFramedQueue.cpp:110-113), `Ring.write` (src/IOInterface.cpp:319-335) and others. -/
def step (r : Ring α) : Op α → Outcome (Ring α × Out α)
  | .fill x => (r.writerSlot false).bind fun (r', s) =>
      match s with
      | some i => .ok (r'.write i x, .done)
      | none => .ok (r', .refused)
  | .put x => (r.writerSlot false).bind fun (r', s) =>
      match s with
      | some i => (r'.write i x).addFrame.bind fun r'' => .ok (r'', .done)
      | none => .ok (r', .refused)
  | .forceFill x => (r.writerSlot true).bind fun (r', s) =>
      match s with
      | some i => .ok (r'.write i x, .done)
      | none => .ok (r', .refused)
  | .forcePut x => (r.writerSlot true).bind fun (r', s) =>
      match s with
      | some i => (r'.write i x).addFrame.bind fun r'' => .ok (r'', .done)
      | none => .ok (r', .refused)
  | .peek => .ok (r, .frame (r.getFront.map r.slots))
  | .take =>
      match r.getFront with
      | some i => r.removeFrame.bind fun (r', _) => .ok (r', .frame (some (r.slots i)))
      | none => .ok (r, .frame none)
  | .old => r.forceGetFront.bind fun i => .ok (r, .frame (some (r.slots i)))
  | .count => .ok (r, .num r.getElements)

end Lms.FrameQueue
