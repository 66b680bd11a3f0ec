import Verif.Common.Mem
import Verif.Common.Outcome

/-!
# The capture device (`src/modules/V4LCapture/V4LCapture.cpp`)

The operating system is a set of answers: every system call made by an operation may succeed or fail
independently, as the fields of `Answers` say, and the driver may settle on any size, format and frame
rate.  `Kern` is what the operating system holds for the process; it is not part of the program and only
used to state what becomes of the descriptor, the mappings and the stream.

Not modelled: `std::string` handling, the log, `VIDIOC_CROPCAP` (line 366-371, its result is ignored),
interrupted calls (`xioctl` repeats them, 580-588), `calloc` failure (286-291).
-/

namespace Lms.V4L

/-- `enum DeviceStatus` (`V4LCapture.hh:44`). -/
inductive Status where
  | opened | init | capture | closed
  deriving DecidableEq, Repr

/-- The pixel formats the filter knows (`pixelType` 590-607, `codecType` 609-623). -/
inductive Fourcc where
  | yuyv | yuv420 | yuv422p | rgb24 | h264 | mjpeg | other
  deriving DecidableEq, Repr

/-- `fmt.fmt.pix` as far as used: width, height, bytes per line and format (`V4LCapture.hh:87`). -/
structure Fmt where
  w : Nat
  h : Nat
  bpl : Nat
  pix : Fourcc
  deriving DecidableEq, Repr

/-- What the operating system holds: open descriptors of the device, whether it streams, the number of
live mappings, and how often the process unmapped an address range it no longer owned.
(src/modules/V4LCapture/V4LCapture.cpp:309, 454, 489, 508.) -/
structure Kern where
  fds : Nat
  streaming : Bool
  maps : Nat
  stray : Nat
  deriving DecidableEq, Repr

/-- The filter: `status`, the mapped buffers (`buffers`, `n_buffers`; `true` = still mapped), `fmt`,
`frameDuration` and `forceFormat` (`V4LCapture.hh:83-100`), with the operating system's side. -/
structure Dev where
  status : Status
  bufs : List Bool
  fmt : Fmt
  dur : Nat
  force : Bool
  kern : Kern
  deriving DecidableEq, Repr

/-- The answers to the system calls of one operation.
`opens`: `stat`, `S_ISCHR` and `open` all succeed (245-260). `setup`: the capability, format and frame rate
calls of `initDevice` succeed (347-430). `got`: the format the driver settles on, given what was asked
(`none` when the present one is read, 409-414). `rate`: the frame rate it settles on (432-436).
`count`: the number of buffers it grants (`none`: `VIDIOC_REQBUFS` fails, 276-284). `mapped`: how many of
them can be mapped before a call fails (293-319). `starts`: queueing the buffers and `VIDIOC_STREAMON`
succeed (474-492). `stops`: `VIDIOC_STREAMOFF` succeeds (508). `unmaps`, `unmaps2`: how many `munmap`
calls succeed before one fails, the first and the second time they are needed (453-458). -/
structure Answers where
  opens : Bool
  setup : Bool
  got : Option (Nat × Nat × Fourcc) → Fmt
  rate : Nat → Nat
  count : Option Nat
  mapped : Nat
  starts : Bool
  stops : Bool
  unmaps : Nat
  unmaps2 : Nat

/-- The new filter (41-54). -/
def Dev.new : Dev :=
  { status := .closed, bufs := [], fmt := ⟨0, 0, 0, .other⟩, dur := 0, force := true, kern := ⟨0, false, 0, 0⟩ }

/-- `openDevice` (238-264). -/
def openDevice (a : Answers) (d : Dev) : Dev × Bool :=
  if d.status ≠ .closed then (d, false)
  else if a.opens then
    ({ d with status := .opened, kern := { d.kern with fds := d.kern.fds + 1 } }, true)
  else (d, false)

/-- `closeDevice` (324-334); a failing `close` is only logged (the descriptor is gone all the same). -/
def closeDevice (d : Dev) : Dev :=
  if d.status ≠ .opened then d
  else { d with status := .closed, kern := { d.kern with fds := d.kern.fds - 1 } }

/-- `init_mmap` (266-322): when a call fails half-way the buffers mapped so far stay mapped. -/
def initMmap (a : Answers) (d : Dev) : Dev × Bool :=
  match a.count with
  | none => (d, false)
  | some n =>
    if n < 2 then (d, false)
    else if a.mapped < n then
      ({ d with bufs := List.replicate a.mapped true, kern := { d.kern with maps := d.kern.maps + a.mapped } }, false)
    else ({ d with bufs := List.replicate n true, kern := { d.kern with maps := d.kern.maps + n } }, true)

/-- What `initDevice` asks of the driver (377-414). -/
def request (force : Bool) (w h : Nat) (pix : Fourcc) : Option (Nat × Nat × Fourcc) :=
  if force then some (w, h, pix) else none

/-- `initDevice` (336-445): on success the frame rate the driver settled on is handed back. -/
def initDevice (a : Answers) (d : Dev) (w h fps : Nat) (pix : Fourcc) : Dev × Bool × Nat :=
  if d.status ≠ .opened then (d, false, fps)
  else if a.setup = false then (d, false, fps)
  else
    let d1 := { d with fmt := a.got (request d.force w h pix) }
    let r := initMmap a d1
    if r.2 then ({ r.1 with status := .init }, true, a.rate fps) else (r.1, false, a.rate fps)

/-- Number of live mappings among the buffers. -/
def live (bufs : List Bool) : Nat := (bufs.filter id).length

/-- The first `k` buffers unmapped (453-458). -/
def unmapFirst (k : Nat) (bufs : List Bool) : List Bool :=
  (bufs.take k).map (fun _ => false) ++ bufs.drop k

/-- `uninitDevice` (447-464): stops at the first failing `munmap`. -/
def uninitDevice (k : Nat) (d : Dev) : Dev × Bool :=
  if d.status ≠ .init then (d, false)
  else
    let kern := { d.kern with
      maps := d.kern.maps - live (d.bufs.take k)
      stray := d.kern.stray + ((d.bufs.take k).length - live (d.bufs.take k)) }
    if k < d.bufs.length then ({ d with bufs := unmapFirst k d.bufs, kern := kern }, false)
    else ({ d with bufs := [], fmt := ⟨0, 0, 0, .other⟩, status := .opened, kern := kern }, true)

/-- `startCapturing` (466-497). -/
def startCapturing (a : Answers) (d : Dev) : Dev × Bool :=
  if d.status ≠ .init then (d, false)
  else if a.starts then ({ d with status := .capture, kern := { d.kern with streaming := true } }, true)
  else (d, false)

/-- `stopCapturing` (499-516). -/
def stopCapturing (a : Answers) (d : Dev) : Dev × Bool :=
  if d.status ≠ .capture then (d, false)
  else if a.stops then ({ d with status := .init, kern := { d.kern with streaming := false } }, true)
  else (d, false)

/-- `releaseDevice` from `INIT` on (110-117). -/
def releaseInit (k : Nat) (d : Dev) : Dev × Bool :=
  let r := uninitDevice k d
  if r.2 then (closeDevice r.1, true) else (r.1, false)

/-- `releaseDevice` (103-121). -/
def releaseDevice (a : Answers) (k : Nat) (d : Dev) : Dev × Bool :=
  match d.status with
  | .capture =>
    let r := stopCapturing a d
    if r.2 then releaseInit k r.1 else (r.1, false)
  | .init => releaseInit k d
  | .opened => (closeDevice d, true)
  | .closed => (d, true)

/-- `frameDuration = micro/fps` (87): division by zero is undefined. -/
def setDur (fps : Nat) (d : Dev) : Outcome (Dev × Bool) :=
  if fps = 0 then .ub else .ok ({ d with dur := 1000000 / fps }, true)

/-- `configure` from the `INIT` case on (74-79, 87). -/
def configInit (a : Answers) (d : Dev) (fps : Nat) : Outcome (Dev × Bool) :=
  let r := startCapturing a d
  if r.2 then setDur fps r.1 else .ok ((releaseDevice a a.unmaps2 r.1).1, false)

/-- `configure` from the `OPEN` case on (69-79). -/
def configOpen (a : Answers) (d : Dev) (w h fps : Nat) (pix : Fourcc) : Outcome (Dev × Bool) :=
  let r := initDevice a d w h fps pix
  if r.2.1 then configInit a r.1 r.2.2 else .ok ((releaseDevice a a.unmaps2 r.1).1, false)

/-- `configure` (61-90). The `CAPTURE` case calls itself with the flag where the frame rate belongs, the
default format and a forced format (line 82, defaults at `V4LCapture.hh:52`); as the status is then `OPEN`
it runs `configOpen`. A failing stop leaves the switch (84) and the operation succeeds. -/
def configure (a : Answers) (d0 : Dev) (w h fps : Nat) (pix : Fourcc) (force : Bool) : Outcome (Dev × Bool) :=
  let d := { d0 with force := force }
  match d.status with
  | .closed =>
    let r := openDevice a d
    if r.2 then configOpen a r.1 w h fps pix else .ok (r.1, false)
  | .opened => configOpen a d w h fps pix
  | .init => configInit a d fps
  | .capture =>
    let s := stopCapturing a d
    if s.2 then
      let u := uninitDevice a.unmaps s.1
      if u.2 then configOpen a { u.1 with force := true } w h (if force then 1 else 0) .yuyv
      else setDur fps u.1
    else setDur fps s.1

/-- `specificWriterConfig` (92-101). -/
def writerConfig (d : Dev) : Bool := d.status == .capture

/-- Bytes of the frame buffer of the output queue for raw formats (`AVFramedQueue.cpp:164-167`,
`VideoFrame.cpp:81-96`, `Types.hh:34-35`; `DEFAULT_BYTES_PER_PIXEL` is 3). -/
def frameRoom : Fourcc → Nat
  | .yuyv => 1920 * 1080 * 2
  | _ => 1920 * 1080 * 3

/-- The frame handed to the next filter: buffer, width, height and whether it was consumed (129-147). -/
structure Pic where
  data : Bytes
  w : Nat
  h : Nat
  consumed : Bool
  deriving DecidableEq, Repr

/-- What the driver does when a picture is asked for: `select` says there is one (197-207), `DQBUF` gives
a buffer with its contents (222) and `QBUF` takes it back (231). -/
structure ReadAns where
  ready : Bool
  dq : Option (Nat × Bytes)
  qb : Bool

/-- `doProcessFrame` without its clock (125-130, 142-147, 158-160) with `getFrame` (185-210) and `readFrame`
(212-236): `none` when not capturing; reading a buffer no longer mapped, beyond its end, or writing
beyond the frame is undefined. -/
def readFrame (d : Dev) (r : ReadAns) (f : Pic) : Outcome (Option Pic) :=
  if d.status ≠ .capture then .ok none
  else if r.ready = false then .ok (some { f with consumed := false })
  else match r.dq with
    | none => .ok (some { f with consumed := false })
    | some (i, src) =>
      let n := d.fmt.h * d.fmt.bpl
      if d.bufs[i]? ≠ some true ∨ src.length < n ∨ f.data.length < n then .ub
      else .ok (some { data := src.take n ++ f.data.drop n, w := d.fmt.w, h := d.fmt.h, consumed := r.qb })

/-- One operation on the filter. -/
inductive Op where
  | configure (w h fps : Nat) (pix : Fourcc) (force : Bool)
  | release

/-- One operation with the answers it gets; the result is the reported success. -/
def step (d : Dev) (o : Op × Answers) : Outcome (Dev × Bool) :=
  match o.1 with
  | .configure w h fps pix force => configure o.2 d w h fps pix force
  | .release => .ok (releaseDevice o.2 o.2.unmaps d)

/-! ## Frame duration -/

/-- `frameCount`, `durationCount` and `frameDuration` (`V4LCapture.hh:97-100`). -/
structure Clock where
  count : Nat
  sum : Int
  dur : Int
  deriving DecidableEq, Repr

/-- `FRAME_AVG_COUNT` (`V4LCapture.hh:37`). -/
abbrev AVG : Nat := 128

/-- `TOLERANCE_FACTOR` (`V4LCapture.hh:36`). -/
abbrev TOL : Int := 64

/-- `getAvgFrameDuration` (518-531); divisions of `std::chrono` durations truncate. -/
def avgDur (c : Clock) (x : Int) : Clock × Int :=
  if c.count ≤ AVG then
    ({ c with count := c.count + 1, sum := if 0 < c.count then c.sum + x else c.sum }, c.dur)
  else
    let s := c.sum - c.sum.tdiv 128 + x
    ({ c with sum := s }, s.tdiv 128)

/-- The frame duration follows the average (163-171); `x` is the time since the last picture. The
conversion to `int` is exact below 2^31. -/
def follow (c : Clock) (x : Int) : Clock :=
  let r := avgDur c x
  if r.1.dur.tdiv (TOL * 2) < (r.1.dur - r.2).natAbs then { r.1 with dur := r.2 } else r.1

/-- The wall clock of the filter at a round starting at `now` (132-140). -/
def wall (now w dur : Int) : Int :=
  (if dur.tdiv TOL < (now - w).natAbs then now else w) + dur

/-- The delay asked for at the end of the round, at time `later` (155-156). -/
def delay (now later w dur : Int) : Int := wall now w dur - later

end Lms.V4L
