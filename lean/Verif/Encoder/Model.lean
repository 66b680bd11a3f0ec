import Verif.Common.Outcome

/-!
# Model of the video encoder filter

`src/modules/videoEncoder/VideoEncoderX264or5.cpp`, `VideoEncoderX264.cpp`, `VideoEncoderX265.cpp`.
The x264/x265 libraries are the environment: every call gets an arbitrary answer; the contract they
are assumed to keep is stated where a property needs it.  Times are unbounded integers
(microseconds).
-/

namespace Lms.Encoder

/-- `FrameTimeParams`, VideoEncoderX264or5.hh:117-121; a value initialised one is all zero (what
`std::map::operator[]` inserts for an absent key). -/
structure FTP where
  pTime : Int := 0
  oTime : Int := 0
  seq : Nat := 0
deriving DecidableEq, Inhabited

/-- Answers of `x264_encoder_encode` (VideoEncoderX264.cpp:65-102, VideoEncoderX265.cpp:69-106): no
encoder to ask, an error, nothing yet, or a coded picture with its two indices, which fits the sliced
frame or has too many NAL units. -/
inductive Ans where
  | noEncoder
  | fail
  | buffered
  | out (pts dts : Int) (fits : Bool)
deriving DecidableEq

/-- The bookkeeping of the filter, VideoEncoderX264or5.hh:74-87, 123. -/
structure St where
  q : Int → Option FTP
  inPts : Int
  forceIntra : Bool
  gopTime : Nat
  refTime : Int

/-- What is set on the coded frame, VideoEncoderX264or5.cpp:101-105. -/
structure Coded where
  pTime : Int
  dTime : Int
  oTime : Int
  seq : Nat
deriving DecidableEq

/-- `qFTP[k] = v` (src/modules/videoEncoder/VideoEncoderX264or5.cpp:92). -/
def put (q : Int → Option FTP) (k : Int) (v : FTP) : Int → Option FTP := fun i => if i = k then some v else q i

/-- `qFTP[k]` as the code reads it: an absent key is inserted with zeros (src/modules/videoEncoder/VideoEncoderX264or5.cpp:102-105). -/
def touch (q : Int → Option FTP) (k : Int) : (Int → Option FTP) × FTP :=
  match q k with
  | some v => (q, v)
  | none => (put q k {}, {})

/-- `qFTP.erase(k)` (src/modules/videoEncoder/VideoEncoderX264or5.cpp:107). -/
def erase (q : Int → Option FTP) (k : Int) : Int → Option FTP := fun i => if i = k then none else q i

/-- The reference time with the first picture's time in place of 0, VideoEncoderX264or5.cpp:76-78. -/
def refOf (s : St) (pTime : Int) : Int := if s.refTime = 0 then pTime else s.refTime

/-- The time grid, VideoEncoderX264or5.cpp:75-87. -/
def grid (s : St) (pTime : Int) : St :=
  if s.gopTime > 0 then
    if refOf s pTime - pTime ≤ 0 then { s with forceIntra := true, refTime := refOf s pTime + s.gopTime }
    else { s with refTime := refOf s pTime }
  else s

/-- The part after a successful `encodeFrame`, VideoEncoderX264or5.cpp:101-109. -/
def collect (s : St) (pts dts : Int) : St × Coded :=
  let a := touch s.q pts
  let b := touch a.1 dts
  let c := touch b.1 pts
  ({ s with q := erase c.1 dts }, ⟨a.2.pTime, b.2.pTime, c.2.oTime, c.2.seq⟩)

/-- The result of a call: the new state, the picture type asked for (`some true` for an IDR picture,
`none` when the encoder was not asked), the coded frame. -/
abbrev Res := St × Option Bool × Option Coded

/-- `doProcessFrame`, VideoEncoderX264or5.cpp:64-110, with `encodeFrame` (VideoEncoderX264.cpp:56-103,
VideoEncoderX265.cpp:60-107) inlined.  `ready`: `reconfigure` and `fill_x264or5_picture` succeed. -/
def process (s : St) (pic : FTP) (ready : Bool) (ans : Ans) : Res :=
  if ready then
    let s1 := grid s pic.pTime
    let s2 := { s1 with q := put s1.q s1.inPts pic }
    match ans with
    | .noEncoder => (s2, none, none)
    | .fail => ({ s2 with forceIntra := false }, some s2.forceIntra, none)
    | .buffered => ({ s2 with forceIntra := false, inPts := s2.inPts + 1 }, some s2.forceIntra, none)
    | .out pts dts fits =>
      let s3 := { s2 with forceIntra := false, inPts := s2.inPts + 1 }
      if fits then ((collect s3 pts dts).1, some s2.forceIntra, some (collect s3 pts dts).2)
      else (s3, some s2.forceIntra, none)
  else (s, none, none)

/-- What happens to the filter: a picture, the event `forceIntra` (VideoEncoderX264or5.cpp:236-240),
the event `gopReferenceTime` (242-250, with a number in the string). -/
inductive Ev where
  | pic (p : FTP) (ready : Bool) (ans : Ans)
  | force
  | reference (t : Int)

/-- One step.
Calls `process` (VideoEncoderX264or5.cpp:64-110). -/
def step (s : St) : Ev → Res
  | .pic p ready ans => process s p ready ans
  | .force => ({ s with forceIntra := true }, none, none)
  | .reference t => ({ s with refTime := t }, none, none)

/-- The coded frames of a history. -/
def coded : St → List Ev → List Coded
  | _, [] => []
  | s, e :: r => (step s e).2.2.toList ++ coded (step s e).1 r

/-- The state after a history. -/
def final : St → List Ev → St
  | s, [] => s
  | s, e :: r => final (step s e).1 r

/-- The picture types asked for in a history, one entry a picture. -/
def asked : St → List Ev → List (Option Bool)
  | _, [] => []
  | s, .pic p ready ans :: r => (step s (.pic p ready ans)).2.1 :: asked (step s (.pic p ready ans)).1 r
  | s, e :: r => asked (step s e).1 r

/-- The constructor, VideoEncoderX264or5.cpp:26-38, after a configuration with GOP time `g`. -/
def init (g : Nat) : St := ⟨fun _ => none, 0, false, g, 0⟩

/-! ## Configuration -/

/-- `MIN_GOP_TIME`, VideoEncoderX264or5.hh:49. -/
abbrev MIN_GOP_TIME : Nat := 1000000
/-- `VIDEO_DEFAULT_FRAMERATE`, Types.hh:50. -/
abbrev VIDEO_DEFAULT_FRAMERATE : Nat := 25

/-- The settings, VideoEncoderX264or5.hh:75-84 and `frameTime` of the filter. -/
structure Cfg where
  bitrate : Nat
  fps : Nat
  gop : Nat
  lookahead : Nat
  threads : Nat
  bFrames : Int
  annexB : Bool
  preset : String
  gopTime : Nat
  frameTime : Nat
  needsConfig : Bool
deriving DecidableEq

/-- `configure0`, VideoEncoderX264or5.cpp:130-168. -/
def configure0 (c : Cfg) (bitrate fps gop lookahead : Nat) (bFrames : Int) (threads : Nat) (annexB : Bool) (preset : String)
    (gopTime : Nat) : Cfg × Bool :=
  if bitrate ≤ 0 ∨ gop ≤ 0 ∨ threads ≤ 0 ∨ preset = "" then (c, false)
  else
    ({ bitrate := bitrate, gop := gop, lookahead := lookahead, threads := threads, bFrames := bFrames, annexB := annexB
       preset := preset
       fps := if fps ≤ 0 then VIDEO_DEFAULT_FRAMERATE else fps
       frameTime := if fps ≤ 0 then 0 else 1000000 / fps
       gopTime := if gopTime > 0 then (if gopTime < MIN_GOP_TIME then MIN_GOP_TIME else gopTime) else 0
       needsConfig := true }, true)

/-- A 32 bit `int` stored in an `unsigned`. -/
def u32 (x : Int) : Nat := (x % 4294967296).toNat

/-- An `unsigned` stored in an `int`. -/
def s32 (x : Nat) : Int := if x < 2147483648 then x else (x : Int) - 4294967296

/-- The parameters an event may name (absent, or not of the type asked for: `none`),
VideoEncoderX264or5.cpp:196-230. -/
structure Params where
  bitrate : Option Int := none
  fps : Option Int := none
  gop : Option Int := none
  lookahead : Option Int := none
  bFrames : Option Int := none
  threads : Option Int := none
  annexB : Option Bool := none
  preset : Option String := none
  gopTime : Option Int := none

/-- `configEvent`, VideoEncoderX264or5.cpp:170-234.  `tmpBFrames` is unsigned, handed on as an int. -/
def configEvent (c : Cfg) (p : Params) : Cfg × Bool :=
  configure0 c ((p.bitrate.map u32).getD c.bitrate) ((p.fps.map u32).getD c.fps) ((p.gop.map u32).getD c.gop)
    ((p.lookahead.map u32).getD c.lookahead) (s32 ((p.bFrames.map u32).getD (u32 c.bFrames)))
    ((p.threads.map u32).getD c.threads) (p.annexB.getD c.annexB) (p.preset.getD c.preset)
    ((p.gopTime.map u32).getD c.gopTime)

/-! ## Opening the library's encoder -/

/-- Pixel formats the encoder distinguishes, VideoEncoderX264.cpp:138-157. -/
inductive Fmt where
  | y420 | y422 | y444
  | other (n : Nat)
deriving DecidableEq

/-- The formats VideoEncoderX264.cpp:138-150 takes. -/
def Fmt.ok : Fmt → Bool
  | .other _ => false
  | _ => true

/-- A picture's format. -/
structure Pic where
  w : Nat
  h : Nat
  fmt : Fmt
deriving DecidableEq

/-- The encoder: the format it was opened with, the size in `xparams`, `inPixFmt`, `needsConfig`.
(src/modules/videoEncoder/VideoEncoderX264or5.hh:73, 83, VideoEncoderX264.hh:52-53.) -/
structure Enc where
  opened : Option Pic
  xw : Nat
  xh : Nat
  fmt : Fmt
  needsConfig : Bool
deriving DecidableEq

/-- Answers of `x264_encoder_open`, `x264_encoder_reconfig`, `x264_encoder_headers`.
(src/modules/videoEncoder/VideoEncoderX264.cpp:111, 193-197.) -/
structure Lib where
  openOk : Bool
  reconfigOk : Bool
  headersOk : Bool

/-- VideoEncoderX264.cpp:159-198: the size in `xparams` is cleared by `x264_param_default_preset`
(as x264 does), so that it differs from any picture's and the encoder is closed; then it is opened.
A zero size would leave the encoder and reconfigure it. -/
def reopen (e : Enc) (p : Pic) (l : Lib) : Enc :=
  let e1 : Enc := { e with xw := 0, xh := 0 }
  let e2 : Enc := if p.w ≠ e1.xw ∨ p.h ≠ e1.xh then { e1 with xw := p.w, xh := p.h, opened := none } else e1
  match e2.opened with
  | none => { e2 with opened := if l.openOk then some p else none }
  | some o => if l.reconfigOk then { e2 with opened := some o } else { e2 with opened := if l.openOk then some p else none }

/-- `VideoEncoderX264::reconfigure`, VideoEncoderX264.cpp:128-209. -/
def reconfigure (e : Enc) (p : Pic) (l : Lib) : Enc × Bool :=
  if e.needsConfig = false ∧ p.w = e.xw ∧ p.h = e.xh ∧ p.fmt = e.fmt then (e, true)
  else
    let e1 := { e with fmt := p.fmt }
    if p.fmt.ok then
      let e2 := reopen e1 p l
      if e2.opened = none then (e2, false)
      else ({ e2 with needsConfig := false }, l.headersOk)
    else (e1, false)

/-- Does the picture reach the encoder: `reconfigure` succeeds, `av_image_fill_arrays` knows the
format (VideoEncoderX264or5.cpp:115-120), and there is an encoder (VideoEncoderX264.cpp:65)? -/
def encodes (e : Enc) (p : Pic) (l : Lib) : Option Pic :=
  if (reconfigure e p l).2 && (reconfigure e p l).1.fmt.ok then (reconfigure e p l).1.opened else none

/-- A fresh filter: no encoder, configuration pending. -/
def Enc.init (xw xh : Nat) : Enc := ⟨none, xw, xh, .other 0, true⟩

/-- What happens to it. -/
inductive EncEv where
  | pic (p : Pic) (l : Lib)
  | config

/-- One step: a picture, or an accepted configuration (`needsConfig = true`).
Calls `reconfigure` (VideoEncoderX264.cpp:128-209). -/
def encStep (e : Enc) : EncEv → Enc
  | .pic p l => (reconfigure e p l).1
  | .config => { e with needsConfig := true }

end Lms.Encoder
