import Mathlib.Data.Rat.Floor

/-!
# Video mixer and video splitter

Model of src/modules/videoMixer/VideoMixer.cpp and src/modules/videoSplitter/VideoSplitter.cpp.

Simplifications: fractions are exact rational numbers (the code uses `float`; the region theorems are stated on the resulting
whole numbers as well, so they do not depend on rounding); products fit an `int`; pictures are functions from column and row to a
pixel; scaling and weighted addition by OpenCV are parameters (`Lib`); a rectangle outside its picture, or a scaling to an empty
picture, makes OpenCV throw: outcome `abort`.
-/

namespace Lms.VideoMixer

/-- OpenCV, as far as it is used. -/
structure Lib (Pix : Type) where
  black : Pix
  /-- `cv::resize` (VideoMixer.cpp:221): the picture of given size from another of given size. -/
  resize : Int → Int → (Int → Int → Pix) → Int → Int → Int → Int → Pix
  /-- `addWeighted` (237-244): weight, upper pixel, lower pixel. -/
  blend : ℚ → Pix → Pix → Pix

/-- VideoMixer.hh:64-71. -/
structure Ch where
  width : ℚ
  height : ℚ
  x : ℚ
  y : ℚ
  layer : Int
  enabled : Bool
  opacity : ℚ

/-- VideoMixer.cpp:31-34. -/
def Ch.default : Ch := ⟨1, 1, 0, 0, 0, false, 1⟩

/-- An input frame; `isVideo` is the result of the cast in 131. -/
structure Frame (Pix : Type) where
  width : Int
  height : Int
  pts : Int
  isVideo : Bool
  pix : Int → Int → Pix

/-- VideoMixer.hh:149-153, Filter's frame time and synchronisation time. -/
structure St where
  chans : Int → Option Ch
  outW : Int
  outH : Int
  maxCh : Nat
  frameTime : Int
  syncTs : Int

/-- Types.hh: DEFAULT_WIDTH, DEFAULT_HEIGHT (src/Types.hh:35). -/
abbrev MAXW : Int := 1920
/-- src/Types.hh:34. -/
abbrev MAXH : Int := 1080

/-- VideoMixer.cpp:162-185 `configChannel0`. -/
def configChannel (s : St) (id : Int) (w h x y : ℚ) (layer : Int) (enabled : Bool) (opacity : ℚ) : Bool × St :=
  match s.chans id with
  | none => (false, s)                                                                        -- 164-166
  | some _ =>
    if x < 0 ∨ y < 0 ∨ w ≤ 0 ∨ h ≤ 0 ∨ opacity < 0 ∨ opacity > 1 then (false, s)              -- 168-171
    else if layer < 0 ∨ layer > s.maxCh then (false, s)                                       -- 177-180
    else (true, { s with chans := fun k => if k = id then some ⟨w, h, x, y, layer, enabled, opacity⟩ else s.chans k })

/-- VideoMixer.cpp:187-207 `configure0`. -/
def configure (s : St) (w h fps : Int) : Bool × St :=
  if w ≤ 0 ∨ w > MAXW ∨ h ≤ 0 ∨ h > MAXH then (false, s)
  else (true, { s with frameTime := if fps > 0 then 1000000 / fps else s.frameTime, outH := h, outW := w })

/-- VideoMixer.cpp:248-257 `specificReaderConfig`. -/
def addChannel (s : St) (id : Int) : Bool × St :=
  match s.chans id with
  | none => (true, { s with chans := fun k => if k = id then some Ch.default else s.chans k })
  | some _ => (false, s)

/-- VideoMixer.cpp:259-270 `specificReaderDelete`. -/
def removeChannel (s : St) (id : Int) : Bool × St :=
  match s.chans id with
  | none => (false, s)
  | some _ => (true, { s with chans := fun k => if k = id then none else s.chans k })

/-- VideoMixer.cpp:214-217: a fraction of a length, converted to `int` (the fractions are not negative). -/
def px (f : ℚ) (n : Int) : Int := ⌊f * n⌋

/-- A rectangle (src/modules/videoMixer/VideoMixer.cpp:235-243). -/
structure Rect where
  x : Int
  y : Int
  w : Int
  h : Int

/-- VideoMixer.cpp:226-232: the part of the scaled picture that is painted. -/
def clip (outW outH x y w h : Int) : Rect :=
  ⟨x, y, if x + w > outW then outW - x else w, if y + h > outH then outH - y else h⟩

/-- OpenCV's condition on a sub-rectangle of a picture (src/modules/videoMixer/VideoMixer.cpp:235-243). -/
def Rect.inside (r : Rect) (W H : Int) : Prop := 0 ≤ r.x ∧ 0 ≤ r.w ∧ r.x + r.w ≤ W ∧ 0 ≤ r.y ∧ 0 ≤ r.h ∧ r.y + r.h ≤ H

instance (r : Rect) (W H : Int) : Decidable (r.inside W H) := by unfold Rect.inside; infer_instance

/-- VideoMixer.cpp:219-224: the picture at the size of its channel. -/
def fitted {Pix : Type} (L : Lib Pix) (f : Frame Pix) (w h : Int) : Int → Int → Pix :=
  if f.height ≠ h ∨ f.width ≠ w then L.resize f.width f.height f.pix w h else f.pix

/-- VideoMixer.cpp:209-246 `pasteToLayout`; `none`: OpenCV throws. -/
def paste {Pix : Type} (L : Lib Pix) (outW outH : Int) (c : Ch) (f : Frame Pix) (img : Int → Int → Pix) : Option (Int → Int → Pix) :=
  let w := px c.width outW
  let h := px c.height outH
  let r := clip outW outH (px c.x outW) (px c.y outH) w h
  if (f.height ≠ h ∨ f.width ≠ w) ∧ (w ≤ 0 ∨ h ≤ 0) then none                                 -- 219-224
  else if ¬ r.inside outW outH ∨ ¬ (⟨0, 0, r.w, r.h⟩ : Rect).inside w h then none             -- 235, 238-243
  else some fun i j =>
    if r.x ≤ i ∧ i < r.x + r.w ∧ r.y ≤ j ∧ j < r.y + r.h then
      (if c.opacity = 1 then fitted L f w h (i - r.x) (j - r.y)
       else L.blend c.opacity (fitted L f w h (i - r.x) (j - r.y)) (img i j))
    else img i j

/-- The result of a round of the mixer. -/
inductive Res (σ : Type) where
  | ok (s : σ)
  | refused
  | abort

/-- The local variables of `doProcessFrame`: the layout, `outTs`, `frameNumber`. -/
structure Work (Pix : Type) where
  img : Int → Int → Pix
  ts : Int
  left : Int

/-- VideoMixer.cpp:119-141: one pass over the frames, which come in the order of their channel numbers. -/
def pass {Pix : Type} (L : Lib Pix) (s : St) (lay : Int) : List (Int × Option (Frame Pix)) → Work Pix → Res (Work Pix)
  | [], k => .ok k
  | (id, fr) :: rest, k =>
    match s.chans id with
    | none => pass L s lay rest k                                                             -- 121-124
    | some c =>
      if c.layer ≠ lay then pass L s lay rest k
      else match fr with
        | none => pass L s lay rest { k with left := k.left - 1 }                             -- 126-129
        | some f =>
          if c.enabled = false then pass L s lay rest { k with left := k.left - 1 }
          else if f.isVideo = false then .refused                                             -- 133-136
          else match paste L s.outW s.outH c f k.img with
            | none => .abort
            | some img => pass L s lay rest ⟨img, max f.pts k.ts, k.left - 1⟩                 -- 138-140

/-- VideoMixer.cpp:117-146: the passes, `n` layers to go. -/
def passes {Pix : Type} (L : Lib Pix) (s : St) (frames : List (Int × Option (Frame Pix))) : Nat → Int → Work Pix → Res (Work Pix)
  | 0, _, k => .ok k
  | n + 1, lay, k =>
    match pass L s lay frames k with
    | .ok k' => if k'.left ≤ 0 then .ok k' else passes L s frames n (lay + 1) k'
    | .refused => .refused
    | .abort => .abort

/-- A mixed frame (src/VideoFrame.hh:65-87, src/Frame.hh:37-153). -/
structure Out (Pix : Type) where
  pix : Int → Int → Pix
  width : Int
  height : Int
  length : Int
  pts : Int
  dts : Int

/-- VideoMixer.cpp:98-160 `doProcessFrame`; three bytes per pixel. -/
def process {Pix : Type} (L : Lib Pix) (s : St) (frames : List (Int × Option (Frame Pix))) : Res (Out Pix × St) :=
  match passes L s frames s.maxCh 0 ⟨fun _ _ => L.black, 0, frames.length⟩ with
  | .ok k =>
    let pts := if s.frameTime ≤ 0 then k.ts else s.syncTs                                     -- 150-155
    .ok (⟨k.img, s.outW, s.outH, 3 * s.outW * s.outH, pts, pts⟩, if s.frameTime ≤ 0 then { s with syncTs := k.ts } else s)
  | .refused => .refused
  | .abort => .abort

/-! ## Splitter -/

/-- VideoSplitter.hh:96-100. -/
structure Crop where
  w : Int
  h : Int
  x : Int
  y : Int
  degree : Int
  deriving DecidableEq

/-- VideoSplitter.cpp:32-35. -/
def Crop.default : Crop := ⟨0, 0, -1, -1, 0⟩

/-- VideoSplitter.cpp:186-201 `configCrop0`. -/
def configCrop (s : Int → Option Crop) (id w h x y degree : Int) : Bool × (Int → Option Crop) :=
  match s id with
  | none => (false, s)
  | some _ =>
    if x < 0 ∨ y < 0 ∨ w ≤ 0 ∨ h ≤ 0 ∨ degree > 360 ∨ degree < -360 then (false, s)
    else (true, fun k => if k = id then some ⟨w, h, x, y, degree⟩ else s k)

/-- VideoSplitter.cpp:267-276 `specificWriterConfig`. -/
def addCrop (s : Int → Option Crop) (id : Int) : Bool × (Int → Option Crop) :=
  match s id with
  | none => (true, fun k => if k = id then some Crop.default else s k)
  | some _ => (false, s)

/-- VideoSplitter.cpp:278-289 `specificWriterDelete`. -/
def removeCrop (s : Int → Option Crop) (id : Int) : Bool × (Int → Option Crop) :=
  match s id with
  | none => (false, s)
  | some _ => (true, fun k => if k = id then none else s k)

/-- A piece of a picture: size, the length that is set, and the pixels. -/
structure Piece (Pix : Type) where
  w : Int
  h : Int
  length : Int
  pix : Int → Int → Pix

/-- What happens to one output of the splitter. -/
inductive Cut (Pix : Type) where
  | nothing
  | piece (p : Piece Pix)
  | abort

/-- VideoSplitter.cpp:140-162: one output.  The sums are those of `int`s: an overflow is undefined, taken as `abort`. -/
def cut {Pix : Type} (c : Crop) (f : Frame Pix) : Cut Pix :=
  if ¬ (c.x + c.w < 2 ^ 31 ∧ c.y + c.h < 2 ^ 31) then .abort
  else if (c.x ≥ 0 ∨ c.y ≥ 0 ∨ c.w > 0 ∨ c.h > 0) ∧ c.x + c.w ≤ f.width ∧ c.y + c.h ≤ f.height then      -- 145
    if (⟨c.x, c.y, c.w, c.h⟩ : Rect).inside f.width f.height then
      .piece ⟨c.w, c.h, c.w * c.h, fun i j => f.pix (c.x + i) (c.y + j)⟩                      -- 146-150
    else .abort
  else .nothing                                                                               -- 157-162

end Lms.VideoMixer
