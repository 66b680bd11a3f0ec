import Verif.ReaderDelay.Model

/-!
# What the average delay of a reader should be

The frames that count are those whose time differs from that of the frame before.  They are cut into windows: a window ends
before the first frame that is at least `w` later than the start of the window, and that frame starts the next one.  The first window
starts with the time of the very first frame.  The average is that of the last window that ended.
-/

namespace Lms.ReaderDelay

/-- Time and delay of the frames that count, after a frame of time `prev`. -/
def counted (prev : Int) : List F → List (Int × Int)
  | [] => []
  | f :: fs => if f.time = prev then counted prev fs else (f.time, f.delay) :: counted f.time fs

/-- `Tiles w start ws cur c`: the windows `ws`, the first of which starts at `start`, are followed by `cur`, the frames of the window
that has not ended, which starts at `c`.  The first frame of a window always belongs to it. -/
inductive Tiles (w : Int) : Int → List (List (Int × Int)) → List (Int × Int) → Int → Prop
  | last (start : Int) (cur : List (Int × Int)) (h : ∀ x ∈ cur.tail, x.1 - start < w) : Tiles w start [] cur start
  | cons (start : Int) (win : List (Int × Int)) (ws : List (List (Int × Int))) (cur : List (Int × Int)) (c : Int) (nxt : Int × Int)
      (hne : win ≠ []) (h : ∀ x ∈ win.tail, x.1 - start < w) (hn : (ws.flatten ++ cur).head? = some nxt) (hw : w ≤ nxt.1 - start)
      (ht : Tiles w nxt.1 ws cur c) : Tiles w start (win :: ws) cur c

/-- The sum of the delays of a window. -/
def total (win : List (Int × Int)) : Int := (win.map (·.2)).sum

end Lms.ReaderDelay
