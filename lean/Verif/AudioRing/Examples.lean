import Verif.AudioRing.Props

/-! Concrete cases meeting the hypotheses of the theorems of `Props` (tests of the model, not
proofs of properties). -/

namespace Lms.AudioRing

/-- Results of a history on a fresh mono 8-bit buffer at 1 kHz holding 300 samples. -/
def demo (ops : List Op) : Option (List Out) :=
  match ACB.create 1 1000 300 .u8p 0 with
  | .ok (some s) => match runOps ACB.step s ops with
    | .ok (_, os) => some os
    | _ => none
  | _ => none

/-- `n` samples of value `v` at time `ts`. -/
def tone (ts : Int) (n : Nat) (v : UInt8) : Frame := ⟨ts, n, [List.replicate n v]⟩

def demoOps : List Op :=
  [.setOut 3, .push (tone 5000 2 7), .push (tone 72000 2 8), .get, .again, .remove, .get,
   .push (tone 0 2 9), .push (tone 2000000 2 1), .free]

/-- Stored, refused as late, gap of 65 samples filled, reset; the delivered frames and times. -/
example : demo demoOps = some
    [.unit, .pushed (.stored 0), .pushed (.stored 65), .frame (some (5000, [[7, 7, 0]])),
     .frame (some (5000, [[7, 7, 0]])), .unit, .frame (some (8000, [[0, 0, 0]])),
     .pushed .late, .pushed .reset, .num 300] := by decide +kernel

example : Good 1 1000 300 .u8p := ⟨by decide, by decide, by decide, by decide, by decide⟩

/-- The history is safe, so `bytes_delivered_in_order` applies to it. -/
example : SafeRun Spec.step Safe (Spec.init 1 1000 300 1 0) demoOps := by
  unfold demoOps
  refine ⟨?_, ?_, ?_, ?_, ?_, ?_, ?_, ?_, ?_, ?_, trivial⟩ <;> decide +kernel

/-- A gap of 150 ms on a fresh buffer: undefined (the silence buffer has 100 ms). -/
example : demo [.push (tone 0 2 7), .push (tone 152000 2 8)] = none := by decide +kernel

set_option maxRecDepth 20000 in
/-- The hypotheses of `gap_over_100ms_reads_out_of_bounds` and `push_decision` in the state after one
push. -/
example : ∃ s tr, Reach 1 1000 300 .u8p s tr ∧ tr.gap 1 1000 152000 = 150 ∧
    tolerance 1000 < tr.ahead 1 1000 152000 ∧ s.elements = 2 := by
  refine ⟨_, _, ⟨⟨by decide, by decide, by decide, by decide, by decide⟩, 0, _, [.push (tone 0 2 7)], _, rfl, ?_,
    rfl, rfl⟩, ?_, ?_, ?_⟩
  · refine ⟨?_, trivial⟩; decide +kernel
  · decide +kernel
  · decide +kernel
  · rfl

end Lms.AudioRing
