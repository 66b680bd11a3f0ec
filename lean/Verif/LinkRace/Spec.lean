import Verif.LinkRace.Model

/-! What a careful caller sees to, and what they then rely on. -/

namespace Lms.LinkRace

/-- The writing filter has an end of the queue. -/
def S.HoldsW (s : S) (q : Nat) : Prop := s.wE = some (some q)

/-- The reading filter has an end of the queue. -/
def S.HoldsR (s : S) (q : Nat) : Prop := ∃ o, s.rE = some o ∧ (s.obj o).queue = some q

/-- The filters are connected: both have an end of a queue that exists and is connected. -/
def S.Linked (s : S) (q : Nat) : Prop := s.HoldsW q ∧ s.HoldsR q ∧ s.heap q = .live true

/-- `connect` is looking at a reader it found, or attaching the new one. -/
def CPc.fixing : CPc → Bool
  | .again | .ask _ | .attach _ _ | .flag _ _ => true
  | _ => false

/-- The writing filter has found its queue connected and is about to ask it for a frame. -/
def WPc.asking : WPc → Bool
  | .found _ => true
  | _ => false

/-- What is asked of the schedule: the reading filter starts no round while `connect` looks at a reader it
found there or attaches the new reader; a reader is disconnected only while its filter is not in a round and
the writing filter is not asking its writers for frames; a writer only while its filter is not in a round. -/
def Careful (s : S) : Op → Prop
  | .rRound _ => s.c.fixing = false
  | .wRound => s.c.holdsR = false
  | .disconnectR => s.r = .idle ∧ s.w.asking = false
  | .disconnectW => s.w = .idle
  | _ => True

instance (s : S) (op : Op) : Decidable (Careful s op) := by
  cases op <;> unfold Careful <;> infer_instance

/-- All steps of the schedule are careful ones. -/
def CarefulRun : S → List Op → Prop
  | _, [] => True
  | s, op :: l => Careful s op ∧ ∀ t b, s.step op = .ok (t, b) → CarefulRun t l

end Lms.LinkRace
