import Verif.LinkRace.Props

/-! C91: a careful schedule, and schedules with one careless step each that go wrong. -/

namespace Lms.LinkRace

/-- The careless steps of a schedule, up to the first undefined one. -/
def faults (s : S) : List Op → List Op
  | [] => []
  | op :: l => (if Careful s op then [] else [op]) ++ match s.step op with | .ok (t, _) => faults t l | _ => []

/-- A schedule without careless steps is a careful one. -/
theorem faults_nil : ∀ (l : List Op) (s : S), faults s l = [] → CarefulRun s l := by
  intro l
  induction l with
  | nil => intro s _; trivial
  | cons op l ih =>
    intro s h
    simp only [faults, List.append_eq_nil_iff] at h
    refine ⟨?_, fun t b ht => ?_⟩
    · by_cases hc : Careful s op
      · exact hc
      · rw [if_neg hc] at h; cases h.1
    · rw [ht] at h
      exact ih t h.2

/-- What is seen of a run: answers, the two entries' queue, and the first queues. -/
def seen : Outcome (S × List (Option Answer)) → Option (List Answer × Option (Option Nat) × Option Nat × List Cell)
  | .ok (s, l) => some (l.filterMap id, s.wE, s.rE, [s.heap 0, s.heap 1])
  | _ => none

def undefined : Outcome (S × List (Option Answer)) → Bool
  | .ub => true
  | _ => false

/-- `connect` runs to its end. -/
def link : List Op := [.connect, .ctl, .ctl, .ctl, .ctl, .ctl]

/-- The control thread disconnects an end. -/
def cutR : List Op := [.disconnectR, .ctl, .ctl]
def cutW : List Op := [.disconnectW, .ctl, .ctl]

/-- Whole rounds of the filters. -/
def roundW : List Op := [.wRound, .wStep, .wUse, .wEnd true]
def roundR : List Op := [.rRound true, .rStep true, .rUse, .rEnd]

/-- A long careful schedule: W's round is under way during `connect`, rounds interleave, the reader is cut
while W is writing, the filters are connected again while an old writer is still there, and after it has gone. -/
def careful : List Op :=
  [.wRound, .connect, .ctl, .wRound, .rRound false, .ctl, .ctl, .ctl, .rRound true, .ctl] ++
  [.rStep true, .wRound, .rUse, .wStep, .rEnd, .wUse] ++ cutR ++ [.wUse, .wEnd true] ++ link ++
  [.wRound, .wStep, .wStep] ++ link ++ [.rRound true, .rStep true] ++ cutW ++ [.rUse, .rEnd] ++ roundR

example : faults .init careful = [] ∧ seen (runOps S.step .init careful) =
    some ([.connect true, .reader true, .connect false, .connect true, .writer true], none, some 1, [.freed, .live false]) := by
  decide +kernel

/-- `careful_schedules_are_safe`, `careful_answers_are_true`, `queues_are_deleted_in_time` in it. -/
example : ∃ s l, runOps S.step .init careful = .ok (s, l) :=
  careful_schedules_are_safe careful (faults_nil _ _ (by decide +kernel))

theorem link_careful : CarefulRun .init link := faults_nil _ _ (by decide +kernel)

/-- The state after the calls of `ops`. -/
def at' (ops : List Op) : S := match runOps S.step .init ops with | .ok (s, _) => s | _ => .init

theorem at'_ok {ops : List Op} (h : undefined (runOps S.step .init ops) = false) (hh : runOps S.step .init ops ≠ .hang) :
    ∃ l, runOps S.step .init ops = .ok (at' ops, l) := by
  unfold at'
  rcases hr : runOps S.step .init ops with ⟨s, l⟩ | _ | _
  · exact ⟨l, rfl⟩
  · rw [hr] at h; cases h
  · exact absurd hr hh

theorem careful_ok {ops : List Op} (h : faults .init ops = []) : CarefulRun .init ops ∧ ∃ l, runOps S.step .init ops = .ok (at' ops, l) := by
  have hc := faults_nil _ _ h
  obtain ⟨s, l, hr⟩ := careful_schedules_are_safe ops hc
  refine ⟨hc, at'_ok ?_ ?_⟩ <;> rw [hr]
  · rfl
  · nofun

example : Means (at' (link.take 4)) (at' (link.take 5)) (.connect true) := by
  obtain ⟨hc, l, hr⟩ := careful_ok (ops := link.take 4) (by decide +kernel)
  have hs : (at' (link.take 4)).step .ctl = .ok (at' (link.take 5), some (.connect true)) := rfl
  exact careful_answers_are_true _ hc _ l hr .ctl trivial _ _ hs

theorem linked : (at' link).Linked 0 := ⟨rfl, ⟨0, rfl, rfl⟩, rfl⟩

/-- `connection_lasts` over the start of a round of W, `rounds_get_frames`. -/
example : (at' (link ++ [.wRound])).Linked 0 := by
  obtain ⟨hc, l, hr⟩ := careful_ok (ops := link) (by decide +kernel)
  exact connection_lasts _ hc _ l hr .wRound _ none rfl (.inl rfl) 0 linked

example : ∃ t l, runOps S.step (at' link) [.rRound true, .rStep true] = .ok (t, l) ∧ t.r = .use 0 true := by
  obtain ⟨hc, l, hr⟩ := careful_ok (ops := link) (by decide +kernel)
  exact (rounds_get_frames _ hc _ l hr rfl 0 linked).2 rfl true true

/-- `next_round_cleans_up` and `queues_are_deleted_in_time` after the reader has been cut. -/
example : ∃ t l, runOps S.step (at' (link ++ cutR)) [.wRound, .wStep, .wStep] = .ok (t, l) ∧ t.heap 0 = .freed ∧ ¬ t.HoldsW 0 := by
  obtain ⟨hc, l, hr⟩ := careful_ok (ops := link ++ cutR) (by decide +kernel)
  exact (next_round_cleans_up _ hc _ l hr rfl 0).1 rfl rfl (by rintro ⟨o, ho, _⟩; cases ho)

example : (at' (link ++ cutR)).heap 0 ≠ .freed ∧ (at' (link ++ cutR ++ [.wRound, .wStep, .wStep])).heap 0 = .freed := by
  obtain ⟨hc, l, hr⟩ := careful_ok (ops := link ++ cutR) (by decide +kernel)
  obtain ⟨hc', l', hr'⟩ := careful_ok (ops := link ++ cutR ++ [.wRound, .wStep, .wStep]) (by decide +kernel)
  constructor
  · intro hf
    exact ((queues_are_deleted_in_time _ hc _ l hr rfl 0 (by decide +kernel) (by decide +kernel)).1 hf).1 rfl
  · exact (queues_are_deleted_in_time _ hc' _ l' hr' rfl 0 (by decide +kernel) (by decide +kernel)).2
      ⟨fun h => (by cases h), by rintro ⟨o, ho, _⟩; cases ho⟩

/-- **C91, recorded.** A round of the reading filter just after `setReader` removes the new reader; `connect`
says it succeeded and nothing is connected. -/
theorem success_without_connection :
    let ops := [.connect, .ctl, .ctl, .rRound false, .ctl, .ctl, .ctl, .ctl, .ctl]
    faults .init ops = [.rRound false] ∧
      seen (runOps S.step .init ops) = some ([.connect true], some (some 0), none, [.live false, .none]) := by decide +kernel

/-- **C91, recorded.** Is the reading filter a synchronising one, that round reads through a null pointer. -/
theorem sync_round_in_connect : let ops := [.connect, .ctl, .ctl, .rRound true]
    faults .init ops = [.rRound true] ∧ undefined (runOps S.step .init ops) = true := by decide +kernel

/-- **C91, recorded.** A round of the reading filter just before the queue is marked connected deletes the
queue, which `connect` goes on to use. -/
theorem round_before_flag : let ops := [.connect, .ctl, .ctl, .ctl, .rRound false, .rStep false, .rStep false, .ctl]
    faults .init ops = [.rRound false] ∧ undefined (runOps S.step .init ops) = true := by decide +kernel

/-- **C91, recorded.** Connecting again after the writer was disconnected: a round of the reading filter
between the two looks at the old reader makes the second one a null pointer. -/
theorem round_between_looks : let ops := link ++ cutW ++ [.connect, .rRound false, .rStep false, .rStep false, .ctl]
    faults .init ops = [.rRound false] ∧ undefined (runOps S.step .init ops) = true := by decide +kernel

/-- **C91, recorded.** The reader is disconnected after the writing filter found the queue connected and
before it asks for a frame: the null frame is used. -/
theorem cut_while_asking : let ops := link ++ [.wRound] ++ cutR ++ [.wStep]
    faults .init ops = [.disconnectR] ∧ undefined (runOps S.step .init ops) = true := by decide +kernel

/-- **C91, recorded.** The same when the writing filter's round starts during the call. -/
theorem asking_while_cut : let ops := link ++ [.disconnectR, .wRound, .ctl, .ctl, .wStep]
    faults .init ops = [.wRound] ∧ undefined (runOps S.step .init ops) = true := by decide +kernel

/-- **C91, recorded.** The writer is disconnected while its filter writes; a round of the reading filter
deletes the queue with the frame. -/
theorem writer_cut_while_writing : let ops := link ++ [.wRound, .wStep] ++ cutW ++ [.rRound false, .rStep false, .rStep false, .wUse]
    faults .init ops = [.disconnectW] ∧ undefined (runOps S.step .init ops) = true := by decide +kernel

/-- **C91, recorded.** The reader is disconnected while its filter reads; a round of the writing filter
deletes the queue with the frame. -/
theorem reader_cut_while_reading : let ops := link ++ [.rRound false, .rStep true] ++ cutR ++ [.wRound, .wStep, .wStep, .rUse]
    faults .init ops = [.disconnectR] ∧ undefined (runOps S.step .init ops) = true := by decide +kernel

/-- **C91, recorded.** The reader is disconnected and connected again while its filter is in a round: the
end of the round releases a frame the new reader does not have. -/
theorem reader_replaced_in_round :
    let ops := link ++ [.rRound false, .rStep true] ++ cutR ++ [.wRound, .wStep, .wStep] ++ link ++ [.rEnd]
    faults .init ops = [.disconnectR] ∧ undefined (runOps S.step .init ops) = true := by decide +kernel

end Lms.LinkRace
