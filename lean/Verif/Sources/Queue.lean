import Verif.Sources.Extradata

/-!
# C41: queue sources answer requests
-/

namespace Lms.Sources

/-! ## Specification -/

/-- What a frame is for the packetiser: its valid bytes, for H.264 and H.265 without the start code in front. -/
def content (k : Kind) (f : Frame) : Bytes :=
  let d := f.buf.take f.len
  match k with
  | .plain => d
  | .h26x => if d.take 3 = [0, 0, 1] then d.drop 3 else if d.take 4 = [0, 0, 0, 1] then d.drop 4 else d

/-- The frames this is about: the length is within the buffer, and H.264 or H.265 frames have at least four bytes. -/
def Valid (k : Kind) (f : Frame) : Prop := f.len ≤ f.buf.length ∧ (k = .h26x → 4 ≤ f.len)

/-- The right answer to a request for at most `room` bytes. -/
structure Right (k : Kind) (f : Frame) (room : Nat) (a : Answer) : Prop where
  bytes : a.bytes = (content k f).take room
  size : a.bytes.length + a.truncated = (content k f).length
  time : a.sec * 1000000 + a.usec = f.pts

/-- A history: operations with what came of them. -/
abbrev History := List (Op × Out)

/-- The frames accepted. -/
def accepted (h : History) : List Frame := h.filterMap fun x =>
  match x with | (.set f, .set true) => some f | _ => none

/-- The answers given. -/
def answers (h : History) : List Answer := h.filterMap fun x =>
  match x with | (_, .answer a) => a | _ => none

/-- The packetiser never asks for more between an answer and the release of the frame. -/
def Spaced : Bool → History → Prop
  | _, [] => True
  | b, (op, out) :: h =>
    (b = true → ∀ r, op ≠ .ask r) ∧
      Spaced (match out with | .answer (some _) => true | .got true => false | _ => b) h

/-! ## Single answers -/

theorem answer_right (k : Kind) (f : Frame) (room : Nat) (hv : Valid k f) : ∃ a, answer k f room = .ok a ∧ Right k f room a := by
  obtain ⟨hv1, hv2⟩ := hv
  have key : ∀ o, o ≤ f.len → content k f = (f.buf.take f.len).drop o → headLen k f = .ok o →
      ∃ a, answer k f room = .ok a ∧ Right k f room a := by
    intro o ho hc hs
    have hl : (content k f).length = f.len - o := by rw [hc, List.length_drop, List.length_take]; omega
    unfold answer
    rw [hs, Outcome.bind_ok]
    simp only [if_pos ho]
    rw [if_neg (by split <;> omega)]
    refine ⟨_, rfl, ?_, ?_, ?_⟩
    · show (f.buf.drop o).take _ = _
      rw [hc, List.drop_take, List.take_take]
      congr 1
      split <;> omega
    · show ((f.buf.drop o).take _).length + _ = _
      rw [hl, List.length_take, List.length_drop]
      split <;> simp only <;> omega
    · show f.pts.tdiv 1000000 * 1000000 + f.pts.tmod 1000000 = f.pts
      have := Int.tmod_add_mul_tdiv f.pts 1000000
      omega
  cases k with
  | plain => exact key 0 (by omega) rfl rfl
  | h26x =>
    have h4 := hv2 rfl
    obtain ⟨a, b, c, d, r, hb⟩ : ∃ a b c d r, f.buf = a :: b :: c :: d :: r := by
      rcases hb : f.buf with _ | ⟨a, _ | ⟨b, _ | ⟨c, _ | ⟨d, r⟩⟩⟩⟩
      · rw [hb] at hv1; simp at hv1; omega
      · rw [hb] at hv1; simp at hv1; omega
      · rw [hb] at hv1; simp at hv1; omega
      · rw [hb] at hv1; simp at hv1; omega
      · exact ⟨a, b, c, d, r, rfl⟩
    obtain ⟨m, hm⟩ : ∃ m, f.len = m + 4 := ⟨f.len - 4, by omega⟩
    have h3 : (f.buf.take f.len).take 3 = [a, b, c] := by rw [hb, hm]; rfl
    have h4' : (f.buf.take f.len).take 4 = [a, b, c, d] := by rw [hb, hm]; rfl
    have hs := startOffset_eq a b c d r
    rw [← hb] at hs
    have hcont : content .h26x f = if [a, b, c] = [0, 0, 1] then (f.buf.take f.len).drop 3
        else if [a, b, c, d] = [0, 0, 0, 1] then (f.buf.take f.len).drop 4 else f.buf.take f.len := by
      unfold content; simp only [h3, h4']
    by_cases c3 : a = 0 ∧ b = 0 ∧ c = 1
    · rw [if_pos c3] at hs
      refine key 3 (by omega) ?_ hs
      rw [hcont, if_pos (by obtain ⟨rfl, rfl, rfl⟩ := c3; rfl)]
    · rw [if_neg c3] at hs
      have n3 : ¬ [a, b, c] = [0, 0, 1] := by
        intro e; simp only [List.cons.injEq, and_true] at e; exact c3 e
      by_cases c4 : a = 0 ∧ b = 0 ∧ c = 0 ∧ d = 1
      · rw [if_pos c4] at hs
        refine key 4 (by omega) ?_ hs
        rw [hcont, if_neg n3, if_pos (by obtain ⟨rfl, rfl, rfl, rfl⟩ := c4; rfl)]
      · rw [if_neg c4] at hs
        refine key 0 (by omega) ?_ hs
        rw [hcont, if_neg n3, if_neg]
        · rfl
        · intro e; simp only [List.cons.injEq, and_true] at e; exact c4 e

/-! ## Histories -/

/-- Reachable states: an answered frame is still held, and the frame held is valid. -/
structure Inv (k : Kind) (s : Src) : Prop where
  held : s.processed = true → s.frame ≠ none
  valid : ∀ f, s.frame = some f → Valid k f

theorem inv_init (k : Kind) : Inv k {} := ⟨by intro h; exact absurd h (by decide), by intro f h; exact absurd h (by simp)⟩

/-- `deliver` in full. -/
theorem deliver_cases (k : Kind) (s : Src) (h : Inv k s) :
    (deliver k s = .ok (s, none) ∧ (s.waiting = none ∨ s.frame = none ∨ (k = .plain ∧ s.processed = true))) ∨
    ∃ room f a, s.waiting = some room ∧ s.frame = some f ∧ ¬ (k = .plain ∧ s.processed = true) ∧ Right k f room a ∧
      deliver k s = .ok ({ s with processed := true, waiting := none }, some a) := by
  unfold deliver
  cases hw : s.waiting with
  | none => left; exact ⟨rfl, Or.inl rfl⟩
  | some room =>
    cases hf : s.frame with
    | none => left; exact ⟨rfl, Or.inr (Or.inl rfl)⟩
    | some f =>
      simp only
      by_cases hp : k = .plain ∧ s.processed = true
      · left; rw [if_pos hp]; exact ⟨rfl, Or.inr (Or.inr hp)⟩
      · right
        obtain ⟨a, ha, hr⟩ := answer_right k f room (h.valid f hf)
        refine ⟨room, f, a, rfl, rfl, hp, hr, ?_⟩
        rw [if_neg hp, ha, Outcome.bind_ok]

/-- Valid frames only, and no second request while one is outstanding. -/
def Fine (k : Kind) (s : Src) : Op → Prop
  | .set f => Valid k f
  | .ask _ => s.waiting = none
  | _ => True

/-- What an operation does, with the frame answered and the frame accepted. -/
theorem step_cases (k : Kind) (s : Src) (op : Op) (h : Inv k s) (hf : Fine k s op) :
    ∃ s' out, step k s op = .ok (s', out) ∧ Inv k s' ∧
      match op with
      | .set f => if s.frame = none then s' = { s with frame := some f } ∧ out = .set true else s' = s ∧ out = .set false
      | .ask room =>
        match s.frame with
        | none => s' = { s with waiting := some room, stop := false } ∧ out = .answer none
        | some f => if k = .plain ∧ s.processed = true then s' = { s with waiting := some room, stop := false } ∧ out = .answer none
          else ∃ a, Right k f room a ∧ s' = { s with processed := true, waiting := none, stop := false } ∧ out = .answer (some a)
      | .trigger =>
        match s.frame, s.waiting with
        | some f, some room => if k = .plain ∧ s.processed = true then s' = s ∧ out = .answer none
          else ∃ a, Right k f room a ∧ s' = { s with processed := true, waiting := none } ∧ out = .answer (some a)
        | _, _ => s' = s ∧ out = .answer none
      | .got => if s.frame ≠ none ∧ (s.processed = true ∨ s.stop = true) then s' = { s with processed := false, frame := none } ∧ out = .got true
          else s' = s ∧ out = .got false
      | .stop => s' = { s with waiting := none, stop := true } ∧ out = .none := by
  cases op with
  | set f =>
    by_cases hn : s.frame = none
    · refine ⟨{ s with frame := some f }, .set true, ?_, ⟨fun _ => by simp, ?_⟩, ?_⟩
      · show (if s.frame = none then _ else _) = _; rw [if_pos hn]
      · intro g hg; simp only [Option.some.injEq] at hg; subst hg; exact hf
      · simp only [hn, if_true, and_self]
    · refine ⟨s, .set false, ?_, h, ?_⟩
      · show (if s.frame = none then _ else _) = _; rw [if_neg hn]
      · simp only [hn, if_false, and_self]
  | ask room =>
    have hw : s.waiting = none := hf
    have h' : Inv k { s with waiting := some room, stop := false } := ⟨h.held, h.valid⟩
    cases hfr : s.frame with
    | none =>
      refine ⟨{ s with waiting := some room, stop := false }, .answer none, ?_, h', ?_⟩
      · show (if s.waiting ≠ none then _ else if s.frame ≠ none then _ else _) = _
        rw [if_neg (by simp [hw]), if_neg (by simp [hfr])]
      · exact ⟨by rw [hfr], rfl⟩
    | some f =>
      have hstep : step k s (.ask room) = (deliver k { s with waiting := some room, stop := false }).bind fun r => Outcome.ok (r.1, .answer r.2) := by
        show (if s.waiting ≠ none then _ else if s.frame ≠ none then _ else _) = _
        rw [if_neg (by simp [hw]), if_pos (by simp [hfr])]
      rcases deliver_cases k _ h' with ⟨e, hc⟩ | ⟨r, g, a, e1, e2, e3, e4, e5⟩
      · rw [e, Outcome.bind_ok] at hstep
        refine ⟨_, _, hstep, h', ?_⟩
        simp only
        rw [if_pos]
        · exact ⟨by rw [hfr], trivial⟩
        · rcases hc with hc | hc | hc
          · simp at hc
          · rw [hfr] at hc; simp at hc
          · exact hc
      · rw [e5, Outcome.bind_ok] at hstep
        refine ⟨_, _, hstep, ⟨fun _ => by simp [hfr], h.valid⟩, ?_⟩
        simp only
        rw [if_neg e3]
        simp only [Option.some.injEq] at e1
        rw [hfr] at e2
        simp only [Option.some.injEq] at e2
        subst e1 e2
        exact ⟨a, e4, by rw [hfr], rfl⟩
  | trigger =>
    have hstep : step k s .trigger = (deliver k s).bind fun r => Outcome.ok (r.1, .answer r.2) := rfl
    rcases deliver_cases k s h with ⟨e, hc⟩ | ⟨r, g, a, e1, e2, e3, e4, e5⟩
    · rw [e, Outcome.bind_ok] at hstep
      refine ⟨_, _, hstep, h, ?_⟩
      rcases hc with hc | hc | hc
      · simp only [hc]; split <;> simp_all
      · simp only [hc]; exact ⟨trivial, trivial⟩
      · simp only
        cases hfr : s.frame with
        | none => exact ⟨trivial, trivial⟩
        | some f =>
          cases hw : s.waiting with
          | none => exact ⟨trivial, trivial⟩
          | some r => simp only [hc, and_self, if_true]
    · rw [e5, Outcome.bind_ok] at hstep
      refine ⟨_, _, hstep, ⟨fun _ => by simp [e2], h.valid⟩, ?_⟩
      simp only [e1, e2]
      rw [if_neg e3]
      exact ⟨a, e4, trivial, rfl⟩
  | got =>
    by_cases hc : s.processed = true ∨ s.stop = true
    · by_cases hn : s.frame = none
      · have hp : s.processed = false := by
          cases hp : s.processed with
          | false => rfl
          | true => exact absurd hn (h.held hp)
        refine ⟨s, .got false, ?_, h, ?_⟩
        · show (if s.processed = true ∨ s.stop = true then (if s.frame ≠ none then _ else _) else _) = _
          rw [if_pos hc, if_neg (by simp [hn])]
          cases s; simp only at hp; subst hp; rfl
        · simp only [hn, ne_eq, not_true_eq_false, false_and, if_false, and_self]
      · refine ⟨{ s with processed := false, frame := none }, .got true, ?_, ⟨by simp, by simp⟩, ?_⟩
        · show (if s.processed = true ∨ s.stop = true then (if s.frame ≠ none then _ else _) else _) = _
          rw [if_pos hc, if_pos hn]
        · simp only; rw [if_pos ⟨hn, hc⟩]; exact ⟨trivial, trivial⟩
    · refine ⟨s, .got false, ?_, h, ?_⟩
      · show (if s.processed = true ∨ s.stop = true then (if s.frame ≠ none then _ else _) else _) = _
        rw [if_neg hc]
      · simp only; rw [if_neg (fun h' => hc h'.2)]; exact ⟨trivial, trivial⟩
  | stop =>
    exact ⟨{ s with waiting := none, stop := true }, .none, rfl, ⟨h.held, h.valid⟩, rfl, rfl⟩

/-- A history of a source: each operation is met in a state it is fine in. -/
inductive Hist (k : Kind) : Src → History → Src → Prop
  | nil (s) : Hist k s [] s
  | cons {s s1 s2 op out h} : Fine k s op → step k s op = .ok (s1, out) → Hist k s1 h s2 → Hist k s ((op, out) :: h) s2

/-- The source never fails. -/
theorem never_fails (k : Kind) (h : History) (s : Src) (hh : Hist k {} h s) (op : Op) (hf : Fine k s op) :
    Inv k s ∧ ∃ s' out, step k s op = .ok (s', out) ∧ Hist k {} (h ++ [(op, out)]) s' := by
  have inv : ∀ s0 h s, Hist k s0 h s → Inv k s0 → Inv k s := by
    intro s0 h s hh
    induction hh with
    | nil s => exact id
    | cons a b c ih =>
      intro hi
      obtain ⟨s', out, e, i', -⟩ := step_cases k _ _ hi a
      rw [b] at e; simp only [Outcome.ok.injEq, Prod.mk.injEq] at e
      exact ih (e.1 ▸ i')
  have app : ∀ s0 h s, Hist k s0 h s → ∀ op s' out, Fine k s op → step k s op = .ok (s', out) → Hist k s0 (h ++ [(op, out)]) s' := by
    intro s0 h s hh
    induction hh with
    | nil s => intro op s' out a b; exact .cons a b (.nil _)
    | cons a b c ih => intro op s' out a' b'; exact .cons a b (ih op s' out a' b')
  have hi := inv _ _ _ hh (inv_init k)
  obtain ⟨s', out, e, -, -⟩ := step_cases k s op hi hf
  exact ⟨hi, s', out, e, app _ _ _ hh _ _ _ hf e⟩

/-- A frame not answered yet. -/
def fresh (s : Src) : List Frame := if s.processed = true then [] else s.frame.toList

/-- **C41.** The answers are answers to accepted frames, each at most once and in the order they were accepted (for H.264 and H.265 if
the packetiser does not ask again before the frame is released). -/
theorem once_in_order (k : Kind) (s s' : Src) (h : History) (hh : Hist k s h s') : Inv k s →
    (k = .plain ∨ Spaced s.processed h ∧ (s.processed = true → s.waiting = none)) →
    ∃ l : List (Frame × Answer), l.map (·.2) = answers h ∧ (l.map (·.1)).Sublist (fresh s ++ accepted h) ∧
      ∀ x ∈ l, ∃ room, Right k x.1 room x.2 := by
  induction hh with
  | nil s => intro _ _; exact ⟨[], rfl, by simp, by simp⟩
  | @cons s s1 s2 op out h a b c ih =>
    intro hi hsp
    obtain ⟨s1', out', e, hi', hcase⟩ := step_cases k s op hi a
    rw [b] at e
    simp only [Outcome.ok.injEq, Prod.mk.injEq] at e
    obtain ⟨rfl, rfl⟩ := e
    have ih := ih hi'
    have hpl : k = .plain ∨ k = .h26x := by cases k <;> simp
    cases op with
    | set f =>
      simp only at hcase
      by_cases hn : s.frame = none
      · rw [if_pos hn] at hcase
        obtain ⟨rfl, rfl⟩ := hcase
        have hp : s.processed = false := by
          cases hp : s.processed with
          | false => rfl
          | true => exact absurd hn (hi.held hp)
        obtain ⟨l, h1, h2, h3⟩ := ih (hsp.imp id fun x => ⟨x.1.2, x.2⟩)
        refine ⟨l, h1, ?_, h3⟩
        simpa [fresh, hp, hn, accepted] using h2
      · rw [if_neg hn] at hcase
        obtain ⟨rfl, rfl⟩ := hcase
        obtain ⟨l, h1, h2, h3⟩ := ih (hsp.imp id fun x => ⟨x.1.2, x.2⟩)
        exact ⟨l, h1, h2, h3⟩
    | ask room =>
      simp only at hcase
      have hfr : fresh { s with waiting := some room, stop := false } = fresh s := rfl
      cases hf : s.frame with
      | none =>
        rw [hf] at hcase
        obtain ⟨rfl, rfl⟩ := hcase
        have hp : s.processed = false := by
          cases hp : s.processed with
          | false => rfl
          | true => exact absurd hf (hi.held hp)
        obtain ⟨l, h1, h2, h3⟩ := ih (hsp.imp id fun x => ⟨x.1.2, fun hp' => by rw [hp] at hp'; exact absurd hp' (by decide)⟩)
        refine ⟨l, h1, ?_, h3⟩
        simpa [fresh, hp, hf, accepted] using h2
      | some f =>
        rw [hf] at hcase
        simp only at hcase
        by_cases hc : k = .plain ∧ s.processed = true
        · rw [if_pos hc] at hcase
          obtain ⟨rfl, rfl⟩ := hcase
          obtain ⟨l, h1, h2, h3⟩ := ih (Or.inl hc.1)
          refine ⟨l, h1, ?_, h3⟩
          simpa [fresh, hc.2, hf, accepted] using h2
        · rw [if_neg hc] at hcase
          obtain ⟨x, hr, rfl, rfl⟩ := hcase
          have hp : s.processed = false := by
            rcases hpl with hk | hk
            · cases hp : s.processed with
              | false => rfl
              | true => exact absurd ⟨hk, hp⟩ hc
            · rcases hsp with hsp | hsp
              · rw [hk] at hsp; exact absurd hsp (by decide)
              · cases hp : s.processed with
                | false => rfl
                | true => exact absurd rfl (hsp.1.1 hp room)
          obtain ⟨l, h1, h2, h3⟩ := ih (hsp.imp id fun x => ⟨x.1.2, fun _ => rfl⟩)
          refine ⟨(f, x) :: l, ?_, ?_, ?_⟩
          · simp only [List.map_cons, h1]; rfl
          · have hfs : fresh s = [f] := by simp [fresh, hp, hf]
            rw [hfs, List.map_cons]
            refine List.Sublist.cons_cons f ?_
            simpa [fresh, accepted] using h2
          · intro y hy
            rcases List.mem_cons.1 hy with rfl | hy
            · exact ⟨room, hr⟩
            · exact h3 y hy
    | trigger =>
      simp only at hcase
      cases hf : s.frame with
      | none =>
        rw [hf] at hcase
        obtain ⟨rfl, rfl⟩ := hcase
        exact ih (hsp.imp id fun x => ⟨x.1.2, x.2⟩)
      | some f =>
        cases hw : s.waiting with
        | none =>
          rw [hf, hw] at hcase
          obtain ⟨rfl, rfl⟩ := hcase
          exact ih (hsp.imp id fun x => ⟨x.1.2, x.2⟩)
        | some room =>
          rw [hf, hw] at hcase
          simp only at hcase
          by_cases hc : k = .plain ∧ s.processed = true
          · rw [if_pos hc] at hcase
            obtain ⟨rfl, rfl⟩ := hcase
            exact ih (Or.inl hc.1)
          · rw [if_neg hc] at hcase
            obtain ⟨x, hr, rfl, rfl⟩ := hcase
            have hp : s.processed = false := by
              rcases hpl with hk | hk
              · cases hp : s.processed with
                | false => rfl
                | true => exact absurd ⟨hk, hp⟩ hc
              · rcases hsp with hsp | hsp
                · rw [hk] at hsp; exact absurd hsp (by decide)
                · cases hp : s.processed with
                  | false => rfl
                  | true => have := hsp.2 hp; rw [hw] at this; exact absurd this (by simp)
            obtain ⟨l, h1, h2, h3⟩ := ih (hsp.imp id fun x => ⟨x.1.2, fun _ => rfl⟩)
            refine ⟨(f, x) :: l, ?_, ?_, ?_⟩
            · simp only [List.map_cons, h1]; rfl
            · have hfs : fresh s = [f] := by simp [fresh, hp, hf]
              rw [hfs, List.map_cons]
              refine List.Sublist.cons_cons f ?_
              simpa [fresh, accepted] using h2
            · intro y hy
              rcases List.mem_cons.1 hy with rfl | hy
              · exact ⟨room, hr⟩
              · exact h3 y hy
    | got =>
      simp only at hcase
      by_cases hc : s.frame ≠ none ∧ (s.processed = true ∨ s.stop = true)
      · rw [if_pos hc] at hcase
        obtain ⟨rfl, rfl⟩ := hcase
        obtain ⟨l, h1, h2, h3⟩ := ih (hsp.imp id fun x => ⟨x.1.2, fun h => Bool.noConfusion h⟩)
        refine ⟨l, h1, ?_, h3⟩
        have : (accepted h).Sublist (fresh s ++ accepted h) := List.sublist_append_right _ _
        refine List.Sublist.trans ?_ this
        simpa [fresh] using h2
      · rw [if_neg hc] at hcase
        obtain ⟨rfl, rfl⟩ := hcase
        exact ih (hsp.imp id fun x => ⟨x.1.2, x.2⟩)
    | stop =>
      simp only at hcase
      obtain ⟨rfl, rfl⟩ := hcase
      obtain ⟨l, h1, h2, h3⟩ := ih (hsp.imp id fun x => ⟨x.1.2, fun _ => rfl⟩)
      exact ⟨l, h1, h2, h3⟩

/-! ## The state told from the history -/

/-- The frame held: accepted and not released. -/
def holding : History → Option Frame → Option Frame
  | [], f => f
  | (.set g, .set true) :: h, _ => holding h (some g)
  | (_, .got true) :: h, _ => holding h none
  | _ :: h, f => holding h f

/-- The frame held has been answered. -/
def served : History → Bool → Bool
  | [], b => b
  | (_, .answer (some _)) :: h, _ => served h true
  | (_, .got true) :: h, _ => served h false
  | _ :: h, b => served h b

/-- The packetiser is not running: it has not asked yet, or stopped since. -/
def idle : History → Bool → Bool
  | [], b => b
  | (.ask _, _) :: h, _ => idle h false
  | (.stop, _) :: h, _ => idle h true
  | _ :: h, b => idle h b

/-- The room of the outstanding request. -/
def asked : History → Option Nat → Option Nat
  | [], r => r
  | (.stop, _) :: h, _ => asked h none
  | (_, .answer (some _)) :: h, _ => asked h none
  | (.ask r, _) :: h, _ => asked h (some r)
  | _ :: h, r => asked h r

theorem state_of_history (k : Kind) (s s' : Src) (h : History) (hh : Hist k s h s') : Inv k s →
    Inv k s' ∧ s'.frame = holding h s.frame ∧ s'.processed = served h s.processed ∧ s'.stop = idle h s.stop ∧ s'.waiting = asked h s.waiting := by
  induction hh with
  | nil s => intro hi; exact ⟨hi, rfl, rfl, rfl, rfl⟩
  | @cons s s1 s2 op out h a b c ih =>
    intro hi
    obtain ⟨s1', out', e, hi', hcase⟩ := step_cases k s op hi a
    rw [b] at e
    simp only [Outcome.ok.injEq, Prod.mk.injEq] at e
    obtain ⟨rfl, rfl⟩ := e
    have ih := ih hi'
    cases op with
    | set f =>
      simp only at hcase
      split at hcase <;> (obtain ⟨rfl, rfl⟩ := hcase; exact ih)
    | ask room =>
      simp only at hcase
      split at hcase
      · obtain ⟨rfl, rfl⟩ := hcase; exact ih
      · split at hcase
        · obtain ⟨rfl, rfl⟩ := hcase; exact ih
        · obtain ⟨x, -, rfl, rfl⟩ := hcase; exact ih
    | trigger =>
      simp only at hcase
      split at hcase
      · split at hcase
        · obtain ⟨rfl, rfl⟩ := hcase; exact ih
        · obtain ⟨x, -, rfl, rfl⟩ := hcase; exact ih
      · obtain ⟨rfl, rfl⟩ := hcase; exact ih
    | got =>
      simp only at hcase
      split at hcase <;> (obtain ⟨rfl, rfl⟩ := hcase; exact ih)
    | stop =>
      simp only at hcase
      obtain ⟨rfl, rfl⟩ := hcase; exact ih

/-- **C41, current frame.** A request is answered with the frame held, cut to the room asked for; by a plain source only the first time. -/
theorem answer_is_current (k : Kind) (h : History) (s s' : Src) (op : Op) (a : Answer) (hh : Hist k {} h s) (hf : Fine k s op)
    (he : step k s op = .ok (s', .answer (some a))) :
    ∃ f room, holding h none = some f ∧ asked (h ++ [(op, .answer none)]) none = some room ∧ Right k f room a ∧ (k = .plain → served h false = false) := by
  obtain ⟨hi, e1, e2, -, e4⟩ := state_of_history k _ _ _ hh (inv_init k)
  have happ : ∀ r, asked (h ++ [(Op.ask r, Out.answer none)]) none = some r := by
    intro r
    have : ∀ (h : History) (x : Option Nat), asked (h ++ [(Op.ask r, Out.answer none)]) x = some r := by
      intro h
      induction h with
      | nil => intro x; rfl
      | cons y h ih =>
        intro x; rw [List.cons_append]; unfold asked; split <;> first | exact ih _ | simp_all
    exact this h none
  have happ' : asked (h ++ [(Op.trigger, Out.answer none)]) none = asked h none := by
    have : ∀ (h : History) (x : Option Nat), asked (h ++ [(Op.trigger, Out.answer none)]) x = asked h x := by
      intro h
      induction h with
      | nil => intro x; rfl
      | cons y h ih =>
        intro x
        rw [List.cons_append]
        conv => lhs; unfold asked
        conv => rhs; unfold asked
        split <;> simp_all
    exact this h none
  obtain ⟨s1, out, e, -, hc⟩ := step_cases k s op hi hf
  rw [he] at e
  simp only [Outcome.ok.injEq, Prod.mk.injEq] at e
  obtain ⟨rfl, rfl⟩ := e
  have hd1 : s.frame = holding h none := e1
  have hd2 : s.processed = served h false := e2
  have hd4 : s.waiting = asked h none := e4
  have hserved : ∀ (_ : ¬ (k = .plain ∧ s.processed = true)), k = .plain → served h false = false := by
    intro hn hk
    rw [← hd2]
    cases hp : s.processed with
    | false => rfl
    | true => exact absurd ⟨hk, hp⟩ hn
  cases op with
  | set f => simp only at hc; split at hc <;> simp at hc
  | ask room =>
    simp only at hc
    split at hc
    · simp at hc
    · rename_i f hfr
      split at hc
      · simp at hc
      · rename_i hn
        obtain ⟨x, hr, -, hx⟩ := hc
        simp only [Out.answer.injEq, Option.some.injEq] at hx
        subst hx
        exact ⟨f, room, by rw [← hd1, hfr], happ room, hr, hserved hn⟩
  | trigger =>
    simp only at hc
    split at hc
    · rename_i f room hfr hw
      split at hc
      · simp at hc
      · rename_i hn
        obtain ⟨x, hr, -, hx⟩ := hc
        simp only [Out.answer.injEq, Option.some.injEq] at hx
        subst hx
        exact ⟨f, room, by rw [← hd1, hfr], by rw [happ', ← hd4, hw], hr, hserved hn⟩
    · simp at hc
  | got => simp only at hc; split at hc <;> simp at hc
  | stop => simp at hc

/-- **C41, release.** The frame held is released exactly when it has been answered or the packetiser is not running. -/
theorem released_iff (k : Kind) (h : History) (s : Src) (hh : Hist k {} h s) :
    ∃ s' b, step k s .got = .ok (s', .got b) ∧
      (b = true ↔ holding h none ≠ none ∧ (served h false = true ∨ idle h true = true)) ∧ (b = true → s'.frame = none) := by
  obtain ⟨hi, e1, e2, e3, -⟩ := state_of_history k _ _ _ hh (inv_init k)
  obtain ⟨s', out, e, -, hc⟩ := step_cases k s .got hi trivial
  have hd1 : s.frame = holding h none := e1
  have hd2 : s.processed = served h false := e2
  have hd3 : s.stop = idle h true := e3
  rw [← hd1, ← hd2, ← hd3]
  simp only at hc
  split at hc
  · rename_i hx
    obtain ⟨rfl, rfl⟩ := hc
    exact ⟨_, true, e, ⟨fun _ => hx, fun _ => rfl⟩, fun _ => rfl⟩
  · rename_i hx
    obtain ⟨rfl, rfl⟩ := hc
    exact ⟨_, false, e, ⟨fun h => absurd h (by decide), fun h => absurd h hx⟩, fun h => absurd h (by decide)⟩

/-- **C41, no delay.** A frame held and not answered answers the next request, and the request outstanding when the trigger fires. -/
theorem answered_at_once (k : Kind) (h : History) (s : Src) (f : Frame) (hh : Hist k {} h s) (hf : holding h none = some f)
    (hs : served h false = false) :
    (asked h none = none → ∀ room, ∃ s' a, step k s (.ask room) = .ok (s', .answer (some a)) ∧ Right k f room a) ∧
    (∀ room, asked h none = some room → ∃ s' a, step k s .trigger = .ok (s', .answer (some a)) ∧ Right k f room a) := by
  obtain ⟨hi, e1, e2, -, e4⟩ := state_of_history k _ _ _ hh (inv_init k)
  have hd1 : s.frame = some f := by rw [← hf]; exact e1
  have hd2 : s.processed = false := by rw [← hs]; exact e2
  have hd4 : s.waiting = asked h none := e4
  constructor
  · intro hw room
    obtain ⟨s', out, e, -, hc⟩ := step_cases k s (.ask room) hi (by show s.waiting = none; rw [hd4, hw])
    simp only [hd1, hd2, Bool.false_eq_true, and_false, if_false] at hc
    obtain ⟨a, hr, -, rfl⟩ := hc
    exact ⟨s', a, e, hr⟩
  · intro room hw
    obtain ⟨s', out, e, -, hc⟩ := step_cases k s .trigger hi trivial
    simp only [hd1, hd2, hd4, hw, Bool.false_eq_true, and_false, if_false] at hc
    obtain ⟨a, hr, -, rfl⟩ := hc
    exact ⟨s', a, e, hr⟩

/-! ## Recorded -/

/-- A whole run from a fresh source. -/
def runAll (k : Kind) : Src → List Op → Outcome (List Out)
  | _, [] => .ok []
  | s, op :: l => (step k s op).bind fun r => (runAll k r.1 l).bind fun o => Outcome.ok (r.2 :: o)

/-- An H.264 source hands a frame out again to a packetiser that asks before the release; a plain source does not. -/
theorem asked_again_answered_twice :
    runAll .h26x {} [.set ⟨[0, 0, 0, 1, 0x65, 7], 6, 40000⟩, .ask 100, .ask 100, .got] =
      .ok [.set true, .answer (some ⟨[0x65, 7], 0, 0, 40000⟩), .answer (some ⟨[0x65, 7], 0, 0, 40000⟩), .got true] ∧
    runAll .plain {} [.set ⟨[0, 0, 0, 1, 0x65, 7], 6, 40000⟩, .ask 100, .ask 100, .got] =
      .ok [.set true, .answer (some ⟨[0, 0, 0, 1, 0x65, 7], 0, 0, 40000⟩), .answer none, .got true] := by decide +kernel

/-- A frame shorter than a start code is completed by what an earlier frame left in the buffer, and the size wraps: the buffer is
overrun, or stale bytes are sent. -/
theorem short_frame_wraps :
    answer .h26x ⟨[0, 0, 1, 0x65, 7, 7, 7, 7], 2, 0⟩ 1000 = .ub ∧
    answer .h26x ⟨[0, 0, 1, 0x65, 7, 7, 7, 7], 2, 0⟩ 4 = .ok ⟨[0x65, 7, 7, 7], 4294967291, 0, 0⟩ := by decide +kernel

/-! ## Cases -/

example : Hist .plain {} [(.set ⟨[1, 2, 3], 3, 5⟩, .set true), (.ask 2, .answer (some ⟨[1, 2], 1, 0, 5⟩)), (.got, .got true)]
    { frame := none, processed := false, stop := false, waiting := none } :=
  .cons ⟨by decide, by decide⟩ rfl (.cons (s1 := { frame := some ⟨[1, 2, 3], 3, 5⟩, processed := true, stop := false }) rfl (by decide +kernel)
    (.cons trivial rfl (.nil _)))

example : Hist .h26x {} [(.set ⟨[0, 0, 1, 9, 9], 4, 5⟩, .set true), (.ask 2, .answer (some ⟨[9], 0, 0, 5⟩)), (.got, .got true), (.ask 7, .answer none)]
    { frame := none, processed := false, stop := false, waiting := some 7 } ∧
    Spaced false [(.set ⟨[0, 0, 1, 9, 9], 4, 5⟩, .set true), (.ask 2, .answer (some ⟨[9], 0, 0, 5⟩)), (.got, .got true), (.ask 7, .answer none)] :=
  ⟨.cons ⟨by decide, by decide⟩ rfl (.cons (s1 := { frame := some ⟨[0, 0, 1, 9, 9], 4, 5⟩, processed := true, stop := false }) rfl (by decide +kernel)
    (.cons (s1 := { stop := false }) trivial rfl (.cons rfl rfl (.nil _)))),
    by simp [Spaced]⟩

end Lms.Sources
