import Verif.Demux.Run

/-!
# C42, C55: safety, times, and where the demultiplexer departs from its contract
-/

namespace Lms.Demux

/-! ## The search, declaratively -/

/-- A start code stands at position `i`, with a byte behind it. -/
def CodeAt (mem : Bytes) (i : Nat) : Prop :=
  ∃ a b c d t, mem.drop i = a :: b :: c :: d :: t ∧ a = 0 ∧ b = 0 ∧ (c = 1 ∨ (c = 0 ∧ d = 1))

theorem isCode_iff (a b c d : UInt8) : isCode a b c d = true ↔ a = 0 ∧ b = 0 ∧ (c = 1 ∨ (c = 0 ∧ d = 1)) := by
  unfold isCode; simp; grind

/-- Inside the buffer the search gives the first start code from `offs` on that ends before the
limit. -/
theorem find_spec (mem : Bytes) (len : Int) (hlen : len ≤ mem.length) : ∀ (k offs : Nat), (len - offs).toNat ≤ k →
    (findStartCode mem offs len = .ok none ∧ ∀ i, offs ≤ i → (i : Int) < len - 3 → ¬ CodeAt mem i) ∨
    (∃ i, findStartCode mem offs len = .ok (some i) ∧ offs ≤ i ∧ (i : Int) < len - 3 ∧ CodeAt mem i ∧
      ∀ j, offs ≤ j → j < i → ¬ CodeAt mem j) := by
  intro k
  induction k with
  | zero =>
    intro offs hk
    exact Or.inl ⟨find_end _ _ _ (by omega), fun i _ _ => by omega⟩
  | succ k ih =>
    intro offs hk
    by_cases ho : (offs : Int) < len - 3
    · have h4 : 4 ≤ (mem.drop offs).length := by rw [List.length_drop]; omega
      obtain ⟨a, b, c, d, t, e⟩ := four_of_length h4
      rw [find_step mem offs len ho e]
      by_cases hc : isCode a b c d = true
      · rw [if_pos hc]
        exact Or.inr ⟨offs, rfl, Nat.le_refl _, ho, ⟨a, b, c, d, t, e, (isCode_iff a b c d).1 hc⟩, fun j _ _ => by omega⟩
      · rw [if_neg hc]
        have hno : ¬ CodeAt mem offs := by
          rintro ⟨a', b', c', d', t', e', h'⟩
          rw [e] at e'
          simp only [List.cons.injEq] at e'
          obtain ⟨rfl, rfl, rfl, rfl, _⟩ := e'
          exact hc ((isCode_iff a b c d).2 h')
        have hj : ∀ j, offs ≤ j → ¬ CodeAt mem j ∨ offs + 1 ≤ j := by
          intro j hj
          rcases Nat.lt_or_ge offs j with h | h
          · exact Or.inr h
          · exact Or.inl (by rw [show j = offs by omega]; exact hno)
        rcases ih (offs + 1) (by omega) with ⟨h1, h2⟩ | ⟨i, h1, h2, h3, h4, h5⟩
        · exact Or.inl ⟨h1, fun i hi hl => (hj i hi).elim id fun h => h2 i h hl⟩
        · exact Or.inr ⟨i, h1, by omega, h3, h4, fun j hjo hji => (hj j hjo).elim id fun h => h5 j h hji⟩
    · exact Or.inl ⟨find_end _ _ _ (by omega), fun i _ _ => by omega⟩

/-- A packet without start code makes the filter read before its buffer (the message logged at
line 178 does not stop it). -/
theorem no_code_overread (psi : Psi) (b : Buf) (cap : Nat) (hf : psi.needsFraming = true) (hsz : b.size ≤ b.mem.length)
    (hno : ∀ i, b.offset ≤ i → i + 3 < b.size → ¬ CodeAt b.mem i) : nextPiece psi b cap = .ub := by
  unfold nextPiece
  rw [if_pos hf]
  rcases find_spec b.mem b.size (by omega) _ b.offset (Nat.le_refl _) with ⟨h, _⟩ | ⟨i, _, h2, h3, h4, _⟩
  · rw [h]; rfl
  · exact absurd h4 (hno i h2 (by omega))

example : nextPiece ⟨1, 90000, true, true, 0, 0⟩ ⟨[0, 0, 2, 9, 9], false, 5, 0⟩ 100 = .ub :=
  no_code_overread _ _ _ rfl (by decide) (by
    intro i _ hi
    have hi : i + 3 < 5 := hi
    rintro ⟨a, b, c, d, t, e, h⟩
    rcases i with _ | _ | i
    · simp at e; obtain ⟨rfl, rfl, rfl, rfl, _⟩ := e; simp at h
    · simp at e; obtain ⟨rfl, rfl, rfl, rfl, _⟩ := e; simp at h
    · omega)

/-- A unit larger than the frame's buffer runs over it: the size is never compared. -/
theorem large_unit_overruns (psi : Psi) (mem : Bytes) (own : Bool) (b : Bool) (u : Bytes) (cap : Nat)
    (hf : psi.needsFraming = true) (hu : IsUnit u) (hm : mem = code b ++ u) (hcap : cap < 4 + u.length) :
    nextPiece psi ⟨mem, own, mem.length, 0⟩ cap = .ub := by
  have hpos := unit_pos hu
  have hcl := code_length b
  have hsz : mem.length = (code b).length + u.length := by rw [hm, List.length_append]
  have h3 : 3 ≤ (code b).length := by rw [hcl]; split <;> omega
  unfold nextPiece
  rw [if_pos hf]
  show (findStartCode mem 0 mem.length).bind _ = _
  rw [find_code mem 0 _ (by omega) b u hm, if_pos (by omega), Outcome.bind_ok]
  show (findStartCode mem (0 + 4) ((mem.length : Int) - 4)).bind _ = _
  rw [find_stop mem 0 b u [] hu (by simp) (by rw [annexB, annexB, List.append_nil]; exact hm) (Nat.zero_le _), Outcome.bind_ok,
    if_pos (by simp [annexB])]
  show (copyUnit mem 0 mem.length cap).bind _ = _
  have h2 : mem[0 + 2]? = (code b ++ u)[2]? := by rw [hm]
  have : copyUnit mem 0 mem.length cap = .ub := by
    unfold copyUnit
    rw [if_pos (by refine ⟨?_, ?_, ?_⟩ <;> omega), h2]
    cases b with
    | true => rw [if_neg (by simp [code]), if_neg (by simp [code] at hsz; omega)]
    | false => rw [if_pos (by simp [code]), if_neg (by simp [code] at hsz; omega)]
  rw [this]; rfl

/-! ## Ownership: every history of calls and openings -/

/-- What happens to the filter. -/
inductive Op where
  | frame (e : Env)
  | open_ (hasFilter : Bool) (file : Opening)

/-- One step. -/
def step (s : St) : Op → Outcome St
  | .frame e => (call e s).map (·.1)
  | .open_ hasFilter file => .ok (setURI hasFilter file s).1

/-- A history. -/
def steps : St → List Op → Outcome St
  | s, [] => .ok s
  | s, o :: r => (step s o).bind fun s' => steps s' r

/-- Either nothing is held, or exactly the packet being taken apart and its buffer. -/
def Inv (s : St) : Prop :=
  (s.pkt = none ∧ s.buf = none ∧ s.live = 0 ∧ s.held = 0) ∨
  (∃ p b psi, s.opened = true ∧ s.pkt = some p ∧ s.buf = some b ∧ s.psi p.stream = some psi ∧ s.held = 1 ∧
    s.live = if b.own then 1 else 0)

theorem inv_release (s : St) (b : Buf) (hl : s.live = if b.own then 1 else 0) (hh : s.held = 1) : Inv (release s b) := by
  refine Or.inl ⟨rfl, rfl, ?_, ?_⟩
  · show (if b.own then s.live - 1 else s.live) = 0
    cases hb : b.own <;> simp [hb] at hl ⊢ <;> omega
  · show s.held - 1 = 0; omega

theorem inv_emit {e : Env} {s s' : St} {p : Pkt} {psi : Psi} {b : Buf} {o : Option Out}
    (h : emit e s p psi b = .ok (s', o)) (hop : s.opened = true) (hp : s.pkt = some p) (hpsi : s.psi p.stream = some psi)
    (hl : s.live = if b.own then 1 else 0) (hh : s.held = 1) : Inv s' := by
  unfold emit at h
  cases hd : e.dst p.stream with
  | none => rw [hd] at h; injection h with h; injection h with h _; rw [← h]; exact inv_release s b hl hh
  | some cap =>
    rw [hd] at h
    simp only [] at h
    cases hx : nextPiece psi b cap with
    | ub => rw [hx] at h; cases h
    | hang => rw [hx] at h; cases h
    | ok x =>
      rw [hx, Outcome.bind_ok] at h
      cases ht : times s.start psi p with
      | ub => rw [ht] at h; cases h
      | hang => rw [ht] at h; cases h
      | ok t =>
        rw [ht, Outcome.bind_ok] at h
        cases hx2 : x.2 with
        | none => rw [hx2] at h; injection h with h; injection h with h _; rw [← h]; exact inv_release s b hl hh
        | some k =>
          rw [hx2] at h; injection h with h; injection h with h _
          rw [← h]
          exact Or.inr ⟨p, { b with offset := k }, psi, hop, hp, rfl, hpsi, hh, hl⟩

theorem inv_call (e : Env) (s s' : St) (o : Option Out) (hi : Inv s) (h : call e s = .ok (s', o)) : Inv s' := by
  unfold call at h
  by_cases hop : s.opened = true
  · rw [if_pos hop] at h
    rcases hi with ⟨hp, hb, hl, hh⟩ | ⟨p, b, psi, _, hp, hb, hpsi, hh, hl⟩
    · rw [hp] at h
      simp only [] at h
      cases hr : e.read with
      | none => rw [hr] at h; injection h with h; injection h with h _; rw [← h]; exact Or.inl ⟨hp, hb, hl, hh⟩
      | some p =>
        rw [hr] at h
        simp only [] at h
        cases hq : s.psi p.stream with
        | none => rw [hq] at h; injection h with h; injection h with h _; rw [← h]; exact Or.inl ⟨hp, hb, hl, hh⟩
        | some q =>
          rw [hq] at h
          simp only [] at h
          unfold start at h
          by_cases hfr : ((remember q p).needsFraming && !(remember q p).isAnnexB) = true
          · simp only [hfr, if_true] at h
            cases hf : e.filter with
            | fail =>
              rw [hf] at h; injection h with h; injection h with h _; rw [← h]; exact Or.inl ⟨rfl, rfl, hl, hh⟩
            | inside k size =>
              rw [hf] at h
              simp only [] at h
              exact inv_emit h hop rfl (by simp) (by simpa using hl) (by simp [hh])
            | fresh bytes =>
              rw [hf] at h
              simp only [] at h
              exact inv_emit h hop rfl (by simp) (by simp [hl]) (by simp [hh])
          · simp only [hfr, Bool.false_eq_true, if_false] at h
            exact inv_emit h hop rfl (by simp) (by simpa using hl) (by simp [hh])
    · rw [hp] at h
      simp only [hpsi, hb] at h
      exact inv_emit h hop hp hpsi hl hh
  · rw [if_neg hop] at h
    injection h with h; injection h with h _; rw [← h]; exact hi

/-- Clearing gives everything back. -/
theorem reset_clean (s : St) (hi : Inv s) :
    (reset s).live = 0 ∧ (reset s).held = 0 ∧ (reset s).pkt = none ∧ (reset s).buf = none := by
  rcases hi with ⟨hp, hb, hl, hh⟩ | ⟨p, b, psi, _, hp, hb, _, hh, hl⟩
  · exact ⟨by simp [reset, hb, hl], by simp [reset, hp, hh], rfl, rfl⟩
  · refine ⟨?_, by simp [reset, hp, hh], rfl, rfl⟩
    simp only [reset, hb]
    cases hbo : b.own <;> simp [hbo] at hl ⊢ <;> omega

theorem inv_step (s s' : St) (o : Op) (hi : Inv s) (h : step s o = .ok s') : Inv s' := by
  cases o with
  | frame e =>
    simp only [step] at h
    cases hc : call e s with
    | ub => rw [hc] at h; cases h
    | hang => rw [hc] at h; cases h
    | ok x => rw [hc] at h; injection h with h; rw [← h]; exact inv_call e s x.1 x.2 hi hc
  | open_ hasFilter file =>
    simp only [step] at h
    injection h with h
    obtain ⟨h1, h2, h3, h4⟩ := reset_clean s hi
    rw [← h]
    cases file <;> exact Or.inl ⟨h3, h4, h1, h2⟩

/-- **C42, ownership**: after any history of calls and openings, with any answers of libav, at most
one converted buffer and one packet are held, namely those being taken apart; opening another input
(or destroying the filter) gives them back. -/
theorem nothing_leaks (ops : List Op) : ∀ (s s' : St), Inv s → steps s ops = .ok s' →
    s'.live ≤ 1 ∧ s'.held ≤ 1 ∧ (s'.pkt = none → s'.live = 0 ∧ s'.held = 0) ∧ (reset s').live = 0 ∧ (reset s').held = 0 := by
  induction ops with
  | nil =>
    intro s s' hi h
    injection h with h; subst h
    obtain ⟨h1, h2, _, _⟩ := reset_clean s hi
    rcases hi with ⟨hp, hb, hl, hh⟩ | ⟨p, b, psi, _, hp, hb, _, hh, hl⟩
    · exact ⟨by omega, by omega, fun _ => ⟨hl, hh⟩, h1, h2⟩
    · refine ⟨by rw [hl]; split <;> omega, by omega, fun h => ?_, h1, h2⟩
      rw [hp] at h; cases h
  | cons o r ih =>
    intro s s' hi h
    rw [steps] at h
    cases hs : step s o with
    | ub => rw [hs] at h; cases h
    | hang => rw [hs] at h; cases h
    | ok s1 => rw [hs, Outcome.bind_ok] at h; exact ih s1 s' (inv_step s s1 o hi hs) h

theorem init_inv : Inv init := Or.inl ⟨rfl, rfl, rfl, rfl⟩

/-- The input of the examples: one H.264 stream in AVCC form at 90 kHz. -/
def demoOpen : Opening := .streams 0 [⟨true, [1, 0x64, 0, 0x1f, 0xff, 0xe1], 1, 90000⟩]
/-- A packet of it. -/
def demoPkt : Pkt := ⟨[0, 0, 0, 2, 0x67, 1], 0, 90000, 87000⟩
/-- What libav converts it to: two units. -/
def demoAnnexB : Bytes := annexB [(true, [0x67, 1]), (false, [0x65, 1, 2, 3, 4])]

example : (steps init [.open_ true demoOpen, .frame ⟨some demoPkt, .fresh demoAnnexB, fun _ => some 100⟩]).map
    (fun s => (s.live, s.held)) = .ok (1, 1) := by decide +kernel
example : (steps init [.open_ true demoOpen, .frame ⟨some demoPkt, .fresh demoAnnexB, fun _ => some 100⟩, .open_ true .fails]).map
    (fun s => (s.live, s.held)) = .ok (0, 0) := by decide +kernel

/-- Undefined behaviour can only come from the framing or the times: the filter never follows a
null pointer of its own. -/
theorem ub_causes (e : Env) (s : St) (hi : Inv s) (h : call e s = .ub) :
    ∃ p psi b cap, e.dst p.stream = some cap ∧ (nextPiece psi b cap = .ub ∨ times s.start psi p = .ub) := by
  have hemit : ∀ (s1 : St) (p : Pkt) (psi : Psi) (b : Buf), s1.start = s.start → emit e s1 p psi b = .ub →
      ∃ p psi b cap, e.dst p.stream = some cap ∧ (nextPiece psi b cap = .ub ∨ times s.start psi p = .ub) := by
    intro s1 p psi b hst h
    unfold emit at h
    cases hd : e.dst p.stream with
    | none => rw [hd] at h; cases h
    | some cap =>
      rw [hd] at h
      simp only [] at h
      refine ⟨p, psi, b, cap, hd, ?_⟩
      cases hx : nextPiece psi b cap with
      | ub => exact Or.inl rfl
      | hang => rw [hx] at h; cases h
      | ok x =>
        rw [hx, Outcome.bind_ok, hst] at h
        cases ht : times s.start psi p with
        | ub => exact Or.inr rfl
        | hang => rw [ht] at h; cases h
        | ok t => rw [ht, Outcome.bind_ok] at h; cases hx2 : x.2 <;> rw [hx2] at h <;> cases h
  unfold call at h
  by_cases hop : s.opened = true
  · rw [if_pos hop] at h
    rcases hi with ⟨hp, hb, hl, hh⟩ | ⟨p, b, psi, _, hp, hb, hpsi, hh, hl⟩
    · rw [hp] at h
      simp only [] at h
      cases hr : e.read with
      | none => rw [hr] at h; cases h
      | some p =>
        rw [hr] at h
        simp only [] at h
        cases hq : s.psi p.stream with
        | none => rw [hq] at h; cases h
        | some q =>
          rw [hq] at h
          simp only [] at h
          unfold start at h
          by_cases hfr : ((remember q p).needsFraming && !(remember q p).isAnnexB) = true
          · simp only [hfr, if_true] at h
            cases hf : e.filter with
            | fail => rw [hf] at h; cases h
            | inside k size => rw [hf] at h; simp only [] at h; exact hemit _ p _ _ (by rfl) h
            | fresh bytes => rw [hf] at h; simp only [] at h; exact hemit _ p _ _ (by rfl) h
          · simp only [hfr, Bool.false_eq_true, if_false] at h
            exact hemit _ p _ _ (by rfl) h
    · rw [hp] at h
      simp only [hpsi, hb] at h
      exact hemit s p psi b rfl h
  · rw [if_neg hop] at h; cases h

/-! ## Streams -/

/-- A stream is taken apart exactly when it is H.264 with more than four bytes of extradata, in Annex
B form or with libav's converter available. -/
theorem framing_iff (hasFilter : Bool) (d : Desc) :
    (classify hasFilter d).needsFraming = true ↔
      d.h264 = true ∧ 4 < d.extradata.length ∧ (d.extradata.head? = some 0 ∨ hasFilter = true) := by
  unfold classify
  by_cases h : d.extradata.length > 4 <;> cases hh : d.h264 <;> simp [h, hh]

/-- Without libav's converter an AVCC stream is announced as framed Annex B but its packets are
handed on as they are. -/
theorem avcc_without_filter (d : Desc) (h : d.h264 = true) (hl : 4 < d.extradata.length) (ha : d.extradata.head? ≠ some 0) :
    announcedFramed d = true ∧ (classify false d).needsFraming = false := by
  refine ⟨by simp [announcedFramed, h, hl], ?_⟩
  cases hc : (classify false d).needsFraming with
  | false => rfl
  | true => obtain ⟨_, _, h3⟩ := (framing_iff false d).1 hc; simp at h3; exact absurd h3 ha

example : announcedFramed ⟨true, [1, 0x64, 0, 0x1f, 0xff], 1, 90000⟩ = true ∧
    (classify false ⟨true, [1, 0x64, 0, 0x1f, 0xff], 1, 90000⟩).needsFraming = false := by decide

/-! ## The recorded exceptions -/

/-- **A short last unit is merged** (an end-of-stream unit always is): one frame comes out where
two units were put in, and the second keeps its start code as it was. -/
theorem short_last_merged (b b' : Bool) (u v : Bytes) (hv : (code b' ++ v).length ≤ 7) :
    pieces [(b, u), (b', v)] = [[0, 0, 0, 1] ++ u ++ (code b' ++ v)] := by
  simp only [pieces]; rw [if_pos hv]

/-- Through the code: the last units of a stream, an IDR slice and the end-of-stream unit. -/
theorem end_of_stream_merged : (calls (fun _ => some 100) 3
      { init with opened := true, psi := fun _ => some ⟨1, 90000, true, true, 0, 0⟩ }
      [(⟨[0, 0, 0, 1, 0x65, 0x88, 0, 0, 0, 1, 0x0b], 0, 0, 0⟩, .fail)]).map (fun x => x.2.2.map (·.bytes)) =
    .ok [[0, 0, 0, 1, 0x65, 0x88, 0, 0, 0, 1, 0x0b]] := by decide +kernel

/-- Three zero bytes before the first start code: a frame holding one zero byte comes out first. -/
theorem leading_zeros_spurious : (calls (fun _ => some 100) 3
      { init with opened := true, psi := fun _ => some ⟨1, 90000, true, true, 0, 0⟩ }
      [(⟨[0, 0, 0, 0, 0, 0, 1, 0x65, 1, 2, 3, 4], 0, 0, 0⟩, .fail)]).map (fun x => x.2.2.map (·.bytes)) =
    .ok [[0], [0, 0, 0, 1, 0x65, 1, 2, 3, 4]] := by decide +kernel

/-- When the converter answers with a place inside the packet, as many bytes are lost at the end as
were passed over at the beginning. -/
theorem inside_cut : (calls (fun _ => some 100) 1
      { init with opened := true, psi := fun _ => some ⟨1, 90000, true, false, 0, 0⟩ }
      [(⟨[9, 9, 0, 0, 0, 1, 0x65, 1, 2, 3, 4], 0, 0, 0⟩, .inside 2 9)]).map (fun x => x.2.2.map (·.bytes)) =
    .ok [[0, 0, 0, 1, 0x65, 1, 2]] := by decide +kernel

/-! ## Times -/

/-- **C55**: time stamps keep their order. -/
theorem times_in_order (start : Int) (psi : Psi) (hn : 0 < psi.num) (hd : 0 < psi.den) (a b : Int) (h : a ≤ b) :
    at_ start psi a ≤ at_ start psi b := by
  unfold at_
  have h1 : a * psi.num * 1000000 ≤ b * psi.num * 1000000 :=
    Int.mul_le_mul_of_nonneg_right (Int.mul_le_mul_of_nonneg_right h (by omega)) (by omega)
  have := Int.tdiv_le_tdiv hd h1
  omega

/-- **C55**: the time set is the packet's, less than a microsecond off. -/
theorem time_exact (start : Int) (psi : Psi) (hd : 0 < psi.den) (ticks : Int) :
    (at_ start psi ticks - start) * psi.den - ticks * psi.num * 1000000 < psi.den ∧
    ticks * psi.num * 1000000 - (at_ start psi ticks - start) * psi.den < psi.den := by
  unfold at_
  have h := Int.tmod_add_mul_tdiv (ticks * psi.num * 1000000) psi.den
  have h2 := Int.tmod_lt_of_pos (ticks * psi.num * 1000000) hd
  have h3 : -psi.den < Int.tmod (ticks * psi.num * 1000000) psi.den := by
    have := Int.tmod_lt_of_pos (-(ticks * psi.num * 1000000)) hd
    rw [Int.neg_tmod] at this; omega
  rw [show Int.tdiv (ticks * psi.num * 1000000) psi.den + start - start = Int.tdiv (ticks * psi.num * 1000000) psi.den by omega,
    Int.mul_comm (Int.tdiv _ _)]
  omega

example : at_ 5 ⟨1, 90000, true, true, 0, 0⟩ 45000 = 500005 := by decide

/-- A packet without time stamp gets the last one of its stream in ticks, as if they were
microseconds. -/
theorem unstamped_time (start : Int) (psi : Psi) (p : Pkt) (h : p.pts = NOPTS) (h1 : i64 (psi.lastPTS + start)) (h2 : i64 (psi.lastDTS + start)) :
    times start psi p = .ok (psi.lastPTS + start, psi.lastDTS + start) := by
  unfold times add64; rw [if_pos h, if_pos h1, Outcome.bind_ok, if_pos h2]; rfl

/-- So time runs backwards: at 90 kHz, a packet at one second is followed by one at 0.09 s. -/
theorem unstamped_backwards : (calls (fun _ => some 100) 2
      { init with opened := true, psi := fun _ => some ⟨1, 90000, false, false, 0, 0⟩ }
      [(⟨[1], 0, 90000, 90000⟩, .fail), (⟨[2], 0, NOPTS, NOPTS⟩, .fail)]).map (fun x => x.2.2.map (·.pts)) =
    .ok [1000000, 90000] := by decide +kernel

/-- libav leaves the start time of a file at `AV_NOPTS_VALUE`: times are then counted from the
smallest integer, and a time before zero overflows. -/
theorem file_times (psi : Psi) (p : Pkt) (hs : Stamped NOPTS psi p) : times NOPTS psi p =
    .ok (NOPTS + Int.tdiv (p.pts * psi.num * 1000000) psi.den, NOPTS + Int.tdiv (p.dts * psi.num * 1000000) psi.den) := by
  rw [times_stamped hs ⟨rfl, rfl, rfl, rfl⟩]; unfold at_; rw [Int.add_comm, Int.add_comm (Int.tdiv (p.dts * _ * _) _)]

theorem file_negative_overflows : times NOPTS ⟨1, 1000, true, true, 0, 0⟩ ⟨[], 0, 5, -1⟩ = .ub := by decide

/-- A presentation time without decoding time is undefined behaviour: the missing value is scaled. -/
theorem missing_dts_overflows : times 0 ⟨1, 90000, true, true, 0, 0⟩ ⟨[], 0, 90000, NOPTS⟩ = .ub := by decide

/-! ## A case of the main theorem -/

/-- Two streams, one in AVCC form and connected, one unknown packet, one packet of audio. -/
example : ∃ s', calls (fun i => if i < 2 then some 100 else none) 4
    { init with opened := true, start := 7, psi := fun i => if i = 0 then some ⟨1, 90000, true, false, 0, 0⟩ else if i = 1 then some ⟨1, 1000, false, false, 0, 0⟩ else none }
    [(demoPkt, .fresh demoAnnexB), (⟨[1, 2], 5, 0, 0⟩, .fail), (⟨[9, 9, 9], 1, 20, 20⟩, .fail)] =
    .ok (s', [], [⟨0, [0, 0, 0, 1, 0x67, 1], 1000007, 966673⟩, ⟨0, [0, 0, 0, 1, 0x65, 1, 2, 3, 4], 1000007, 966673⟩, ⟨1, [9, 9, 9], 20007, 20007⟩]) := by
  have hu1 : IsUnit [0x67, 1] := ⟨by decide, fun p q e => by
    have := congrArg List.length e; simp at this; omega, by decide⟩
  have hu2 : IsUnit [0x65, 1, 2, 3, 4] := ⟨by decide, fun p q e => by
    have h0 : (0 : UInt8) ∈ p ++ [0, 0, 1] ++ q := by simp
    rw [← e] at h0; exact absurd h0 (by decide), by decide⟩
  obtain ⟨s', _, h⟩ := demux_all (fun i => if i < 2 then some 100 else none) 7
    (fun i => if i = 0 then some ⟨1, 90000, true, false, 0, 0⟩ else if i = 1 then some ⟨1, 1000, false, false, 0, 0⟩ else none)
    [(demoPkt, .fresh demoAnnexB), (⟨[1, 2], 5, 0, 0⟩, .fail), (⟨[9, 9, 9], 1, 20, 20⟩, .fail)] _ _
    (.packet (p := demoPkt) (f := .fresh demoAnnexB) (psi := ⟨1, 90000, true, false, 0, 0⟩) rfl ⟨by decide, by decide, by decide, by decide, by decide, by decide⟩
      (.converted 100 [(true, [0x67, 1]), (false, [0x65, 1, 2, 3, 4])] rfl rfl rfl (by decide) (by
        intro x hx; simp at hx; rcases hx with rfl | rfl
        · exact hu1
        · exact hu2) rfl (by decide))
      (.unknown (p := ⟨[1, 2], 5, 0, 0⟩) (f := .fail) (by decide)
        (.packet (p := ⟨[9, 9, 9], 1, 20, 20⟩) (f := .fail) (psi := ⟨1, 1000, false, false, 0, 0⟩) rfl ⟨by decide, by decide, by decide, by decide, by decide, by decide⟩
          (.whole 100 rfl rfl (by decide)) .nil)))
    { init with opened := true, start := 7, psi := fun i => if i = 0 then some ⟨1, 90000, true, false, 0, 0⟩ else if i = 1 then some ⟨1, 1000, false, false, 0, 0⟩ else none }
    ⟨rfl, rfl, rfl, rfl, rfl, rfl, by
      intro i
      by_cases h0 : i = 0
      · subst h0; exact ⟨rfl, rfl, rfl, rfl⟩
      · by_cases h1 : i = 1
        · subst h1; exact ⟨rfl, rfl, rfl, rfl⟩
        · simp [h0, h1]⟩
  exact ⟨s', h⟩

/-- **C55.** Opening succeeds exactly when the streams of the file are found; what was open before is closed in any case. -/
theorem open_answer (hasFilter : Bool) (file : Opening) (s : St) :
    ((setURI hasFilter file s).2 = true ↔ ∃ t ds, file = .streams t ds) ∧
    ((setURI hasFilter file s).2 = false → (setURI hasFilter file s).1.psi = (reset s).psi) := by
  cases file <;> simp [setURI]

/-- **C42.** A stream is announced as framed Annex B exactly if it is H.264 with more than four bytes of extra data. -/
theorem announced_iff (d : Desc) : announcedFramed d = true ↔ d.h264 = true ∧ 4 < d.extradata.length := by
  unfold announcedFramed
  cases d.h264 <;> simp

/-- The value that stands for no time is the smallest of 64 bits. -/
theorem nopts_smallest : i64 NOPTS ∧ ∀ x, i64 x → NOPTS ≤ x := ⟨by decide, fun _ h => h.1⟩

end Lms.Demux
