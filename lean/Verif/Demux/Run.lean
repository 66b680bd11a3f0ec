import Verif.Demux.Split

/-!
# C42, C55: whole inputs through the demultiplexer
-/

namespace Lms.Demux

/-- The worker thread calling `doProcessFrame` again and again (HeadFilter::processFrame,
Filter.cpp) on an input given as the packets `av_read_frame` will give, each with the answer the
bit stream filter would give for it.  A packet is read when none is pending. -/
def calls (dst : Nat → Option Nat) : Nat → St → List (Pkt × FilterRes) → Outcome (St × List (Pkt × FilterRes) × List Out)
  | 0, s, inp => .ok (s, inp, [])
  | n + 1, s, inp =>
    (call ⟨inp.head?.map (·.1), (inp.head?.map (·.2)).getD .fail, dst⟩ s).bind fun x =>
    (calls dst n x.1 (if s.opened && s.pkt.isNone then inp.tail else inp)).map fun y => (y.1, y.2.1, x.2.toList ++ y.2.2)

/-! ## Specification -/

/-- What a packet holds for the reader of its stream: the frames' bytes, in order. -/
inductive Holds (dst : Nat → Option Nat) (psi : Psi) (p : Pkt) (f : FilterRes) : List Bytes → Prop where
  /-- Nobody reads the stream. -/
  | unread : dst p.stream = none → Holds dst psi p f []
  /-- Not H.264 with extradata: the packet is one frame. -/
  | whole (cap : Nat) : dst p.stream = some cap → psi.needsFraming = false → p.data.length ≤ cap → Holds dst psi p f [p.data]
  /-- Annex B: its pieces. -/
  | framed (cap : Nat) (l : List (Bool × Bytes)) : dst p.stream = some cap → psi.needsFraming = true → psi.isAnnexB = true →
      l ≠ [] → (∀ x ∈ l, IsUnit x.2) → p.data = annexB l → (annexB l).length + 1 ≤ cap → Holds dst psi p f (pieces l)
  /-- AVCC: the pieces of what libav converts it to. -/
  | converted (cap : Nat) (l : List (Bool × Bytes)) : dst p.stream = some cap → psi.needsFraming = true → psi.isAnnexB = false →
      l ≠ [] → (∀ x ∈ l, IsUnit x.2) → f = .fresh (annexB l) → (annexB l).length + 1 ≤ cap → Holds dst psi p f (pieces l)
  /-- AVCC that libav cannot convert. -/
  | broken (cap : Nat) : dst p.stream = some cap → psi.needsFraming = true → psi.isAnnexB = false → f = .fail → Holds dst psi p f []

/-- The time of a packet in microseconds: ticks times the time base, truncated, on the clock of
the input. -/
def at_ (start : Int) (psi : Psi) (ticks : Int) : Int := Int.tdiv (ticks * psi.num * 1000000) psi.den + start

/-- A packet with a time stamp whose times can be represented. -/
structure Stamped (start : Int) (psi : Psi) (p : Pkt) : Prop where
  has : p.pts ≠ NOPTS
  den : psi.den ≠ 0
  pts : i64 (Int.tdiv (p.pts * psi.num * 1000000) psi.den)
  pts' : i64 (at_ start psi p.pts)
  dts : i64 (Int.tdiv (p.dts * psi.num * 1000000) psi.den)
  dts' : i64 (at_ start psi p.dts)

/-- The frames a packet becomes. -/
def framesOf (start : Int) (psi : Psi) (p : Pkt) (bs : List Bytes) : List Out :=
  bs.map fun x => ⟨p.stream, x, at_ start psi p.pts, at_ start psi p.dts⟩

/-- The frames an input becomes, given the streams found when it was opened; and the number of
calls it takes (a packet without frames takes one). -/
inductive Expect (dst : Nat → Option Nat) (start : Int) (cfg : Nat → Option Psi) : List (Pkt × FilterRes) → List Out → Nat → Prop where
  | nil : Expect dst start cfg [] [] 0
  | unknown {p f rest out n} : cfg p.stream = none → Expect dst start cfg rest out n →
      Expect dst start cfg ((p, f) :: rest) out (1 + n)
  | packet {p f rest out n psi bs} : cfg p.stream = some psi → Stamped start psi p → Holds dst psi p f bs →
      Expect dst start cfg rest out n →
      Expect dst start cfg ((p, f) :: rest) (framesOf start psi p bs ++ out) (max 1 bs.length + n)

/-! ## Proofs -/

/-- Two stream entries differing only in the last time stamps. -/
def Same (a b : Psi) : Prop := a.num = b.num ∧ a.den = b.den ∧ a.needsFraming = b.needsFraming ∧ a.isAnnexB = b.isAnnexB

theorem same_remember (psi : Psi) (p : Pkt) : Same (remember psi p) psi := by
  unfold remember; split <;> exact ⟨rfl, rfl, rfl, rfl⟩

theorem times_stamped {start : Int} {psi psi' : Psi} {p : Pkt} (h : Stamped start psi p) (hs : Same psi' psi) :
    times start psi' p = .ok (at_ start psi p.pts, at_ start psi p.dts) := by
  obtain ⟨h1, h2, _, _⟩ := hs
  unfold times micros add64
  rw [h1, h2, if_neg h.has, if_neg h.den, if_pos h.pts, if_pos h.dts]
  have hp : i64 (Int.tdiv (p.pts * psi.num * 1000000) psi.den + start) := h.pts'
  have hd : i64 (Int.tdiv (p.dts * psi.num * 1000000) psi.den + start) := h.dts'
  have hden := h.den
  simp only [Outcome.bind_ok, hp, hd, hden, if_true, if_false]
  rfl

theorem pieces_length_pos {l : List (Bool × Bytes)} (hl : l ≠ []) (hu : ∀ x ∈ l, IsUnit x.2) : 1 ≤ (pieces l).length := by
  rw [pieces_first hl hu, List.length_cons]; omega

theorem after_sub {l : List (Bool × Bytes)} {x : Bool × Bytes} (h : x ∈ after l) : x ∈ l := by
  cases l with
  | nil => exact h
  | cons y r =>
    rw [after] at h
    by_cases h7 : (annexB r).length ≤ 7
    · rw [if_pos h7] at h; simp at h
    · rw [if_neg h7] at h; simp [h]

theorem after_length {l : List (Bool × Bytes)} (h : l ≠ []) : (after l).length < l.length := by
  cases l with
  | nil => exact absurd rfl h
  | cons y r =>
    rw [after]
    by_cases h7 : (annexB r).length ≤ 7
    · rw [if_pos h7]; simp
    · rw [if_neg h7]; simp

theorem annexB_after {l : List (Bool × Bytes)} (h : after l ≠ []) : ∃ w, annexB l = w ++ annexB (after l) := by
  cases l with
  | nil => exact absurd rfl h
  | cons y r =>
    rw [after] at h ⊢
    by_cases h7 : (annexB r).length ≤ 7
    · rw [if_pos h7] at h; exact absurd rfl h
    · rw [if_neg h7]; exact ⟨code y.1 ++ y.2, rfl⟩

/-- From a position in a framed buffer, the rest of the pieces come out, one a call. -/
theorem emit_all (dst : Nat → Option Nat) (p : Pkt) (psi : Psi) (mem : Bytes) (own : Bool) (cap : Nat) (t : Int × Int)
    (hdst : dst p.stream = some cap) (hf : psi.needsFraming = true) (inp : List (Pkt × FilterRes)) :
    ∀ (k : Nat) (l : List (Bool × Bytes)), l.length ≤ k → l ≠ [] → (∀ x ∈ l, IsUnit x.2) → ∀ (e : Env) (s : St) (offs : Nat),
    e.dst = dst → s.opened = true → s.pkt = some p → s.psi p.stream = some psi → s.buf = some ⟨mem, own, mem.length, offs⟩ →
    times s.start psi p = .ok t → mem.drop offs = annexB l → offs ≤ mem.length → (annexB l).length + 1 ≤ cap →
    ((emit e s p psi ⟨mem, own, mem.length, offs⟩).bind fun x =>
      (calls dst ((pieces l).length - 1) x.1 inp).map fun y => (y.1, y.2.1, x.2.toList ++ y.2.2)) =
      .ok (release s ⟨mem, own, mem.length, offs⟩, inp, (pieces l).map fun b => ⟨p.stream, b, t.1, t.2⟩) := by
  intro k
  induction k with
  | zero => intro l hk hl; rcases l with _ | ⟨_, _⟩ <;> simp at hk hl
  | succ k ih =>
    intro l hk hl hu e s offs he hop hpk hpsi hbuf ht hd ho hcap
    have hemit : emit e s p psi ⟨mem, own, mem.length, offs⟩ =
        if after l = [] then .ok (release s ⟨mem, own, mem.length, offs⟩, some ⟨p.stream, first l, t.1, t.2⟩)
        else .ok ({ s with buf := some ⟨mem, own, mem.length, mem.length - (annexB (after l)).length⟩ }, some ⟨p.stream, first l, t.1, t.2⟩) := by
      unfold emit
      rw [he, hdst]
      simp only []
      rw [nextPiece_eq psi mem own offs cap l hl hf hu hd ho hcap, Outcome.bind_ok, ht, Outcome.bind_ok]
      by_cases ha : after l = []
      · rw [if_pos ha]; simp only [ha, if_true]
      · rw [if_neg ha]; simp only [ha, if_false]
    rw [hemit, pieces_first hl hu]
    by_cases ha : after l = []
    · rw [if_pos ha, Outcome.bind_ok, ha]; rfl
    · rw [if_neg ha, Outcome.bind_ok]
      have hua : ∀ x ∈ after l, IsUnit x.2 := fun x hx => hu x (after_sub hx)
      obtain ⟨w, hw⟩ := annexB_after ha
      have hlen : mem.length = offs + w.length + (annexB (after l)).length := by
        have := congrArg List.length hd
        rw [List.length_drop, hw, List.length_append] at this; omega
      have hpp := pieces_length_pos ha hua
      obtain ⟨m, hm⟩ : ∃ m, (pieces (after l)).length = m + 1 := ⟨_, (Nat.sub_add_cancel hpp).symm⟩
      rw [List.length_cons, hm, show m + 1 + 1 - 1 = m + 1 by omega, calls]
      have hk' : (after l).length ≤ k := by have := after_length hl; omega
      have := ih (after l) hk' ha hua ⟨inp.head?.map (·.1), (inp.head?.map (·.2)).getD .fail, dst⟩
        { s with buf := some ⟨mem, own, mem.length, mem.length - (annexB (after l)).length⟩ }
        (mem.length - (annexB (after l)).length) rfl hop hpk hpsi rfl ht
        (by rw [show mem.length - (annexB (after l)).length = offs + w.length by omega, ← List.drop_drop, hd, hw, List.drop_left])
        (by omega) (by rw [hw, List.length_append] at hcap; omega)
      rw [hm, show m + 1 - 1 = m by omega] at this
      obtain ⟨s2, hs2⟩ : ∃ s2, ({ s with buf := some ⟨mem, own, mem.length, mem.length - (annexB (after l)).length⟩ } : St) = s2 := ⟨_, rfl⟩
      have hop2 : s2.opened = true := by rw [← hs2]; exact hop
      have hpk2 : s2.pkt = some p := by rw [← hs2]; exact hpk
      have hpsi2 : s2.psi p.stream = some psi := by rw [← hs2]; exact hpsi
      have hbuf2 : s2.buf = some ⟨mem, own, mem.length, mem.length - (annexB (after l)).length⟩ := by rw [← hs2]
      have hrel : release s ⟨mem, own, mem.length, offs⟩ = release s2 ⟨mem, own, mem.length, mem.length - (annexB (after l)).length⟩ := by
        rw [← hs2]; rfl
      simp only [hs2] at this ⊢
      have hcall : call ⟨inp.head?.map (·.1), (inp.head?.map (·.2)).getD .fail, dst⟩ s2 =
          emit ⟨inp.head?.map (·.1), (inp.head?.map (·.2)).getD .fail, dst⟩ s2 p psi
            ⟨mem, own, mem.length, mem.length - (annexB (after l)).length⟩ := by
        unfold call; simp only [hop2, hpk2, hpsi2, hbuf2, if_true]
      have hcond : (s.opened && s.pkt.isNone) = false := by rw [hpk]; simp
      rw [hcall, hcond]
      simp only [Bool.false_eq_true, if_false]
      rw [this, hrel]
      rfl

/-- Between packets. -/
structure Idle (start : Int) (cfg : Nat → Option Psi) (s : St) : Prop where
  opened : s.opened = true
  start : s.start = start
  pkt : s.pkt = none
  buf : s.buf = none
  live : s.live = 0
  held : s.held = 0
  psi : ∀ i, match cfg i, s.psi i with
    | none, none => True
    | some a, some b => Same b a
    | _, _ => False

theorem Idle.some {start : Int} {cfg : Nat → Option Psi} {s : St} (h : Idle start cfg s) {i : Nat} {psi : Psi}
    (hc : cfg i = some psi) : ∃ q, s.psi i = some q ∧ Same q psi := by
  have := h.psi i
  rw [hc] at this
  cases hq : s.psi i with
  | none => rw [hq] at this; exact this.elim
  | some q => rw [hq] at this; exact ⟨q, rfl, this⟩

theorem Idle.none {start : Int} {cfg : Nat → Option Psi} {s : St} (h : Idle start cfg s) {i : Nat}
    (hc : cfg i = none) : s.psi i = none := by
  have := h.psi i
  rw [hc] at this
  cases hq : s.psi i with
  | none => rfl
  | some q => rw [hq] at this; exact this.elim

theorem Same.trans {a b c : Psi} (h : Same a b) (h' : Same b c) : Same a c :=
  ⟨h.1.trans h'.1, h.2.1.trans h'.2.1, h.2.2.1.trans h'.2.2.1, h.2.2.2.trans h'.2.2.2⟩

theorem Idle.upd {start : Int} {cfg : Nat → Option Psi} {s : St} (h : Idle start cfg s) {i : Nat} {psi q : Psi}
    (hc : cfg i = Option.some psi) (hq : Same q psi) : Idle start cfg { s with psi := fun j => if j = i then Option.some q else s.psi j } := by
  refine ⟨h.opened, h.start, h.pkt, h.buf, h.live, h.held, ?_⟩
  intro j
  by_cases hj : j = i
  · subst hj; rw [hc]; simp only [if_true]; exact hq
  · simp only [hj, if_false]; exact h.psi j

theorem calls_append (dst : Nat → Option Nat) (b : Nat) : ∀ (a : Nat) (s : St) (inp : List (Pkt × FilterRes)),
    calls dst (a + b) s inp = (calls dst a s inp).bind fun x => (calls dst b x.1 x.2.1).map fun y => (y.1, y.2.1, x.2.2 ++ y.2.2)
  | 0, s, inp => by
    rw [Nat.zero_add, calls, Outcome.bind_ok]
    cases calls dst b s inp <;> simp [Outcome.map]
  | a + 1, s, inp => by
    rw [show a + 1 + b = (a + b) + 1 by omega, calls, calls]
    cases hc : call ⟨inp.head?.map (·.1), (inp.head?.map (·.2)).getD .fail, dst⟩ s with
    | ub => rfl
    | hang => rfl
    | ok x =>
      rw [Outcome.bind_ok, Outcome.bind_ok, calls_append dst b a]
      cases calls dst a x.1 (if s.opened && s.pkt.isNone then inp.tail else inp) with
      | ub => rfl
      | hang => rfl
      | ok y =>
        rw [Outcome.bind_ok, Outcome.map_ok, Outcome.bind_ok]
        cases calls dst b y.1 y.2.1 <;> simp [Outcome.map]

/-- A packet goes through. -/
theorem packet_through (dst : Nat → Option Nat) (start : Int) (cfg : Nat → Option Psi) (s : St) (p : Pkt) (f : FilterRes)
    (rest : List (Pkt × FilterRes)) (psi : Psi) (bs : List Bytes) (h : Idle start cfg s) (hc : cfg p.stream = some psi)
    (hst : Stamped start psi p) (hh : Holds dst psi p f bs) :
    ∃ s', Idle start cfg s' ∧ calls dst (max 1 bs.length) s ((p, f) :: rest) = .ok (s', rest, framesOf start psi p bs) := by
  obtain ⟨q, hq, hsame⟩ := h.some hc
  have hsr : Same (remember q p) psi := (same_remember q p).trans hsame
  have hid := h.upd hc hsr
  have ht := times_stamped hst hsr
  have hone : ∀ n, calls dst (n + 1) s ((p, f) :: rest) =
      (Lms.Demux.start ⟨some p, f, dst⟩ s p q).bind fun x => (calls dst n x.1 rest).map fun y => (y.1, y.2.1, x.2.toList ++ y.2.2) := by
    intro n
    rw [calls]
    simp only [List.head?_cons, Option.map_some, Option.getD_some, List.tail_cons, h.opened, h.pkt, Option.isNone_none, Bool.and_self, if_true]
    have : call ⟨some p, f, dst⟩ s = Lms.Demux.start ⟨some p, f, dst⟩ s p q := by
      unfold call; simp only [h.opened, h.pkt, hq, if_true]
    rw [this]
  have hn : ∀ b ∈ ([] : List Bytes), False := by simp
  -- the states after a release
  have hrel : ∀ (b : Buf), Idle start cfg (release { s with psi := fun i => if i = p.stream then some (remember q p) else s.psi i, pkt := some p, buf := some b, held := s.held + 1, live := if b.own then s.live + 1 else s.live } b) := by
    intro b
    refine ⟨hid.opened, hid.start, rfl, rfl, ?_, ?_, hid.psi⟩
    · have := h.live; unfold release; cases b.own <;> simp [this]
    · have := h.held; unfold release; simp [this]
  cases hh with
  | unread hd =>
    rw [show max 1 ([] : List Bytes).length = 0 + 1 from rfl, hone]
    unfold Lms.Demux.start
    by_cases hfr : (remember q p).needsFraming && !(remember q p).isAnnexB
    · simp only [hfr, if_true]
      cases f with
      | fail =>
        exact ⟨{ s with psi := fun i => if i = p.stream then some (remember q p) else s.psi i, pkt := none, buf := none },
          ⟨hid.opened, hid.start, rfl, rfl, hid.live, hid.held, hid.psi⟩, rfl⟩
      | inside k size =>
        simp only [emit, hd]
        exact ⟨_, hrel ⟨p.data, false, size, k⟩, rfl⟩
      | fresh bytes =>
        simp only [emit, hd]
        exact ⟨_, hrel ⟨bytes, true, bytes.length, 0⟩, rfl⟩
    · simp only [hfr, Bool.false_eq_true, if_false, emit, hd]
      exact ⟨_, hrel ⟨p.data, false, p.data.length, 0⟩, rfl⟩
  | whole cap hd hnf hcap =>
    rw [show max 1 [p.data].length = 0 + 1 from rfl, hone]
    have hnf' : (remember q p).needsFraming = false := by rw [hsr.2.2.1]; exact hnf
    refine ⟨_, hrel ⟨p.data, false, p.data.length, 0⟩, ?_⟩
    unfold Lms.Demux.start
    simp only [hnf', Bool.false_and, Bool.false_eq_true, if_false, emit, hd, nextPiece]
    rw [if_pos ⟨Nat.le_refl _, hcap⟩, Outcome.bind_ok, h.start, ht, Outcome.bind_ok]
    simp only [Outcome.bind_ok, List.take_length]
    rfl
  | framed cap l hd hnf hab hl hu hdata hcap =>
    have hnf' : (remember q p).needsFraming = true := by rw [hsr.2.2.1]; exact hnf
    have hab' : (remember q p).isAnnexB = true := by rw [hsr.2.2.2]; exact hab
    have hpp := pieces_length_pos hl hu
    refine ⟨_, hrel ⟨p.data, false, p.data.length, 0⟩, ?_⟩
    rw [show max 1 (pieces l).length = ((pieces l).length - 1) + 1 by omega, hone]
    unfold Lms.Demux.start
    simp only [hnf', hab', Bool.not_true, Bool.and_false, Bool.false_eq_true, if_false]
    exact emit_all dst p (remember q p) p.data false cap (at_ start psi p.pts, at_ start psi p.dts) hd hnf' rest l.length l (Nat.le_refl _) hl hu _ _ 0 rfl h.opened rfl
      (by simp) rfl (by rw [h.start]; exact ht) hdata (Nat.zero_le _) hcap
  | converted cap l hd hnf hab hl hu hf hcap =>
    subst hf
    have hnf' : (remember q p).needsFraming = true := by rw [hsr.2.2.1]; exact hnf
    have hab' : (remember q p).isAnnexB = false := by rw [hsr.2.2.2]; exact hab
    have hpp := pieces_length_pos hl hu
    refine ⟨_, hrel ⟨annexB l, true, (annexB l).length, 0⟩, ?_⟩
    rw [show max 1 (pieces l).length = ((pieces l).length - 1) + 1 by omega, hone]
    unfold Lms.Demux.start
    simp only [hnf', hab', Bool.not_false, Bool.and_true, if_true]
    exact emit_all dst p (remember q p) (annexB l) true cap (at_ start psi p.pts, at_ start psi p.dts) hd hnf' rest l.length l (Nat.le_refl _) hl hu _ _ 0 rfl h.opened rfl
      (by simp) rfl (by rw [h.start]; exact ht) rfl (Nat.zero_le _) hcap
  | broken cap hd hnf hab hf =>
    subst hf
    have hnf' : (remember q p).needsFraming = true := by rw [hsr.2.2.1]; exact hnf
    have hab' : (remember q p).isAnnexB = false := by rw [hsr.2.2.2]; exact hab
    rw [show max 1 ([] : List Bytes).length = 0 + 1 from rfl, hone]
    unfold Lms.Demux.start
    simp only [hnf', hab', Bool.not_false, Bool.and_true, if_true]
    exact ⟨{ s with psi := fun i => if i = p.stream then some (remember q p) else s.psi i, pkt := none, buf := none },
      ⟨hid.opened, hid.start, rfl, rfl, hid.live, hid.held, hid.psi⟩, rfl⟩

/-- **C42**: an input of any number of packets over any number of streams becomes, stream by
stream and in order, its frames: Annex B packets (or AVCC packets as libav converts them) piece by
piece, one a call, other packets whole; every frame has its packet's times; buffers and packets
are all given back. -/
theorem demux_all (dst : Nat → Option Nat) (start : Int) (cfg : Nat → Option Psi) :
    ∀ (inp : List (Pkt × FilterRes)) (out : List Out) (n : Nat), Expect dst start cfg inp out n → ∀ s, Idle start cfg s →
    ∃ s', Idle start cfg s' ∧ calls dst n s inp = .ok (s', [], out) := by
  intro inp out n h
  induction h with
  | nil => intro s hs; exact ⟨s, hs, rfl⟩
  | @unknown p f rest out n hc _ ih =>
    intro s hs
    obtain ⟨s', hs', hr⟩ := ih s hs
    refine ⟨s', hs', ?_⟩
    rw [calls_append]
    have h1 : calls dst 1 s ((p, f) :: rest) = .ok (s, rest, []) := by
      rw [calls]
      have : call ⟨some p, f, dst⟩ s = .ok (s, none) := by
        unfold call; simp only [hs.opened, hs.pkt, hs.none hc, if_true]
      simp only [List.head?_cons, Option.map_some, Option.getD_some, List.tail_cons, hs.opened, hs.pkt, Option.isNone_none, Bool.and_self, if_true]
      rw [this]; rfl
    rw [h1, Outcome.bind_ok, hr]; rfl
  | @packet p f rest out n psi bs hc hst hh _ ih =>
    intro s hs
    obtain ⟨s1, hs1, h1⟩ := packet_through dst start cfg s p f rest psi bs hs hc hst hh
    obtain ⟨s', hs', hr⟩ := ih s1 hs1
    refine ⟨s', hs', ?_⟩
    rw [calls_append, h1, Outcome.bind_ok, hr]; rfl

/-- At any moment before, a prefix of it has come out, without undefined behaviour. -/
theorem demux_prefix (dst : Nat → Option Nat) (start : Int) (cfg : Nat → Option Psi) (inp : List (Pkt × FilterRes))
    (out : List Out) (n m : Nat) (h : Expect dst start cfg inp out n) (s : St) (hs : Idle start cfg s) (hm : m ≤ n) :
    ∃ x, calls dst m s inp = .ok x ∧ x.2.2 <+: out := by
  obtain ⟨s', _, hr⟩ := demux_all dst start cfg inp out n h s hs
  rw [show n = m + (n - m) by omega, calls_append] at hr
  cases hc : calls dst m s inp with
  | ub => rw [hc] at hr; cases hr
  | hang => rw [hc] at hr; cases hr
  | ok x =>
    refine ⟨x, rfl, ?_⟩
    rw [hc, Outcome.bind_ok] at hr
    cases hy : calls dst (n - m) x.1 x.2.1 with
    | ub => rw [hy] at hr; cases hr
    | hang => rw [hy] at hr; cases hr
    | ok y =>
      rw [hy, Outcome.map_ok] at hr
      injection hr with hr
      injection hr with _ hr
      injection hr with _ hr
      exact ⟨y.2.2, hr⟩

/-- A newly opened input starts so. -/
theorem opened_idle (hasFilter : Bool) (t : Int) (ds : List Desc) (s : St) (h : s.live = 0 ∧ s.held = 0 ∧ s.pkt = none ∧ s.buf = none) :
    Idle t (fun i => (ds[i]?).map (classify hasFilter)) (setURI hasFilter (.streams t ds) s).1 := by
  obtain ⟨h1, h2, h3, h4⟩ := h
  refine ⟨rfl, rfl, rfl, rfl, ?_, ?_, ?_⟩
  · simp [setURI, reset, h4, h1]
  · simp [setURI, reset, h3, h2]
  · intro i
    show match (ds[i]?).map (classify hasFilter), (ds[i]?).map (classify hasFilter) with | none, none => True | some a, some b => Same b a | _, _ => False
    cases (ds[i]?).map (classify hasFilter) with
    | none => trivial
    | some a => exact ⟨rfl, rfl, rfl, rfl⟩

end Lms.Demux
