import Verif.UltraGrid.Model
import Verif.Common.Bits

/-!
# C37, C38, C53: payload formats of the RTP sinks
-/

namespace Lms.UltraGrid

/-! ## Specification -/

/-- A 32 bit word of a packet. -/
def word (b : Bytes) (k : Nat) : Nat := rdBE ((b.drop (4 * k)).take 4)

/-- The fields of the UltraGrid video header. -/
structure Header where
  tile : Nat
  buf : Nat
  offset : Nat
  total : Nat
  width : Nat
  height : Nat
  fourcc : Nat
  interlacing : Nat
  fps : Nat
  fpsd : Nat
  fd : Nat
  deriving DecidableEq

def readHeader (b : Bytes) : Header :=
  ⟨word b 0 / 2 ^ 22, word b 0 % 2 ^ 22, word b 1, word b 2, word b 3 / 2 ^ 16, word b 3 % 2 ^ 16, word b 4,
    word b 5 / 2 ^ 29, word b 5 / 2 ^ 19 % 2 ^ 10, word b 5 / 2 ^ 15 % 2 ^ 4, word b 5 / 2 ^ 14 % 2⟩

/-- What a receiver sees of a packet: where it belongs, and its bytes. -/
def piece (b : Bytes) : Nat × Bytes := ((readHeader b).offset, b.drop 24)

/-- The pieces lie one behind the other, none empty, and make up the frame. -/
def Tiles : Nat → List (Nat × Bytes) → Bytes → Prop
  | _, [], frame => frame = []
  | off, (o, p) :: l, frame => o = off ∧ p ≠ [] ∧ ∃ rest, frame = p ++ rest ∧ Tiles (off + p.length) l rest

/-- The byte a receiver has at a place after getting some pieces. -/
def byteAt (l : List (Nat × Bytes)) (i : Nat) : Option UInt8 :=
  (l.find? fun q => decide (q.1 ≤ i ∧ i < q.1 + q.2.length)).bind fun q => q.2[i - q.1]?

/-! ## Reassembly -/

theorem tiles_bytes (l : List (Nat × Bytes)) : ∀ (off : Nat) (frame : Bytes), Tiles off l frame →
    ∀ q ∈ l, ∀ i, q.1 ≤ i → i < q.1 + q.2.length → off ≤ i ∧ q.2[i - q.1]? = frame[i - off]? := by
  induction l with
  | nil => intro off frame _ q hq; exact absurd hq (by simp)
  | cons x l ih =>
    intro off frame h q hq i h1 h2
    obtain ⟨o, p⟩ := x
    obtain ⟨rfl, hp, rest, rfl, ht⟩ := h
    rcases List.mem_cons.1 hq with rfl | hq
    · refine ⟨h1, ?_⟩
      simp only at h1 h2 ⊢
      rw [List.getElem?_append_left (by omega)]
    · obtain ⟨a, b⟩ := ih _ _ ht q hq i h1 h2
      refine ⟨by omega, ?_⟩
      rw [b, List.getElem?_append_right (by omega)]
      congr 1; omega

theorem tiles_cover (l : List (Nat × Bytes)) : ∀ (off : Nat) (frame : Bytes), Tiles off l frame →
    ∀ i, off ≤ i → i < off + frame.length → ∃ q ∈ l, q.1 ≤ i ∧ i < q.1 + q.2.length := by
  induction l with
  | nil => intro off frame h i h1 h2; rw [Tiles] at h; subst h; simp at h2; omega
  | cons x l ih =>
    intro off frame h i h1 h2
    obtain ⟨o, p⟩ := x
    obtain ⟨rfl, hp, rest, rfl, ht⟩ := h
    by_cases hi : i < o + p.length
    · exact ⟨(o, p), by simp, h1, hi⟩
    · rw [List.length_append] at h2
      obtain ⟨q, hq, a⟩ := ih _ _ ht i (by omega) (by omega)
      exact ⟨q, List.mem_cons_of_mem _ hq, a⟩

/-- Pieces that tile a frame give it back in whatever order they come in. -/
theorem reassembles (l l' : List (Nat × Bytes)) (frame : Bytes) (h : Tiles 0 l frame) (hp : ∀ q, q ∈ l' ↔ q ∈ l) (i : Nat)
    (hi : i < frame.length) : byteAt l' i = frame[i]? := by
  unfold byteAt
  obtain ⟨q, hq, h1, h2⟩ := tiles_cover l 0 frame h i (by omega) (by omega)
  cases hf : l'.find? fun q => decide (q.1 ≤ i ∧ i < q.1 + q.2.length) with
  | none =>
    rw [List.find?_eq_none] at hf
    have := hf q ((hp q).2 hq)
    simp only [decide_eq_true_eq, not_and] at this
    exact absurd h2 (this h1)
  | some q' =>
    have hm := List.mem_of_find?_eq_some hf
    have hc := List.find?_some hf
    simp only [decide_eq_true_eq] at hc
    have := tiles_bytes l 0 frame h q' ((hp q').1 hm) i hc.1 hc.2
    simpa using this.2

/-! ## The header -/

theorem load_eq (ws : List Nat) : load ws = ws.flatMap be32 := by
  unfold load be32
  simp only [Nat.shiftRight_eq_div_pow, Nat.pow_zero, Nat.div_one]

theorem load_length (ws : List Nat) : (load ws).length = 4 * ws.length := by
  rw [load_eq]
  induction ws with
  | nil => rfl
  | cons w ws ih => rw [List.flatMap_cons, List.length_append, ih, be32_length, List.length_cons]; omega

theorem word_load (ws : List Nat) (p : Bytes) : ∀ k v, ws[k]? = some v → word (load ws ++ p) k = v % 2 ^ 32 := by
  rw [load_eq]
  induction ws with
  | nil => intro k v h; exact absurd h (by simp)
  | cons w ws ih =>
    intro k v h
    cases k with
    | zero =>
      simp only [List.getElem?_cons_zero, Option.some.injEq] at h
      subst h
      rw [← rd_be32]; rfl
    | succ k =>
      rw [List.getElem?_cons_succ] at h
      have := ih k v h
      rw [← this]
      unfold word
      rw [List.flatMap_cons, List.append_assoc, show 4 * (k + 1) = 4 + 4 * k by omega, ← List.drop_drop]
      rfl

/-- What the words of the header say. -/
theorem first_header (s : St) (p : Bytes) (o : Nat) (ho : o < 2 ^ 32) (h1 : s.tile < 2 ^ 10) (h2 : s.data.length < 2 ^ 32) (h3 : s.width < 2 ^ 16)
    (h4 : s.height < 2 ^ 16) (h5 : s.fps < 2 ^ 10) :
    readHeader (load ((firstWords s).set 1 o) ++ p) =
      ⟨s.tile, s.buf % 2 ^ 22, o, s.data.length, s.width, s.height, 0x41564331, 0, s.fps, 1, if s.fd then 1 else 0⟩ := by
  have a0 : ((s.tile <<< 22) % 2 ^ 32) ||| (0x3fffff &&& s.buf) = s.tile * 2 ^ 22 + s.buf % 2 ^ 22 := by
    have hs : s.tile <<< 22 = s.tile * 2 ^ 22 := Nat.shiftLeft_eq _ _
    have hm : (s.tile <<< 22) % 2 ^ 32 = s.tile <<< 22 := Nat.mod_eq_of_lt (by rw [hs]; omega)
    rw [hm, Nat.and_comm, show (0x3fffff : Nat) = 2 ^ 22 - 1 from rfl, Nat.and_two_pow_sub_one_eq_mod,
      ← Nat.shiftLeft_add_eq_or_of_lt (Nat.mod_lt _ (by decide)), hs]
  have a3 : ((s.width <<< 16) % 2 ^ 32) ||| s.height = s.width * 2 ^ 16 + s.height := by
    have hs : s.width <<< 16 = s.width * 2 ^ 16 := Nat.shiftLeft_eq _ _
    have hm : (s.width <<< 16) % 2 ^ 32 = s.width <<< 16 := Nat.mod_eq_of_lt (by rw [hs]; omega)
    rw [hm, ← Nat.shiftLeft_add_eq_or_of_lt h4, hs]
  have a5 : ((s.fps <<< 19) % 2 ^ 32) ||| (1 <<< 15) ||| ((if s.fd then 1 else 0) <<< 14) =
      s.fps * 2 ^ 19 + 2 ^ 15 + (if s.fd then 1 else 0) * 2 ^ 14 := by
    have hs : s.fps <<< 19 = s.fps * 2 ^ 19 := Nat.shiftLeft_eq _ _
    have hm : (s.fps <<< 19) % 2 ^ 32 = s.fps <<< 19 := Nat.mod_eq_of_lt (by rw [hs]; omega)
    rw [hm, Nat.or_assoc]
    have b0 : ((1 <<< 15) ||| ((if false = true then 1 else 0) <<< 14) : Nat) = 32768 := by decide
    have b1 : ((1 <<< 15) ||| ((if true = true then 1 else 0) <<< 14) : Nat) = 49152 := by decide
    cases s.fd with
    | false =>
      have q : s.fps <<< 19 ||| 32768 = s.fps * 2 ^ 19 + 32768 := by rw [← Nat.shiftLeft_add_eq_or_of_lt (by omega), hs]
      have c : (if false = true then 1 else 0 : Nat) = 0 := rfl
      refine (congrArg _ b0).trans (q.trans ?_)
      omega
    | true =>
      have q : s.fps <<< 19 ||| 49152 = s.fps * 2 ^ 19 + 49152 := by rw [← Nat.shiftLeft_add_eq_or_of_lt (by omega), hs]
      have c : (if true = true then 1 else 0 : Nat) = 1 := rfl
      refine (congrArg _ b1).trans (q.trans ?_)
      omega
  unfold firstWords
  rw [a0, a3, a5]
  unfold readHeader
  have e5 : (if s.fd then 1 else 0 : Nat) < 2 := by cases s.fd <;> decide
  rw [word_load _ p 0 _ rfl, word_load _ p 1 _ rfl, word_load _ p 2 _ rfl, word_load _ p 3 _ rfl, word_load _ p 4 _ rfl, word_load _ p 5 _ rfl]
  congr 1 <;> omega

/-! ## Fragmenting -/

theorem piece_load (ws : List Nat) (p : Bytes) (o : Nat) (hw : ws.length = 6) (ho : o < 2 ^ 32) :
    piece (load (ws.set 1 o) ++ p) = (o, p) := by
  unfold piece
  have hl : (load (ws.set 1 o)).length = 24 := by rw [load_length, List.length_set, hw]
  refine Prod.ext ?_ ?_
  · show word _ 1 = o
    rw [word_load _ p 1 o (by rw [List.getElem?_set]; simp; omega)]
    exact Nat.mod_eq_of_lt ho
  · show List.drop 24 _ = p
    rw [← hl, List.drop_left]

/-- What every packet of a frame is like. -/
structure Good (avail maxOut : Nat) (W : List Nat) (k : Packet) : Prop where
  fits : k.bytes.length ≤ min avail maxOut
  header : ∃ o p, k.bytes = load (W.set 1 o) ++ p ∧ o < 2 ^ 32

/-- `last` is set on the last packet only. -/
def LastOnly : List Packet → Prop
  | [] => False
  | [k] => k.last = true
  | k :: l => k.last = false ∧ LastOnly l

theorem tail_sent (avail : Nat → Nat) (maxOut : Nat) (ha : ∀ i, 24 < min (avail i) maxOut) : ∀ (fuel i : Nat) (s : St), maxOut = s.maxOut →
    0 < s.off → s.off < s.data.length → s.data.length < 2 ^ 32 → s.data.length - s.off ≤ fuel → s.words.length = 6 →
    ∃ ps s', sendFrame avail fuel i s = .ok (ps, s') ∧ s'.data = [] ∧ s'.off = 0 ∧ s'.buf = s.buf + 1 ∧
      Tiles s.off (ps.map fun k => piece k.bytes) (s.data.drop s.off) ∧ LastOnly ps ∧
      ∀ j k, ps[j]? = some k → Good (avail (i + j)) maxOut s.words k := by
  intro fuel
  induction fuel with
  | zero => intro i s _ _ h1 _ h2 _; omega
  | succ fuel ih =>
    intro i s hm h0 h1 hl hf hw
    subst hm
    have hmx := ha i
    have hne : s.data ≠ [] := by intro h; rw [h] at h1; simp at h1
    rw [sendFrame, if_neg hne]
    obtain ⟨mx, hmxe⟩ : ∃ mx, min (avail i) s.maxOut = mx := ⟨_, rfl⟩
    rw [hmxe] at hmx
    unfold next
    simp only [hmxe, HDR]
    rw [if_neg (by omega), if_neg (by omega)]
    rw [Outcome.bind_ok]
    obtain ⟨n, hn⟩ : ∃ n, min (24 + (s.data.length - s.off)) mx = n := ⟨_, rfl⟩
    simp only [hn]
    unfold advance
    simp only
    have hp : ((s.data.drop s.off).take (n - 24)).length = n - 24 := by rw [List.length_take, List.length_drop]; omega
    have hlw : (load (s.words.set 1 s.off)).length = 24 := by rw [load_length, List.length_set, hw]
    by_cases hd : s.off + (n - 24) = s.data.length
    · rw [if_pos hd]
      have hlast : decide (24 + (s.data.length - s.off) ≤ mx) = true := by simp; omega
      have hrest : sendFrame avail fuel (i + 1) { s with data := [], off := 0, buf := s.buf + 1, words := s.words.set 1 s.off } =
          .ok ([], { s with data := [], off := 0, buf := s.buf + 1, words := s.words.set 1 s.off }) := by
        cases fuel <;> simp [sendFrame]
      rw [hrest, Outcome.bind_ok]
      refine ⟨_, _, rfl, rfl, rfl, rfl, ?_, ?_, ?_⟩
      · simp only [List.map_cons, List.map_nil]
        rw [piece_load _ _ _ hw (by omega)]
        refine ⟨rfl, ?_, [], ?_, rfl⟩
        · intro h; rw [h] at hp; simp at hp; omega
        · rw [List.append_nil, List.take_of_length_le]; rw [List.length_drop]; omega
      · exact hlast
      · intro j k hj
        cases j with
        | zero =>
          simp only [List.getElem?_cons_zero, Option.some.injEq] at hj
          subst hj
          refine ⟨?_, s.off, _, rfl, by omega⟩
          simp only [Nat.add_zero, hmxe, List.length_append, hlw, hp]; omega
        | succ j => simp at hj
    · rw [if_neg hd]
      have hlast : decide (24 + (s.data.length - s.off) ≤ mx) = false := by simp; omega
      obtain ⟨ps, s', e1, e2, e3, e4, e5, e6, e7⟩ := ih (i + 1) { s with off := s.off + (n - 24), words := s.words.set 1 s.off } rfl
        (by show 0 < s.off + _; omega) (by show s.off + _ < s.data.length; omega) hl
        (by show s.data.length - (s.off + _) ≤ fuel; omega) (by show (s.words.set 1 s.off).length = 6; rw [List.length_set, hw])
      rw [e1, Outcome.bind_ok]
      refine ⟨_, s', rfl, e2, e3, e4, ?_, ?_, ?_⟩
      · simp only [List.map_cons]
        rw [piece_load _ _ _ hw (by omega)]
        refine ⟨rfl, ?_, s.data.drop (s.off + (n - 24)), ?_, ?_⟩
        · intro h; rw [h] at hp; simp at hp; omega
        · rw [← List.drop_drop, List.take_append_drop]
        · rw [hp]; exact e5
      · cases ps with
        | nil => exact absurd e6 (by simp [LastOnly])
        | cons k l => exact ⟨hlast, e6⟩
      · intro j k hj
        cases j with
        | zero =>
          simp only [List.getElem?_cons_zero, Option.some.injEq] at hj
          subst hj
          refine ⟨?_, s.off, _, rfl, by omega⟩
          simp only [Nat.add_zero, hmxe, List.length_append, hlw, hp]; omega
        | succ j =>
          rw [List.getElem?_cons_succ] at hj
          have := e7 j k hj
          obtain ⟨a, o, p, b, c⟩ := this
          refine ⟨by rw [show i + (j + 1) = i + 1 + j by omega]; exact a, o, p, ?_, c⟩
          rw [b]
          simp only [List.set_set]

/-- **C37.** Any frame given to the fragmenter leaves as packets that fit, whose headers carry the frame's number, length, size
and rate, whose pieces tile the frame, and of which only the last is marked; the next frame gets the next number. -/
theorem frame_sent (s : St) (frame : Bytes) (avail : Nat → Nat) (fuel : Nat) (hs : s.off = 0) (hne : frame ≠ [])
    (ha : ∀ i, 24 < min (avail i) s.maxOut) (hroom : frame.length + 48 ≤ avail 0) (hin : frame.length + 24 ≤ 6220800)
    (hfuel : frame.length ≤ fuel) (h1 : s.tile < 2 ^ 10) (h3 : s.width < 2 ^ 16) (h4 : s.height < 2 ^ 16) (h5 : s.fps < 2 ^ 10) :
    ∃ ps s', sendFrame avail fuel 0 (give s frame) = .ok (ps, s') ∧ s'.data = [] ∧ s'.off = 0 ∧ s'.buf = s.buf + 1 ∧
      Tiles 0 (ps.map fun k => piece k.bytes) frame ∧ LastOnly ps ∧
      ∀ j k, ps[j]? = some k → k.bytes.length ≤ min (avail j) s.maxOut ∧
        ∃ o, readHeader k.bytes = ⟨s.tile, s.buf % 2 ^ 22, o, frame.length, s.width, s.height, 0x41564331, 0, s.fps, 1, if s.fd then 1 else 0⟩ := by
  have conv : ∀ (av : Nat) (k : Packet), Good av s.maxOut (firstWords (give s frame)) k →
      k.bytes.length ≤ min av s.maxOut ∧
        ∃ o, readHeader k.bytes = ⟨s.tile, s.buf % 2 ^ 22, o, frame.length, s.width, s.height, 0x41564331, 0, s.fps, 1, if s.fd then 1 else 0⟩ := by
    intro av k hg
    obtain ⟨a, o, p, b, c⟩ := hg
    refine ⟨a, o, ?_⟩
    rw [b]
    exact first_header (give s frame) p o c h1 (by show frame.length < _; omega) h3 h4 h5
  have hset : (firstWords (give s frame)).set 1 0 = firstWords (give s frame) := rfl
  have hlw : (load (firstWords (give s frame))).length = 24 := by rw [load_length]; rfl
  have hlen : 0 < frame.length := List.length_pos_iff.2 hne
  cases fuel with
  | zero => omega
  | succ fuel =>
    have hmx := ha 0
    obtain ⟨mx, hmxe⟩ : ∃ mx, min (avail 0) s.maxOut = mx := ⟨_, rfl⟩
    rw [hmxe] at hmx
    rw [sendFrame, if_neg (show (give s frame).data ≠ [] from hne)]
    unfold next
    have hd : (give s frame).data = frame := rfl
    have ho : (give s frame).off = 0 := hs
    have hm : (give s frame).maxOut = s.maxOut := rfl
    have hb : (give s frame).buf = s.buf := rfl
    simp only [hd, ho, hm, hmxe, HDR, INBUF]
    rw [if_neg (by omega), if_pos trivial, if_neg (by omega), Outcome.bind_ok]
    obtain ⟨n, hn⟩ : ∃ n, min (frame.length + 24) mx = n := ⟨_, rfl⟩
    simp only [hn]
    unfold advance
    simp only [hd, ho, Nat.zero_add, hb]
    have hp : (frame.take (n - 24)).length = n - 24 := by rw [List.length_take]; omega
    have hg : Good (avail 0) s.maxOut (firstWords (give s frame))
        ⟨load (firstWords (give s frame)) ++ frame.take (n - 24), decide (frame.length + 24 ≤ mx)⟩ := by
      refine ⟨?_, 0, frame.take (n - 24), by rw [hset], by decide⟩
      simp only [hmxe, List.length_append, hlw, hp]; omega
    have hpc : piece (load (firstWords (give s frame)) ++ frame.take (n - 24)) = (0, frame.take (n - 24)) := by
      rw [← hset]; exact piece_load _ _ 0 rfl (by decide)
    by_cases hdone : n - 24 = frame.length
    · rw [if_pos hdone]
      have hlast : decide (frame.length + 24 ≤ mx) = true := by simp; omega
      have hrest : ∀ t : St, t.data = [] → sendFrame avail fuel 1 t = .ok ([], t) := by
        intro t ht; cases fuel <;> simp [sendFrame, ht]
      rw [hrest _ rfl, Outcome.bind_ok]
      refine ⟨_, _, rfl, rfl, rfl, rfl, ?_, hlast, ?_⟩
      · simp only [List.map_cons, List.map_nil, hpc]
        refine ⟨rfl, ?_, [], ?_, rfl⟩
        · intro h; rw [h] at hp; simp at hp; omega
        · rw [List.append_nil, List.take_of_length_le (by omega)]
      · intro j k hj
        cases j with
        | zero =>
          simp only [List.getElem?_cons_zero, Option.some.injEq] at hj
          subst hj
          exact conv _ _ hg
        | succ j => simp at hj
    · rw [if_neg hdone]
      have hlast : decide (frame.length + 24 ≤ mx) = false := by simp; omega
      obtain ⟨ps, s', e1, e2, e3, e4, e5, e6, e7⟩ := tail_sent avail s.maxOut ha fuel 1
        { (give s frame) with off := n - 24, words := firstWords (give s frame) } rfl
        (by show 0 < n - 24; omega) (by show n - 24 < frame.length; omega) (by show frame.length < _; omega)
        (by show frame.length - (n - 24) ≤ fuel; omega) rfl
      have e1' := congrArg (fun (o : Outcome (List Packet × St)) => o.bind fun r' => Outcome.ok
        ((⟨load (firstWords (give s frame)) ++ frame.take (n - 24), decide (frame.length + 24 ≤ mx)⟩ : Packet) :: r'.1, r'.2)) e1
      refine ⟨_, s', e1', e2, e3, e4, ?_, ?_, ?_⟩
      · simp only [List.map_cons, hpc]
        refine ⟨rfl, ?_, frame.drop (n - 24), ?_, ?_⟩
        · intro h; rw [h] at hp; simp at hp; omega
        · rw [List.take_append_drop]
        · rw [hp, Nat.zero_add]; exact e5
      · cases ps with
        | nil => exact absurd e6 (by simp [LastOnly])
        | cons k l => exact ⟨hlast, e6⟩
      · intro j k hj
        cases j with
        | zero =>
          simp only [List.getElem?_cons_zero, Option.some.injEq] at hj
          subst hj
          exact conv _ _ hg
        | succ j =>
          rw [List.getElem?_cons_succ] at hj
          have := e7 j k hj
          rw [show 1 + j = j + 1 by omega] at this
          exact conv _ _ this

/-- **C37, receiver.** The packets give the frame back in whatever order they arrive. -/
theorem frame_received (s : St) (frame : Bytes) (avail : Nat → Nat) (fuel : Nat) (hs : s.off = 0) (hne : frame ≠ [])
    (ha : ∀ i, 24 < min (avail i) s.maxOut) (hroom : frame.length + 48 ≤ avail 0) (hin : frame.length + 24 ≤ 6220800)
    (hfuel : frame.length ≤ fuel) (h1 : s.tile < 2 ^ 10) (h3 : s.width < 2 ^ 16) (h4 : s.height < 2 ^ 16) (h5 : s.fps < 2 ^ 10) :
    ∃ ps s', sendFrame avail fuel 0 (give s frame) = .ok (ps, s') ∧
      ∀ got : List Packet, (∀ k, k ∈ got ↔ k ∈ ps) → ∀ i, i < frame.length → byteAt (got.map fun k => piece k.bytes) i = frame[i]? := by
  obtain ⟨ps, s', e1, -, -, -, e5, -, -⟩ := frame_sent s frame avail fuel hs hne ha hroom hin hfuel h1 h3 h4 h5
  refine ⟨ps, s', e1, ?_⟩
  intro got hg i hi
  refine reassembles _ _ frame e5 ?_ i hi
  intro q
  simp only [List.mem_map]
  constructor
  · rintro ⟨k, hk, rfl⟩; exact ⟨k, (hg k).1 hk, rfl⟩
  · rintro ⟨k, hk, rfl⟩; exact ⟨k, (hg k).2 hk, rfl⟩

/-- A payload size of exactly the header never gets on. -/
theorem no_progress (s : St) (avail : Nat → Nat) (fuel : Nat) (hm : ∀ i, min (avail i) s.maxOut = 24) (hne : s.data ≠ [])
    (hs : s.off = 0) (hroom : ∀ i, s.data.length + 48 ≤ avail i) (hin : s.data.length + 24 ≤ 6220800) (i : Nat) :
    sendFrame avail fuel i s = .hang := by
  induction fuel generalizing i s with
  | zero => rw [sendFrame, if_neg hne]
  | succ fuel ih =>
    rw [sendFrame, if_neg hne]
    have hlen : 0 < s.data.length := List.length_pos_iff.2 hne
    have h0 := hroom i
    unfold next
    simp only [hm i, HDR, INBUF]
    rw [if_neg (by omega), if_pos hs, if_neg (by omega), Outcome.bind_ok]
    simp only [show min (s.data.length + 24) 24 - 24 = 0 by omega]
    unfold advance
    rw [if_neg (by show ¬ s.off + 0 = s.data.length; omega)]
    have := ih { s with off := s.off + 0, words := firstWords s } hm hne (by show s.off + 0 = 0; omega) hroom hin (i + 1)
    rw [this]; rfl

/-- The first packet is written with the whole frame behind it: a frame that does not fit in the sink's buffer overflows it. -/
theorem large_frame_overflows (s : St) (frame : Bytes) (avail : Nat) (hs : s.off = 0) (h : avail < frame.length + 48) :
    next (give s frame) avail = .ub := by
  unfold next
  have hd : (give s frame).data = frame := rfl
  have ho : (give s frame).off = 0 := hs
  simp only [hd, ho, HDR, INBUF]
  split
  · rfl
  · rw [if_pos trivial, if_pos (Or.inr (by omega))]

/-! ## Audio -/

/-- The 16 bit samples of a payload, by the order of their bytes. -/
def samplesLE : Bytes → List Nat
  | a :: b :: l => (a.toNat + 256 * b.toNat) :: samplesLE l
  | _ => []

def samplesBE : Bytes → List Nat
  | a :: b :: l => (256 * a.toNat + b.toNat) :: samplesBE l
  | _ => []

theorem swap_samples (d : Bytes) : samplesBE (swap d) = samplesLE d ∧ (swap d).length = d.length := by
  fun_induction swap d with
  | case1 a b l ih =>
    simp only [samplesBE, samplesLE, List.length_cons]
    exact ⟨by rw [ih.1, Nat.add_comm], by rw [ih.2]⟩
  | case2 l h =>
    refine ⟨?_, rfl⟩
    rcases l with _ | ⟨a, _ | ⟨b, l⟩⟩
    · rfl
    · rfl
    · exact absurd rfl (h a b l)

/-- **C53.** An audio frame leaves as one packet whose header reads back to channel, frame number, length, sample size, rate and
codec; 16 bit PCM samples are in network order, other data unchanged; the frame number advances. -/
theorem audio_sent (s : Audio) (frame : Bytes) (hc : s.channel < 2 ^ 10) (hb : s.buf < 2 ^ 22) (hp : s.bps < 2 ^ 6) (hr : s.rate < 2 ^ 26)
    (ht : s.tag < 2 ^ 32) (hl : frame.length < 2 ^ 32) (he : s.tag = 1 ∧ s.bps = 16 → frame.length % 2 = 0) :
    ∃ h p s', audioPacket s 0 frame 0 = .ok ((h, true, p), s') ∧ h.length = 20 ∧
      word h 0 / 2 ^ 22 = s.channel ∧ word h 0 % 2 ^ 22 = s.buf ∧ word h 1 = 0 ∧ word h 2 = frame.length ∧
      word h 3 / 2 ^ 26 = s.bps ∧ word h 3 % 2 ^ 26 = s.rate ∧ word h 4 = s.tag ∧
      p.length = frame.length ∧ (if s.tag = 1 ∧ s.bps = 16 then samplesBE p = samplesLE frame else p = frame) ∧
      s'.buf = (s.buf + 1) % 2 ^ 22 := by
  have a0 : (s.channel <<< 22) ||| s.buf = s.channel * 2 ^ 22 + s.buf := by
    rw [← Nat.shiftLeft_add_eq_or_of_lt hb, Nat.shiftLeft_eq]
  have a3 : (s.bps <<< 26) ||| s.rate = s.bps * 2 ^ 26 + s.rate := by
    rw [← Nat.shiftLeft_add_eq_or_of_lt hr, Nat.shiftLeft_eq]
  have ab : (s.buf + 1) &&& 0x3fffff = (s.buf + 1) % 2 ^ 22 := by
    rw [show (0x3fffff : Nat) = 2 ^ 22 - 1 from rfl, Nat.and_two_pow_sub_one_eq_mod]
  unfold audioPacket
  rw [if_neg (by simp), if_neg (fun h => by have := he ⟨h.1, h.2.1⟩; omega), a0, a3, ab]
  have hload : ∀ a b c d e : Nat, be32 a ++ be32 b ++ be32 c ++ be32 d ++ be32 e = load [a, b, c, d, e] ++ [] := by
    intro a b c d e; rw [load_eq]; rfl
  rw [hload]
  refine ⟨_, _, _, rfl, ?_, ?_, ?_, ?_, ?_, ?_, ?_, ?_, ?_, ?_, rfl⟩
  · rw [List.append_nil, load_length]; rfl
  · rw [word_load _ _ 0 _ rfl]; omega
  · rw [word_load _ _ 0 _ rfl]; omega
  · rw [word_load _ _ 1 _ rfl]
  · rw [word_load _ _ 2 _ rfl]; omega
  · rw [word_load _ _ 3 _ rfl]; omega
  · rw [word_load _ _ 3 _ rfl]; omega
  · rw [word_load _ _ 4 _ rfl]; omega
  · split
    · exact (swap_samples frame).2
    · rfl
  · split
    · exact (swap_samples frame).1
    · rfl

/-- Recorded: a frame that has to be split aborts. -/
theorem audio_fragment_aborts (s : Audio) (o : Nat) (frame : Bytes) (r : Nat) (h : o ≠ 0) : audioPacket s o frame r = .ub := by
  unfold audioPacket; rw [if_pos h]

/-! ## AAC -/

/-- **C38.** The access unit header of every fragment announces 16 header bits, and decodes to the size of the whole frame modulo
8192 and index 0; the marker is set on the last fragment. -/
theorem au_header (o n r : Nat) (h : o + n + r < 2 ^ 32) :
    natOf ((bitsOf (auHeader o n r).1).take 16) = 16 ∧
    natOf (((bitsOf (auHeader o n r).1).drop 16).take 13) = (o + n + r) % 8192 ∧
    natOf ((bitsOf (auHeader o n r).1).drop 29) = 0 ∧ (auHeader o n r).1.length = 4 ∧ ((auHeader o n r).2 = true ↔ r = 0) := by
  obtain ⟨full, hf⟩ : ∃ full, o + n + r = full := ⟨_, rfl⟩
  unfold auHeader
  simp only [hf] at h ⊢
  rw [Nat.mod_eq_of_lt h]
  refine ⟨?_, ?_, ?_, rfl, by simp⟩
  · rfl
  · have h5 : full >>> 5 = full / 32 := by rw [Nat.shiftRight_eq_div_pow]
    have hm : (full &&& 0x1f) <<< 3 = full % 32 * 8 := by
      rw [show (0x1f : Nat) = 2 ^ 5 - 1 from rfl, Nat.and_two_pow_sub_one_eq_mod, Nat.shiftLeft_eq]
    rw [h5, hm]
    have key : ∀ (a : Fin 256) (b : Fin 32), natOf (((bitsOf [0, 16, UInt8.ofNat a.val, UInt8.ofNat (b.val * 8)]).drop 16).take 13) = a.val * 32 + b.val := by
      decide +kernel
    have e : UInt8.ofNat (full / 32) = UInt8.ofNat (full / 32 % 256) := by
      apply UInt8.toNat.inj; simp [UInt8.toNat_ofNat]
    rw [e, key ⟨full / 32 % 256, Nat.mod_lt _ (by decide)⟩ ⟨full % 32, Nat.mod_lt _ (by decide)⟩]
    simp only
    omega
  · have hm : (full &&& 0x1f) <<< 3 = full % 32 * 8 := by
      rw [show (0x1f : Nat) = 2 ^ 5 - 1 from rfl, Nat.and_two_pow_sub_one_eq_mod, Nat.shiftLeft_eq]
    rw [hm]
    have key : ∀ (b : Fin 32), natOf ((byteBits (UInt8.ofNat (b.val * 8))).drop 5) = 0 := by decide +kernel
    have := key ⟨full % 32, Nat.mod_lt _ (by decide)⟩
    simp only at this
    rw [← this]
    rfl

/-- So frames below 8192 bytes are announced correctly, and no larger one is. -/
theorem au_size_right_iff (o n r : Nat) (h : o + n + r < 2 ^ 32) :
    natOf (((bitsOf (auHeader o n r).1).drop 16).take 13) = o + n + r ↔ o + n + r < 8192 := by
  rw [(au_header o n r h).2.1]; omega

/-! ## Cases -/

def st0 : St := ⟨30, [], 0, 5, 1, 640, 480, 25, false, []⟩

example : (match sendFrame (fun _ => 100) 20 0 (give st0 [1, 2, 3, 4, 5, 6, 7, 8, 9, 10]) with
    | .ok (ps, s) => (ps.map fun k => (piece k.bytes, k.last), s.buf)
    | _ => ([], 0)) = ([((0, [1, 2, 3, 4, 5, 6]), false), ((6, [7, 8, 9, 10]), true)], 6) := by decide +kernel

example : audioPacket ⟨0, 7, 16, 48000, 1⟩ 0 [1, 2, 3, 4] 0 =
    .ok (([0, 0, 0, 7, 0, 0, 0, 0, 0, 0, 0, 4, 0x40, 0, 0xbb, 0x80, 0, 0, 0, 1], true, [2, 1, 4, 3]), ⟨0, 8, 16, 48000, 1⟩) := by rfl

example : (auHeader 0 300 0).1 = [0, 16, 9, 96] := by decide

end Lms.UltraGrid
