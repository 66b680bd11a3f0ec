import Verif.Sources.Extradata

/-!
# C62: parameter sets announced by a session description

`H264VideoSdpParser` (`src/modules/receiver/H264VideoSdpParser.cpp`) sits between the library's source and the queue sink of
an H.264 or H.265 stream.  The records of `sprop-parameter-sets` are given (decoded by the library).
-/

namespace Lms.Sdp

open Lms.Sources

/-- `H264VideoSdpParser.cpp:28` and `.hh:28`. -/
abbrev startCode : Bytes := [0, 0, 0, 1]
abbrev MAX_EXTRADATA_SIZE : Nat := 128

/-- The parser (`H264VideoSdpParser.hh:70-75`): records still to be taken (the index in the list is `injectedMetadataNALs`), the
filled part of `extradata`, and `fFrameSize` of the library's base class as the last delivery left it (not initialised by
anybody at first). -/
structure Parser where
  todo : List Bytes
  extra : Bytes := []
  frameSize : Nat
  deriving DecidableEq, Repr

/-- What the asker is told: the bytes written at the beginning of its buffer, the frame size and the truncated bytes. -/
structure Got where
  written : Bytes
  size : Nat
  truncated : Nat
  deriving DecidableEq, Repr

/-- `H264VideoSdpParser.cpp:46-86` `doGetNextFrame` for a buffer of `max` bytes and, when the input source is asked,
`afterGettingFrame1` for the unit it has.  The library's source copies at most the size it is given, at the place it is given. -/
def get (p : Parser) (max : Nat) (unit : Bytes) : Outcome (Parser × Got) :=
  match p.todo with
  | r :: rest =>
    if p.extra.length + 4 + r.length > MAX_EXTRADATA_SIZE then .ub                    -- 49-50
    else .ok ({ p with todo := rest, extra := p.extra ++ startCode ++ r }, { written := [], size := p.frameSize, truncated := 0 })
  | [] =>
    let room := (max + 2 ^ 32 - 4) % 2 ^ 32                                           -- 56
    let n := min unit.length room
    if max < 4 + n then .ub
    else .ok ({ p with frameSize := (n + 4) % 2 ^ 32 }, { written := startCode ++ unit.take n, size := (n + 4) % 2 ^ 32, truncated := unit.length - n })

/-- Frames asked for one after the other. -/
def gets (p : Parser) : List (Nat × Bytes) → Outcome (Parser × List Got)
  | [] => .ok (p, [])
  | (max, u) :: l => (get p max u).bind fun (p', g) => (gets p' l).map fun (p'', gs) => (p'', g :: gs)

/-! ## Properties -/

/-- The bytes the records take, with their start codes. -/
def total (rs : List Bytes) : Nat := (rs.map fun r => 4 + r.length).sum

/-- The records in Annex B, each behind a long start code. -/
def asAnnexB (rs : List Bytes) : Bytes := annexB (rs.map fun r => (true, r))

theorem asAnnexB_length (rs : List Bytes) : (asAnnexB rs).length = total rs := by
  induction rs with
  | nil => rfl
  | cons r rs ih =>
    have : asAnnexB (r :: rs) = startCode ++ r ++ asAnnexB rs := rfl
    rw [this, List.length_append, ih]
    simp [total]; omega

theorem asAnnexB_snoc (rs : List Bytes) (r : Bytes) : asAnnexB (rs ++ [r]) = asAnnexB rs ++ startCode ++ r := by
  simp [asAnnexB, annexB]

theorem total_append (a b : List Bytes) : total (a ++ b) = total a + total b := by simp [total]

theorem gets_append (p : Parser) (a b : List (Nat × Bytes)) : gets p (a ++ b) =
    (gets p a).bind fun (p', g) => (gets p' b).map fun (p'', g') => (p'', g ++ g') := by
  induction a generalizing p with
  | nil =>
    simp only [List.nil_append, gets, Outcome.bind_ok]
    cases gets p b <;> rfl
  | cons x a ih =>
    obtain ⟨m, u⟩ := x
    simp only [List.cons_append, gets]
    cases hg : get p m u with
    | ub => rfl
    | hang => rfl
    | ok y =>
      simp only [Outcome.bind_ok, ih]
      cases gets y.1 a with
      | ub => rfl
      | hang => rfl
      | ok z =>
        simp only [Outcome.map_ok, Outcome.bind_ok]
        cases gets z.1 b <;> rfl

/-- While records are left. -/
theorem take_records (done todo : List Bytes) (s : Nat) (asks : List (Nat × Bytes)) (hl : asks.length ≤ todo.length)
    (ht : total (done ++ todo.take asks.length) ≤ MAX_EXTRADATA_SIZE) :
    gets { todo := todo, extra := asAnnexB done, frameSize := s } asks =
      .ok ({ todo := todo.drop asks.length, extra := asAnnexB (done ++ todo.take asks.length), frameSize := s },
        List.replicate asks.length { written := [], size := s, truncated := 0 }) := by
  induction asks generalizing done todo with
  | nil => simp [gets]
  | cons x asks ih =>
    obtain ⟨m, u⟩ := x
    cases todo with
    | nil => simp at hl
    | cons r todo =>
      simp only [List.length_cons, List.take_succ_cons] at ht hl ⊢
      have ht' : total ((done ++ [r]) ++ todo.take asks.length) ≤ MAX_EXTRADATA_SIZE := by
        simpa using ht
      have hfit : ¬((asAnnexB done).length + 4 + r.length > MAX_EXTRADATA_SIZE) := by
        rw [asAnnexB_length]
        rw [total_append, total_append] at ht'
        have : total [r] = 4 + r.length := by simp [total]
        omega
      rw [gets, get]
      simp only [if_neg hfit, Outcome.bind_ok, ← asAnnexB_snoc]
      rw [ih (done ++ [r]) todo (by omega) ht']
      simp [Outcome.map_ok, List.replicate_succ]

/-- C62: when the records fit, the requests of a stream never overrun anything, as many requests as there are records
complete at once, and after any number of them the extradata are the records taken so far, each behind a start code. -/
theorem extradata_of_records (rs : List Bytes) (s : Nat) (ht : total rs ≤ MAX_EXTRADATA_SIZE) (asks : List (Nat × Bytes))
    (hl : asks.length ≤ rs.length) : ∃ p', gets { todo := rs, frameSize := s } asks =
      .ok (p', List.replicate asks.length { written := [], size := s, truncated := 0 }) ∧
    p'.extra = asAnnexB (rs.take asks.length) ∧ p'.todo = rs.drop asks.length := by
  have h := take_records [] rs s asks hl (by
    rw [List.nil_append]
    have h2 := total_append (rs.take asks.length) (rs.drop asks.length)
    rw [List.take_append_drop] at h2
    omega)
  exact ⟨_, h, rfl, rfl⟩

/-- A unit behind a start code in a buffer: what of it has room, and how much is missing. -/
def prefixed (a : Nat × Bytes) : Got :=
  { written := startCode ++ a.2.take (a.1 - 4), size := 4 + min a.2.length (a.1 - 4), truncated := a.2.length - (a.1 - 4) }

/-- The delivery of one unit with a start code put before it. -/
theorem unit_prefixed (e : Bytes) (s max : Nat) (u : Bytes) (h4 : 4 ≤ max) (hm : max < 2 ^ 32) :
    get { todo := [], extra := e, frameSize := s } max u =
      .ok ({ todo := [], extra := e, frameSize := 4 + min u.length (max - 4) },
        { written := startCode ++ u.take (max - 4), size := 4 + min u.length (max - 4), truncated := u.length - (max - 4) }) := by
  have e1 : (max + 2 ^ 32 - 4) % 2 ^ 32 = max - 4 := by omega
  rw [get]
  simp only [e1]
  have e2 : u.take (min u.length (max - 4)) = u.take (max - 4) := by
    rcases Nat.le_total u.length (max - 4) with h | h
    · rw [Nat.min_eq_left h, List.take_of_length_le (Nat.le_refl _), List.take_of_length_le h]
    · rw [Nat.min_eq_right h]
  rw [if_neg (by omega), e2]
  have e3 : (min u.length (max - 4) + 4) % 2 ^ 32 = 4 + min u.length (max - 4) := by omega
  have e4 : u.length - min u.length (max - 4) = u.length - (max - 4) := by omega
  rw [e3, e4]

/-- C62: after the records, every unit of the network comes out behind a start code, whole if the buffer has room for both, and
otherwise cut with the number of missing bytes told; the extradata stay. -/
theorem units_prefixed (e : Bytes) (s : Nat) (asks : List (Nat × Bytes)) (h : ∀ a ∈ asks, 4 ≤ a.1 ∧ a.1 < 2 ^ 32) :
    ∃ s', gets { todo := [], extra := e, frameSize := s } asks = .ok ({ todo := [], extra := e, frameSize := s' },
      asks.map prefixed) := by
  induction asks generalizing s with
  | nil => exact ⟨s, rfl⟩
  | cons x asks ih =>
    obtain ⟨m, u⟩ := x
    obtain ⟨h1, h2⟩ := h (m, u) (by simp)
    obtain ⟨s', hs⟩ := ih (4 + min u.length (m - 4)) fun a ha => h a (List.mem_cons_of_mem _ ha)
    refine ⟨s', ?_⟩
    rw [gets, unit_prefixed _ _ _ _ h1 h2, Outcome.bind_ok]
    simp only
    rw [hs, Outcome.map_ok]
    rfl

/-- C62, end to end: a stream connected once its records have been taken announces, when it is sent on, the last sequence and
picture parameter set of the description it was received with (`behind`: see C40). -/
theorem received_sets_announced (rs : List Bytes) (s : Nat) (hne : rs ≠ []) (hu : ∀ r ∈ rs, IsUnit r) (ht : total rs ≤ MAX_EXTRADATA_SIZE)
    (asks later : List (Nat × Bytes)) (hl : asks.length = rs.length) (hm : ∀ a ∈ later, 4 ≤ a.1 ∧ a.1 < 2 ^ 32)
    (behind : Bytes) (hb : 3 ≤ behind.length) :
    ∃ p' par, gets { todo := rs, frameSize := s } (asks ++ later) =
        .ok (p', List.replicate rs.length { written := [], size := s, truncated := 0 } ++ later.map prefixed) ∧
      parseExtradata .h264 {} p'.extra behind = .ok (par, par.sps.isSome && par.pps.isSome) ∧
      par.sps = (lastOf .h264 7 rs).map announced ∧ par.pps = (lastOf .h264 8 rs).map announced := by
  obtain ⟨p1, h1, h2, h3⟩ := extradata_of_records rs s ht asks (by omega)
  rw [hl, List.take_of_length_le (Nat.le_refl _)] at h2
  rw [hl, List.drop_of_length_le (Nat.le_refl _)] at h3
  obtain ⟨t, e, f⟩ := p1
  simp only at h2 h3
  subst h2 h3
  obtain ⟨s', h4⟩ := units_prefixed (asAnnexB rs) f later hm
  obtain ⟨par, e1, e2, e3⟩ := extradata264 (rs.map fun r => (true, r)) (by simpa using hne) (by
    intro x hx; obtain ⟨r, hr, rfl⟩ := List.mem_map.mp hx; exact hu r hr) behind hb
  have hmap : (rs.map fun r => (true, r)).map (·.2) = rs := by
    rw [List.map_map]; exact List.map_id rs
  rw [hmap] at e2 e3
  refine ⟨{ todo := [], extra := asAnnexB rs, frameSize := s' }, par, ?_, e1, e2, e3⟩
  rw [gets_append, h1, Outcome.bind_ok]
  simp only
  rw [h4, Outcome.map_ok, hl]

/-- Two records. -/
def exampleRecords : List Bytes := [[0x67, 0x42, 0, 0x1f], [0x68, 0xce, 0x38]]

/-- The sets of the example fit and are taken. -/
theorem example_sets : total exampleRecords ≤ MAX_EXTRADATA_SIZE ∧
    gets { todo := exampleRecords, frameSize := 77 } [(100, []), (100, []), (100, [0x65, 1]), (5, [0x41, 2])] =
      .ok ({ todo := [], extra := [0, 0, 0, 1, 0x67, 0x42, 0, 0x1f, 0, 0, 0, 1, 0x68, 0xce, 0x38], frameSize := 5 },
        [{ written := [], size := 77, truncated := 0 }, { written := [], size := 77, truncated := 0 },
         { written := [0, 0, 0, 1, 0x65, 1], size := 6, truncated := 0 }, { written := [0, 0, 0, 1, 0x41], size := 5, truncated := 1 }]) := by
  decide

/-- C62, recorded: the stream is undefined as soon as the records taken exceed the extradata, exactly then. -/
theorem too_long_records (rs : List Bytes) (s : Nat) (asks : List (Nat × Bytes)) (hl : asks.length ≤ rs.length) :
    gets { todo := rs, frameSize := s } asks = .ub ↔ total (rs.take asks.length) > MAX_EXTRADATA_SIZE := by
  suffices H : ∀ (done todo : List Bytes) (asks : List (Nat × Bytes)), asks.length ≤ todo.length → total done ≤ MAX_EXTRADATA_SIZE →
      (gets { todo := todo, extra := asAnnexB done, frameSize := s } asks = .ub ↔ total (done ++ todo.take asks.length) > MAX_EXTRADATA_SIZE) from
    H [] rs asks hl (by decide)
  intro done todo asks
  induction asks generalizing done todo with
  | nil => intro _ h; simp [gets]; omega
  | cons x asks ih =>
    intro hl hd
    obtain ⟨m, u⟩ := x
    cases todo with
    | nil => simp at hl
    | cons r todo =>
      simp only [List.length_cons, List.take_succ_cons] at hl ⊢
      have hr : total [r] = 4 + r.length := by simp [total]
      have hsplit : done ++ r :: todo.take asks.length = (done ++ [r]) ++ todo.take asks.length := by simp
      rw [gets, get]
      by_cases hfit : (asAnnexB done).length + 4 + r.length > MAX_EXTRADATA_SIZE
      · simp only [if_pos hfit]
        rw [asAnnexB_length] at hfit
        rw [hsplit, total_append, total_append, hr]
        constructor
        · intro _; omega
        · intro _; rfl
      · simp only [if_neg hfit, Outcome.bind_ok, ← asAnnexB_snoc]
        rw [asAnnexB_length] at hfit
        have := ih (done ++ [r]) todo (by omega) (by rw [total_append, hr]; omega)
        rw [hsplit, ← this]
        cases gets { todo := todo, extra := asAnnexB (done ++ [r]), frameSize := s } asks <;> simp [Outcome.map]

/-- One sequence parameter set of 125 bytes is enough. -/
theorem one_long_record : gets { todo := [List.replicate 125 1], frameSize := 0 } [(100, [])] = .ub := by decide +kernel

/-- C62, recorded: a buffer of less than four bytes is overrun by any unit that does not end within it. -/
theorem short_buffer (e : Bytes) (s max : Nat) (u : Bytes) (h : max < 4) : get { todo := [], extra := e, frameSize := s } max u = .ub := by
  rw [get]
  simp only
  rw [if_pos (by omega)]

/-- C62, recorded: connected while records are still to be taken, the stream lacks their sets. -/
theorem connected_early : ∃ p' gs, gets { todo := exampleRecords, frameSize := 0 } [(100, [])] = .ok (p', gs) ∧
    parseExtradata .h264 {} p'.extra [9, 9, 9] = .ok ({ sps := some ([0x67, 0x42, 0, 0x1f], 4) }, false) := by
  refine ⟨{ todo := [[0x68, 0xce, 0x38]], extra := [0, 0, 0, 1, 0x67, 0x42, 0, 0x1f], frameSize := 0 }, [{ written := [], size := 0, truncated := 0 }], by decide, ?_⟩
  decide +kernel

end Lms.Sdp
