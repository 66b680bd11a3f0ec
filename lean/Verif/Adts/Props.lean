import Verif.Adts.Model

/-!
# C24: AAC stream headers and decoder configuration
-/

namespace Lms.Adts

open Lms

/-! ## Specification: bit fields -/

/-- The bits of a byte string, most significant first. -/
def bits (d : Bytes) : List Bool := d.flatMap fun b => (List.range 8).map fun i => b.toNat / 2 ^ (7 - i) % 2 == 1

/-- A number of `n` bits from bit `o` on. -/
def field (d : Bytes) (o n : Nat) : Nat := ((bits d).drop o |>.take n).foldl (fun a b => 2 * a + b.toNat) 0

/-- An ADTS header without CRC of an MPEG-4 stream (ISO/IEC 13818-7 table 8): syncword, ID, layer, protection_absent. -/
def ValidHeader (d : Bytes) : Prop :=
  7 ≤ d.length ∧ field d 0 12 = 0xFFF ∧ field d 12 1 = 0 ∧ field d 13 2 = 0 ∧ field d 15 1 = 1

/-- profile, sampling_frequency_index and channel_configuration of a header. -/
def headerProfile (d : Bytes) : Nat := field d 16 2
def headerFreq (d : Bytes) : Nat := field d 18 4
def headerChan (d : Bytes) : Nat := field d 23 3

/-- audioObjectType, samplingFrequencyIndex, channelConfiguration and the rest of an AudioSpecificConfig (14496-3). -/
def readConfig (d : Bytes) : Option (Nat × Nat × Nat × Nat) :=
  if d.length = 2 ∧ field d 0 5 ≠ 31 ∧ field d 5 4 ≠ 15 then
    some (field d 0 5, field d 5 4, field d 9 4, field d 13 3)
  else none

/-! ## Bit fields of single bytes -/

theorem flat_cons (b : UInt8) (d : Bytes) : bits (b :: d) = bits [b] ++ bits d := by simp [bits]

theorem bits_len (b : UInt8) : (bits [b]).length = 8 := by simp [bits]

theorem field_skip (b : UInt8) (d : Bytes) (o n : Nat) : field (b :: d) (8 + o) n = field d o n := by
  unfold field
  rw [flat_cons, ← List.drop_drop, List.drop_left' (bits_len b)]

theorem field_in (b : UInt8) (d : Bytes) (o n : Nat) (h : o + n ≤ 8) : field (b :: d) o n = field [b] o n := by
  unfold field
  rw [flat_cons, List.drop_append_of_le_length (by rw [bits_len]; omega), List.take_append_of_le_length]
  rw [List.length_drop, bits_len]; omega

theorem field_two (a b : UInt8) (d : Bytes) (o n : Nat) (h : o + n ≤ 16) : field (a :: b :: d) o n = field [a, b] o n := by
  have e : bits (a :: b :: d) = bits [a, b] ++ bits d := by simp [bits]
  have hl : (bits [a, b]).length = 16 := by rw [flat_cons, List.length_append, bits_len, bits_len]
  unfold field
  rw [e, List.drop_append_of_le_length (by rw [hl]; omega), List.take_append_of_le_length]
  rw [List.length_drop, hl]; omega

theorem byte_cases (P : UInt8 → Prop) (h : ∀ n : Fin 256, P (UInt8.ofNat n.val)) (b : UInt8) : P b := by
  have := h ⟨b.toNat, b.toNat_lt⟩
  simpa using this

/-- The bytes FF F1 are exactly the start of a valid header. -/
theorem valid_iff (b0 b1 : UInt8) (r : Bytes) (hr : 5 ≤ r.length) :
    ValidHeader (b0 :: b1 :: r) ↔ b0 = 0xFF ∧ b1 = 0xF1 := by
  have h1 : field (b0 :: b1 :: r) 0 12 = b0.toNat * 16 + b1.toNat / 16 := by
    rw [field_two _ _ _ _ _ (by omega)]
    have hsplit : field [b0, b1] 0 12 = field [b0] 0 8 * 16 + field [b1] 0 4 := by
      have : ∀ (x y : List Bool) (a : Nat), (x ++ y).foldl (fun a b => 2 * a + b.toNat) a =
        y.foldl (fun a b => 2 * a + b.toNat) (x.foldl (fun a b => 2 * a + b.toNat) a) := fun x y a => List.foldl_append ..
      simp only [field, bits, List.flatMap_cons, List.flatMap_nil, List.range, List.range.loop, List.map, List.drop, List.take,
        List.append_nil, List.cons_append, List.nil_append, List.foldl]
      omega
    rw [hsplit]
    have e0 : field [b0] 0 8 = b0.toNat := byte_cases (fun b => field [b] 0 8 = b.toNat) (by decide +kernel) b0
    have e1 : field [b1] 0 4 = b1.toNat / 16 := byte_cases (fun b => field [b] 0 4 = b.toNat / 16) (by decide +kernel) b1
    rw [e0, e1]
  have h2 : field (b0 :: b1 :: r) 12 1 = b1.toNat / 8 % 2 := by
    rw [field_skip b0 _ 4 1, field_in _ _ _ _ (by omega)]
    exact byte_cases (fun b => field [b] 4 1 = b.toNat / 8 % 2) (by decide +kernel) b1
  have h3 : field (b0 :: b1 :: r) 13 2 = b1.toNat / 2 % 4 := by
    rw [field_skip b0 _ 5 2, field_in _ _ _ _ (by omega)]
    exact byte_cases (fun b => field [b] 5 2 = b.toNat / 2 % 4) (by decide +kernel) b1
  have h4 : field (b0 :: b1 :: r) 15 1 = b1.toNat % 2 := by
    rw [field_skip b0 _ 7 1, field_in _ _ _ _ (by omega)]
    exact byte_cases (fun b => field [b] 7 1 = b.toNat % 2) (by decide +kernel) b1
  unfold ValidHeader
  rw [h1, h2, h3, h4]
  have l0 := b0.toNat_lt
  have l1 := b1.toNat_lt
  constructor
  · rintro ⟨_, a, b, c, d⟩
    have x0 : b0.toNat = 255 := by omega
    have x1 : b1.toNat = 241 := by omega
    exact ⟨UInt8.toNat_inj.1 x0, UInt8.toNat_inj.1 x1⟩
  · rintro ⟨rfl, rfl⟩
    refine ⟨by simp only [List.length_cons]; omega, ?_⟩
    decide

theorem header_fields (b0 b1 b2 b3 : UInt8) (r : Bytes) :
    headerProfile (b0 :: b1 :: b2 :: b3 :: r) = (profile b2).toNat ∧
    headerFreq (b0 :: b1 :: b2 :: b3 :: r) = (freqIdx b2).toNat ∧
    headerChan (b0 :: b1 :: b2 :: b3 :: r) = 4 * (b2.toNat % 2) + b3.toNat / 64 := by
  refine ⟨?_, ?_, ?_⟩
  · unfold headerProfile
    rw [field_skip b0 _ 8 2, field_skip b1 _ 0 2, field_in _ _ _ _ (by omega)]
    exact byte_cases (fun b => field [b] 0 2 = (profile b).toNat) (by decide +kernel) b2
  · unfold headerFreq
    rw [field_skip b0 _ 10 4, field_skip b1 _ 2 4, field_in _ _ _ _ (by omega)]
    exact byte_cases (fun b => field [b] 2 4 = (freqIdx b).toNat) (by decide +kernel) b2
  · unfold headerChan
    rw [field_skip b0 _ 15 3, field_skip b1 _ 7 3, field_two _ _ _ _ _ (by omega)]
    have hsplit : field [b2, b3] 7 3 = field [b2] 7 1 * 4 + field [b3] 0 2 := by
      simp only [field, bits, List.flatMap_cons, List.flatMap_nil, List.range, List.range.loop, List.map, List.drop, List.take,
        List.append_nil, List.cons_append, List.nil_append, List.foldl]
      omega
    rw [hsplit]
    have e0 : field [b2] 7 1 = b2.toNat % 2 := byte_cases (fun b => field [b] 7 1 = b.toNat % 2) (by decide +kernel) b2
    have e1 : field [b3] 0 2 = b3.toNat / 64 := byte_cases (fun b => field [b] 0 2 = b.toNat / 64) (by decide +kernel) b3
    rw [e0, e1]; omega

theorem chan_of (b2 b3 : UInt8) : (chanConf b2 b3).toNat = (b2.toNat % 2) ||| (b3.toNat / 64) := by
  have e : ∀ b : UInt8, (b >>> 6) &&& 3 = UInt8.ofNat (b.toNat / 64) :=
    byte_cases (fun b => (b >>> 6) &&& 3 = UInt8.ofNat (b.toNat / 64)) (by decide +kernel)
  have e2 : ∀ b : UInt8, b &&& 1 = UInt8.ofNat (b.toNat % 2) :=
    byte_cases (fun b => b &&& 1 = UInt8.ofNat (b.toNat % 2)) (by decide +kernel)
  unfold chanConf
  rw [e, e2]
  have l := b3.toNat_lt
  have key : ∀ (x : Fin 2) (y : Fin 4), (UInt8.ofNat x.val ||| UInt8.ofNat y.val).toNat = x.val ||| y.val := by
    decide +kernel
  exact key ⟨b2.toNat % 2, by omega⟩ ⟨b3.toNat / 64, by omega⟩

theorem config_fields : ∀ (p : Fin 4) (i : Fin 16) (c : Fin 4),
    (fun d => (field d 0 5, field d 5 4, field d 9 4, field d 13 3))
      (configBytes (UInt8.ofNat p.val + 1) (UInt8.ofNat i.val) (UInt8.ofNat c.val)) = (p.val + 1, i.val, c.val, 0) := by
  decide +kernel

/-! ## C24 -/

/-- What the configuration says about the channels. -/
def codedChan (d : Bytes) : Nat := (headerChan d / 4) ||| (headerChan d % 4)

theorem read_config (b0 b1 b2 b3 : UInt8) (r : Bytes) (hf : headerFreq (b0 :: b1 :: b2 :: b3 :: r) ≠ 15) :
    readConfig (configBytes (profile b2 + 1) (freqIdx b2) (chanConf b2 b3)) =
      some (headerProfile (b0 :: b1 :: b2 :: b3 :: r) + 1, headerFreq (b0 :: b1 :: b2 :: b3 :: r),
        codedChan (b0 :: b1 :: b2 :: b3 :: r), 0) := by
  obtain ⟨h1, h2, h3⟩ := header_fields b0 b1 b2 b3 r
  have hc := chan_of b2 b3
  have l3 := b3.toNat_lt
  have hlp : (profile b2).toNat < 4 := byte_cases (fun b => (profile b).toNat < 4) (by decide +kernel) b2
  have hli : (freqIdx b2).toNat < 16 := byte_cases (fun b => (freqIdx b).toNat < 16) (by decide +kernel) b2
  have hlc : (chanConf b2 b3).toNat < 4 := by
    rw [hc]
    exact Nat.or_lt_two_pow (n := 2) (by omega) (by omega)
  have hcc : codedChan (b0 :: b1 :: b2 :: b3 :: r) = (chanConf b2 b3).toNat := by
    unfold codedChan
    rw [h3, hc]
    congr 1
    · omega
    · omega
  have := config_fields ⟨_, hlp⟩ ⟨_, hli⟩ ⟨_, hlc⟩
  simp only [UInt8.ofNat_toNat] at this
  obtain ⟨f1, f2⟩ := Prod.mk.inj this
  obtain ⟨f2, f3⟩ := Prod.mk.inj f2
  obtain ⟨f3, f4⟩ := Prod.mk.inj f3
  unfold readConfig
  rw [f1, f2, f3, f4, h1, h2, hcc, if_pos ⟨rfl, by omega, by rw [h2] at hf; exact hf⟩]

/-- Reachable states: the configuration held, if any, is that of the fields held. -/
def Inv (s : State) : Prop := s.extra = [] ∨ s.extra = configBytes (s.prof + 1) s.idx s.chan

/-- Operations on the configuration. -/
inductive Op where
  | frame (d : Bytes)
  | init

def step (s : State) : Op → State × Option Bytes
  | .frame d => ((update s d).1, none)
  | .init => takeInit s

theorem step_inv (s : State) (op : Op) (h : Inv s) : Inv (step s op).1 := by
  cases op with
  | init =>
    show Inv (takeInit s).1
    unfold takeInit
    split
    · exact h
    · exact .inl rfl
  | frame d =>
    show Inv (update s d).1
    unfold update
    split
    · split
      · exact h
      · split
        · exact h
        · exact .inr rfl
    · exact h

theorem run_inv (ops : List Op) (s : State) (h : Inv s) : Inv (runSpec step s ops).1 := by
  induction ops generalizing s with
  | nil => exact h
  | cons op ops ih => exact ih _ (step_inv s op h)

/-- **C24.**  After any history of frames and initialisation segments (starting with no configuration, whatever the
uninitialised fields hold), a frame is accepted exactly if it starts with a valid header, and then the configuration held
states the header's object type and rate index, and the header's channel configuration exactly if that is below 4. -/
theorem config_of_header (s : State) (hs : s.extra = []) (ops : List Op) (d : Bytes) :
    ((update (runSpec step s ops).1 d).2 = true ↔ ValidHeader d) ∧
    (ValidHeader d → headerFreq d ≠ 15 →
      ∃ c, readConfig (update (runSpec step s ops).1 d).1.extra = some (headerProfile d + 1, headerFreq d, c, 0) ∧
        (c = headerChan d ↔ headerChan d < 4)) := by
  have hi := run_inv ops s (.inl hs)
  obtain ⟨t, ht⟩ : ∃ t, (runSpec step s ops).1 = t := ⟨_, rfl⟩
  rw [ht] at hi ⊢
  match d with
  | b0 :: b1 :: b2 :: b3 :: b4 :: b5 :: b6 :: r =>
    have hv := valid_iff b0 b1 (b2 :: b3 :: b4 :: b5 :: b6 :: r) (by simp only [List.length_cons]; omega)
    have hch : ∃ c, c = codedChan (b0 :: b1 :: b2 :: b3 :: b4 :: b5 :: b6 :: r) ∧
        (c = headerChan (b0 :: b1 :: b2 :: b3 :: b4 :: b5 :: b6 :: r) ↔
          headerChan (b0 :: b1 :: b2 :: b3 :: b4 :: b5 :: b6 :: r) < 4) := by
      refine ⟨_, rfl, ?_⟩
      have key : ∀ x : Fin 8, (x.val / 4 ||| x.val % 4) = x.val ↔ x.val < 4 := by decide +kernel
      exact key ⟨headerChan (b0 :: b1 :: b2 :: b3 :: b4 :: b5 :: b6 :: r), by
          rw [(header_fields _ _ _ _ _).2.2]; have := b3.toNat_lt; omega⟩
    constructor
    · rw [hv]
      simp only [update]
      split
      · rename_i hne
        refine ⟨fun h => Bool.noConfusion h, fun h => ?_⟩
        rcases hne with h1 | h1
        · exact absurd h.1 h1
        · exact absurd h.2 h1
      · rename_i hne
        have hb : b0 = 0xFF ∧ b1 = 0xF1 := ⟨Decidable.byContradiction fun h => hne (.inl h),
          Decidable.byContradiction fun h => hne (.inr h)⟩
        refine ⟨fun _ => hb, fun _ => ?_⟩
        split <;> rfl
    · intro hval hf
      obtain ⟨c, hc1, hc2⟩ := hch
      obtain ⟨e0, e1⟩ := hv.1 hval
      refine ⟨c, ?_, hc2⟩
      rw [hc1, ← read_config b0 b1 b2 b3 _ hf]
      congr 1
      simp only [update]
      rw [if_neg (by rintro (h | h) <;> contradiction)]
      split
      · rename_i hsame
        obtain ⟨a1, a2, a3, a4⟩ := hsame
        rw [← a1, ← a2, ← a3]
        exact hi.resolve_left a4
      · rfl
  | [] | [_] | [_, _] | [_, _, _] | [_, _, _, _] | [_, _, _, _, _] | [_, _, _, _, _, _] =>
    refine ⟨⟨fun h => Bool.noConfusion h, fun h => ?_⟩, fun h => ?_⟩
    · exact absurd h.1 (by simp)
    · exact absurd h.1 (by simp)

/-- Recorded exception: a 5.1 stream (channel configuration 6) is announced as configuration 3. -/
theorem surround_is_misannounced :
    ValidHeader [0xFF, 0xF1, 0x4D, 0x80, 0, 0x1F, 0xFC] ∧ headerChan [0xFF, 0xF1, 0x4D, 0x80, 0, 0x1F, 0xFC] = 6 ∧
    readConfig (update ⟨0, 0, 0, []⟩ [0xFF, 0xF1, 0x4D, 0x80, 0, 0x1F, 0xFC]).1.extra = some (2, 3, 3, 0) := by
  unfold ValidHeader
  decide +kernel

/-- The sample without header: for an accepted frame its true bytes. -/
theorem sample_without_header (s : State) (d : Bytes) (h : (update s d).2 = true) (hl : d.length < 2 ^ 32) :
    d = d.take 7 ++ (samplePart d).1 ∧ (samplePart d).2 = (samplePart d).1.length := by
  have h7 : 7 ≤ d.length := by
    unfold update at h
    split at h
    · simp only [List.length_cons]; omega
    · exact absurd h (by simp)
  refine ⟨(List.take_append_drop 7 d).symm, ?_⟩
  show (d.length + 2 ^ 32 - 7) % 2 ^ 32 = (d.drop 7).length
  rw [List.length_drop]
  omega

/-- Recorded: the configuration is forgotten with every initialisation segment, so every further accepted frame leads to
a new one. -/
theorem init_segment_every_frame (s : State) (d : Bytes) (h : (update s d).2 = true) :
    ∃ x, (takeInit (update s d).1).2 = some x ∧ (takeInit (takeInit (update s d).1).1).2 = none ∧
      (update (takeInit (update s d).1).1 d).1.extra ≠ [] := by
  have hne : ∀ t : State, (update t d).2 = true → (update t d).1.extra ≠ [] := by
    intro t ht
    unfold update at ht ⊢
    split
    · split
      · rename_i h1; simp only [h1] at ht; simp at ht
      · split
        · rename_i h2; exact h2.2.2.2
        · simp [configBytes]
    · simp at ht
  have hacc : ∀ t : State, (update t d).2 = true := by
    intro t
    unfold update at h ⊢
    split
    · split
      · rename_i h1; simp only [h1] at h; simp at h
      · split <;> rfl
    · simp at h
  refine ⟨(update s d).1.extra, ?_, ?_, hne _ (hacc _)⟩
  · unfold takeInit; rw [if_neg (hne s h)]
  · unfold takeInit; rw [if_neg (hne s h)]; rfl

/-- Recorded finding: the RTP path writes the five characters of the configuration into an array of two: undefined
behaviour for every valid header (and for no other frame). -/
theorem config_string_overflows (d : Bytes) : updateConfig CONFIG_CAP d = .ub ↔ ValidHeader d := by
  match d with
  | b0 :: b1 :: b2 :: b3 :: b4 :: b5 :: b6 :: r =>
    rw [valid_iff b0 b1 (b2 :: b3 :: b4 :: b5 :: b6 :: r) (by simp only [List.length_cons]; omega)]
    simp only [updateConfig, configBytes]
    by_cases h : b0 = 0xFF ∧ b1 = 0xF1
    · rw [if_neg (fun e => e.elim (fun e => e h.1) (fun e => e h.2))]
      simp [h, hexText, CONFIG_CAP]
    · rw [if_pos (Decidable.byCases (p := b0 = 0xFF) (fun h1 => .inr (fun e => h ⟨h1, e⟩)) (fun h1 => .inl h1))]
      simp [h]
  | [] | [_] | [_, _] | [_, _, _] | [_, _, _, _] | [_, _, _, _, _] | [_, _, _, _, _, _] =>
    simp [updateConfig, ValidHeader]

/-- Value of a hexadecimal digit. -/
def hexValue (c : UInt8) : Option Nat :=
  let n := c.toNat
  if 48 ≤ n ∧ n ≤ 57 then some (n - 48) else if 65 ≤ n ∧ n ≤ 70 then some (n - 55)
  else if 97 ≤ n ∧ n ≤ 102 then some (n - 87) else none

/-- With room for five characters the text would be the two configuration bytes in hexadecimal. -/
theorem hex_text_reads_back (a b : UInt8) :
    ∃ p q r s, hexText a b = [p, q, r, s, 0] ∧ hexValue p = some (a.toNat / 16) ∧ hexValue q = some (a.toNat % 16) ∧
      hexValue r = some (b.toNat / 16) ∧ hexValue s = some (b.toNat % 16) := by
  have key : ∀ (u : Bool) (n : Nat), n < 16 → hexValue (hexDigit u n) = some n := by
    intro u n h
    have key : ∀ (u : Bool) (x : Fin 16), hexValue (hexDigit u x.val) = some x.val := by decide +kernel
    exact key u ⟨n, h⟩
  have ha := a.toNat_lt
  have hb := b.toNat_lt
  exact ⟨_, _, _, _, rfl, key _ _ (by omega), key _ _ (by omega), key _ _ (by omega), key _ _ (by omega)⟩

/-- A stereo header at 48 kHz. -/
example : ValidHeader [0xFF, 0xF1, 0x4C, 0x80, 0x01, 0x1F, 0xFC, 1, 2] ∧
    readConfig (update ⟨9, 9, 9, []⟩ [0xFF, 0xF1, 0x4C, 0x80, 0x01, 0x1F, 0xFC, 1, 2]).1.extra = some (2, 3, 2, 0) := by
  unfold ValidHeader
  decide +kernel

end Lms.Adts
