import Verif.Nalu.Spec

/-!
# C22, C23: length-prefixed samples and decoder configuration records
-/

namespace Lms.Nalu

/-! ## C22 -/

theorem readUnits_prefixed (fuel : Nat) (d r : Bytes) (h : d.length < 2 ^ 32) :
    readUnits (fuel + 1) (be32 d.length ++ d ++ r) = (readUnits fuel r).map (d :: ·) := by
  have hl : (be32 d.length ++ d ++ r).length = 4 + d.length + r.length := by
    simp only [List.length_append, be32_length]
  have hne : ¬ be32 d.length ++ d ++ r = [] := by
    intro e
    have := congrArg List.length e
    rw [hl] at this
    simp at this
  have ht : (be32 d.length ++ d ++ r).take 4 = be32 d.length := by
    rw [List.append_assoc]; exact take_append_self _ _ 4 rfl
  have hd : (be32 d.length ++ d ++ r).drop 4 = d ++ r := by
    rw [List.append_assoc]; exact drop_append_self _ _ 4 rfl
  simp only [readUnits]
  rw [if_neg hne, if_neg (by omega), ht, hd, rd_be32, Nat.mod_eq_of_lt h, if_neg (by rw [List.length_append]; omega),
    take_append_self d r _ rfl, drop_append_self d r _ rfl]

/-- The bytes of a sample made of some units. -/
def sample (us : List Bytes) : Bytes := (us.map fun u => be32 u.length ++ u).flatten

theorem sample_append (us : List Bytes) (u : Bytes) : sample (us ++ [u]) = sample us ++ be32 u.length ++ u := by
  simp [sample]

theorem units_sample (us : List Bytes) (h : ∀ u ∈ us, u.length < 2 ^ 32) : units (sample us) = some us := by
  have key : ∀ (us : List Bytes) (fuel : Nat), (∀ u ∈ us, u.length < 2 ^ 32) → (sample us).length < fuel →
      readUnits fuel (sample us) = some us := by
    intro us
    induction us with
    | nil =>
      intro fuel _ hf
      cases fuel with
      | zero => simp at hf
      | succ n => simp [readUnits, sample]
    | cons u us ih =>
      intro fuel hu hf
      have e : sample (u :: us) = be32 u.length ++ u ++ sample us := by simp [sample]
      rw [e] at hf ⊢
      simp only [List.length_append, be32_length] at hf
      cases fuel with
      | zero => simp at hf
      | succ n =>
        rw [readUnits_prefixed _ _ _ (hu u (by simp)), ih n (fun x hx => hu x (List.mem_cons_of_mem _ hx)) (by omega)]
        rfl
  exact key us _ h (by omega)

theorem four_bytes_are_one (a b c d : Nat) : a * 2 ^ 24 + b * 2 ^ 16 + c * 2 ^ 8 + d = 1 ↔ a = 0 ∧ b = 0 ∧ c = 0 ∧ d = 1 := by
  constructor
  · intro h
    have ha : a = 0 := by omega
    subst ha
    have hb : b = 0 := by omega
    subst hb
    omega
  · rintro ⟨rfl, rfl, rfl, rfl⟩; rfl

/-- **C22 (start codes).**  Detecting a start code and skipping it leaves exactly what a start-code parser
leaves: three or four bytes are removed, or nothing. -/
theorem start_code_removed (b : Bytes) (h : 4 ≤ b.length) : ∃ n, detectStartCode b = .ok n ∧ b.drop n = strip b := by
  match b, h with
  | b0 :: b1 :: b2 :: b3 :: r, _ =>
    have h0 := b0.toNat_lt
    have h1 := b1.toNat_lt
    have h2 := b2.toNat_lt
    have h3 := b3.toNat_lt
    have e : ∀ (x : UInt8) (k : UInt8), x = k ↔ x.toNat = k.toNat := fun x k =>
      ⟨fun h => by rw [h], fun h => UInt8.toNat_inj.1 h⟩
    have t0 : (0 : UInt8).toNat = 0 := rfl
    have t1 : (1 : UInt8).toNat = 1 := rfl
    have i1 : b0.toNat * 2 ^ 16 + b1.toNat * 2 ^ 8 + b2.toNat = 1 ↔ (b0 = 0 ∧ b1 = 0 ∧ b2 = 1) := by
      rw [e, e, e, t0, t1]; omega
    have i2 : b0.toNat * 2 ^ 24 + b1.toNat * 2 ^ 16 + b2.toNat * 2 ^ 8 + b3.toNat = 1 ↔
        (b0 = 0 ∧ b1 = 0 ∧ b2 = 0 ∧ b3 = 1) := by
      rw [e, e, e, e, t0, t1]; exact four_bytes_are_one _ _ _ _
    simp only [detectStartCode, strip, List.take_succ_cons, List.take_zero, List.cons.injEq, and_true, i1, i2]
    by_cases c1 : b0 = 0 ∧ b1 = 0 ∧ b2 = 1
    · exact ⟨3, by rw [if_pos c1], by rw [if_pos c1]⟩
    · by_cases c2 : b0 = 0 ∧ b1 = 0 ∧ b2 = 0 ∧ b3 = 1
      · exact ⟨4, by rw [if_neg c1, if_pos c2], by rw [if_neg c1, if_pos c2]⟩
      · exact ⟨0, by rw [if_neg c1, if_neg c2], by rw [if_neg c1, if_neg c2]; rfl⟩

/-- Append several units, each whole in its source. -/
def appendAll (max : Nat) (f : Fr) : List (Bytes × Nal) → Outcome (Fr × List Bool)
  | [] => .ok (f, [])
  | (u, nal) :: l =>
    (appendNal max f u u.length nal).bind fun r =>
      (appendAll max r.1 l).bind fun q => Outcome.ok (q.1, r.2 :: q.2)

/-- The units that fit, and which those are. -/
def fitting (max : Nat) : Nat → List Bytes → List Bytes × List Bool
  | _, [] => ([], [])
  | used, u :: us =>
    if used + 4 + u.length ≤ max then
      (u :: (fitting max (used + 4 + u.length) us).1, true :: (fitting max (used + 4 + u.length) us).2)
    else ((fitting max used us).1, false :: (fitting max used us).2)

/-- **C22.**  Append any units (with a frame limit that leaves 32-bit sums room) to a sample; the reader of
length-prefixed samples finds exactly those that fitted, in order, after those already there; the others were refused. -/
theorem appended_units_read_back (max : Nat) (l : List (Bytes × Nal)) (f : Fr) (us : List Bytes)
    (hf : f.data = sample us) (hus : ∀ u ∈ us, u.length < 2 ^ 32) (hl : f.data.length ≤ max)
    (hmax : ∀ p ∈ l, max + 4 + p.1.length < 2 ^ 32) :
    ∃ f', appendAll max f l = .ok (f', (fitting max f.data.length (l.map Prod.fst)).2) ∧
      units f'.data = some (us ++ (fitting max f.data.length (l.map Prod.fst)).1) ∧ f'.data.length ≤ max := by
  induction l generalizing f us with
  | nil => exact ⟨f, rfl, by simp only [List.map_nil, fitting, List.append_nil, hf]; exact units_sample us hus, hl⟩
  | cons p l ih =>
    obtain ⟨u, nal⟩ := p
    have hm := hmax (u, nal) (by simp)
    simp only at hm
    simp only [appendAll, List.map_cons, fitting]
    have hw : (f.data.length + u.length + 4) % 2 ^ 32 = f.data.length + u.length + 4 := Nat.mod_eq_of_lt (by omega)
    by_cases c : f.data.length + 4 + u.length ≤ max
    · have ha : appendNal max f u u.length nal =
          .ok (⟨f.data ++ be32 u.length ++ u, nal.pts, nal.dts, nal.width, nal.height⟩, true) := by
        simp only [appendNal, hw]
        rw [if_neg (by omega), if_neg (by omega), List.take_length]
      have hlen : (f.data ++ be32 u.length ++ u).length = f.data.length + 4 + u.length := by
        simp only [List.length_append, be32_length]
      rw [if_pos c, ha]
      obtain ⟨f', h1, h2, h3⟩ := ih ⟨f.data ++ be32 u.length ++ u, nal.pts, nal.dts, nal.width, nal.height⟩ (us ++ [u])
        (by rw [sample_append, hf]) (by
          intro x hx
          rcases List.mem_append.1 hx with h | h
          · exact hus x h
          · simp at h; rw [h]; omega) (by rw [hlen]; exact c)
        (fun p hp => hmax p (List.mem_cons_of_mem _ hp))
      simp only [hlen] at h1 h2
      refine ⟨f', ?_, ?_, h3⟩
      · simp only [Outcome.bind_ok, h1]
      · rw [h2]; simp
    · have ha : appendNal max f u u.length nal = .ok (f, false) := by
        simp only [appendNal, hw]
        rw [if_pos (by omega)]
      rw [if_neg c, ha]
      obtain ⟨f', h1, h2, h3⟩ := ih f us hf hus hl (fun p hp => hmax p (List.mem_cons_of_mem _ hp))
      refine ⟨f', ?_, h2, h3⟩
      simp only [Outcome.bind_ok, h1]

/-- Two units in a sample limited to 12 bytes: the second does not fit, the third does. -/
example :
    let nal : Nal := ⟨[], 0, 0, 0, 0, 0⟩
    (match appendAll 12 ⟨[], 0, 0, 0, 0⟩ [([0x65, 1], nal), ([0x65, 2, 3], nal), ([0x65], nal)] with
      | .ok r => (units r.1.data, r.2)
      | _ => (none, [])) = (some [[0x65, 1], [0x65]], [true, false, true]) := by decide +kernel

/-- **C22 (recorded exception).**  The size check is in 32 bits: a unit of close to `2^32` bytes passes it,
whatever the limit, and the copy is undefined.  Such a length arises from a received unit shorter than the
start code the buffer holds (`short_unit_is_ub`). -/
theorem huge_unit_passes_the_check (max : Nat) (f : Fr) (src : Bytes) (nal : Nal) (n : Nat) (hmax : max < 2 ^ 31)
    (hn : n < 2 ^ 32) (hl : f.data.length + 3 ≤ max) (h : 2 ^ 32 ≤ f.data.length + n + 4) :
    appendNal max f src n nal = .ub := by
  simp only [appendNal]
  rw [if_neg (by omega), if_pos (.inl (by omega))]

/-- **C22 (recorded exception).**  An AVC unit of three zero bytes in a buffer that holds a 1 after them. -/
theorem short_unit_is_ub :
    (match parseNal ⟨.avc, 1000, ⟨[], 0, 0, 0, 0⟩, ⟨[], 0, 0, 0, 0⟩, false, false, [], [], [], []⟩ ⟨[0, 0, 0, 1, 0x65, 0], 3, 0, 0, 0, 0⟩ with
      | .ub => true
      | _ => false) = true := by decide +kernel

/-! ## C23 -/

theorem readSets_one (d r : Bytes) (h : d.length < 2 ^ 16) :
    readSets 1 (be16 d.length ++ (d ++ r)) = some ([d], r) := by
  have hl : (be16 d.length ++ (d ++ r)).length = 2 + d.length + r.length := by
    simp only [List.length_append, be16_length]; omega
  simp only [readSets]
  rw [if_neg (by omega), take_append_self _ _ 2 rfl, drop_append_self _ _ 2 rfl, rd_be16, Nat.mod_eq_of_lt h,
    if_neg (by rw [List.length_append]; omega), take_append_self d r _ rfl, drop_append_self d r _ rfl]
  rfl

/-- **C23 (AVC).**  The configuration record, read by the format's rules, yields the two parameter sets and a
NAL length size of 4.  Its profile, compatibility and level are the first three bytes of the stored set. -/
theorem avc_record_reads_back (sps pps : Bytes) (h3 : 3 ≤ sps.length) (hs : sps.length < 2 ^ 16) (hp : pps.length < 2 ^ 16) :
    ∃ x b0 b1 b2 r, avcExtra sps pps = .ok x ∧ sps = b0 :: b1 :: b2 :: r ∧
      readAvcC x = some ⟨b0, b1, b2, 4, [sps], [pps]⟩ := by
  match sps, h3 with
  | b0 :: b1 :: b2 :: r, _ =>
    obtain ⟨sps, hsps⟩ : ∃ sps, b0 :: b1 :: b2 :: r = sps := ⟨_, rfl⟩
    have hnot : ¬ sps.length < 3 := by rw [← hsps]; simp
    have ht : sps.take 3 = [b0, b1, b2] := by rw [← hsps]; rfl
    refine ⟨[1] ++ [b0, b1, b2] ++ [0xFC + 3] ++ [0xE0 + 1] ++ be16 sps.length ++ sps ++ [1] ++ be16 pps.length ++ pps,
      b0, b1, b2, r, ?_, rfl, ?_⟩
    · rw [hsps]
      simp only [avcExtra]
      rw [if_neg hnot, ht]
    · rw [hsps] at hs ⊢
      have e : [1] ++ [b0, b1, b2] ++ [0xFC + 3] ++ [0xE0 + 1] ++ be16 sps.length ++ sps ++ [1] ++ be16 pps.length ++ pps =
          1 :: b0 :: b1 :: b2 :: 0xFF :: 0xE1 :: (be16 sps.length ++ (sps ++ (1 :: (be16 pps.length ++ (pps ++ []))))) := by
        simp [List.append_assoc]
      rw [e]
      have e2 : (0xE1 : UInt8).toNat % 32 = 1 := rfl
      have e3 : (1 : UInt8).toNat = 1 := rfl
      simp only [readAvcC, e2, readSets_one sps _ hs, e3, readSets_one pps _ hp]
      rfl

/-- **C23 (recorded exception).**  A stored parameter set begins with its NAL header, so the profile in the
record is that header and the level is the constraint byte: for a Baseline set at level 3.0 the record says profile
103 and level 0. -/
theorem avc_record_profile_is_nal_header :
    (match avcExtra [0x67, 66, 0, 30] [0x68, 1] with
      | .ok x => (readAvcC x).map fun r => (r.profile, r.level)
      | _ => none) = some (0x67, 0) := by decide +kernel

/-- The profile in the record is right only for a set whose profile byte is 0x67 = 103, the NAL header itself. -/
theorem avc_record_profile_wrong (p c l : UInt8) (r pps : Bytes) (hs : (0x67 :: p :: c :: l :: r).length < 2 ^ 16)
    (hp : pps.length < 2 ^ 16) (h : p ≠ 0x67) :
    ∃ x rec, avcExtra (0x67 :: p :: c :: l :: r) pps = .ok x ∧ readAvcC x = some rec ∧ rec.profile ≠ p := by
  obtain ⟨x, b0, b1, b2, r', h1, h2, h3⟩ := avc_record_reads_back (0x67 :: p :: c :: l :: r) pps
    (by simp only [List.length_cons]; omega) hs hp
  refine ⟨x, _, h1, h3, ?_⟩
  simp only [List.cons.injEq] at h2
  simp only
  rw [← h2.1]
  exact fun e => h e.symm

/-- **C23 (short set).**  A stored SPS of fewer than three bytes is read past its end. -/
theorem short_sps_is_ub (sps pps : Bytes) : avcExtra sps pps = .ub ↔ sps.length < 3 := by
  unfold avcExtra; split <;> simp_all

/-- **C23 (HEVC).**  The configuration record yields the three parameter sets, each in its array, and a NAL length
size of 4.  Profile and level are constants: Main profile, level 3.1 (93), whatever the stream says. -/
theorem hevc_record_reads_back (vps sps pps : Bytes) (hv : vps.length < 2 ^ 16) (hs : sps.length < 2 ^ 16)
    (hp : pps.length < 2 ^ 16) :
    readHvcC (hevcExtra vps sps pps) =
      some ⟨[1, 0x60, 0, 0, 0, 0x90, 0, 0, 0, 0, 0], 93, 4, [(32, [vps]), (33, [sps]), (34, [pps])]⟩ := by
  have e : hevcExtra vps sps pps =
      [1, 1, 0x60, 0, 0, 0, 0x90, 0, 0, 0, 0, 0, 0x5D, 0xF0, 0, 0xFC, 0xF9, 0xF8, 0xF8, 0, 0, 0x0F, 3] ++
      (32 :: 0 :: 1 :: (be16 vps.length ++ (vps ++ (33 :: 0 :: 1 :: (be16 sps.length ++ (sps ++
        (34 :: 0 :: 1 :: (be16 pps.length ++ (pps ++ []))))))))) := by
    have : be16 1 = [0, 1] := rfl
    simp [hevcExtra, this]
  rw [e]
  have en : rdBE [0, 1] = 1 := rfl
  have hn : ((3 : UInt8).toNat) = 3 := rfl
  have harr : readArrays 3 (32 :: 0 :: 1 :: (be16 vps.length ++ (vps ++ (33 :: 0 :: 1 :: (be16 sps.length ++ (sps ++
      (34 :: 0 :: 1 :: (be16 pps.length ++ (pps ++ []))))))))) = some ([(32, [vps]), (33, [sps]), (34, [pps])], []) := by
    simp only [readArrays, en, readSets_one _ _ hv, readSets_one _ _ hs, readSets_one _ _ hp]
    rfl
  obtain ⟨tail, htail⟩ : ∃ t, t = (32 :: 0 :: 1 :: (be16 vps.length ++ (vps ++ (33 :: 0 :: 1 :: (be16 sps.length ++ (sps ++
      (34 :: 0 :: 1 :: (be16 pps.length ++ (pps ++ []))))))))) := ⟨_, rfl⟩
  rw [← htail] at harr ⊢
  have hlen : ¬ ([1, 1, 0x60, 0, 0, 0, 0x90, 0, 0, 0, 0, 0, 0x5D, 0xF0, 0, 0xFC, 0xF9, 0xF8, 0xF8, 0, 0, 0x0F, 3] ++ tail :
      Bytes).length < 23 := by
    rw [List.length_append]
    simp only [List.length_cons, List.length_nil]
    omega
  unfold readHvcC
  rw [if_neg (fun h => h.elim hlen (fun h => h rfl))]
  show (match readArrays 3 tail with | some (a, []) => _ | _ => none) = _
  rw [harr]
  simp

/-- Parameter sets of both codecs. -/
example : (match avcExtra [0x67, 100, 0, 31, 9] [0x68, 7] with | .ok x => readAvcC x | _ => none) =
    some ⟨0x67, 100, 0, 4, [[0x67, 100, 0, 31, 9]], [[0x68, 7]]⟩ := by decide +kernel

example : (readHvcC (hevcExtra [0x40, 1] [0x42, 1, 2] [0x44])).map HvcC.arrays =
    some [(32, [[0x40, 1]]), (33, [[0x42, 1, 2]]), (34, [[0x44]])] := by decide +kernel

end Lms.Nalu
