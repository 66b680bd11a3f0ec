import Verif.SharedMem.Model

/-!
# C36: what the peer of the shared memory area reads
-/

namespace Lms.SharedMem

open Lms.Names (VCodec PixType)

/-! ## Specification -/

/-- The unsigned number in `n` bytes of memory, least significant first. -/
def field (m : Nat → UInt8) (off : Nat) : Nat → Nat
  | 0 => 0
  | n + 1 => (m off).toNat + 256 * field m (off + 1) n

/-- The area shows a picture: header fields and bytes. -/
structure Shows (m : Nat → UInt8) (o : Offer) : Prop where
  ready : m 0 = READING
  seq : field m 2 2 = o.frame.seq % 65536
  pix : pixOfCode (field m 4 2) = o.frame.pix
  codec : (o.frame.codec = some .h264 ∧ field m 6 2 = 1) ∨ (o.frame.codec = some .raw ∧ field m 6 2 = 4)
  height : 0 ≤ o.frame.h → o.frame.h < 65536 → (field m 8 2 : Int) = o.frame.h
  width : 0 ≤ o.frame.w → o.frame.w < 65536 → (field m 10 2 : Int) = o.frame.w
  time : 0 ≤ o.frame.pts → o.frame.pts < 4294967296 * 1000000 →
    (field m 12 4 : Int) * 1000000 + field m 16 4 = o.frame.pts ∧ field m 16 4 < 1000000
  length : field m 20 4 = o.data.length
  bytes : ∀ i, i < o.data.length → some (m (24 + i)) = o.data[i]?

/-! ## Writing -/

def applyAll (m : Nat → UInt8) : List (Nat × UInt8) → (Nat → UInt8)
  | [] => m
  | w :: l => applyAll (set m w) l

theorem applyAll_append (a b : List (Nat × UInt8)) (m : Nat → UInt8) : applyAll m (a ++ b) = applyAll (applyAll m a) b := by
  induction a generalizing m with
  | nil => rfl
  | cons w a ih => exact ih _

theorem applyAll_blk (bs : Bytes) : ∀ (off : Nat) (m : Nat → UInt8) (i : Nat),
    applyAll m (blk off bs) i = if off ≤ i then (bs[i - off]?).getD (m i) else m i := by
  induction bs with
  | nil => intro off m i; simp [blk, applyAll]
  | cons b bs ih =>
    intro off m i
    rw [blk, applyAll, ih]
    by_cases h1 : off + 1 ≤ i
    · rw [if_pos h1, if_pos (by omega)]
      have : i - off = (i - (off + 1)) + 1 := by omega
      rw [this, List.getElem?_cons_succ]
      unfold set
      rw [if_neg (by simp only; omega)]
    · rw [if_neg h1]
      by_cases h2 : off ≤ i
      · have : i = off := by omega
        subst this
        simp [set]
      · rw [if_neg h2]; unfold set; rw [if_neg (by simp only; omega)]

/-- Nothing hands the area over. -/
def Quiet (l : List (Nat × UInt8)) : Prop := ∀ w ∈ l, w.1 = 0 → w.2 = WRITING

theorem mem_blk (bs : Bytes) : ∀ (off : Nat) (w : Nat × UInt8), w ∈ blk off bs → off ≤ w.1 := by
  induction bs with
  | nil => intro off w h; exact absurd h (by simp [blk])
  | cons b bs ih =>
    intro off w h
    rw [blk, List.mem_cons] at h
    rcases h with rfl | h
    · exact Nat.le_refl _
    · have := ih _ _ h; omega

theorem quiet_blk (off : Nat) (bs : Bytes) (h : 0 < off) : Quiet (blk off bs) := by
  intro w hw h0
  have := mem_blk bs off w hw
  omega

theorem Quiet.append {a b : List (Nat × UInt8)} (ha : Quiet a) (hb : Quiet b) : Quiet (a ++ b) := by
  intro w hw
  rw [List.mem_append] at hw
  rcases hw with h | h
  · exact ha w h
  · exact hb w h

theorem quiet_header (f : Frame) : Quiet (header f) := by
  unfold header
  repeat' (apply Quiet.append)
  all_goals (exact quiet_blk _ _ (by omega))

theorem quiet_apply (l : List (Nat × UInt8)) (hq : Quiet l) (m : Nat → UInt8) (h : m 0 = WRITING) : applyAll m l 0 = WRITING := by
  induction l generalizing m with
  | nil => exact h
  | cons w l ih =>
    rw [applyAll]
    apply ih (fun x hx => hq x (List.mem_cons_of_mem _ hx))
    unfold set
    split
    · rename_i h0; exact hq w (by simp) h0.symm
    · exact h

theorem toNat_ofNat (n : Nat) : (UInt8.ofNat n).toNat = n % 256 := by simp [UInt8.toNat_ofNat]

theorem field_16 (m : Nat → UInt8) (off n : Nat) (h0 : m off = UInt8.ofNat n) (h1 : m (off + 1) = UInt8.ofNat (n / 2 ^ 8)) :
    field m off 2 = n % 65536 := by
  simp only [field, h0, h1, toNat_ofNat]; omega

theorem field_32 (m : Nat → UInt8) (off n : Nat) (h0 : m off = UInt8.ofNat n) (h1 : m (off + 1) = UInt8.ofNat (n / 2 ^ 8))
    (h2 : m (off + 2) = UInt8.ofNat (n / 2 ^ 16)) (h3 : m (off + 3) = UInt8.ofNat (n / 2 ^ 24)) :
    field m off 4 = n % 4294967296 := by
  simp only [field, Nat.add_assoc, h0, h1, h2, h3, toNat_ofNat]; omega

/-- The header, as memory shows it. -/
structure HasHeader (m : Nat → UInt8) (f : Frame) (len : Nat) : Prop where
  seq : field m 2 2 = (f.seq % 2 ^ 16) % 65536
  pix : field m 4 2 = pixCode f.pix % 65536
  codec : field m 6 2 = codecCode f.codec % 65536
  height : field m 8 2 = (f.h % 2 ^ 16).toNat % 65536
  width : field m 10 2 = (f.w % 2 ^ 16).toNat % 65536
  sec : field m 12 4 = ((f.pts.tdiv 1000000) % 2 ^ 32).toNat % 4294967296
  usec : field m 16 4 = ((f.pts.tmod 1000000) % 2 ^ 32).toNat % 4294967296
  len : field m 20 4 = len % 4294967296

def hdr (a b c d e g k n : Nat) : List (Nat × UInt8) :=
  blk 2 (le16 a) ++ blk 4 (le16 b) ++ blk 6 (le16 c) ++ blk 8 (le16 d) ++ blk 10 (le16 e) ++
  blk 12 (le32 g) ++ blk 16 (le32 k) ++ blk 20 (le32 n)

theorem hdr_at (m : Nat → UInt8) (a b c d e g k n i : Nat) (h : 2 ≤ i) (h' : i < 24) :
    some (applyAll m (hdr a b c d e g k n) i) =
      (le16 a ++ le16 b ++ le16 c ++ le16 d ++ le16 e ++ le32 g ++ le32 k ++ le32 n)[i - 2]? := by
  have : i = 2 ∨ i = 3 ∨ i = 4 ∨ i = 5 ∨ i = 6 ∨ i = 7 ∨ i = 8 ∨ i = 9 ∨ i = 10 ∨ i = 11 ∨ i = 12 ∨ i = 13 ∨ i = 14 ∨ i = 15 ∨
    i = 16 ∨ i = 17 ∨ i = 18 ∨ i = 19 ∨ i = 20 ∨ i = 21 ∨ i = 22 ∨ i = 23 := by omega
  unfold hdr
  rcases this with rfl | rfl | rfl | rfl | rfl | rfl | rfl | rfl | rfl | rfl | rfl | rfl | rfl | rfl | rfl | rfl | rfl | rfl |
    rfl | rfl | rfl | rfl <;> rfl

theorem header_written (m : Nat → UInt8) (f : Frame) : HasHeader (applyAll m (header f)) f (f.data.length % 2 ^ 32) := by
  obtain ⟨a, ha⟩ : ∃ a, f.seq % 2 ^ 16 = a := ⟨_, rfl⟩
  obtain ⟨b, hb⟩ : ∃ a, pixCode f.pix = a := ⟨_, rfl⟩
  obtain ⟨c, hc⟩ : ∃ a, codecCode f.codec = a := ⟨_, rfl⟩
  obtain ⟨d, hd⟩ : ∃ a, (f.h % 2 ^ 16).toNat = a := ⟨_, rfl⟩
  obtain ⟨e, he⟩ : ∃ a, (f.w % 2 ^ 16).toNat = a := ⟨_, rfl⟩
  obtain ⟨g, hg⟩ : ∃ a, ((f.pts.tdiv 1000000) % 2 ^ 32).toNat = a := ⟨_, rfl⟩
  obtain ⟨k, hk⟩ : ∃ a, ((f.pts.tmod 1000000) % 2 ^ 32).toNat = a := ⟨_, rfl⟩
  obtain ⟨n, hn⟩ : ∃ a, f.data.length % 2 ^ 32 = a := ⟨_, rfl⟩
  have hh : header f = hdr a b c d e g k n := by unfold header hdr; rw [ha, hb, hc, hd, he, hg, hk, hn]
  rw [hh, hn]
  have at' := fun i h h' => hdr_at m a b c d e g k n i h h'
  obtain ⟨M, hM⟩ : ∃ M, applyAll m (hdr a b c d e g k n) = M := ⟨_, rfl⟩
  rw [hM] at at' ⊢
  have get : ∀ i v, 2 ≤ i → i < 24 → (le16 a ++ le16 b ++ le16 c ++ le16 d ++ le16 e ++ le32 g ++ le32 k ++ le32 n)[i - 2]? = some v →
      M i = v := by
    intro i v h1 h2 h3
    have := at' i h1 h2
    rw [h3, Option.some.injEq] at this
    exact this
  constructor
  · rw [ha]; apply field_16 <;> exact get _ _ (by decide) (by decide) rfl
  · rw [hb]; apply field_16 <;> exact get _ _ (by decide) (by decide) rfl
  · rw [hc]; apply field_16 <;> exact get _ _ (by decide) (by decide) rfl
  · rw [hd]; apply field_16 <;> exact get _ _ (by decide) (by decide) rfl
  · rw [he]; apply field_16 <;> exact get _ _ (by decide) (by decide) rfl
  · rw [hg]; apply field_32 <;> exact get _ _ (by decide) (by decide) rfl
  · rw [hk]; apply field_32 <;> exact get _ _ (by decide) (by decide) rfl
  · apply field_32 <;> exact get _ _ (by decide) (by decide) rfl

theorem field_congr (m m' : Nat → UInt8) (n : Nat) : ∀ off, (∀ i, off ≤ i → i < off + n → m i = m' i) → field m off n = field m' off n := by
  induction n with
  | zero => intros; rfl
  | succ n ih =>
    intro off h
    simp only [field]
    rw [h off (Nat.le_refl _) (by omega), ih (off + 1) (fun i h1 h2 => h i (by omega) (by omega))]

theorem HasHeader.congr {m m' : Nat → UInt8} {f : Frame} {len : Nat} (h : HasHeader m f len) (heq : ∀ i, 2 ≤ i → i < 20 → m' i = m i)
    (len' : Nat) (hl : field m' 20 4 = len' % 4294967296) : HasHeader m' f len' := by
  constructor
  · rw [field_congr m' m 2 2 (fun i a b => heq i (by omega) (by omega))]; exact h.seq
  · rw [field_congr m' m 2 4 (fun i a b => heq i (by omega) (by omega))]; exact h.pix
  · rw [field_congr m' m 2 6 (fun i a b => heq i (by omega) (by omega))]; exact h.codec
  · rw [field_congr m' m 2 8 (fun i a b => heq i (by omega) (by omega))]; exact h.height
  · rw [field_congr m' m 2 10 (fun i a b => heq i (by omega) (by omega))]; exact h.width
  · rw [field_congr m' m 4 12 (fun i a b => heq i (by omega) (by omega))]; exact h.sec
  · rw [field_congr m' m 4 16 (fun i a b => heq i (by omega) (by omega))]; exact h.usec
  · exact hl

theorem pix_codes (p : Option PixType) : pixOfCode (pixCode p % 65536) = p := by
  cases p with
  | none => decide
  | some p => cases p <;> decide

/-- The code's own tables of codecs are inverse to each other for the four codecs they know. -/
theorem codec_codes (c : VCodec) (h : c ≠ .h265) : codecOfCode (codecCode (some c)) = some c := by
  cases c <;> first | rfl | exact absurd rfl h

theorem shows_of_header (m : Nat → UInt8) (o : Offer) (hr : m 0 = READING) (hlen : 24 + o.data.length ≤ 6220824)
    (hc : o.frame.codec = some .h264 ∨ o.frame.codec = some .raw) (hh : HasHeader m o.frame o.data.length)
    (hb : ∀ i, i < o.data.length → some (m (24 + i)) = o.data[i]?) : Shows m o := by
  refine ⟨hr, ?_, ?_, ?_, ?_, ?_, ?_, ?_, hb⟩
  · rw [hh.seq]; omega
  · rw [hh.pix, pix_codes]
  · rcases hc with h | h
    · left; refine ⟨h, ?_⟩; rw [hh.codec, h]; rfl
    · right; refine ⟨h, ?_⟩; rw [hh.codec, h]; rfl
  · intro a b; rw [hh.height]; omega
  · intro a b; rw [hh.width]; omega
  · intro a b
    rw [hh.sec, hh.usec]
    have e1 : o.frame.pts.tdiv 1000000 = o.frame.pts / 1000000 := Int.tdiv_eq_ediv_of_nonneg a
    have e2 : o.frame.pts.tmod 1000000 = o.frame.pts % 1000000 := Int.tmod_eq_emod_of_nonneg a
    rw [e1, e2]
    omega
  · rw [hh.len]; omega

/-- What an offer leads to: quiet writes, then the handover, after which the area shows the picture. -/
theorem process_offers (e : Exp) (f : Frame) (wr : Bool) (ws : List (Nat × UInt8)) (o : Offer) (e' : Exp)
    (h : process e f wr = .ok (ws, some o, e')) :
    wr = true ∧ ∃ q, ws = q ++ [(0, READING)] ∧ Quiet q ∧ ∀ m, Shows (applyAll m ws) o := by
  unfold process at h
  by_cases hh : f.codec = some .h264
  · rw [if_pos hh] at h
    by_cases hb : f.seq ≠ e.seq ∧ e.newFrame = true
    · rw [if_pos hb] at h
      cases hp : parseNal { e with seq := f.seq % 2 ^ 16, data := [] } f with
      | ub => rw [hp] at h; exact absurd h (by simp [Outcome.bind])
      | hang => rw [hp] at h; exact absurd h (by simp [Outcome.bind])
      | ok e1 =>
        rw [hp, Outcome.bind_ok] at h
        by_cases h1 : wr = false
        · rw [if_pos h1] at h; exact absurd h (by simp)
        · rw [if_neg h1] at h
          by_cases h2 : e.data = [] ∧ e.stored = false
          · rw [if_pos h2] at h; exact absurd h (by simp)
          · rw [if_neg h2] at h
            by_cases h3 : HEADER + e.data.length > SHMSIZE
            · rw [if_pos h3] at h; exact absurd h (by simp)
            · rw [if_neg h3] at h
              simp only [Outcome.ok.injEq, Prod.mk.injEq, Option.some.injEq] at h
              obtain ⟨rfl, rfl, rfl⟩ := h
              refine ⟨by simpa using h1, header f ++ (0, WRITING) :: (blk 20 (le32 (e.data.length % 2 ^ 32)) ++ blk HEADER e.data), ?_, ?_, ?_⟩
              · simp [bodyH264]
              · refine (quiet_header f).append ?_
                intro w hw h0
                rw [List.mem_cons] at hw
                rcases hw with rfl | hw
                · rfl
                · exact ((quiet_blk 20 _ (by omega)).append (quiet_blk HEADER _ (by decide))) w hw h0
              · intro m
                have hd := header_written m f
                simp only [HEADER, SHMSIZE] at h3
                apply shows_of_header
                · simp [bodyH264, applyAll_append, applyAll, set]
                · show 24 + e.data.length ≤ 6220824; omega
                · exact Or.inl hh
                · refine hd.congr ?_ _ ?_
                  · intro i a b
                    simp only [bodyH264, applyAll_append, applyAll, set, applyAll_blk, HEADER]
                    rw [if_neg (by omega), if_neg (by omega), if_neg (by omega), if_neg (by omega)]
                  · have := field_32 (applyAll m (header f ++ bodyH264 e.data)) 20 (e.data.length % 2 ^ 32) ?_ ?_ ?_ ?_
                    · rw [this]; show _ = e.data.length % _; omega
                    all_goals (simp only [bodyH264, applyAll_append, applyAll, set, applyAll_blk, HEADER, le32]; simp)
                · intro i hi
                  simp only at hi ⊢
                  simp only [bodyH264, applyAll_append, applyAll, set, applyAll_blk, HEADER]
                  rw [if_neg (by omega), if_pos (by omega), show 24 + i - 24 = i by omega, List.getElem?_eq_getElem hi]
                  rfl
    · rw [if_neg hb] at h
      cases hp : parseNal e f with
      | ub => rw [hp] at h; exact absurd h (by simp [Outcome.bind])
      | hang => rw [hp] at h; exact absurd h (by simp [Outcome.bind])
      | ok e1 => rw [hp, Outcome.bind_ok] at h; exact absurd h (by simp)
  · rw [if_neg hh] at h
    by_cases hraw : f.codec = some .raw
    · rw [if_pos hraw] at h
      by_cases h1 : wr = false
      · rw [if_pos h1] at h; exact absurd h (by simp)
      · rw [if_neg h1] at h
        by_cases h3 : HEADER + f.data.length > SHMSIZE
        · rw [if_pos h3] at h; exact absurd h (by simp)
        · rw [if_neg h3] at h
          simp only [Outcome.ok.injEq, Prod.mk.injEq, Option.some.injEq] at h
          obtain ⟨rfl, rfl, rfl⟩ := h
          simp only [HEADER, SHMSIZE] at h3
          refine ⟨by simpa using h1, header f ++ (0, WRITING) :: blk HEADER f.data, ?_, ?_, ?_⟩
          · simp [bodyRaw]
          · refine (quiet_header f).append ?_
            intro w hw h0
            rw [List.mem_cons] at hw
            rcases hw with rfl | hw
            · rfl
            · exact (quiet_blk HEADER _ (by decide)) w hw h0
          · intro m
            have hd := header_written m f
            apply shows_of_header
            · simp [bodyRaw, applyAll_append, applyAll, set]
            · show 24 + f.data.length ≤ 6220824; omega
            · exact Or.inr hraw
            · refine hd.congr ?_ _ ?_
              · intro i a b
                simp only [bodyRaw, applyAll_append, applyAll, set, applyAll_blk, HEADER]
                rw [if_neg (by omega), if_neg (by omega), if_neg (by omega)]
              · rw [field_congr _ (applyAll m (header f)) 4 20]
                · rw [hd.len]; show _ = f.data.length % _; omega
                · intro i a b
                  simp only [bodyRaw, applyAll_append, applyAll, set, applyAll_blk, HEADER]
                  rw [if_neg (by omega), if_neg (by omega), if_neg (by omega)]
            · intro i hi
              simp only at hi ⊢
              simp only [bodyRaw, applyAll_append, applyAll, set, applyAll_blk, HEADER]
              rw [if_neg (by omega), if_pos (by omega), show 24 + i - 24 = i by omega, List.getElem?_eq_getElem hi]
              rfl
    · rw [if_neg hraw] at h; exact absurd h (by simp)

/-- Without an offer the area is not handed over, and nothing at all is written unless the exporter held it. -/
theorem process_quiet (e : Exp) (f : Frame) (wr : Bool) (ws : List (Nat × UInt8)) (e' : Exp)
    (h : process e f wr = .ok (ws, none, e')) : Quiet ws ∧ (wr = false → ws = []) := by
  have nil : Quiet [] := fun w hw => absurd hw (by simp)
  unfold process at h
  by_cases hh : f.codec = some .h264
  · rw [if_pos hh] at h
    by_cases hb : f.seq ≠ e.seq ∧ e.newFrame = true
    · rw [if_pos hb] at h
      cases hp : parseNal { e with seq := f.seq % 2 ^ 16, data := [] } f with
      | ub => rw [hp] at h; exact absurd h (by simp [Outcome.bind])
      | hang => rw [hp] at h; exact absurd h (by simp [Outcome.bind])
      | ok e1 =>
        rw [hp, Outcome.bind_ok] at h
        by_cases h1 : wr = false
        · rw [if_pos h1] at h
          simp only [Outcome.ok.injEq, Prod.mk.injEq] at h
          rw [← h.1]; exact ⟨nil, fun _ => rfl⟩
        · rw [if_neg h1] at h
          by_cases h2 : e.data = [] ∧ e.stored = false
          · rw [if_pos h2] at h
            simp only [Outcome.ok.injEq, Prod.mk.injEq] at h
            rw [← h.1]; exact ⟨quiet_header f, fun h => absurd h h1⟩
          · rw [if_neg h2] at h
            by_cases h3 : HEADER + e.data.length > SHMSIZE
            · rw [if_pos h3] at h; exact absurd h (by simp)
            · rw [if_neg h3] at h; exact absurd h (by simp)
    · rw [if_neg hb] at h
      cases hp : parseNal e f with
      | ub => rw [hp] at h; exact absurd h (by simp [Outcome.bind])
      | hang => rw [hp] at h; exact absurd h (by simp [Outcome.bind])
      | ok e1 =>
        rw [hp, Outcome.bind_ok] at h
        simp only [Outcome.ok.injEq, Prod.mk.injEq] at h
        rw [← h.1]; exact ⟨nil, fun _ => rfl⟩
  · rw [if_neg hh] at h
    by_cases hraw : f.codec = some .raw
    · rw [if_pos hraw] at h
      by_cases h1 : wr = false
      · rw [if_pos h1] at h
        simp only [Outcome.ok.injEq, Prod.mk.injEq] at h
        rw [← h.1]; exact ⟨nil, fun _ => rfl⟩
      · rw [if_neg h1] at h
        by_cases h3 : HEADER + f.data.length > SHMSIZE
        · rw [if_pos h3] at h; exact absurd h (by simp)
        · rw [if_neg h3] at h; exact absurd h (by simp)
    · rw [if_neg hraw] at h
      simp only [Outcome.ok.injEq, Prod.mk.injEq] at h
      rw [← h.1]; exact ⟨nil, fun _ => rfl⟩

/-! ## The two processes -/

/-- The bytes the peer noted are those of an area showing the picture. -/
def Read (log : List (Nat × UInt8)) (o : Offer) : Prop := ∃ m, Shows m o ∧ ∀ w ∈ log, w.2 = m w.1

structure Inv (s : Sys) : Prop where
  past : ∀ (n : Nat) log, s.taken[n]? = some log → ∃ o, s.offers[n]? = some o ∧ Read log o
  phase :
    (s.reading = false ∧ s.mem 0 = WRITING ∧ Quiet s.pend ∧ s.offers.length = s.taken.length) ∨
    (s.reading = false ∧ s.mem 0 = WRITING ∧ s.offers.length = s.taken.length + 1 ∧ ∃ q o, s.pend = q ++ [(0, READING)] ∧ Quiet q ∧
      s.offers[s.taken.length]? = some o ∧ Shows (applyAll s.mem s.pend) o) ∨
    (s.pend = [] ∧ s.offers.length = s.taken.length + 1 ∧ ∃ o, s.offers[s.taken.length]? = some o ∧ Shows s.mem o ∧
      ∀ w ∈ s.log, s.reading = true → w.2 = s.mem w.1)

theorem inv_init : Inv Sys.init :=
  ⟨by intro n log h; exact absurd h (by simp [Sys.init]), Or.inl ⟨rfl, rfl, fun w hw => absurd hw (by simp [Sys.init]), rfl⟩⟩

theorem past_append {s : Sys} (h : ∀ (n : Nat) log, s.taken[n]? = some log → ∃ o, s.offers[n]? = some o ∧ Read log o) (l : List Offer) :
    ∀ (n : Nat) log, s.taken[n]? = some log → ∃ o, (s.offers ++ l)[n]? = some o ∧ Read log o := by
  intro n log hn
  obtain ⟨o, h1, h2⟩ := h n log hn
  refine ⟨o, ?_, h2⟩
  obtain ⟨hlt, _⟩ := List.getElem?_eq_some_iff.1 h1
  rw [List.getElem?_append_left hlt]; exact h1

theorem inv_step (s s' : Sys) (a : Act) (hi : Inv s) (h : step s a = .ok s') : Inv s' := by
  obtain ⟨hpast, hph⟩ := hi
  cases a with
  | arrive f =>
    simp only [step] at h
    by_cases hp : s.pend ≠ []
    · rw [if_pos hp] at h
      simp only [Outcome.ok.injEq] at h; subst h
      exact ⟨hpast, hph⟩
    · rw [if_neg hp] at h
      have hpe : s.pend = [] := Classical.not_not.1 hp
      cases hq : process s.exp f (s.mem 0 == WRITING) with
      | ub => rw [hq] at h; exact absurd h (by simp [Outcome.bind])
      | hang => rw [hq] at h; exact absurd h (by simp [Outcome.bind])
      | ok r =>
        rw [hq, Outcome.bind_ok] at h
        simp only [Outcome.ok.injEq] at h
        obtain ⟨ws, oo, e'⟩ := r
        subst h
        cases oo with
        | some o =>
          obtain ⟨hw, q, h1, h2, h3⟩ := process_offers _ _ _ _ _ _ hq
          have hw' : s.mem 0 = WRITING := by simpa using hw
          refine ⟨past_append hpast _, Or.inr (Or.inl ?_)⟩
          rcases hph with ⟨c1, c2, c3, c4⟩ | ⟨_, _, _, q', o', c1, _⟩ | ⟨_, _, o', _, c2, _⟩
          · refine ⟨c1, c2, by simp [c4], q, o, h1, h2, ?_, h3 _⟩
            simp [← c4]
          · rw [hpe] at c1; exact absurd c1 (by simp)
          · have := c2.ready; rw [hw'] at this; exact absurd this (by decide)
        | none =>
          obtain ⟨h1, h2⟩ := process_quiet _ _ _ _ _ hq
          simp only [Option.toList, List.append_nil]
          refine ⟨hpast, ?_⟩
          rcases hph with ⟨c1, c2, c3, c4⟩ | ⟨_, _, _, q', o', c1, _⟩ | ⟨c0, c1, o', c2, c3, c4⟩
          · exact Or.inl ⟨c1, c2, h1, c4⟩
          · rw [hpe] at c1; exact absurd c1 (by simp)
          · refine Or.inr (Or.inr ⟨?_, c1, o', c2, c3, c4⟩)
            apply h2
            rw [c3.ready]; decide
  | write =>
    simp only [step] at h
    cases hp : s.pend with
    | nil =>
      rw [hp] at h
      simp only [Outcome.ok.injEq] at h; subst h
      exact ⟨hpast, hph⟩
    | cons w p =>
      rw [hp] at h
      simp only [Outcome.ok.injEq] at h; subst h
      refine ⟨hpast, ?_⟩
      rcases hph with ⟨c1, c2, c3, c4⟩ | ⟨c1, c2, c3, q, o, c4, c5, c6, c7⟩ | ⟨c0, _⟩
      · left
        rw [hp] at c3
        refine ⟨c1, ?_, fun x hx => c3 x (List.mem_cons_of_mem _ hx), c4⟩
        simp only [set]
        split
        · rename_i h0; exact c3 w (by simp) h0.symm
        · exact c2
      · rw [hp] at c4 c7
        cases q with
        | nil =>
          simp only [List.nil_append, List.cons.injEq] at c4
          obtain ⟨rfl, rfl⟩ := c4
          right; right
          exact ⟨rfl, c3, o, c6, c7, fun _ _ hr => by rw [c1] at hr; exact absurd hr (by simp)⟩
        | cons x q =>
          simp only [List.cons_append, List.cons.injEq] at c4
          obtain ⟨rfl, rfl⟩ := c4
          right; left
          refine ⟨c1, ?_, c3, q, o, rfl, fun x hx => c5 x (List.mem_cons_of_mem _ hx), c6, c7⟩
          simp only [set]
          split
          · rename_i h0; exact c5 w (by simp) h0.symm
          · exact c2
      · rw [hp] at c0; exact absurd c0 (by simp)
  | look =>
    simp only [step] at h
    by_cases hc : s.reading = false ∧ s.mem 0 = READING
    · rw [if_pos hc] at h
      simp only [Outcome.ok.injEq] at h; subst h
      refine ⟨hpast, ?_⟩
      rcases hph with ⟨c1, c2, _⟩ | ⟨c1, c2, _⟩ | ⟨c0, c1, o, c2, c3, c4⟩
      · rw [hc.2] at c2; exact absurd c2 (by decide)
      · rw [hc.2] at c2; exact absurd c2 (by decide)
      · exact Or.inr (Or.inr ⟨c0, c1, o, c2, c3, fun w hw => absurd hw (by simp)⟩)
    · rw [if_neg hc] at h
      simp only [Outcome.ok.injEq] at h; subst h
      exact ⟨hpast, hph⟩
  | read off =>
    simp only [step] at h
    by_cases hc : s.reading = true
    · rw [if_pos hc] at h
      simp only [Outcome.ok.injEq] at h; subst h
      refine ⟨hpast, ?_⟩
      rcases hph with ⟨c1, _⟩ | ⟨c1, _⟩ | ⟨c0, c1, o, c2, c3, c4⟩
      · rw [hc] at c1; exact absurd c1 (by simp)
      · rw [hc] at c1; exact absurd c1 (by simp)
      · refine Or.inr (Or.inr ⟨c0, c1, o, c2, c3, ?_⟩)
        intro w hw hr
        simp only [List.mem_append, List.mem_singleton] at hw
        rcases hw with hw | rfl
        · exact c4 w hw hr
        · rfl
    · rw [if_neg hc] at h
      simp only [Outcome.ok.injEq] at h; subst h
      exact ⟨hpast, hph⟩
  | release =>
    simp only [step] at h
    by_cases hc : s.reading = true
    · rw [if_pos hc] at h
      simp only [Outcome.ok.injEq] at h; subst h
      rcases hph with ⟨c1, _⟩ | ⟨c1, _⟩ | ⟨c0, c1, o, c2, c3, c4⟩
      · rw [hc] at c1; exact absurd c1 (by simp)
      · rw [hc] at c1; exact absurd c1 (by simp)
      · refine ⟨?_, Or.inl ⟨rfl, by simp [set], by rw [c0]; exact fun w hw => absurd hw (by simp), by simp [c1]⟩⟩
        intro n log hn
        simp only at hn
        by_cases hlt : n < s.taken.length
        · rw [List.getElem?_append_left hlt] at hn; exact hpast n log hn
        · rw [List.getElem?_append_right (by omega)] at hn
          have hn0 : n - s.taken.length = 0 := by
            rcases Nat.eq_zero_or_pos (n - s.taken.length) with h | h
            · exact h
            · rw [List.getElem?_eq_none (by simp; omega)] at hn; exact absurd hn (by simp)
          rw [hn0] at hn
          simp only [List.getElem?_cons_zero, Option.some.injEq] at hn
          subst hn
          have hn' : n = s.taken.length := by omega
          subst hn'
          exact ⟨o, c2, s.mem, c3, fun w hw => c4 w hw hc⟩
    · rw [if_neg hc] at h
      simp only [Outcome.ok.injEq] at h; subst h
      exact ⟨hpast, hph⟩

theorem inv_run (l : List Act) : ∀ (s s' : Sys), Inv s → run s l = .ok s' → Inv s' := by
  induction l with
  | nil => intro s s' hi h; simp only [run, Outcome.ok.injEq] at h; subst h; exact hi
  | cons a l ih =>
    intro s s' hi h
    rw [run] at h
    cases hs : step s a with
    | ub => rw [hs] at h; exact absurd h (by simp)
    | hang => rw [hs] at h; exact absurd h (by simp)
    | ok s1 =>
      rw [hs, Outcome.bind_ok] at h
      exact ih s1 s' (inv_step s s1 a hi hs) h

/-- **C36.** In every interleaving of exporter and peer, byte by byte: the `n`-th time the peer takes the area, every byte it
reads belongs to the `n`-th picture offered, header and bytes complete; so pictures are read in order, none twice, none
skipped, and at most one offered picture is waiting. -/
theorem peer_reads_offers (l : List Act) (s : Sys) (h : run Sys.init l = .ok s) :
    (∀ (n : Nat) log, s.taken[n]? = some log → ∃ o, s.offers[n]? = some o ∧ ∃ m, Shows m o ∧ ∀ w ∈ log, w.2 = m w.1) ∧
    s.taken.length ≤ s.offers.length ∧ s.offers.length ≤ s.taken.length + 1 := by
  obtain ⟨h1, h2⟩ := inv_run l _ _ inv_init h
  refine ⟨h1, ?_⟩
  rcases h2 with ⟨_, _, _, h⟩ | ⟨_, _, h, _⟩ | ⟨_, h, _⟩ <;> omega

/-- **C36.** While the peer reads, the exporter writes nothing. -/
theorem no_write_while_read (l : List Act) (s : Sys) (h : run Sys.init l = .ok s) (hr : s.reading = true) : s.pend = [] := by
  obtain ⟨-, h2⟩ := inv_run l _ _ inv_init h
  rcases h2 with ⟨c, _⟩ | ⟨c, _⟩ | ⟨c, _⟩
  · rw [hr] at c; exact absurd c (by simp)
  · rw [hr] at c; exact absurd c (by simp)
  · exact c

end Lms.SharedMem
