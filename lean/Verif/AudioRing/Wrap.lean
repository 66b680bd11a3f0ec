import Verif.AudioRing.Props

/-! C07, finding: the sample clock of the ring has 32 bits (`unsigned rearSampleIdx`,
src/AudioCircularBuffer.cpp:103,112).  A buffer fed for a day at 48 kHz with frames that arrive
exactly on time resets itself. -/

namespace Lms.AudioRing

/-- 1024 zero bytes. -/
def block : Bytes := List.replicate 1024 0

theorem block_length : block.length = 1024 := List.length_replicate ..

/-- Frame number `k` of a steady 48 kHz mono stream: 1024 samples, stamped exactly on time. -/
def steady (k : Nat) : Frame :=
  ⟨((1024 * k * 1000000 / 48000 : Nat) : Int), 1024, [block]⟩

/-- `k` rounds of push, read, release. -/
def rounds : Nat → List Op
  | 0 => [.setOut 1024]
  | k + 1 => rounds k ++ [.push (steady k), .get, .remove]

/-- Specification state after `k` rounds. -/
structure Steady (k : Nat) (t : Spec) : Prop where
  ch : t.channels = 1
  sr : t.sampleRate = 48000
  bps : t.bps = 1
  chMax : t.chMax = 4096
  cap : t.cap = 196608
  buf : t.bufSamples = 4800
  accN : t.accN = 1024 * k
  delN : t.delN = 1024 * k
  held : t.held = false
  outN : t.outN = 1024
  sync : 0 < k → t.sync = 0 ∧ t.synced = true
  un : k = 0 → t.synced = false

theorem safeRun_append {t : Spec} {a b : List Op} (h1 : SafeRun Spec.step Safe t a)
    (h2 : SafeRun Spec.step Safe (runSpec Spec.step t a).1 b) : SafeRun Spec.step Safe t (a ++ b) := by
  induction a generalizing t with
  | nil => exact h2
  | cons x xs ih => exact ⟨h1.1, ih h1.2 h2⟩

theorem steady_push {k : Nat} {t : Spec} (h : Steady k t) :
    t.deviation (steady k).pts = 0 ∧
    (t.push (steady k)).1 = (t.anchor (steady k).pts).append 1024 (steady k).planes ∧
    (t.anchor (steady k).pts).sync = 0 := by
  have hsync : (t.anchor (steady k).pts).sync = 0 := by
    unfold Spec.anchor
    rcases Nat.eq_zero_or_pos k with rfl | hk
    · rw [h.un rfl]; rfl
    · rw [(h.sync hk).2]; exact (h.sync hk).1
  have hdev : t.deviation (steady k).pts = 0 := by
    unfold Spec.deviation Spec.timeOf
    rw [hsync, anchor_sr, h.sr, h.accN]
    show (((1024 * k * 1000000 / 48000 : Nat)) : Int) - _ = 0
    omega
  refine ⟨hdev, ?_, hsync⟩
  unfold Spec.push
  have htol := tol_nonneg t
  rw [hdev, if_neg (by omega), if_pos htol]
  have : (t.anchor (steady k).pts).fits (steady k).samples = true := by
    have hd : (t.anchor (steady k).pts).delN = t.delN ∧ (t.anchor (steady k).pts).cap = t.cap := by
      unfold Spec.anchor; split <;> exact ⟨rfl, rfl⟩
    unfold Spec.fits
    rw [anchor_accN, anchor_bps, hd.1, hd.2, h.accN, h.delN, h.bps, h.cap]
    show decide ((1024 * k - 1024 * k + 1024) * 1 ≤ 196608) = true
    rw [Nat.sub_self]; rfl
  rw [this]
  rfl

theorem steady_round {k : Nat} {t : Spec} (h : Steady k t) (hk : 1024 * k < 4294967296) :
    SafeRun Spec.step Safe t [.push (steady k), .get, .remove] ∧
    Steady (k + 1) (runSpec Spec.step t [.push (steady k), .get, .remove]).1 := by
  obtain ⟨hdev, hpush, hsync⟩ := steady_push h
  have htol := tol_nonneg t
  have hanc : (t.anchor (steady k).pts).synced = true := by
    unfold Spec.anchor; split
    · assumption
    · rfl
  have hout : (t.anchor (steady k).pts).outN = t.outN ∧ (t.anchor (steady k).pts).held = t.held ∧
      (t.anchor (steady k).pts).delN = t.delN ∧ (t.anchor (steady k).pts).cap = t.cap := by
    unfold Spec.anchor; split <;> exact ⟨rfl, rfl, rfl, rfl⟩
  refine ⟨⟨?_, ?_, trivial, trivial⟩, ?_⟩
  · refine ⟨by rw [h.ch]; rfl, ?_, ?_, by rw [h.accN]; omega, ?_⟩
    · intro p hp
      have : p = block := List.mem_singleton.1 hp
      subst this; rw [h.bps, block_length]; exact Nat.le_refl 1024
    · rw [h.bps]; show 1024 * 1 < 4294967296; omega
    · intro hlt; rw [hdev] at hlt; omega
  · show (t.push (steady k)).1.delN < 4294967296
    rw [hpush]; show (t.anchor _).delN < _
    rw [hout.2.2.1, h.delN]; exact hk
  · simp only [runSpec, Spec.step]
    rw [hpush]
    have hheld : ((t.anchor (steady k).pts).append 1024 (steady k).planes).held = false := by
      show (t.anchor _).held = false
      rw [hout.2.1, h.held]
    have hav : ¬ ((t.anchor (steady k).pts).append 1024 (steady k).planes).accN -
        ((t.anchor (steady k).pts).append 1024 (steady k).planes).delN <
        ((t.anchor (steady k).pts).append 1024 (steady k).planes).outN := by
      show ¬ (t.anchor _).accN + 1024 - (t.anchor _).delN < (t.anchor _).outN
      rw [anchor_accN, hout.2.2.1, hout.1, h.accN, h.delN, h.outN]; omega
    unfold Spec.get
    rw [hheld, if_neg (by simp), if_neg hav]
    refine ⟨?_, ?_, ?_, ?_, ?_, ?_, ?_, ?_, rfl, ?_, ?_, ?_⟩
    · exact (anchor_ch ..).trans h.ch
    · exact (anchor_sr ..).trans h.sr
    · exact (anchor_bps ..).trans h.bps
    · exact (anchor_chMax ..).trans h.chMax
    · exact hout.2.2.2.trans h.cap
    · exact (anchor_buf ..).trans h.buf
    · show (t.anchor _).accN + 1024 = _
      rw [anchor_accN, h.accN]; omega
    · show (t.anchor _).delN + (t.anchor _).outN = _
      rw [hout.2.2.1, hout.1, h.delN, h.outN]; omega
    · exact hout.1.trans h.outN
    · intro _; exact ⟨hsync, hanc⟩
    · intro h0; omega

theorem steady_run (k : Nat) (hk : 1024 * k ≤ 4294967296) :
    SafeRun Spec.step Safe (Spec.init 1 48000 4096 1 0) (rounds k) ∧
    Steady k (runSpec Spec.step (Spec.init 1 48000 4096 1 0) (rounds k)).1 := by
  induction k with
  | zero =>
    refine ⟨⟨?_, trivial⟩, ?_⟩
    · show 1024 ≤ 4800; omega
    · refine ⟨rfl, rfl, rfl, rfl, rfl, rfl, rfl, rfl, rfl, rfl, ?_, fun _ => rfl⟩
      intro h; omega
  | succ k ih =>
    obtain ⟨i1, i2⟩ := ih (by omega)
    obtain ⟨r1, r2⟩ := steady_round i2 (by omega)
    refine ⟨safeRun_append i1 r1, ?_⟩
    simp only [rounds]
    rw [runSpec_append]
    exact r2

/-- **C07, finding.** There is a history of 2^22 frames (a little over 24.8 hours), all accepted
with no gap and all delivered, after which one more frame that is exactly on time empties the
buffer and is lost. -/
theorem on_time_frame_resets_after_a_day :
    ∃ k s0 s s' outs, 1024 * k = 4294967296 ∧
      ACB.create 1 48000 4096 .u8p 0 = .ok (some s0) ∧
      runOps ACB.step s0 (rounds k) = .ok (s, outs) ∧
      s.rear = 1024 * k ∧ s.front = 1024 * k ∧ s.sync = 0 ∧ s.synced = true ∧
      (steady k).pts = s.sync + (s.rear * 1000000 / 48000 : Nat) ∧
      s.addFrame (steady k) = .ok (s', .reset) := by
  have ⟨k, hk⟩ : ∃ k, 1024 * k = 4294967296 := ⟨4194304, rfl⟩
  obtain ⟨hs, ht⟩ := steady_run k (by omega)
  obtain ⟨s0, h1, h2⟩ := create_rel 1 48000 4096 .u8p 0 (by decide) (by decide) (by decide) (by decide)
    (by decide)
  obtain ⟨s, h3, h4⟩ := runOps_refines_safe ACB.step Spec.step Safe Rel step_rel (rounds k) s0 _ hs h2
  have h4 : Rel s (runSpec Spec.step (Spec.init 1 48000 4096 1 0) (rounds k)).1 := h4
  generalize (runSpec Spec.step (Spec.init 1 48000 4096 1 0) (rounds k)).1 = t at ht h4
  have hrear : s.rear = 1024 * k := by rw [h4.rear, ht.accN, ht.bps, Nat.mul_one]
  have hfront : s.front = 1024 * k := by rw [h4.front, ht.delN, ht.bps, Nat.mul_one]
  have hsync : s.sync = 0 := by rw [h4.sync, (ht.sync (by omega)).1]
  have hsy : s.synced = true := by rw [h4.synced, (ht.sync (by omega)).2]
  refine ⟨k, s0, s, s.flush, _, hk, h1, h3, hrear, hfront, hsync, hsy, ?_, ?_⟩
  · rw [hsync, hrear]
    show (((1024 * k * 1000000 / 48000 : Nat)) : Int) = _
    omega
  · have hb : s.bps = 1 := by rw [h4.bps, ht.bps]
    have hr : s.sampleRate = 48000 := by rw [h4.sr, ht.sr]
    have hthr : s.thr = 1333 := by rw [h4.thr, Spec.tol, ht.sr]; rfl
    have hm : s.chMax = 4096 := by rw [h4.chMax, ht.chMax]
    have hp : (steady k).pts = 89478485333 := by
      show (((1024 * k * 1000000 / 48000 : Nat)) : Int) = _
      rw [hk]; rfl
    unfold ACB.addFrame
    simp only [hsy, if_true, hb, hr, hthr, hrear, hsync, hm, hp, hk]
    rfl

end Lms.AudioRing
