import Verif.AudioRing.Spec
import Verif.Common.ListAux

/-! Helper lemmas for the audio ring. -/

namespace Lms.AudioRing

theorem add_mod_small {r k M : Nat} (hM : 0 < M) (hk : k < M) :
    (r + k) % M = if r % M + k < M then r % M + k else r % M + k - M := by
  have h := Nat.mod_lt r hM
  rw [Nat.add_mod, Nat.mod_eq_of_lt hk]
  split
  · exact Nat.mod_eq_of_lt ‹_›
  · rw [Nat.mod_eq_sub_mod (by omega), Nat.mod_eq_of_lt (by omega)]

theorem sub_mod_small {r e M : Nat} (hM : 0 < M) (he : e ≤ M) (h1 : 1 ≤ e) (her : e ≤ r) :
    (r - e) % M = if e ≤ r % M then r % M - e else r % M + M - e := by
  obtain ⟨i, rfl⟩ : ∃ i, r = i + e := ⟨r - e, by omega⟩
  have hi := Nat.mod_lt i hM
  have : (i + e) % M = if e = M then i % M else if i % M + e < M then i % M + e else i % M + e - M := by
    split
    · subst_vars; simp
    · exact add_mod_small hM (by omega)
  rw [Nat.add_sub_cancel, this]
  split
  · split <;> omega
  · split
    · split <;> omega
    · split <;> omega

/-- One channel: positions `front ..< a.length` of the stream `a` are in the ring. -/
structure ChRel (M front : Nat) (d a : Bytes) : Prop where
  len : d.length = M
  val : ∀ i, front ≤ i → i < a.length → d[i % M]? = a[i]?

theorem copyIn_rel {M front n : Nat} {d a b : Bytes} (hM : 0 < M) (h : ChRel M front d a)
    (hf : front ≤ a.length) (hroom : a.length - front + n ≤ M) (hb : n ≤ b.length) :
    ∃ d', copyIn M a.length n d b = .ok d' ∧ ChRel M front d' (a ++ b.take n) := by
  have hrm := Nat.mod_lt a.length hM
  have hl := h.len
  unfold copyIn
  -- positions written
  have fin : ∀ d' : Bytes, d'.length = M →
      (∀ j, j < M → d'[j]? =
        if a.length % M ≤ j ∧ j < a.length % M + n then b[j - a.length % M]?
        else if j + M < a.length % M + n then b[j + M - a.length % M]? else d[j]?) →
      ChRel M front d' (a ++ b.take n) := by
    intro d' hl' hv
    refine ⟨hl', ?_⟩
    intro i hi1 hi2
    simp at hi2
    rw [hv _ (Nat.mod_lt _ hM)]
    by_cases hia : i < a.length
    · rw [List.getElem?_append_left hia, ← h.val i hi1 hia]
      obtain ⟨e, he⟩ : ∃ e, i = a.length - e ∧ 1 ≤ e ∧ e ≤ a.length := ⟨a.length - i, by omega⟩
      have := sub_mod_small hM (e := e) (r := a.length) (by omega) he.2.1 he.2.2
      rw [← he.1] at this
      rw [if_neg, if_neg]
      · intro hc; rw [this] at hc; split at hc <;> omega
      · intro hc; rw [this] at hc; split at hc <;> omega
    · obtain ⟨k, rfl⟩ : ∃ k, i = a.length + k := ⟨i - a.length, by omega⟩
      rw [List.getElem?_append_right (by omega), Nat.add_sub_cancel_left,
        List.getElem?_take_of_lt (by omega)]
      by_cases hkM : k < M
      · have := add_mod_small hM (r := a.length) hkM
        by_cases hw : a.length % M + k < M
        · rw [if_pos hw] at this
          rw [this, if_pos (by omega)]; congr 1; omega
        · rw [if_neg hw] at this
          rw [this]
          by_cases hn : a.length % M ≤ a.length % M + k - M ∧ a.length % M + k - M < a.length % M + n
          · omega
          · rw [if_neg hn, if_pos (by omega)]; congr 1; omega
      · omega
  by_cases hc : a.length % M + n < M
  · rw [if_pos hc, memcpy_ok (by omega) (by omega)]
    refine ⟨_, rfl, fin _ (by rw [splice_length] <;> omega) ?_⟩
    intro j hj
    rw [splice_getElem? (by omega) (by omega)]
    by_cases h1 : j < a.length % M
    · rw [if_pos h1, if_neg (by omega), if_neg (by omega)]
    · rw [if_neg h1]
      by_cases h2 : j < a.length % M + n
      · rw [if_pos h2, if_pos (by omega)]; congr 1; omega
      · rw [if_neg h2, if_neg (by omega), if_neg (by omega)]
  · rw [if_neg hc]
    simp only
    rw [memcpy_ok (by omega) (by omega)]
    simp only [Outcome.bind_ok]
    rw [if_neg (by omega)]
    have hl1 : (d.take (a.length % M) ++ (b.drop 0).take (M - a.length % M) ++
        d.drop (a.length % M + (M - a.length % M))).length = M := by
      rw [splice_length] <;> omega
    rw [memcpy_ok (by omega) (by omega)]
    refine ⟨_, rfl, fin _ (by rw [splice_length] <;> omega) ?_⟩
    intro j hj
    rw [splice_getElem? (by omega) (by omega)]
    rw [if_neg (by omega)]
    by_cases h2 : j < 0 + (n - (M - a.length % M))
    · rw [if_pos h2, if_neg (by omega), if_pos (by omega)]; congr 1; omega
    · rw [if_neg h2, splice_getElem? (by omega) (by omega)]
      by_cases h1 : j < a.length % M
      · rw [if_pos h1, if_neg (by omega), if_neg (by omega)]
      · rw [if_neg h1, if_pos (by omega), if_pos (by omega)]; congr 1; omega

theorem copyOut_eq {M front n : Nat} {d a o : Bytes} (hM : 0 < M) (h : ChRel M front d a)
    (hf : front + n ≤ a.length) (hroom : a.length - front ≤ M) (ho : n ≤ o.length) :
    copyOut M front n d o = .ok ((a.drop front).take n ++ o.drop n) := by
  have hrm := Nat.mod_lt front hM
  have hl := h.len
  -- reading one position
  have rd : ∀ k, k < n → d[(front + k) % M]? = a[front + k]? := fun k hk =>
    h.val _ (by omega) (by omega)
  have pos : ∀ k, k < n → (front + k) % M =
      if front % M + k < M then front % M + k else front % M + k - M := by
    intro k hk
    exact add_mod_small hM (by omega)
  have alen : ((a.drop front).take n).length = n := by simp; omega
  have fin : ∀ o' : Bytes, o'.length = o.length →
      (∀ j, o'[j]? = if j < n then d[(front + j) % M]? else o[j]?) →
      o' = (a.drop front).take n ++ o.drop n := by
    intro o' _ hv
    apply List.ext_getElem?
    intro j
    rw [hv]
    by_cases hj : j < n
    · rw [if_pos hj, List.getElem?_append_left (by omega), List.getElem?_take_of_lt hj,
        List.getElem?_drop, rd j hj]
    · rw [if_neg hj, List.getElem?_append_right (by omega), alen, List.getElem?_drop]
      congr 1; omega
  unfold copyOut
  by_cases hc : front % M + n < M
  · rw [if_pos hc, memcpy_ok (by omega) (by omega)]
    congr 1
    refine fin _ (by rw [splice_length] <;> omega) ?_
    intro j
    rw [splice_getElem? (by omega) (by omega), if_neg (by omega)]
    by_cases h2 : j < n
    · rw [if_pos (by omega), if_pos h2, pos j h2, if_pos (by omega)]; congr 1
    · rw [if_neg (by omega), if_neg h2]
  · rw [if_neg hc]
    simp only
    rw [memcpy_ok (by omega) (by omega)]
    simp only [Outcome.bind_ok]
    rw [if_neg (by omega)]
    have hl1 : (o.take 0 ++ (d.drop (front % M)).take (M - front % M) ++
        o.drop (0 + (M - front % M))).length = o.length := by
      rw [splice_length] <;> omega
    rw [memcpy_ok (by omega) (by omega)]
    congr 1
    refine fin _ (by rw [splice_length] <;> omega) ?_
    intro j
    rw [splice_getElem? (by omega) (by omega)]
    by_cases h1 : j < M - front % M
    · rw [if_pos h1, splice_getElem? (by omega) (by omega), if_neg (by omega), if_pos (by omega),
        if_pos (by omega), pos j (by omega), if_pos (by omega)]
      congr 1
    · rw [if_neg h1]
      by_cases h2 : j < M - front % M + (n - (M - front % M))
      · rw [if_pos h2, if_pos (by omega), pos j (by omega), if_neg (by omega)]; congr 1; omega
      · rw [if_neg h2, splice_getElem? (by omega) (by omega), if_neg (by omega), if_neg (by omega),
          if_neg (by omega)]

/-- All channels. -/
def ChsRel (M front n : Nat) (data acc : List Bytes) : Prop :=
  Forall2 (fun d a => ChRel M front d a ∧ a.length = n) data acc

theorem forIn_rel {M front n k : Nat} (hM : 0 < M) (hf : front ≤ n) (hroom : n - front + k ≤ M) :
    ∀ {data acc planes : List Bytes}, ChsRel M front n data acc → data.length ≤ planes.length →
    (∀ p ∈ planes, k ≤ p.length) →
    ∃ data', forChannels (copyIn M n k) data planes = .ok data' ∧
      ChsRel M front (n + k) data' (List.zipWith (fun a p => a ++ p.take k) acc planes) := by
  intro data acc planes h
  induction h generalizing planes with
  | nil => intro _ _; exact ⟨[], by cases planes <;> rfl, by cases planes <;> exact .nil⟩
  | @cons d a ds as hd hds ih =>
    intro hl hp
    rcases planes with _ | ⟨p, ps⟩
    · simp at hl
    · obtain ⟨hd1, rfl⟩ := hd
      have hpl := hp p (by simp)
      obtain ⟨d', h1, h2⟩ := copyIn_rel hM hd1 hf hroom hpl
      obtain ⟨ds', h3, h4⟩ := ih (planes := ps) (by simpa using hl) (fun q hq => hp q (by simp [hq]))
      refine ⟨d' :: ds', ?_, ?_⟩
      · simp [forChannels, h1, h3]
      · exact .cons ⟨h2, by simp; omega⟩ h4

theorem forOut_eq {M front n k : Nat} (hM : 0 < M) (hf : front + k ≤ n) (hroom : n - front ≤ M) :
    ∀ {data acc outs : List Bytes}, ChsRel M front n data acc → data.length ≤ outs.length →
    (∀ p ∈ outs, k ≤ p.length) →
    forChannels (copyOut M front k) data outs = .ok
      (List.zipWith (fun new old => new ++ old.drop k) (acc.map fun a => (a.drop front).take k) outs) := by
  intro data acc outs h
  induction h generalizing outs with
  | nil => intro _ _; cases outs <;> rfl
  | @cons d a ds as hd hds ih =>
    intro hl hp
    rcases outs with _ | ⟨p, ps⟩
    · simp at hl
    · obtain ⟨hd1, rfl⟩ := hd
      have h1 := copyOut_eq (o := p) hM hd1 hf hroom (hp p (by simp))
      have h3 := ih (outs := ps) (by simpa using hl) (fun q hq => hp q (by simp [hq]))
      simp [forChannels, h1, h3]

theorem ChsRel.advance {M front n k : Nat} {data acc : List Bytes} (h : ChsRel M front n data acc) :
    ChsRel M (front + k) n data acc := by
  induction h with
  | nil => exact .nil
  | cons hd _ ih => exact .cons ⟨⟨hd.1.len, fun i h1 h2 => hd.1.val i (by omega) h2⟩, hd.2⟩ ih

theorem ChsRel.length_eq {M front n : Nat} {data acc : List Bytes} (h : ChsRel M front n data acc) :
    data.length = acc.length := Forall2.length_eq h

theorem ChsRel.reset {M front n : Nat} {data acc : List Bytes} (h : ChsRel M front n data acc) :
    ChsRel M 0 0 data (List.replicate data.length []) := by
  induction h with
  | nil => exact .nil
  | cons hd _ ih =>
    exact .cons ⟨⟨hd.1.len, fun i _ h2 => by simp at h2⟩, rfl⟩ ih

structure Rel (s : ACB) (t : Spec) : Prop where
  ch : s.channels = t.channels
  ch2 : t.channels ≤ 2
  sr : s.sampleRate = t.sampleRate
  sr0 : 0 < t.sampleRate
  bps : s.bps = t.bps
  bps0 : 0 < t.bps
  chMax : s.chMax = t.chMax
  cap : s.maxLen = t.cap
  cap0 : 0 < t.cap
  thr : s.thr = t.tol
  buf : s.bufSamples = t.bufSamples
  buf32 : t.bufSamples * t.bps < 4294967296
  le : t.delN ≤ t.accN
  fit : (t.accN - t.delN) * t.bps ≤ t.cap
  rear : s.rear = t.accN * t.bps
  front : s.front = t.delN * t.bps
  el : s.elements = (t.accN - t.delN) * t.bps
  dlen : s.data.length = t.channels
  chs : ChsRel t.cap (t.delN * t.bps) (t.accN * t.bps) s.data t.acc
  fill : s.fillNew = !t.held
  sync : s.sync = t.sync
  synced : s.synced = t.synced
  unsynced : t.synced = false → t.accN = 0
  outN : s.outN = t.outN
  outN_le : t.outN ≤ t.bufSamples
  outPts : s.outPts = t.outPts
  outBuf : s.outPlanes = t.outBuf
  outLen : t.outBuf.length = t.channels
  outSz : ∀ b ∈ t.outBuf, b.length = t.bufSamples * t.bps
  lost : s.lost = t.lost

theorem Rel.pushBack {s : ACB} {t : Spec} (h : Rel s t) (planes : List Bytes) (n : Nat)
    (hs : t.synced = true)
    (hn : n * t.bps < 4294967296) (hp : t.channels ≤ planes.length)
    (hpl : ∀ p ∈ planes, n * t.bps ≤ p.length) :
    ∃ s', s.pushBack planes n = .ok (s', t.fits n) ∧
      Rel s' (if t.fits n then t.append n planes else t) := by
  have hfit : t.fits n = decide ((t.accN - t.delN) * t.bps + n * t.bps ≤ t.cap) := by
    unfold Spec.fits; rw [Nat.add_mul]
  have hle : t.delN * t.bps ≤ t.accN * t.bps := Nat.mul_le_mul_right _ h.le
  have hsub : (t.accN - t.delN) * t.bps = t.accN * t.bps - t.delN * t.bps := Nat.sub_mul ..
  have hcapfit := h.fit
  have e : u32 (n * s.bps) = n * t.bps := by rw [h.bps]; exact Nat.mod_eq_of_lt hn
  unfold ACB.pushBack
  simp only [e, h.cap, h.el]
  by_cases hr : (t.accN - t.delN) * t.bps + n * t.bps ≤ t.cap
  · have hfit' : t.fits n = true := by rw [hfit]; exact decide_eq_true hr
    obtain ⟨data', h1, h2⟩ := forIn_rel (k := n * t.bps) h.cap0 hle (by omega) h.chs
      (by rw [h.dlen]; exact hp) hpl
    rw [if_neg (by omega), if_neg (by have := h.cap0; omega), h.rear, h1, hfit']
    simp only [Outcome.bind_ok, if_true]
    refine ⟨_, rfl, ?_⟩
    have hl := h2.length_eq
    have hdl : data'.length = t.channels := by
      rw [hl, List.length_zipWith, ← h.chs.length_eq, h.dlen]; omega
    have e1 : (t.accN + n) * t.bps = t.accN * t.bps + n * t.bps := Nat.add_mul ..
    have e2 : (t.accN + n - t.delN) * t.bps = (t.accN - t.delN) * t.bps + n * t.bps := by
      have : t.accN + n - t.delN = t.accN - t.delN + n := by have := h.le; omega
      rw [this, Nat.add_mul]
    refine ⟨h.ch, h.ch2, h.sr, h.sr0, h.bps, h.bps0, h.chMax, ?_, h.cap0, h.thr, h.buf, h.buf32, ?_, ?_, ?_,
      h.front, ?_, hdl, ?_, h.fill, h.sync, h.synced, ?_, h.outN, h.outN_le, h.outPts, h.outBuf, h.outLen,
      h.outSz, h.lost⟩
    · rfl
    · show t.delN ≤ t.accN + n; have := h.le; omega
    · show (t.accN + n - t.delN) * t.bps ≤ t.cap; rw [e2]; exact hr
    · show t.accN * t.bps + n * t.bps = (t.accN + n) * t.bps; rw [e1]
    · show _ = (t.accN + n - t.delN) * t.bps; rw [e2]
    · show ChsRel t.cap (t.delN * t.bps) ((t.accN + n) * t.bps) data' _
      rw [e1]; exact h2
    · intro hc
      have : t.synced = false := hc
      simp [hs] at this
  · have hfit' : t.fits n = false := by rw [hfit]; exact decide_eq_false hr
    rw [if_pos (by omega), hfit']
    exact ⟨s, rfl, by simpa using h⟩

theorem u32_eq {n : Nat} (h : n < 4294967296) : u32 n = n := Nat.mod_eq_of_lt h

theorem Rel.anchor {s : ACB} {t : Spec} (h : Rel s t) (pts : Int) :
    Rel (if s.synced then s else { s with sync := pts, synced := true }) (t.anchor pts) := by
  rw [h.synced]
  unfold Spec.anchor
  by_cases hs : t.synced = true
  · simp only [hs, if_true]; exact h
  · simp only [hs]
    exact ⟨h.ch, h.ch2, h.sr, h.sr0, h.bps, h.bps0, h.chMax, h.cap, h.cap0, h.thr, h.buf, h.buf32, h.le,
      h.fit, h.rear, h.front, h.el, h.dlen, h.chs, h.fill, rfl, rfl, by simp, h.outN, h.outN_le,
      h.outPts, h.outBuf, h.outLen, h.outSz, h.lost⟩

theorem anchor_accN (t : Spec) (pts : Int) : (t.anchor pts).accN = t.accN := by
  unfold Spec.anchor; split <;> rfl
theorem anchor_sr (t : Spec) (pts : Int) : (t.anchor pts).sampleRate = t.sampleRate := by
  unfold Spec.anchor; split <;> rfl
theorem anchor_bps (t : Spec) (pts : Int) : (t.anchor pts).bps = t.bps := by
  unfold Spec.anchor; split <;> rfl
theorem anchor_ch (t : Spec) (pts : Int) : (t.anchor pts).channels = t.channels := by
  unfold Spec.anchor; split <;> rfl
theorem anchor_chMax (t : Spec) (pts : Int) : (t.anchor pts).chMax = t.chMax := by
  unfold Spec.anchor; split <;> rfl
theorem anchor_buf (t : Spec) (pts : Int) : (t.anchor pts).bufSamples = t.bufSamples := by
  unfold Spec.anchor; split <;> rfl
theorem anchor_synced (t : Spec) (pts : Int) : (t.anchor pts).synced = true := by
  unfold Spec.anchor; split <;> simp_all
theorem anchor_tol (t : Spec) (pts : Int) : (t.anchor pts).tol = t.tol := by
  unfold Spec.tol; rw [anchor_sr]

theorem tol_nonneg (t : Spec) : 0 ≤ t.tol := by unfold Spec.tol; exact Int.natCast_nonneg _

theorem unsynced_dev {s : ACB} {t : Spec} (h : Rel s t) (hs : t.synced = false) (pts : Int) :
    t.deviation pts = 0 := by
  have e : t.anchor pts = { t with sync := pts, synced := true } := by
    unfold Spec.anchor; rw [hs]; simp
  unfold Spec.deviation Spec.timeOf
  rw [e, h.unsynced hs]
  simp

theorem zipWith_replicate_take (bps k m : Nat) (hk : k * bps ≤ m) : ∀ (acc : List Bytes) (c c' : Nat),
    acc.length ≤ c → acc.length ≤ c' →
    List.zipWith (fun a p => a ++ p.take (k * bps)) acc (List.replicate c (List.replicate m (0 : UInt8)))
      = List.zipWith (fun a p => a ++ p.take (k * bps)) acc
          (List.replicate c' (List.replicate (k * bps) (0 : UInt8))) := by
  intro acc
  induction acc with
  | nil => intro c c' _ _; simp
  | cons a acc ih =>
    intro c c' hc hc'
    simp at hc hc'
    obtain ⟨c, rfl⟩ : ∃ d, c = d + 1 := ⟨c - 1, by omega⟩
    obtain ⟨c', rfl⟩ : ∃ d, c' = d + 1 := ⟨c' - 1, by omega⟩
    simp only [List.replicate_succ, List.zipWith_cons_cons]
    rw [ih c c' (by omega) (by omega)]
    simp [List.take_replicate, Nat.min_eq_left hk]

theorem Rel.addFrame {s : ACB} {t : Spec} (h : Rel s t) (f : Frame) (hsafe : Safe t (.push f)) :
    ∃ s', s.addFrame f = .ok (s', (t.push f).2) ∧ Rel s' (t.push f).1 := by
  obtain ⟨hpl, hps, hn, hacc, hgap⟩ := hsafe
  have ha := h.anchor f.pts
  unfold ACB.addFrame
  generalize (if s.synced then s else { s with sync := f.pts, synced := true }) = s1 at ha
  simp only
  have hb0 := ha.bps0
  have hs0 := ha.sr0
  rw [if_neg (by rw [ha.bps, ha.sr]; omega)]
  have erear : s1.rear / s1.bps = t.accN := by
    rw [ha.rear, ha.bps, anchor_accN]; exact Nat.mul_div_cancel _ hb0
  have edev : f.pts - (((u32 (s1.rear / s1.bps) * 1000000 / s1.sampleRate : Nat) : Int) + s1.sync)
      = t.deviation f.pts := by
    rw [erear, u32_eq hacc, ha.sync, ha.sr]
    unfold Spec.deviation Spec.timeOf; omega
  rw [edev, ha.thr, anchor_tol]
  unfold Spec.push
  by_cases hl : t.deviation f.pts < -t.tol
  · rw [if_pos hl, if_pos hl]
    refine ⟨_, rfl, ?_⟩
    have hs : t.synced = true := by
      rcases hsy : t.synced with _ | _
      · have := unsynced_dev h hsy f.pts; have := tol_nonneg t; omega
      · rfl
    have : t.anchor f.pts = t := by unfold Spec.anchor; rw [hs]; rfl
    rw [this] at ha; exact ha
  · rw [if_neg hl, if_neg hl]
    by_cases hm : t.deviation f.pts ≤ t.tol
    · rw [if_neg (by omega), if_pos hm]
      obtain ⟨s2, h1, h2⟩ := ha.pushBack f.planes f.samples (anchor_synced ..)
        (by rw [anchor_bps]; exact hn) (by rw [anchor_ch]; omega) (by rw [anchor_bps]; exact hps)
      rw [h1]
      simp only [Outcome.bind_ok]
      split at h2 <;> rename_i hfit
      · simp only [hfit, if_true]; exact ⟨_, rfl, h2⟩
      · simp only [hfit]; exact ⟨_, rfl, h2⟩
    · rw [if_pos (by omega), if_neg hm]
      obtain ⟨hg1, hg2⟩ := hgap (by omega)
      have epad : u32 ((t.deviation f.pts).toNat * s1.sampleRate / 1000000) = t.missing f.pts := by
        rw [ha.sr, anchor_sr]; exact u32_eq hg1
      rw [epad, ha.chMax, anchor_chMax]
      by_cases hres : t.missing f.pts ≥ t.chMax
      · rw [if_pos hres, if_pos hres]
        refine ⟨_, rfl, ?_⟩
        have hr := ha.chs.reset
        rw [ha.dlen] at hr
        exact ⟨ha.ch, ha.ch2, ha.sr, ha.sr0, ha.bps, ha.bps0, ha.chMax, ha.cap, ha.cap0, ha.thr, ha.buf,
          ha.buf32, Nat.le_refl _, by simp [Spec.reset], by simp [ACB.flush, Spec.reset],
          by simp [ACB.flush, Spec.reset], by simp [ACB.flush, Spec.reset], ha.dlen,
          by simpa [ACB.flush, Spec.reset] using hr, ha.fill, ha.sync, rfl, fun _ => rfl, ha.outN,
          ha.outN_le, ha.outPts, ha.outBuf, ha.outLen, ha.outSz, by simp [ACB.flush, Spec.reset, ha.lost]⟩
      · rw [if_neg hres, if_neg hres]
        have hk : t.missing f.pts ≤ t.bufSamples := hg2 (by omega)
        have hkb : t.missing f.pts * t.bps ≤ t.bufSamples * t.bps := Nat.mul_le_mul_right _ hk
        have hb32 : t.bufSamples * t.bps < 4294967296 := h.buf32
        have edum : s1.dummy = List.replicate 2 (List.replicate (t.bufSamples * t.bps) 0) := by
          unfold ACB.dummy; rw [ha.buf, ha.bps, anchor_buf, anchor_bps]
        rw [edum]
        obtain ⟨s2, h1, h2⟩ := ha.pushBack
          (List.replicate 2 (List.replicate (t.bufSamples * t.bps) (0 : UInt8))) (t.missing f.pts)
          (anchor_synced ..) (by rw [anchor_bps]; omega)
          (by rw [List.length_replicate]; exact ha.ch2)
          (by intro p hp; rw [List.mem_replicate] at hp; rw [hp.2, anchor_bps]; simpa using hkb)
        rw [h1]
        simp only [Outcome.bind_ok]
        rcases hfit : (t.anchor f.pts).fits (t.missing f.pts) with _ | _
        · rw [hfit] at h2; exact ⟨_, rfl, by simpa using h2⟩
        · rw [hfit] at h2
          simp only [if_true] at h2
          have esil : (t.anchor f.pts).append (t.missing f.pts)
              (List.replicate 2 (List.replicate (t.bufSamples * t.bps) (0 : UInt8))) =
              (t.anchor f.pts).append (t.missing f.pts) (t.silence (t.missing f.pts)) := by
            unfold Spec.append Spec.silence
            have hal : (t.anchor f.pts).acc.length = t.channels := by
              rw [← ha.chs.length_eq, ha.dlen, anchor_ch]
            have hc2 : t.channels ≤ 2 := h.ch2
            rw [anchor_bps, zipWith_replicate_take t.bps _ _ hkb _ 2 t.channels (by omega) (by omega)]
          rw [esil] at h2
          have hsy : ((t.anchor f.pts).append (t.missing f.pts) (t.silence (t.missing f.pts))).synced
              = true := anchor_synced ..
          have ebps : ((t.anchor f.pts).append (t.missing f.pts) (t.silence (t.missing f.pts))).bps
              = t.bps := anchor_bps ..
          have ech : ((t.anchor f.pts).append (t.missing f.pts) (t.silence (t.missing f.pts))).channels
              = t.channels := anchor_ch ..
          obtain ⟨s3, h3, h4⟩ := h2.pushBack f.planes f.samples hsy (by rw [ebps]; exact hn)
            (by rw [ech]; omega) (by rw [ebps]; exact hps)
          simp only [Bool.not_true, Bool.false_eq_true, if_false, h3, Outcome.bind_ok]
          split at h4 <;> rename_i hfit2
          · simp only [hfit2, if_true]; exact ⟨_, rfl, h4⟩
          · simp only [hfit2]; exact ⟨_, rfl, h4⟩

theorem next_length (t : Spec) (n : Nat) : (t.next n).length = t.acc.length := by
  simp [Spec.next]

theorem map_take_zip (k : Nat) : ∀ (xs ys : List Bytes), xs.length = ys.length →
    (∀ x ∈ xs, x.length = k) →
    (List.zipWith (fun new old => new ++ old.drop k) xs ys).map (List.take k) = xs := by
  intro xs
  induction xs with
  | nil => intro ys _ _; simp
  | cons x xs ih =>
    intro ys hl hx
    rcases ys with _ | ⟨y, ys⟩
    · simp at hl
    · have hx0 := hx x (by simp)
      simp only [List.zipWith_cons_cons, List.map_cons]
      rw [ih ys (by simpa using hl) (fun z hz => hx z (by simp [hz])), List.take_append_of_le_length (by omega),
        List.take_of_length_le (by omega)]

theorem ChsRel.acc_len {M front n : Nat} {data acc : List Bytes} (h : ChsRel M front n data acc) :
    ∀ a ∈ acc, a.length = n := by
  induction h with
  | nil => simp
  | cons hd _ ih =>
    intro a ha
    rcases List.mem_cons.1 ha with rfl | ha
    · exact hd.2
    · exact ih a ha

theorem zip_sz (k m : Nat) (hk : k ≤ m) : ∀ (xs ys : List Bytes), (∀ x ∈ xs, x.length = k) →
    (∀ y ∈ ys, y.length = m) →
    ∀ b ∈ List.zipWith (fun new old => new ++ old.drop k) xs ys, b.length = m := by
  intro xs
  induction xs with
  | nil => intro ys _ _ b hb; simp at hb
  | cons x xs ih =>
    intro ys hx hy b hb
    rcases ys with _ | ⟨y, ys⟩
    · simp at hb
    · rcases List.mem_cons.1 hb with rfl | hb
      · have := hx x (by simp); have := hy y (by simp); simp; omega
      · exact ih ys (fun z hz => hx z (by simp [hz])) (fun z hz => hy z (by simp [hz])) b hb

theorem Rel.getFront {s : ACB} {t : Spec} (h : Rel s t) (hsafe : Safe t .get) :
    ∃ s', s.getFront = .ok (s', t.get.2) ∧ Rel s' t.get.1 := by
  have hdel : t.delN < 4294967296 := hsafe
  have hb0 := h.bps0
  have hs0 := h.sr0
  unfold ACB.getFront Spec.get
  rcases hheld : t.held with _ | _
  · rw [h.fill, hheld]
    simp only [Bool.not_false, Bool.not_true, Bool.false_eq_true, if_false]
    rw [if_neg (by rw [h.bps, h.sr]; omega)]
    have efront : s.front / s.bps = t.delN := by
      rw [h.front, h.bps]; exact Nat.mul_div_cancel _ hb0
    have ets : ((u32 (s.front / s.bps) * 1000000 / s.sampleRate : Nat) : Int) + s.sync
        = t.timeOf t.delN := by
      rw [efront, u32_eq hdel, h.sync, h.sr]; unfold Spec.timeOf; omega
    rw [ets]
    have hout : t.outN * t.bps ≤ t.bufSamples * t.bps := Nat.mul_le_mul_right _ h.outN_le
    have e : u32 (s.outN * s.bps) = t.outN * t.bps := by
      rw [h.outN, h.bps]; exact u32_eq (by have := h.buf32; omega)
    unfold ACB.popFront
    simp only [e, h.el]
    by_cases hav : t.accN - t.delN < t.outN
    · have : (t.accN - t.delN) * t.bps < t.outN * t.bps := Nat.mul_lt_mul_of_pos_right hav hb0
      rw [if_pos this, if_pos hav]
      refine ⟨_, rfl, ?_⟩
      exact ⟨h.ch, h.ch2, h.sr, h.sr0, h.bps, h.bps0, h.chMax, h.cap, h.cap0, h.thr, h.buf, h.buf32, h.le,
        h.fit, h.rear, h.front, rfl, h.dlen, h.chs, rfl, h.sync, h.synced, h.unsynced, h.outN,
        h.outN_le, rfl, h.outBuf, h.outLen, h.outSz, h.lost⟩
    · have hge : t.outN * t.bps ≤ (t.accN - t.delN) * t.bps := Nat.mul_le_mul_right _ (by omega)
      have hsub : (t.accN - t.delN) * t.bps = t.accN * t.bps - t.delN * t.bps := Nat.sub_mul ..
      have hle : t.delN * t.bps ≤ t.accN * t.bps := Nat.mul_le_mul_right _ h.le
      have hfit := h.fit
      rw [if_neg (by omega), if_neg hav]
      rw [if_neg (by rw [h.cap]; have := h.cap0; omega), h.cap, h.front, h.outBuf]
      rw [forOut_eq h.cap0 (by omega) (by omega) h.chs (by rw [h.dlen, h.outLen]; omega)
        (by intro p hp; rw [h.outSz p hp]; exact hout)]
      simp only [Outcome.bind_ok]
      have hnext : ∀ x ∈ t.next t.outN, x.length = t.outN * t.bps := by
        intro x hx
        simp only [Spec.next, List.mem_map] at hx
        obtain ⟨a, ha, rfl⟩ := hx
        have := h.chs.acc_len a ha
        simp; omega
      have hnl : (t.next t.outN).length = t.outBuf.length := by
        rw [next_length, ← h.chs.length_eq, h.dlen, h.outLen]
      have eout := map_take_zip (t.outN * t.bps) (t.next t.outN) t.outBuf hnl hnext
      refine ⟨_, congrArg (fun z => Outcome.ok (_, some z)) (?_ : _ = (t.timeOf t.delN, t.next t.outN)), ?_⟩
      rotate_left
      · have e1 : (t.delN + t.outN) * t.bps = t.delN * t.bps + t.outN * t.bps := Nat.add_mul ..
        have e2 : (t.accN - (t.delN + t.outN)) * t.bps =
            (t.accN - t.delN) * t.bps - t.outN * t.bps := by
          rw [← Nat.sub_sub, Nat.sub_mul]
        refine ⟨h.ch, h.ch2, h.sr, h.sr0, h.bps, h.bps0, h.chMax, rfl, h.cap0, h.thr, h.buf, h.buf32, ?_,
          ?_, h.rear, ?_, ?_, h.dlen, ?_, rfl, h.sync, h.synced, h.unsynced, h.outN, h.outN_le, rfl, rfl, ?_,
          ?_, h.lost⟩
        · show t.delN + t.outN ≤ t.accN; have := h.le; omega
        · show (t.accN - (t.delN + t.outN)) * t.bps ≤ t.cap; omega
        · show t.delN * t.bps + t.outN * t.bps = (t.delN + t.outN) * t.bps; omega
        · show _ = (t.accN - (t.delN + t.outN)) * t.bps; rw [e2]
        · show ChsRel t.cap ((t.delN + t.outN) * t.bps) (t.accN * t.bps) s.data t.acc
          rw [e1]; exact h.chs.advance
        · show (List.zipWith _ (t.next t.outN) t.outBuf).length = t.channels
          rw [List.length_zipWith, hnl, h.outLen, Nat.min_self]
        · exact zip_sz _ _ hout _ _ hnext h.outSz
      · simp only [ACB.outFrame, h.outN, h.bps]
        unfold Spec.next at eout ⊢
        rw [eout]
  · rw [h.fill, hheld]
    simp only [Bool.not_true, Bool.not_false, if_true]
    refine ⟨s, ?_, h⟩
    unfold ACB.outFrame Spec.outFrame
    rw [h.outPts, h.outBuf, h.outN, h.bps]

theorem step_rel (s : ACB) (t : Spec) (op : Op) (hsafe : Safe t op) (h : Rel s t) :
    ∃ s', s.step op = .ok (s', (t.step op).2) ∧ Rel s' (t.step op).1 := by
  cases op with
  | push f =>
    obtain ⟨s', h1, h2⟩ := h.addFrame f hsafe
    exact ⟨s', by simp [ACB.step, h1, Spec.step], h2⟩
  | get =>
    obtain ⟨s', h1, h2⟩ := h.getFront hsafe
    exact ⟨s', by simp [ACB.step, h1, Spec.step], h2⟩
  | remove =>
    refine ⟨_, rfl, ?_⟩
    exact ⟨h.ch, h.ch2, h.sr, h.sr0, h.bps, h.bps0, h.chMax, h.cap, h.cap0, h.thr, h.buf, h.buf32, h.le,
      h.fit, h.rear, h.front, h.el, h.dlen, h.chs, rfl, h.sync, h.synced, h.unsynced, h.outN,
      h.outN_le, h.outPts, h.outBuf, h.outLen, h.outSz, h.lost⟩
  | again =>
    refine ⟨s, ?_, h⟩
    simp only [ACB.step, Spec.step, ACB.outFrame, Spec.outFrame]
    rw [h.outPts, h.outBuf, h.outN, h.bps]
  | setOut n =>
    refine ⟨_, rfl, ?_⟩
    exact ⟨h.ch, h.ch2, h.sr, h.sr0, h.bps, h.bps0, h.chMax, h.cap, h.cap0, h.thr, h.buf, h.buf32, h.le,
      h.fit, h.rear, h.front, h.el, h.dlen, h.chs, h.fill, h.sync, h.synced, h.unsynced, rfl,
      hsafe, h.outPts, h.outBuf, h.outLen, h.outSz, h.lost⟩
  | count =>
    refine ⟨s, ?_, h⟩
    have h0 : 0 < t.outN := hsafe
    simp only [ACB.step, ACB.getElements, h.outN, h.bps, h.el, Spec.step]
    rw [if_neg (by have := Nat.mul_pos h0 h.bps0; omega)]
    simp only [Outcome.bind_ok]
    rw [Nat.mul_div_mul_right _ _ h.bps0]
  | free =>
    refine ⟨s, ?_, h⟩
    have := h.bps0
    simp only [ACB.step, ACB.getFreeSamples, h.cap, h.bps, h.el, Spec.step]
    split
    · simp only [Outcome.bind_ok]; rename_i h0; rw [h0]; simp
    · rw [if_neg (by omega)]; rfl

theorem create_rel (channels sampleRate maxSamples : Nat) (fmt : Fmt) (sync0 : Int)
    (hc : 1 ≤ channels ∧ channels ≤ 2) (hr : 1000 ≤ sampleRate ∧ sampleRate ≤ 107374)
    (hm : 0 < maxSamples) (hf : fmt ≠ .other)
    (h32 : maxSamples * (sampleRate / 1000) * fmt.bytes < 4294967296) :
    ∃ s, ACB.create channels sampleRate maxSamples fmt sync0 = .ok (some s) ∧
      Rel s (Spec.init channels sampleRate maxSamples fmt.bytes sync0) := by
  have hb : 1 ≤ fmt.bytes ∧ fmt.bytes ≤ 4 := by cases fmt <;> simp [Fmt.bytes] at hf ⊢
  have hk : 1 ≤ sampleRate / 1000 := by omega
  have hcap : 0 < maxSamples * (sampleRate / 1000) * fmt.bytes :=
    Nat.mul_pos (Nat.mul_pos hm hk) hb.1
  have hbuf : 100 * sampleRate / 1000 * fmt.bytes < 4294967296 :=
    Nat.lt_of_le_of_lt (Nat.mul_le_mul_left _ hb.2) (by omega)
  unfold ACB.create
  rw [if_neg (by omega), if_neg hf, if_neg (by unfold MAX_CHANNELS; omega), if_neg (by omega)]
  simp only [u32_eq h32]
  refine ⟨_, rfl, ?_⟩
  refine ⟨rfl, hc.2, rfl, ?_, rfl, hb.1, rfl, rfl, hcap, rfl, rfl, hbuf, Nat.le_refl _, ?_, ?_, ?_, ?_, ?_, ?_,
    rfl, rfl, rfl, fun _ => rfl, rfl, ?_, rfl, rfl, ?_, ?_, rfl⟩
  · show 0 < sampleRate; omega
  · simp [Spec.init]
  · simp [Spec.init]
  · simp [Spec.init]
  · simp [Spec.init]
  · simp [Spec.init]
  · show ChsRel (maxSamples * (sampleRate / 1000) * fmt.bytes) (0 * fmt.bytes) (0 * fmt.bytes)
      (List.replicate channels (List.replicate _ 0)) (List.replicate channels [])
    rw [Nat.zero_mul]
    generalize maxSamples * (sampleRate / 1000) * fmt.bytes = M
    have : ∀ c, ChsRel M 0 0 (List.replicate c (List.replicate M 0)) (List.replicate c []) := by
      intro c
      induction c with
      | zero => exact .nil
      | succ c ih => exact .cons ⟨⟨by simp, fun i _ h => by simp at h⟩, rfl⟩ ih
    exact this channels
  · show 20000 * sampleRate / 1000000 ≤ 100 * sampleRate / 1000; omega
  · simp [Spec.init]
  · intro b hb; simp only [Spec.init, List.mem_replicate] at hb; rw [hb.2]; simp [Spec.init]

end Lms.AudioRing
