import Verif.Sources.Sampler
import Verif.Sps.Dims
import Verif.UltraGrid.Sink
import Verif.UltraGrid.Props

/-!
# C84: a stream sent to an UltraGrid receiver
-/

namespace Lms.UltraGrid

open Lms.Sources (Nal Au IsDelimiter unitBytes nalType sample sample_unit sample_delim nalType_nine unitBytes_cons unit_length)
open Lms.Sps (Info)

/-! ## Specification -/

/-- What has been learnt of size and rate after some units: parameter sets (C28) count, nothing else. -/
inductive Says : Info → List Bytes → Info → Prop
  | nil (i : Info) : Says i [] i
  | other {i i' : Info} {u : Bytes} {l : List Bytes} : nalType u ≠ 7 → Says i l i' → Says i (u :: l) i'
  | sps {i j i' : Info} {u : Bytes} {l : List Bytes} : nalType u = 7 → Sps.update i u = .ok j → Says j l i' → Says i (u :: l) i'

/-- The bytes of the units of an access unit. -/
def datas (a : Au) : List Bytes := a.units.map (·.data)

/-- No size yet. -/
def Unsized (i : Info) : Prop := i.width = 0 ∨ i.height = 0

/-- Size and rate that the header has room for. -/
structure Sized (i : Info) (rate : Nat) : Prop where
  width : 0 < i.width ∧ i.width < 2 ^ 16
  height : 0 < i.height ∧ i.height < 2 ^ 16
  rate : i.rate = some (rate : Int) ∧ 0 < rate ∧ rate < 2 ^ 10

/-- Access units without a size at the end of any. -/
inductive Waits : Info → List Au → Info → Prop
  | nil (i : Info) : Waits i [] i
  | cons {i i' i'' : Info} {a : Au} {l : List Au} : Says i (datas a) i' → Unsized i' → Waits i' l i'' → Waits i (a :: l) i''

/-- The marker is on the last packet and no other. -/
def MarkedLast : List Sent → Prop
  | [] => False
  | [k] => k.marker = true
  | k :: l => k.marker = false ∧ MarkedLast l

/-- The packets of an access unit: its bytes in pieces one behind the other, in packets that fit, with its time, number, length, size
and rate. -/
structure Group (c : Cfg) (number : Nat) (a : Au) (i : Info) (rate : Nat) (g : List Sent) : Prop where
  tiles : Tiles 0 (g.map fun p => piece p.bytes) (unitBytes c.annexB (datas a))
  marked : MarkedLast g
  each : ∀ p ∈ g, p.time = a.delim.time ∧ p.bytes.length ≤ c.maxOut ∧ ∃ o, readHeader p.bytes =
    ⟨0, number % 2 ^ 22, o, (unitBytes c.annexB (datas a)).length, i.width, i.height, 0x41564331, 0, rate, 1, if rate ≤ 5 then 1 else 0⟩

/-- A stream of access units as it is sent: in order, numbered, those without units left out. -/
inductive Streamed (c : Cfg) : Nat → Info → List Au → List Sent → Prop
  | nil (n : Nat) (i : Info) : Streamed c n i [] []
  | empty {n : Nat} {i : Info} {a : Au} {l : List Au} {out : List Sent} :
      a.units = [] → Streamed c n i l out → Streamed c n i (a :: l) out
  | unit {n : Nat} {i i' : Info} {rate : Nat} {a : Au} {l : List Au} {g out : List Sent} :
      a.units ≠ [] → Says i (datas a) i' → Group c n a i' rate g → i'.rate = some (rate : Int) → Streamed c (n + 1) i' l out →
      Streamed c n i (a :: l) (g ++ out)

/-- An access unit for which there is room. -/
structure Fits (c : Cfg) (a : Au) : Prop where
  fits : a.Fits c.annexB INBUF
  tail : (unitBytes c.annexB (datas a)).length + 24 ≤ INBUF
  room : ∀ j, (unitBytes c.annexB (datas a)).length + 48 ≤ c.avail j 0

/-- All access units leave a size and a rate that the header has room for. -/
inductive Steady : Info → List Au → Prop
  | nil (i : Info) : Steady i []
  | cons {i i' : Info} {rate : Nat} {a : Au} {l : List Au} : Says i (datas a) i' → Sized i' rate → Steady i' l → Steady i (a :: l)

/-- Units and delimiters in the order they come. -/
def units (l : List Au) : List Nal := l.flatMap fun a => a.units ++ [a.delim]

/-! ## Theorems -/

theorem stream_append (c : Cfg) (a b : List Nal) : ∀ k, stream c k (a ++ b) =
    (stream c k a).bind fun r => (stream c r.2 b).bind fun r' => .ok (r.1 ++ r'.1, r'.2) := by
  induction a with
  | nil =>
    intro k
    rw [List.nil_append, stream, Outcome.bind_ok]
    cases stream c k b <;> rfl
  | cons u a ih =>
    intro k
    rw [List.cons_append, stream, stream]
    cases feed c k u with
    | ub => rfl
    | hang => rfl
    | ok r =>
      rw [Outcome.bind_ok, Outcome.bind_ok, ih]
      cases stream c r.2 a with
      | ub => rfl
      | hang => rfl
      | ok r' =>
        rw [Outcome.bind_ok, Outcome.bind_ok, Outcome.bind_ok]
        cases stream c r'.2 b with
        | ub => rfl
        | hang => rfl
        | ok r'' => simp only [Outcome.bind_ok, List.append_assoc]

theorem feed_unit (c : Cfg) (k : Sk) (u : Nal) (i : Info) (h : ¬ IsDelimiter u.data) (hf : k.acc.length + 4 + u.data.length ≤ INBUF)
    (hl : learn k.info u.data = .ok i) :
    feed c k u = .ok ([], { k with acc := k.acc ++ unitBytes c.annexB [u.data], info := i }) := by
  unfold feed
  have ht : u.data.take (INBUF - k.acc.length - 4) = u.data := List.take_of_length_le (by omega)
  rw [sample_unit _ _ _ _ h hf, Outcome.bind_ok, ht, hl, Outcome.bind_ok]

theorem feed_delim (c : Cfg) (k : Sk) (u : Nal) (h : IsDelimiter u.data) (hf : k.acc.length + 4 + u.data.length ≤ INBUF) :
    feed c k u = deliver c { k with acc := [] } k.acc u.time := by
  unfold feed
  have ht : u.data.take (INBUF - k.acc.length - 4) = u.data := List.take_of_length_le (by omega)
  have hl : learn k.info u.data = .ok k.info := by
    unfold learn; rw [if_neg (by rw [(nalType_nine _).2 h]; decide)]
  rw [sample_delim _ _ _ _ h hf, Outcome.bind_ok, ht, hl, Outcome.bind_ok]

theorem says_cons {i i' : Info} {u : Bytes} {l : List Bytes} (h : Says i (u :: l) i') : ∃ j, learn i u = .ok j ∧ Says j l i' := by
  cases h with
  | other h1 h2 => exact ⟨i, by unfold learn; rw [if_neg h1], h2⟩
  | sps h1 h2 h3 => exact ⟨_, by unfold learn; rw [if_pos h1]; exact h2, h3⟩

theorem says_det {i : Info} {l : List Bytes} : ∀ {a b : Info}, Says i l a → Says i l b → a = b := by
  induction l generalizing i with
  | nil => intro a b h1 h2; cases h1; cases h2; rfl
  | cons u l ih =>
    intro a b h1 h2
    obtain ⟨j, e, h1⟩ := says_cons h1
    obtain ⟨j', e', h2⟩ := says_cons h2
    rw [e] at e'; cases e'
    exact ih h1 h2

/-- The units of an access unit are gathered. -/
theorem gather (c : Cfg) (us : List Nal) : ∀ (k : Sk) (i : Info), (∀ u ∈ us, ¬ IsDelimiter u.data) →
    k.acc.length + (unitBytes c.annexB (us.map (·.data))).length ≤ INBUF → Says k.info (us.map (·.data)) i →
    stream c k us = .ok ([], { k with acc := k.acc ++ unitBytes c.annexB (us.map (·.data)), info := i }) := by
  induction us with
  | nil =>
    intro k i _ _ h
    cases h
    rw [stream]
    simp [unitBytes]
  | cons u us ih =>
    intro k i hd hf hs
    rw [List.map_cons, unitBytes_cons, List.length_append, unit_length] at hf
    obtain ⟨j, hl, hs⟩ := says_cons hs
    rw [stream, feed_unit c k u j (hd u List.mem_cons_self) (by omega) hl, Outcome.bind_ok]
    rw [ih _ i (fun v hv => hd v (List.mem_cons_of_mem _ hv)) (by simp only [List.length_append, unit_length]; omega) hs, Outcome.bind_ok]
    simp only [List.nil_append, List.map_cons]
    rw [unitBytes_cons c.annexB u.data (us.map (·.data)), ← List.append_assoc]

/-- An access unit arrives as a whole. -/
theorem arrive (c : Cfg) (k : Sk) (a : Au) (i : Info) (hk : k.acc = []) (hf : a.Fits c.annexB INBUF) (hs : Says k.info (datas a) i) :
    stream c k (a.units ++ [a.delim]) = deliver c { k with info := i } (unitBytes c.annexB (datas a)) a.delim.time := by
  have hfit := hf.fits
  rw [stream_append, gather c a.units k i hf.inner (by rw [hk]; simp only [List.length_nil]; omega) hs, Outcome.bind_ok]
  rw [hk, List.nil_append, stream]
  rw [feed_delim _ _ _ hf.closing (by simp only; omega)]
  simp only
  have he : ({ acc := [], info := i, mark := k.mark, count := k.count, frag := k.frag } : Sk) = { k with info := i } := by
    cases k; simp only at hk; subst hk; rfl
  rw [he]
  unfold datas
  cases deliver c { k with info := i } (unitBytes c.annexB (a.units.map (·.data))) a.delim.time with
  | ub => rfl
  | hang => rfl
  | ok r => simp [stream, Outcome.bind_ok]

theorem unsized_known {i : Info} (h : Unsized i) : known i = false := by
  unfold known Unsized at *; rw [decide_eq_false_iff_not]; omega

theorem sized_known {i : Info} {r : Nat} (h : Sized i r) : known i = true := by
  obtain ⟨⟨a, b⟩, ⟨d, e⟩, -⟩ := h
  unfold known; rw [decide_eq_true_iff]; omega

/-- Before the size is known nothing is sent. -/
theorem waits_sent (c : Cfg) {i i' : Info} {l : List Au} (h : Waits i l i') : ∀ (k : Sk), k.acc = [] → k.info = i → k.frag = none →
    (∀ a ∈ l, Fits c a) → ∃ k', stream c k (units l) = .ok ([], k') ∧ k'.acc = [] ∧ k'.info = i' ∧ k'.frag = none := by
  induction h with
  | nil i => intro k h1 h2 h3 _; exact ⟨k, rfl, h1, h2, h3⟩
  | @cons i i' i'' a l hs hu hw ih =>
    intro k h1 h2 h3 hf
    have hd : stream c k (a.units ++ [a.delim]) = .ok ([], { k with info := i', mark := true, count := k.count + 1 }) := by
      rw [arrive c k a i' h1 (hf a List.mem_cons_self).fits (by rw [h2]; exact hs)]
      unfold deliver
      simp only [h3]
      rw [unsized_known hu]
      rfl
    obtain ⟨k', e1, e2⟩ := ih { k with info := i', mark := true, count := k.count + 1 } h1 rfl h3
      (fun b hb => hf b (List.mem_cons_of_mem _ hb))
    refine ⟨k', ?_, e2⟩
    show stream c k ((a.units ++ [a.delim]) ++ units l) = _
    rw [stream_append, hd, Outcome.bind_ok, e1, Outcome.bind_ok]
    rfl

theorem stamp_false (t : Int) (ps : List Packet) (h : ∀ p ∈ ps, p.last = false) : stamp t true ps = (ps.map fun p => ⟨p.bytes, false, t⟩, true) := by
  induction ps with
  | nil => rfl
  | cons p l ih =>
    rw [stamp, h p List.mem_cons_self]
    simp only [Bool.false_and, Bool.not_false, Bool.and_true, List.map_cons]
    rw [ih (fun q hq => h q (List.mem_cons_of_mem _ hq))]

theorem stamped (t : Int) (ps : List Packet) (h : LastOnly ps) :
    MarkedLast (stamp t true ps).1 ∧ (stamp t true ps).2 = false ∧ (stamp t true ps).1.map (·.bytes) = ps.map (·.bytes) ∧
      ∀ p ∈ (stamp t true ps).1, p.time = t := by
  induction ps with
  | nil => exact absurd h (by simp [LastOnly])
  | cons p l ih =>
    cases l with
    | nil =>
      have h : p.last = true := h
      simp [stamp, h, MarkedLast]
    | cons q l =>
      have h : p.last = false ∧ LastOnly (q :: l) := h
      obtain ⟨e1, e2, e3, e4⟩ := ih h.2
      have hs : stamp t true (p :: q :: l) = (⟨p.bytes, false, t⟩ :: (stamp t true (q :: l)).1, (stamp t true (q :: l)).2) := by
        rw [stamp, h.1]; rfl
      rw [hs]
      refine ⟨?_, e2, by simp only [List.map_cons] at e3 ⊢; rw [e3], ?_⟩
      · show MarkedLast (_ :: _)
        cases hq : (stamp t true (q :: l)).1 with
        | nil => rw [hq] at e1; exact absurd e1 (by simp [MarkedLast])
        | cons x y => rw [hq] at e1; exact ⟨rfl, e1⟩
      · intro x hx
        rcases List.mem_cons.1 hx with rfl | hx
        · rfl
        · exact e4 x hx

theorem refresh_sized (junk : Option (Nat × Bool)) {i : Info} {rate : Nat} (h : Sized i rate) (s : St) :
    refresh junk i s = { s with width := i.width, height := i.height, fps := rate, fd := decide (rate ≤ 5) } := by
  obtain ⟨-, -, ⟨hr, h0, -⟩⟩ := h
  unfold refresh
  simp only [hr]
  rw [if_pos (by omega)]
  have e : decide ((rate : Int) ≤ 5) = decide (rate ≤ 5) := by rw [decide_eq_decide]; omega
  rw [e, Int.toNat_natCast]

/-- The fragmenter between two access units. -/
structure Idle (c : Cfg) (n : Nat) (s : St) : Prop where
  maxOut : s.maxOut = c.maxOut
  data : s.data = []
  off : s.off = 0
  buf : s.buf = n
  tile : s.tile = 0

theorem refresh_idle (c : Cfg) (junk : Option (Nat × Bool)) (i : Info) (n : Nat) (s : St) (h : Idle c n s) : Idle c n (refresh junk i s) := by
  obtain ⟨h1, h2, h3, h4, h5⟩ := h
  unfold refresh
  cases i.rate with
  | none =>
    cases junk with
    | none => exact ⟨h1, h2, h3, h4, h5⟩
    | some p => exact ⟨h1, h2, h3, h4, h5⟩
  | some r => simp only; split <;> exact ⟨h1, h2, h3, h4, h5⟩

theorem next_tile (s s' : St) (av : Nat) (p : Packet) (h : next s av = .ok (p, s')) : s'.tile = s.tile ∧ s'.maxOut = s.maxOut := by
  unfold next advance at h
  simp only at h
  split at h
  · cases h
  · split at h
    · split at h
      · cases h
      · simp only [Outcome.ok.injEq, Prod.mk.injEq] at h
        rw [← h.2]; split <;> exact ⟨rfl, rfl⟩
    · simp only [Outcome.ok.injEq, Prod.mk.injEq] at h
      rw [← h.2]; split <;> exact ⟨rfl, rfl⟩

theorem send_tile (avail : Nat → Nat) : ∀ (fuel i : Nat) (s s' : St) (ps : List Packet), sendFrame avail fuel i s = .ok (ps, s') →
    s'.tile = s.tile ∧ s'.maxOut = s.maxOut := by
  intro fuel
  induction fuel with
  | zero =>
    intro i s s' ps h
    rw [sendFrame] at h
    split at h
    · cases h; exact ⟨rfl, rfl⟩
    · cases h
  | succ fuel ih =>
    intro i s s' ps h
    rw [sendFrame] at h
    split at h
    · cases h; exact ⟨rfl, rfl⟩
    · cases hn : next s (avail i) with
      | ub => rw [hn] at h; cases h
      | hang => rw [hn] at h; cases h
      | ok r =>
        rw [hn, Outcome.bind_ok] at h
        cases hs : sendFrame avail fuel (i + 1) r.2 with
        | ub => rw [hs] at h; cases h
        | hang => rw [hs] at h; cases h
        | ok r' =>
          rw [hs, Outcome.bind_ok] at h
          simp only [Outcome.ok.injEq, Prod.mk.injEq] at h
          obtain ⟨p, s1⟩ := r
          obtain ⟨ps', s2⟩ := r'
          have a := next_tile _ _ _ _ hn
          have b := ih _ _ _ _ hs
          rw [← h.2]
          exact ⟨b.1.trans a.1, b.2.trans a.2⟩

/-- One access unit, sent. -/
theorem unit_sent (c : Cfg) (k : Sk) (a : Au) (i : Info) (rate n : Nat) (s : St) (hk : k.acc = []) (hfr : k.frag = some s) (hid : Idle c n s)
    (hf : Fits c a) (hs : Says k.info (datas a) i) (hz : Sized i rate) (hav : ∀ j x, 24 < min (c.avail j x) c.maxOut) (hne : a.units ≠ []) :
    ∃ g k' s', stream c k (a.units ++ [a.delim]) = .ok (g, k') ∧ Group c n a i rate g ∧ k'.acc = [] ∧ k'.info = i ∧ k'.frag = some s' ∧
      Idle c (n + 1) s' := by
  obtain ⟨h1, h2, h3, h4, h5⟩ := hid
  have hfit := hf.fits.fits
  obtain ⟨fr, hfre⟩ : ∃ fr, unitBytes c.annexB (datas a) = fr := ⟨_, rfl⟩
  have hroom := hf.room (k.count + 1)
  have hnil : fr ≠ [] := by
    intro h
    rw [h] at hfre
    cases hu : a.units with
    | nil => exact hne hu
    | cons u l =>
      have : (unitBytes c.annexB (datas a)).length ≠ 0 := by
        unfold datas; rw [hu, List.map_cons, unitBytes_cons, List.length_append, unit_length]; omega
      rw [hfre] at this; exact this rfl
  have hlen : fr.length + 24 ≤ 6220800 := by rw [← hfre]; exact hf.tail
  rw [hfre] at hroom
  have hr := refresh_sized c.junk hz s
  obtain ⟨ps, s', e1, e2, e3, e4, e5, e6, e7⟩ := frame_sent (refresh c.junk i s) fr (c.avail (k.count + 1)) fr.length
    (by rw [hr]; exact h3) hnil (by intro x; rw [hr]; show 24 < min _ s.maxOut; rw [h1]; exact hav _ x) hroom hlen (Nat.le_refl _)
    (by rw [hr]; show s.tile < _; rw [h5]; decide) (by rw [hr]; exact hz.width.2) (by rw [hr]; exact hz.height.2) (by rw [hr]; exact hz.rate.2.2)
  obtain ⟨t1, t2⟩ := send_tile _ _ _ _ _ _ e1
  obtain ⟨m1, m2, m3, m4⟩ := stamped a.delim.time ps e6
  refine ⟨(stamp a.delim.time true ps).1, { k with info := i, mark := false, count := k.count + 1, frag := some s' }, s', ?_, ?_, hk, rfl, rfl, ?_⟩
  · rw [arrive c k a i hk hf.fits hs, hfre]
    unfold deliver
    simp only [hfr]
    rw [e1, Outcome.bind_ok, m2]
  · refine ⟨?_, m1, ?_⟩
    · rw [hfre, show ((stamp a.delim.time true ps).1.map fun p => piece p.bytes) = ps.map fun k => piece k.bytes by
        have : ((stamp a.delim.time true ps).1.map (·.bytes)).map piece = (ps.map (·.bytes)).map piece := by rw [m3]
        rw [List.map_map, List.map_map] at this; exact this]
      exact e5
    · intro p hp
      refine ⟨m4 p hp, ?_⟩
      have : p.bytes ∈ ps.map (·.bytes) := by rw [← m3]; exact List.mem_map.2 ⟨p, hp, rfl⟩
      obtain ⟨q, hq, hqe⟩ := List.mem_map.1 this
      obtain ⟨x, hx⟩ := List.getElem?_of_mem hq
      obtain ⟨f1, o, f2⟩ := e7 x q hx
      rw [hr] at f1 f2
      rw [hqe] at f1 f2
      refine ⟨?_, o, ?_⟩
      · have f1 : p.bytes.length ≤ min _ s.maxOut := f1
        rw [h1] at f1; omega
      · rw [f2, hfre]
        simp only [h5, h4, decide_eq_true_eq]
  · refine ⟨?_, e2, e3, ?_, ?_⟩
    · rw [t2, hr]; exact h1
    · rw [e4, hr]; show s.buf + 1 = _; rw [h4]
    · rw [t1, hr]; exact h5

theorem send_nothing (avail : Nat → Nat) (i : Nat) (s : St) (h : s.data = []) : sendFrame avail 0 i s = .ok ([], s) := by
  rw [sendFrame, if_pos h]

/-- An access unit without units is not sent, nor numbered. -/
theorem empty_not_sent (c : Cfg) (k : Sk) (a : Au) (n : Nat) (s : St) (hk : k.acc = []) (hfr : k.frag = some s) (hid : Idle c n s)
    (hf : a.Fits c.annexB INBUF) (he : a.units = []) :
    ∃ k' s', stream c k (a.units ++ [a.delim]) = .ok ([], k') ∧ k'.acc = [] ∧ k'.info = k.info ∧ k'.frag = some s' ∧ Idle c n s' := by
  have hd : datas a = [] := by unfold datas; rw [he]; rfl
  obtain ⟨h1, h2, h3, h4, h5⟩ := refresh_idle c c.junk k.info n s hid
  refine ⟨{ k with mark := true, count := k.count + 1, frag := some (give (refresh c.junk k.info s) []) }, _, ?_, hk, rfl, rfl, ?_⟩
  · rw [arrive c k a k.info hk hf (by rw [hd]; exact .nil _), hd]
    unfold deliver
    simp only [hfr]
    rw [show unitBytes c.annexB [] = [] from rfl, List.length_nil, send_nothing _ _ _ rfl, Outcome.bind_ok]
    rfl
  · exact ⟨h1, rfl, h3, h4, h5⟩

theorem steady_streamed (c : Cfg) (hav : ∀ j x, 24 < min (c.avail j x) c.maxOut) (l : List Au) : ∀ (i : Info) (k : Sk) (s : St) (n : Nat),
    Steady i l → (∀ a ∈ l, Fits c a) → k.acc = [] → k.info = i → k.frag = some s → Idle c n s →
    ∃ out k', stream c k (units l) = .ok (out, k') ∧ Streamed c n i l out := by
  induction l with
  | nil => intro i k s n _ _ _ _ _ _; exact ⟨[], k, rfl, .nil n i⟩
  | cons a l ih =>
    intro i k s n hs hf hk hi hfr hid
    cases hs with
    | @cons _ i' rate _ _ hsay hz hst =>
      have hfa := hf a List.mem_cons_self
      have hfl : ∀ b ∈ l, Fits c b := fun b hb => hf b (List.mem_cons_of_mem _ hb)
      have hu : units (a :: l) = (a.units ++ [a.delim]) ++ units l := rfl
      by_cases he : a.units = []
      · obtain ⟨k1, s1, e1, e2, e3, e4, e5⟩ := empty_not_sent c k a n s hk hfr hid hfa.fits he
        have hii : i' = i := by
          have hd : datas a = [] := by unfold datas; rw [he]; rfl
          rw [hd] at hsay; cases hsay; rfl
        rw [hii] at hst
        obtain ⟨out, k', f1, f2⟩ := ih i k1 s1 n hst hfl e2 (e3.trans hi) e4 e5
        refine ⟨out, k', ?_, .empty he f2⟩
        rw [hu, stream_append, e1, Outcome.bind_ok, f1, Outcome.bind_ok]
        rfl
      · obtain ⟨g, k1, s1, e1, e2, e3, e4, e5, e6⟩ := unit_sent c k a i' rate n s hk hfr hid hfa (by rw [hi]; exact hsay) hz hav he
        obtain ⟨out, k', f1, f2⟩ := ih i' k1 s1 (n + 1) hst hfl e3 e4 e5 e6
        refine ⟨g ++ out, k', ?_, .unit he hsay e2 hz.rate.1 f2⟩
        rw [hu, stream_append, e1, Outcome.bind_ok, f1, Outcome.bind_ok]

/-- **C84.** From the start: nothing is sent of the access units up to and including the first at the end of which the size is known;
everything behind it is sent in order, each access unit in packets of its own with its number, size, rate and time, the last one
marked. -/
theorem stream_sent (c : Cfg) (head rest : List Au) (first : Au) (i i' : Info) (rate : Nat) (hav : ∀ j x, 24 < min (c.avail j x) c.maxOut)
    (hw : Waits ⟨0, 0, none⟩ head i) (hs : Says i (datas first) i') (hz : Sized i' rate) (hst : Steady i' rest)
    (hf : ∀ a ∈ head ++ first :: rest, Fits c a) :
    ∃ out k, stream c .start (units (head ++ first :: rest)) = .ok (out, k) ∧ Streamed c 0 i' rest out := by
  obtain ⟨k, e1, e2, e3, e4⟩ := waits_sent c hw .start rfl rfl rfl (fun a ha => hf a (List.mem_append_left _ ha))
  have hff := hf first (List.mem_append_right _ List.mem_cons_self)
  have h1 : stream c k (first.units ++ [first.delim]) =
      .ok ([], { k with info := i', mark := true, count := k.count + 1, frag := some (refresh c.junk i' (fresh c.maxOut)) }) := by
    rw [arrive c k first i' e2 hff.fits (by rw [e3]; exact hs)]
    unfold deliver
    simp only [e4]
    rw [sized_known hz]
    rfl
  obtain ⟨out, k', f1, f2⟩ := steady_streamed c hav rest i'
    { k with info := i', mark := true, count := k.count + 1, frag := some (refresh c.junk i' (fresh c.maxOut)) } _ 0 hst
    (fun a ha => hf a (List.mem_append_right _ (List.mem_cons_of_mem _ ha))) e2 rfl rfl (refresh_idle c _ _ _ _ ⟨rfl, rfl, rfl, rfl, rfl⟩)
  refine ⟨out, k', ?_, f2⟩
  have hu : units (head ++ first :: rest) = units head ++ ((first.units ++ [first.delim]) ++ units rest) := by
    unfold units; rw [List.flatMap_append, List.flatMap_cons]
  rw [hu, stream_append, e1, Outcome.bind_ok, stream_append, h1, Outcome.bind_ok]
  simp only
  rw [f1]
  simp [Outcome.bind_ok]

/-- Without a delimiter nothing is sent, as long as there is room. -/
theorem no_delimiter_no_video (c : Cfg) (us : List Nal) (i : Info) (hd : ∀ u ∈ us, ¬ IsDelimiter u.data)
    (hf : (unitBytes c.annexB (us.map (·.data))).length ≤ INBUF) (hs : Says ⟨0, 0, none⟩ (us.map (·.data)) i) :
    ∃ k, stream c .start us = .ok ([], k) := ⟨_, gather c us .start i hd (by show 0 + _ ≤ _; omega) hs⟩

/-- Without a parameter set nothing is ever sent. -/
theorem no_size_no_video (c : Cfg) (l : List Au) (hf : ∀ a ∈ l, Fits c a) (h : ∀ a ∈ l, ∀ u ∈ a.units, nalType u.data ≠ 7) :
    ∃ k, stream c .start (units l) = .ok ([], k) := by
  have says : ∀ (us : List Nal) (i : Info), (∀ u ∈ us, nalType u.data ≠ 7) → Says i (us.map (·.data)) i := by
    intro us
    induction us with
    | nil => intro i _; exact .nil i
    | cons u us ih => intro i hu; exact .other (hu u List.mem_cons_self) (ih i fun v hv => hu v (List.mem_cons_of_mem _ hv))
  have hw : Waits ⟨0, 0, none⟩ l ⟨0, 0, none⟩ := by
    clear hf
    induction l with
    | nil => exact .nil _
    | cons a l ih =>
      exact .cons (says a.units _ (h a List.mem_cons_self)) (Or.inl rfl) (ih fun b hb => h b (List.mem_cons_of_mem _ hb))
  obtain ⟨k, e, -⟩ := waits_sent c hw .start rfl rfl rfl hf
  exact ⟨k, e⟩

/-- The size said by the parameter set is the one in force behind it, until the next. -/
theorem size_in_force (s : Sps.SpsSyn) (hl : s.Legal) (hh : s.Handled) (nal : Bytes) (hn : Sps.IsUnit s nal) (h7 : nalType nal = 7)
    (hu : s.units < 2 ^ 30) (hx : s.cropUnitX = 2 ∨ s.cropX = 0) (hy : s.cropUnitY = 2 ∨ s.cropY = 0) (hw : 0 < s.width) (hhh : 0 < s.height)
    (before after : List Bytes) (ha : ∀ u ∈ after, nalType u ≠ 7) (i i' : Info) (h : Says i (before ++ nal :: after) i') :
    (i'.width : Int) = s.width ∧ (i'.height : Int) = s.height := by
  induction before generalizing i with
  | nil =>
    obtain ⟨j, e1, e2, e3⟩ := Sps.dimensions_right s hl hh nal hn i hu hx hy hw hhh
    have keep : ∀ (l : List Bytes) (x y : Info), (∀ u ∈ l, nalType u ≠ 7) → Says x l y → y = x := by
      intro l
      induction l with
      | nil => intro x y _ h; cases h; rfl
      | cons u l ih =>
        intro x y hne h
        cases h with
        | other h1 h2 => exact ih x y (fun v hv => hne v (List.mem_cons_of_mem _ hv)) h2
        | sps h1 h2 h3 => exact absurd h1 (hne u List.mem_cons_self)
    cases h with
    | other h1 h2 => exact absurd h7 h1
    | sps h1 h2 h3 =>
      rw [e1] at h2; cases h2
      rw [keep _ _ _ ha h3]
      exact ⟨e2, e3⟩
  | cons u before ih =>
    obtain ⟨j, -, h⟩ := says_cons h
    exact ih j h

/-- A receiver rebuilds every access unit from its packets, in whatever order they arrive. -/
theorem group_received (c : Cfg) (n : Nat) (a : Au) (i : Info) (rate : Nat) (g : List Sent) (h : Group c n a i rate g)
    (got : List Sent) (hg : ∀ p, p ∈ got ↔ p ∈ g) (x : Nat) (hx : x < (unitBytes c.annexB (datas a)).length) :
    byteAt (got.map fun p => piece p.bytes) x = (unitBytes c.annexB (datas a))[x]? := by
  refine reassembles _ _ _ h.tiles ?_ x hx
  intro q
  simp only [List.mem_map]
  constructor
  · rintro ⟨k, hk, rfl⟩; exact ⟨k, (hg k).1 hk, rfl⟩
  · rintro ⟨k, hk, rfl⟩; exact ⟨k, (hg k).2 hk, rfl⟩

/-! ## Recorded exceptions -/

/-- A stream without timing information is announced with whatever rate the memory held. -/
theorem rate_from_memory (i : Info) (h : i.rate = none) (f : Nat) (d : Bool) (s : St) :
    (refresh (some (f, d)) i s).fps = f ∧ (refresh (some (f, d)) i s).fd = d ∧ (refresh none i s).fps = s.fps ∧ (refresh none i s).fd = s.fd := by
  unfold refresh; simp only [h, and_self]

/-- A size that is no positive `int` is taken for unknown. -/
theorem oversized_unknown (i : Info) (h : i.width = 0 ∨ i.height = 0 ∨ 2 ^ 31 ≤ i.width ∨ 2 ^ 31 ≤ i.height) : known i = false := by
  unfold known; rw [decide_eq_false_iff_not]; omega

/-! ## Cases -/

/-- 1920x1080 (Sps/Dims.lean). -/
def hdSps : Nal := ⟨0x67 :: Rbsp.encapsulate Sps.hdBytes, 1⟩
def idr : Nal := ⟨[0x65, 1, 2, 3], 2⟩
def slice : Nal := ⟨[0x41, 4, 5, 6, 7, 8, 9], 4⟩
def aud (t : Int) : Nal := ⟨[9, 0xf0], t⟩
def small : Cfg := ⟨true, 32, none, fun _ _ => 1000⟩

/-- An ordinary stream: the picture that can be decoded on its own comes with the parameter set and is not sent; the next one is. -/
theorem first_picture_lost : (match stream small .start (units [⟨[], aud 0⟩, ⟨[hdSps, idr], aud 3⟩, ⟨[slice], aud 5⟩]) with
    | .ok (out, _) => out.map fun p => (readHeader p.bytes, p.bytes.drop 24, p.marker, p.time)
    | _ => []) =
    [ (⟨0, 0, 0, 11, 1920, 1080, 0x41564331, 0, 29, 1, 0⟩, [0, 0, 0, 1, 0x41, 4, 5, 6], false, 5),
      (⟨0, 0, 8, 11, 1920, 1080, 0x41564331, 0, 29, 1, 0⟩, [7, 8, 9], true, 5) ] := by decide +kernel

theorem hd_said : Sps.update ⟨0, 0, none⟩ hdSps.data = .ok ⟨1920, 1080, some 29⟩ := by decide +kernel

/-- The hypotheses are met by it. -/
example : ∃ out k, stream small .start (units ([⟨[], aud 0⟩] ++ ⟨[hdSps, idr], aud 3⟩ :: [⟨[slice], aud 5⟩, ⟨[], aud 6⟩])) = .ok (out, k) ∧
    Streamed small 0 ⟨1920, 1080, some 29⟩ [⟨[slice], aud 5⟩, ⟨[], aud 6⟩] out := by
  have hz : Sized ⟨1920, 1080, some 29⟩ 29 := ⟨by decide, by decide, rfl, by decide, by decide⟩
  have hdelim : ∀ t, IsDelimiter (aud t).data := fun t => ⟨9, [0xf0], rfl, by decide⟩
  have hnot : ∀ u ∈ [hdSps, idr, slice], ¬ IsDelimiter u.data := by
    intro u hu h
    rw [← nalType_nine] at h
    simp only [List.mem_cons, List.not_mem_nil, or_false] at hu
    rcases hu with rfl | rfl | rfl <;> exact absurd h (by decide)
  refine stream_sent small _ _ _ ⟨0, 0, none⟩ _ 29 (by intro j x; show 24 < min 1000 32; decide) (.cons (.nil _) (Or.inl rfl) (.nil _))
    (.sps (by decide) hd_said (.other (by decide) (.nil _))) hz
    (.cons (.other (by decide) (.nil _)) hz (.cons (.nil _) hz (.nil _))) ?_
  intro a ha
  simp only [List.cons_append, List.nil_append, List.mem_cons, List.not_mem_nil, or_false] at ha
  rcases ha with rfl | rfl | rfl | rfl
  · exact ⟨⟨by simp, hdelim _, by decide⟩, by decide, by intro j; show _ + 48 ≤ 1000; decide⟩
  · exact ⟨⟨fun u hu => hnot u (by simp only [List.mem_cons, List.not_mem_nil, or_false] at hu ⊢; rcases hu with h | h <;> simp [h]), hdelim _,
      by decide +kernel⟩, by decide +kernel, by intro j; show _ + 48 ≤ 1000; decide +kernel⟩
  · exact ⟨⟨fun u hu => hnot u (by simp only [List.mem_cons, List.not_mem_nil, or_false] at hu ⊢; simp [hu]), hdelim _, by decide⟩, by decide,
      by intro j; show _ + 48 ≤ 1000; decide⟩
  · exact ⟨⟨by simp, hdelim _, by decide⟩, by decide, by intro j; show _ + 48 ≤ 1000; decide⟩

/-- **C84.** A stream whose parameter sets tell no frame rate (and where what is read instead was never written) is sent with 25. -/
theorem untold_rate (maxOut w h : Nat) : (refresh none ⟨w, h, none⟩ (fresh maxOut)).fps = 25 ∧ (refresh none ⟨w, h, none⟩ (fresh maxOut)).width = w ∧
    (refresh none ⟨w, h, none⟩ (fresh maxOut)).height = h := ⟨rfl, rfl, rfl⟩

example : (refresh none ⟨640, 480, some 30⟩ (fresh 1000)).fps = 30 ∧ (refresh none ⟨640, 480, some 0⟩ (fresh 1000)).fps = 25 := by decide

end Lms.UltraGrid
