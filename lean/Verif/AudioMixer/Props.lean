import Verif.AudioMixer.Spec

/-!
# C31: the mixer plays the timeline
-/

namespace Lms.AudioMixer

open Lms

variable {α : Type}

/-! ## Ring positions -/

theorem ring_inj (cap a b front : Nat) (ha : front ≤ a) (ha' : a < front + cap) (hb : front ≤ b) (hb' : b < front + cap)
    (h : a % cap = b % cap) : a = b := by
  have h1 := Nat.div_add_mod a cap
  have h2 := Nat.div_add_mod b cap
  rcases Nat.lt_trichotomy (a / cap) (b / cap) with hlt | heq | hgt
  · have := Nat.mul_le_mul_left cap hlt
    rw [Nat.mul_succ] at this
    omega
  · rw [heq] at h1; omega
  · have := Nat.mul_le_mul_left cap hgt
    rw [Nat.mul_succ] at this
    omega

theorem ring_ne (cap idx t : Nat) (h0 : 0 < t) (ht : t < cap) (hi : idx < cap) : (idx + t) % cap ≠ idx := by
  intro h
  have := ring_inj cap (idx + t) idx idx (by omega) (by omega) (by omega) (by omega) (by rw [h, Nat.mod_eq_of_lt hi])
  omega

theorem mod_succ (cap idx t : Nat) : ((idx + 1) % cap + t) % cap = (idx + (t + 1)) % cap := by
  rw [Nat.mod_add_mod]; congr 1; omega

theorem setAt_same (row : Nat → α) (i : Nat) (v : α) : setAt row i v i = v := by simp [setAt]
theorem setAt_ne (row : Nat → α) (i k : Nat) (v : α) (h : k ≠ i) : setAt row i v k = row k := by simp [setAt, h]

theorem mixLoop_get (A : Alg α) (cap : Nat) (g m : α) (src : Nat → α) (k : Nat) : ∀ (j idx : Nat) (row : Nat → α) (t : Nat),
    k ≤ cap → idx < cap → t < cap →
    mixLoop A cap g m src k j idx row ((idx + t) % cap) =
      if t < k then A.mix (src (j + t)) g m (row ((idx + t) % cap)) else row ((idx + t) % cap) := by
  induction k with
  | zero => intro j idx row t _ _ _; simp [mixLoop]
  | succ k ih =>
    intro j idx row t hk hi ht
    rw [mixLoop]
    have hi' : (idx + 1) % cap < cap := Nat.mod_lt _ (by omega)
    cases t with
    | zero =>
      have e : (idx + 0) % cap = ((idx + 1) % cap + (cap - 1)) % cap := by
        rw [mod_succ, Nat.sub_add_cancel (by omega), Nat.add_mod_right]; rfl
      have e0 : (idx + 0) % cap = idx := by rw [Nat.add_zero, Nat.mod_eq_of_lt hi]
      have := ih (j + 1) ((idx + 1) % cap) (setAt row idx (A.mix (src j) g m (row idx))) (cap - 1) (by omega) hi' (by omega)
      rw [← e, if_neg (by omega), e0, setAt_same] at this
      rw [e0, this]; simp
    | succ t =>
      have := ih (j + 1) ((idx + 1) % cap) (setAt row idx (A.mix (src j) g m (row idx))) t (by omega) hi' (by omega)
      rw [mod_succ, setAt_ne _ _ _ _ (ring_ne cap idx (t + 1) (by omega) ht hi)] at this
      rw [this]
      by_cases h : t < k
      · rw [if_pos h, if_pos (by omega), show j + 1 + t = j + (t + 1) by omega]
      · rw [if_neg h, if_neg (by omega)]

/-- Mixing `n` samples at position `P`, seen on the timeline. -/
theorem mixLoop_at (A : Alg α) (cap : Nat) (g m : α) (src : Nat → α) (n P front p : Nat) (row : Nat → α) (hc : 0 < cap)
    (h1 : front ≤ P) (h2 : P + n ≤ front + cap) (h3 : front ≤ p) (h4 : p < front + cap) :
    mixLoop A cap g m src n 0 (P % cap) row (p % cap) =
      if P ≤ p ∧ p < P + n then A.mix (src (p - P)) g m (row (p % cap)) else row (p % cap) := by
  by_cases hp : P ≤ p
  · have := mixLoop_get A cap g m src n 0 (P % cap) row (p - P) (by omega) (Nat.mod_lt _ hc) (by omega)
    rw [Nat.mod_add_mod, show P + (p - P) = p by omega] at this
    rw [this, Nat.zero_add]
    by_cases h : p - P < n
    · rw [if_pos h, if_pos (by omega)]
    · rw [if_neg h, if_neg (by omega)]
  · have := mixLoop_get A cap g m src n 0 (P % cap) row (p + cap - P) (by omega) (Nat.mod_lt _ hc) (by omega)
    rw [Nat.mod_add_mod, show P + (p + cap - P) = p + cap by omega, Nat.add_mod_right] at this
    rw [this, if_neg (by omega), if_neg (by omega)]

theorem takeLoop_get (A : Alg α) (cap : Nat) (k : Nat) : ∀ (q : Nat) (j : Nat) (row : Nat → α), k ≤ cap →
    (takeLoop A cap q k j row).1 = (List.range k).map (fun t => row ((q + j + t) % cap)) ∧
    ∀ t, t < cap → (takeLoop A cap q k j row).2 ((q + j + t) % cap) = if t < k then A.zero else row ((q + j + t) % cap) := by
  induction k with
  | zero => intro q j row _; simp [takeLoop]
  | succ k ih =>
    intro q j row hk
    obtain ⟨i1, i2⟩ := ih q (j + 1) (setAt row ((q + j) % cap) A.zero) (by omega)
    have hidx : (q + j) % cap < cap := Nat.mod_lt _ (by omega)
    have ne : ∀ t, t + 1 < cap → (q + (j + 1) + t) % cap ≠ (q + j) % cap := by
      intro t ht
      have := ring_ne cap ((q + j) % cap) (t + 1) (by omega) ht hidx
      rw [Nat.mod_add_mod, show q + j + (t + 1) = q + (j + 1) + t by omega] at this
      exact this
    rw [takeLoop]
    constructor
    · simp only [i1, List.range_succ_eq_map, List.map_cons, List.map_map]
      rw [Nat.add_zero]
      congr 1
      apply List.map_congr_left
      intro t ht
      rw [List.mem_range] at ht
      rw [setAt_ne _ _ _ _ (ne t (by omega))]
      show row _ = row _
      congr 2
      omega
    · intro t ht
      simp only
      cases t with
      | zero =>
        have := i2 (cap - 1) (by omega)
        rw [show q + (j + 1) + (cap - 1) = q + j + cap by omega, Nat.add_mod_right, if_neg (by omega), setAt_same] at this
        rw [show q + j + 0 = q + j from rfl, this]; simp
      | succ t =>
        have := i2 t (by omega)
        rw [setAt_ne _ _ _ _ (ne t ht)] at this
        rw [show q + j + (t + 1) = q + (j + 1) + t by omega, this]
        by_cases h : t < k
        · rw [if_pos h, if_pos (by omega)]
        · rw [if_neg h, if_neg (by omega)]

/-! ## Notes -/

theorem row_filter (P : Nat) (g m : α) (f : Frame α) (ch' ch p n : Nat) :
    (((List.range n).map fun j => (⟨ch', P + j, f.plane ch' j, g, m⟩ : Note α)).filter fun e => e.ch = ch ∧ e.pos = p) =
      if ch' = ch ∧ P ≤ p ∧ p < P + n then [⟨ch, p, f.plane ch (p - P), g, m⟩] else [] := by
  induction n with
  | zero => rw [if_neg (by omega)]; rfl
  | succ n ih =>
    rw [List.range_succ, List.map_append, List.filter_append, ih]
    by_cases h : ch' = ch
    · subst h
      by_cases hp : P + n = p
      · subst hp
        rw [if_neg (by omega), if_pos (by omega)]
        simp
      · by_cases hq : P ≤ p ∧ p < P + n
        · rw [if_pos ⟨rfl, hq⟩, if_pos (by omega)]; simp [hp]
        · rw [if_neg (fun hh => hq hh.2), if_neg (by omega)]; simp [hp]
    · rw [if_neg (fun hh => h hh.1), if_neg (fun hh => h hh.1)]; simp [h]

theorem notes_filter (k P : Nat) (g m : α) (f : Frame α) (ch p : Nat) :
    (((List.range k).flatMap fun ch => (List.range f.n).map fun j => (⟨ch, P + j, f.plane ch j, g, m⟩ : Note α)).filter
      fun e => e.ch = ch ∧ e.pos = p) =
      if ch < k ∧ P ≤ p ∧ p < P + f.n then [⟨ch, p, f.plane ch (p - P), g, m⟩] else [] := by
  induction k with
  | zero => rw [if_neg (by omega)]; rfl
  | succ k ih =>
    rw [List.range_succ, List.flatMap_append, List.filter_append, ih]
    simp only [List.flatMap_cons, List.flatMap_nil, List.append_nil, row_filter]
    by_cases hp : P ≤ p ∧ p < P + f.n
    · by_cases h : k = ch
      · subst h
        rw [if_neg (by omega), if_pos (by omega), if_pos (by omega)]; rfl
      · by_cases h' : ch < k
        · rw [if_pos ⟨h', hp⟩, if_neg (fun hh => h hh.1), if_pos (by omega)]; rfl
        · rw [if_neg (fun hh => h' hh.1), if_neg (fun hh => h hh.1), if_neg (by omega)]; rfl
    · rw [if_neg (fun hh => hp hh.2), if_neg (fun hh => hp hh.2), if_neg (fun hh => hp hh.2)]; rfl

theorem heard_append (A : Alg α) (c : Cfg) (notes : List (Note α)) (P : Nat) (g m : α) (f : Frame α) (ch p : Nat) :
    heard A (notes ++ notesOf c P g m f) ch p =
      if ch < c.channels ∧ P ≤ p ∧ p < P + f.n then A.mix (f.plane ch (p - P)) g m (heard A notes ch p) else heard A notes ch p := by
  unfold heard notesOf
  rw [List.filter_append, notes_filter, List.foldl_append]
  split <;> rfl

theorem notesOf_pos (c : Cfg) (P : Nat) (g m : α) (f : Frame α) (e : Note α) (h : e ∈ notesOf c P g m f) : e.pos < P + f.n := by
  unfold notesOf at h
  simp only [List.mem_flatMap, List.mem_map, List.mem_range] at h
  obtain ⟨_, _, j, hj, rfl⟩ := h
  show P + j < _
  omega

/-- A position without notes is silent. -/
theorem heard_none (A : Alg α) (notes : List (Note α)) (ch p : Nat) (h : ∀ e ∈ notes, e.ch = ch → e.pos ≠ p) :
    heard A notes ch p = A.zero := by
  unfold heard
  rw [List.filter_eq_nil_iff.2]
  · rfl
  · intro e he hh
    simp only [decide_eq_true_eq] at hh
    exact h e he hh.1 hh.2

theorem heard_leftovers (A : Alg α) (c : Cfg) (front : Nat) (notes : List (Note α)) (ch q : Nat)
    (hn : ∀ e ∈ notes, e.pos < front + c.cap) (h1 : front ≤ q) (h2 : q < front + c.cap) :
    heard A (leftovers c front notes) ch (q % c.cap) = heard A notes ch q := by
  unfold heard leftovers
  rw [List.filter_map, List.foldl_map, List.filter_filter]
  congr 1
  apply List.filter_congr
  intro e he
  have hb := hn e he
  have key : (e.ch = ch ∧ e.pos % c.cap = q % c.cap ∧ front ≤ e.pos) ↔ (e.ch = ch ∧ e.pos = q) := by
    constructor
    · rintro ⟨a, b, d⟩
      exact ⟨a, ring_inj c.cap _ _ front d hb h1 h2 b⟩
    · rintro ⟨a, b⟩
      rw [b]; exact ⟨a, rfl, h1⟩
  simp only [Function.comp]
  rw [Bool.eq_iff_iff]
  simp only [Bool.and_eq_true, decide_eq_true_eq]
  rw [and_assoc]
  exact key

/-! ## The refinement -/

/-- The mixer holds the timeline. -/
structure R (A : Alg α) (c : Cfg) (s : St α) (l : Line α) : Prop where
  sync : s.sync = l.sync
  front : s.front = l.front c
  rear : s.rear = l.rear
  le1 : l.front c ≤ l.rear
  le2 : l.rear ≤ l.front c + c.cap
  notes : ∀ e ∈ l.notes, e.pos < l.front c + c.cap
  bufs : ∀ ch, ch < c.channels → ∀ p, l.front c ≤ p → p < l.front c + c.cap → s.bufs ch (p % c.cap) = heard A l.notes ch p

theorem r_init (A : Alg α) (c : Cfg) (m : α) : R A c (init A m) Line.init where
  sync := rfl
  front := by simp [init, Line.front, Line.init]
  rear := rfl
  le1 := by simp [Line.front, Line.init]
  le2 := by simp [Line.front, Line.init]
  notes := by simp [Line.init]
  bufs := by intro ch _ p _ _; rfl

theorem sub32_le {a b : Nat} (h : b ≤ a) (ha : a < 2 ^ 32) : sub32 a b = a - b := by
  unfold sub32
  rw [Nat.mod_eq_of_lt (show b < 2 ^ 32 by omega)]
  omega

/-- Mixing a frame in at a position that fits. -/
theorem deposit_refines (A : Alg α) (c : Cfg) (hc : c.WF) (s : St α) (l : Line α) (hR : R A c s l) (id : Nat) (f : Frame α)
    (p : Nat) (h1 : l.front c ≤ p) (h2 : p + f.n ≤ l.front c + c.cap) (h3 : l.front c + c.cap < 2 ^ 31) :
    R A c (deposit A c s id f p).2
      (if f.fmtOk = false ∧ 0 < f.n ∧ 0 < c.channels then l
       else { l with rear := max l.rear (p + f.n), notes := l.notes ++ notesOf c p (gainOf A s id) s.master f }) := by
  unfold deposit
  by_cases h : f.fmtOk = false ∧ 0 < f.n ∧ 0 < c.channels
  · rw [if_pos h, if_pos h]; exact hR
  · rw [if_neg h, if_neg h]
    obtain ⟨hsync, hfront, hrear, hle1, hle2, hnotes, hbufs⟩ := hR
    obtain ⟨w1, w2, w3, w4⟩ := hc
    have hadd : add32 p f.n = p + f.n := by unfold add32; rw [Nat.mod_eq_of_lt (by omega)]
    refine ⟨hsync, hfront, ?_, ?_, ?_, ?_, ?_⟩
    · show (if add32 p f.n > s.rear then add32 p f.n else s.rear) = max l.rear (p + f.n)
      rw [hadd, hrear]; split <;> omega
    · show l.front c ≤ max l.rear (p + f.n); omega
    · show max l.rear (p + f.n) ≤ l.front c + c.cap; omega
    · intro e he
      show e.pos < l.front c + c.cap
      rcases List.mem_append.1 he with he | he
      · exact hnotes e he
      · have := notesOf_pos c p _ _ f e he; omega
    · intro ch hch q (hq : l.front c ≤ q) (hq' : q < l.front c + c.cap)
      show mixIn A c s id f p ch (q % c.cap) = heard A (l.notes ++ _) ch q
      unfold mixIn
      rw [if_pos hch, heard_append, mixLoop_at A c.cap _ _ _ f.n p (l.front c) q _ (by omega) h1 h2 hq hq', hbufs ch hch q hq hq']
      simp only [hch, true_and]

/-- A restart keeps the unplayed samples. -/
theorem resync_refines (A : Alg α) (c : Cfg) (hc : c.WF) (s : St α) (l : Line α) (hR : R A c s l) (pts : Int) :
    R A c (resync s pts) ⟨pts, 0, 0, leftovers c (l.front c) l.notes⟩ := by
  obtain ⟨hsync, hfront, hrear, hle1, hle2, hnotes, hbufs⟩ := hR
  obtain ⟨w1, w2, w3, w4⟩ := hc
  have e0 : Line.front c (⟨pts, 0, 0, leftovers c (l.front c) l.notes⟩ : Line α) = 0 := by simp [Line.front]
  refine ⟨rfl, e0.symm, rfl, ?_, ?_, ?_, ?_⟩
  · rw [e0]; exact Nat.zero_le _
  · exact Nat.zero_le _
  · intro e he
    rw [e0]
    simp only [leftovers, List.mem_map] at he
    obtain ⟨e', _, rfl⟩ := he
    have : e'.pos % c.cap < c.cap := Nat.mod_lt _ (by omega)
    show e'.pos % c.cap < _
    omega
  · intro ch hch p _ hp
    rw [e0] at hp
    show s.bufs ch (p % c.cap) = heard A (leftovers c (l.front c) l.notes) ch p
    -- the time in the old window with this index
    obtain ⟨q, hq1, hq2, hq3⟩ : ∃ q, l.front c ≤ q ∧ q < l.front c + c.cap ∧ q % c.cap = p := by
      have hm : l.front c % c.cap < c.cap := Nat.mod_lt _ (by omega)
      have hd := Nat.div_add_mod (l.front c) c.cap
      have hpc : p % c.cap = p := Nat.mod_eq_of_lt (by omega)
      by_cases hlt : l.front c % c.cap ≤ p
      · exact ⟨c.cap * (l.front c / c.cap) + p, by omega, by omega, by rw [Nat.mul_add_mod, hpc]⟩
      · refine ⟨c.cap * (l.front c / c.cap + 1) + p, ?_, ?_, by rw [Nat.mul_add_mod, hpc]⟩
        · rw [Nat.mul_add]; omega
        · rw [Nat.mul_add]; omega
    rw [← hq3, heard_leftovers A c _ _ _ _ hnotes hq1 hq2, Nat.mod_mod, hbufs ch hch q hq1 hq2]

theorem syncIn_refines (A : Alg α) (c : Cfg) (s : St α) (l : Line α) (hR : R A c s l) (pts : Int) :
    R A c (syncIn s pts) { l with sync := l.origin pts } := by
  obtain ⟨hsync, hfront, hrear, hle1, hle2, hnotes, hbufs⟩ := hR
  unfold syncIn Line.origin
  rw [hsync]
  by_cases h : l.sync < 0
  · rw [if_pos h, if_pos h]
    exact ⟨rfl, hfront, hrear, hle1, hle2, hnotes, hbufs⟩
  · rw [if_neg h, if_neg h]
    exact ⟨hsync, hfront, hrear, hle1, hle2, hnotes, hbufs⟩

theorem syncIn_gains (s : St α) (pts : Int) : (syncIn s pts).gains = s.gains ∧ (syncIn s pts).master = s.master := by
  unfold syncIn; split <;> exact ⟨rfl, rfl⟩

/-- Which branch `push` takes. -/
theorem push_cases (A : Alg α) (c : Cfg) (hc : c.WF) (s : St α) (l : Line α) (hR : R A c s l) (id : Nat) (f : Frame α)
    (hin : InRange c l f) :
    push A c s id f = match fate c l f.pts f.n with
      | .noRoom => (false, s)
      | .past => (false, syncIn s f.pts)
      | .restart => deposit A c (resync (syncIn s f.pts) f.pts) id f 0
      | .mixed p => deposit A c (syncIn s f.pts) id f p := by
  have hS := syncIn_refines A c s l hR f.pts
  obtain ⟨hsync, hfront, hrear, hle1, hle2, hnotes, hbufs⟩ := hR
  obtain ⟨hsync', hfront', -, -, -, -, -⟩ := hS
  have hfront'' : (syncIn s f.pts).front = l.front c := hfront'
  have hsync'' : (syncIn s f.pts).sync = l.origin f.pts := hsync'
  obtain ⟨r1, r2, r3⟩ := hin
  obtain ⟨w1, w2, w3, w4⟩ := hc
  have hused : sub32 s.rear s.front = l.rear - l.front c := by rw [hrear, hfront, sub32_le (by omega) (by omega)]
  have hfree : sub32 c.cap (l.rear - l.front c) = c.cap - (l.rear - l.front c) := sub32_le (by omega) (by omega)
  obtain ⟨P, hP⟩ : ∃ P, place c f.pts (l.origin f.pts) = P := ⟨_, rfl⟩
  rw [hP] at r2 r3
  have hpos : position c f.pts (syncIn s f.pts).sync = (P % 2 ^ 32).toNat := by rw [hsync'', ← hP, position, place]
  unfold push
  rw [hused, hfree]
  by_cases h0 : c.cap - (l.rear - l.front c) < f.n
  · have hf : fate c l f.pts f.n = .noRoom := by
      unfold fate; rw [if_pos (by omega)]
    rw [if_pos h0, hf]
  · have hn0 : ¬(l.front c + c.cap < l.rear + f.n) := by omega
    rw [if_neg h0]
    have hlim : sub32 (add32 (l.front c) c.cap) f.n = l.front c + c.cap - f.n := by
      have : add32 (l.front c) c.cap = l.front c + c.cap := by unfold add32; rw [Nat.mod_eq_of_lt (by omega)]
      rw [this, sub32_le (by omega) (by omega)]
    unfold pushAt
    rw [hpos, hfront'', hlim]
    by_cases h1 : 0 ≤ P ∧ P < l.front c
    · have hf : fate c l f.pts f.n = .past := by
        unfold fate; rw [if_neg hn0]; simp only [hP]; rw [if_pos h1]
      rw [if_pos (by omega), hf]
    · rw [if_neg (by omega)]
      by_cases h2 : P < 0 ∨ (l.front c : Int) + c.cap < P + f.n
      · have hf : fate c l f.pts f.n = .restart := by
          unfold fate; rw [if_neg hn0]; simp only [hP]; rw [if_neg h1, if_pos h2]
        rw [if_pos (by omega), hf]
      · have hf : fate c l f.pts f.n = .mixed P.toNat := by
          unfold fate; rw [if_neg hn0]; simp only [hP]; rw [if_neg h1, if_neg h2]
        have hPn : (P % 2 ^ 32).toNat = P.toNat := by omega
        rw [if_neg (by omega), hf, hPn]

theorem fate_mixed {c : Cfg} {l : Line α} {pts : Int} {n p : Nat} (h : fate c l pts n = .mixed p) :
    l.front c ≤ p ∧ p + n ≤ l.front c + c.cap := by
  unfold fate at h
  split at h
  · exact absurd h (by simp)
  · simp only at h
    split at h
    · exact absurd h (by simp)
    · split at h
      · exact absurd h (by simp)
      · simp only [Fate.mixed.injEq] at h
        omega

theorem fate_room {c : Cfg} {l : Line α} {pts : Int} {n : Nat} (h : fate c l pts n ≠ .noRoom) : l.rear + n ≤ l.front c + c.cap := by
  unfold fate at h
  split at h
  · exact absurd rfl h
  · omega

/-- **C31, arrival of a frame.** -/
theorem push_refines (A : Alg α) (c : Cfg) (hc : c.WF) (s : St α) (l : Line α) (hR : R A c s l) (id : Nat) (f : Frame α)
    (hin : InRange c l f) :
    R A c (push A c s id f).2 (l.push c (gainOf A s id) s.master f) := by
  have hS := syncIn_refines A c s l hR f.pts
  rw [push_cases A c hc s l hR id f hin]
  have hg : gainOf A (syncIn s f.pts) id = gainOf A s id := by unfold gainOf; rw [(syncIn_gains s f.pts).1]
  have hm := (syncIn_gains s f.pts).2
  unfold Line.push
  cases hf : fate c l f.pts f.n with
  | noRoom => exact hR
  | past => exact hS
  | restart =>
    have hroom := fate_room (c := c) (l := l) (pts := f.pts) (n := f.n) (by rw [hf]; simp)
    have hle := hR.le1
    have hr := resync_refines A c hc _ _ hS f.pts
    have := deposit_refines A c hc _ _ hr id f 0 (by simp [Line.front]) (by simp only [Line.front]; omega)
      (by have := hc.small; simp only [Line.front]; omega)
    rw [show gainOf A (resync (syncIn s f.pts) f.pts) id = gainOf A s id from hg,
      show (resync (syncIn s f.pts) f.pts).master = s.master from hm] at this
    simp only [Nat.zero_add, Nat.zero_max] at this
    exact this
  | mixed p =>
    obtain ⟨b1, b2⟩ := fate_mixed hf
    have := deposit_refines A c hc _ _ hS id f p b1 b2 hin.front
    rw [hg, hm] at this
    exact this

/-- **C31, delivery.** The frame delivered is the one the timeline holds at its front. -/
theorem extract_refines (A : Alg α) (c : Cfg) (hc : c.WF) (s : St α) (l : Line α) (hR : R A c s l)
    (hin : l.front c + c.cap < 2 ^ 31) :
    (extract A c s).1 = (l.extract A c).1 ∧ R A c (extract A c s).2 (l.extract A c).2 := by
  obtain ⟨hsync, hfront, hrear, hle1, hle2, hnotes, hbufs⟩ := hR
  obtain ⟨w1, w2, w3, w4⟩ := hc
  have hsub : sub32 s.rear s.front = l.rear - l.front c := by rw [hrear, hfront, sub32_le hle1 (by omega)]
  unfold extract Line.extract
  rw [hsub]
  by_cases h : l.rear < l.front c + c.thr
  · rw [if_pos (by omega), if_pos h]
    exact ⟨rfl, hsync, hfront, hrear, hle1, hle2, hnotes, hbufs⟩
  · rw [if_neg (by omega), if_neg h]
    have e0 : Line.front c { l with delivered := l.delivered + 1 } = l.front c + c.out := by
      simp [Line.front, Nat.succ_mul]
    refine ⟨?_, ⟨hsync, ?_, hrear, ?_, ?_, ?_, ?_⟩⟩
    · simp only [Option.some.injEq, Out.mk.injEq]
      refine ⟨?_, ?_⟩
      · rw [hfront, hsync]
        unfold Line.front
        omega
      · apply List.map_congr_left
        intro ch hch
        rw [List.mem_range] at hch
        rw [(takeLoop_get A c.cap c.out (s.front % c.cap) 0 (s.bufs ch) (by omega)).1]
        apply List.map_congr_left
        intro j hj
        rw [List.mem_range] at hj
        rw [Nat.add_zero, Nat.mod_add_mod, hfront]
        exact hbufs ch hch _ (by omega) (by omega)
    · show add32 s.front c.out = _
      rw [e0, hfront]; unfold add32; rw [Nat.mod_eq_of_lt (by omega)]
    · rw [e0]; show _ ≤ l.rear; omega
    · rw [e0]; show l.rear ≤ _; omega
    · intro e he
      rw [e0]
      have := hnotes e he
      omega
    · intro ch hch p hp hp'
      rw [e0] at hp hp'
      show (if ch < c.channels then (takeLoop A c.cap (s.front % c.cap) c.out 0 (s.bufs ch)).2 else s.bufs ch) (p % c.cap) =
        heard A l.notes ch p
      rw [if_pos hch]
      have g := (takeLoop_get A c.cap c.out (s.front % c.cap) 0 (s.bufs ch) (by omega)).2
      by_cases hq : p < l.front c + c.cap
      · have := g (p - l.front c) (by omega)
        rw [Nat.add_zero, Nat.mod_add_mod, hfront, show l.front c + (p - l.front c) = p by omega, if_neg (by omega)] at this
        rw [hfront, this]
        exact hbufs ch hch p (by omega) hq
      · have := g (p - l.front c - c.cap) (by omega)
        rw [Nat.add_zero, Nat.mod_add_mod, hfront] at this
        have e : (l.front c + (p - l.front c - c.cap)) % c.cap = p % c.cap := by
          rw [← Nat.add_mod_right]; congr 1; omega
        rw [e, if_pos (by omega)] at this
        rw [hfront, this, heard_none]
        intro e he _ heq
        have := hnotes e he
        omega

/-! ## Executions -/

/-- What happens to a mixer: rounds with new frames, and arbitrary changes of the gains between them (commands, channels
coming and going). -/
inductive Op (α : Type) where
  | round (fs : List (Nat × Frame α))
  | gains (g : Nat → Option α) (master : α)

def step (A : Alg α) (c : Cfg) (s : St α) : Op α → Option (Out α) × St α
  | .round fs => process A c s fs
  | .gains g m => (none, { s with gains := g, master := m })

def run (A : Alg α) (c : Cfg) (s : St α) : List (Op α) → List (Option (Out α))
  | [] => []
  | o :: l => (step A c s o).1 :: run A c (step A c s o).2 l

/-- The specification with its gains. -/
structure Sp (α : Type) where
  line : Line α
  gains : Nat → Option α
  master : α

/-- A channel without a gain counts as zero. -/
def Sp.gain (A : Alg α) (p : Sp α) (id : Nat) : α := (p.gains id).getD A.zero

/-- A frame that is mixed on an unknown channel gives it a zero gain. -/
def Sp.touch (A : Alg α) (c : Cfg) (p : Sp α) (id : Nat) (f : Frame α) : Nat → Option α :=
  match fate c p.line f.pts f.n with
  | .noRoom | .past => p.gains
  | _ => if f.fmtOk = true ∧ 0 < f.n ∧ 0 < c.channels then (fun k => if k = id then some (p.gain A id) else p.gains k) else p.gains

def Sp.push (A : Alg α) (c : Cfg) (p : Sp α) (id : Nat) (f : Frame α) : Sp α :=
  ⟨p.line.push c (p.gain A id) p.master f, p.touch A c id f, p.master⟩

def Sp.pushAll (A : Alg α) (c : Cfg) (p : Sp α) : List (Nat × Frame α) → Sp α
  | [] => p
  | (id, f) :: l => (p.push A c id f).pushAll A c l

def Sp.step (A : Alg α) (c : Cfg) (p : Sp α) : Op α → Option (Out α) × Sp α
  | .round fs =>
    let q := p.pushAll A c fs
    ((q.line.extract A c).1, { q with line := (q.line.extract A c).2 })
  | .gains g m => (none, { p with gains := g, master := m })

def Sp.run (A : Alg α) (c : Cfg) (p : Sp α) : List (Op α) → List (Option (Out α))
  | [] => []
  | o :: l => (p.step A c o).1 :: Sp.run A c (p.step A c o).2 l

/-- All frames of a round are within range. -/
def RangeAll (A : Alg α) (c : Cfg) (p : Sp α) : List (Nat × Frame α) → Prop
  | [] => p.line.front c + c.cap < 2 ^ 31
  | (id, f) :: l => InRange c p.line f ∧ RangeAll A c (p.push A c id f) l

def RangeRun (A : Alg α) (c : Cfg) (p : Sp α) : List (Op α) → Prop
  | [] => True
  | .round fs :: l => RangeAll A c p fs ∧ RangeRun A c (p.step A c (.round fs)).2 l
  | .gains g m :: l => RangeRun A c (p.step A c (.gains g m)).2 l

/-- Model and specification agree. -/
structure RR (A : Alg α) (c : Cfg) (s : St α) (p : Sp α) : Prop where
  line : R A c s p.line
  gains : s.gains = p.gains
  master : s.master = p.master

theorem deposit_gains (A : Alg α) (c : Cfg) (s : St α) (id : Nat) (f : Frame α) (p : Nat) :
    (deposit A c s id f p).2.gains = (if f.fmtOk = true ∧ 0 < f.n ∧ 0 < c.channels then
      (fun k => if k = id then some (gainOf A s id) else s.gains k) else s.gains) ∧
    (deposit A c s id f p).2.master = s.master := by
  unfold deposit
  by_cases h : f.fmtOk = false ∧ 0 < f.n ∧ 0 < c.channels
  · rw [if_pos h, if_neg (by rw [h.1]; simp)]; exact ⟨rfl, rfl⟩
  · rw [if_neg h]
    refine ⟨?_, rfl⟩
    show touched A c s id f.n = _
    unfold touched
    by_cases h4 : 0 < f.n ∧ 0 < c.channels
    · have h5 : f.fmtOk = true := by
        cases hb : f.fmtOk with
        | true => rfl
        | false => exact absurd ⟨hb, h4⟩ h
      rw [if_pos h4, if_pos ⟨h5, h4⟩]
    · rw [if_neg h4, if_neg (fun hh => h4 hh.2)]

theorem push_gains (A : Alg α) (c : Cfg) (hc : c.WF) (s : St α) (p : Sp α) (h : RR A c s p) (id : Nat) (f : Frame α)
    (hin : InRange c p.line f) : (push A c s id f).2.gains = p.touch A c id f ∧ (push A c s id f).2.master = p.master := by
  rw [push_cases A c hc s p.line h.line id f hin]
  have h1 := syncIn_gains s f.pts
  have hg : gainOf A (syncIn s f.pts) id = p.gain A id := by unfold gainOf Sp.gain; rw [h1.1, h.gains]
  unfold Sp.touch
  cases hf : fate c p.line f.pts f.n with
  | noRoom => exact ⟨h.gains, h.master⟩
  | past => exact ⟨h1.1.trans h.gains, h1.2.trans h.master⟩
  | restart =>
    have := deposit_gains A c (resync (syncIn s f.pts) f.pts) id f 0
    rw [show gainOf A (resync (syncIn s f.pts) f.pts) id = p.gain A id from hg,
      show (resync (syncIn s f.pts) f.pts).master = p.master from h1.2.trans h.master,
      show (resync (syncIn s f.pts) f.pts).gains = p.gains from h1.1.trans h.gains] at this
    exact this
  | mixed q =>
    have := deposit_gains A c (syncIn s f.pts) id f q
    rw [hg, h1.2.trans h.master, h1.1.trans h.gains] at this
    exact this

theorem push_rr (A : Alg α) (c : Cfg) (hc : c.WF) (s : St α) (p : Sp α) (h : RR A c s p) (id : Nat) (f : Frame α)
    (hin : InRange c p.line f) : RR A c (push A c s id f).2 (p.push A c id f) := by
  have g := push_gains A c hc s p h id f hin
  have := push_refines A c hc s p.line h.line id f hin
  rw [show gainOf A s id = p.gain A id by unfold gainOf Sp.gain; rw [h.gains], h.master] at this
  exact ⟨this, g.1, g.2⟩

theorem pushAll_rr (A : Alg α) (c : Cfg) (hc : c.WF) (fs : List (Nat × Frame α)) : ∀ (s : St α) (p : Sp α), RR A c s p →
    RangeAll A c p fs → RR A c (pushAll A c s fs) (p.pushAll A c fs) ∧ (p.pushAll A c fs).line.front c + c.cap < 2 ^ 31 := by
  induction fs with
  | nil => intro s p h hr; exact ⟨h, hr⟩
  | cons x fs ih =>
    intro s p h hr
    obtain ⟨id, f⟩ := x
    exact ih _ _ (push_rr A c hc s p h id f hr.1) hr.2

theorem run_refines (A : Alg α) (c : Cfg) (hc : c.WF) (ops : List (Op α)) : ∀ (s : St α) (p : Sp α), RR A c s p →
    RangeRun A c p ops → run A c s ops = Sp.run A c p ops := by
  induction ops with
  | nil => intros; rfl
  | cons o ops ih =>
    intro s p h hr
    cases o with
    | round fs =>
      obtain ⟨h1, h2⟩ := pushAll_rr A c hc fs s p h hr.1
      obtain ⟨e1, e2⟩ := extract_refines A c hc _ _ h1.line h2
      have ext : (extract A c (pushAll A c s fs)).2.gains = (pushAll A c s fs).gains ∧
          (extract A c (pushAll A c s fs)).2.master = (pushAll A c s fs).master := by
        unfold extract; split <;> exact ⟨rfl, rfl⟩
      rw [run, Sp.run]
      have hh : (step A c s (.round fs)).1 = (p.step A c (.round fs)).1 := e1
      rw [hh]
      congr 1
      exact ih _ _ ⟨e2, ext.1.trans h1.gains, ext.2.trans h1.master⟩ hr.2
    | gains g m =>
      rw [run, Sp.run]
      refine congrArg _ (ih _ _ ⟨?_, rfl, rfl⟩ hr)
      obtain ⟨a, b, d, e, f, g', h'⟩ := h.line
      exact ⟨a, b, d, e, f, g', h'⟩

/-- **C31.** From a new mixer, every sequence of rounds and gain changes plays the timeline. -/
theorem mixer_plays_timeline (A : Alg α) (c : Cfg) (hc : c.WF) (m : α) (ops : List (Op α))
    (hr : RangeRun A c ⟨Line.init, fun _ => none, m⟩ ops) :
    run A c (init A m) ops = Sp.run A c ⟨Line.init, fun _ => none, m⟩ ops :=
  run_refines A c hc ops _ _ ⟨r_init A c m, rfl, rfl⟩ hr

end Lms.AudioMixer
