import Verif.Encoder.Model

/-!
# C43: coded pictures keep the times of the pictures they encode
-/

namespace Lms.Encoder

/-! ## Specification -/

/-- The decoding time: the presentation time of the picture the decoding index names; zero for the
negative indices an encoder with reordering begins with. -/
def decTime (acc : List FTP) (dts : Int) : Int := if dts < 0 then 0 else ((acc[dts.toNat]?).getD {}).pTime

/-- A history with an encoder that keeps its contract.  `acc`: the pictures it has accepted, in
order (the i-th has index i); `last`: the last decoding index.  A coded picture is of one of the
accepted pictures, decoding indices increase and are at most the presentation index.  With `tight`
they increase by one and every coded picture fits its frame.  The result lists what has to come out. -/
inductive Played (tight : Bool) : List FTP → Option Int → List Ev → List Coded → List FTP → Option Int → Prop where
  | nil {acc last} : Played tight acc last [] [] acc last
  | force {acc last r out acc' last'} : Played tight acc last r out acc' last' → Played tight acc last (.force :: r) out acc' last'
  | reference {acc last t r out acc' last'} : Played tight acc last r out acc' last' →
      Played tight acc last (.reference t :: r) out acc' last'
  | notReady {acc last p ans r out acc' last'} : Played tight acc last r out acc' last' →
      Played tight acc last (.pic p false ans :: r) out acc' last'
  | refused {acc last p ans r out acc' last'} : ans = .noEncoder ∨ ans = .fail → Played tight acc last r out acc' last' →
      Played tight acc last (.pic p true ans :: r) out acc' last'
  | buffered {acc last p r out acc' last'} : Played tight (acc ++ [p]) last r out acc' last' →
      Played tight acc last (.pic p true .buffered :: r) out acc' last'
  | out {acc last p pts dts fits x r out acc' last'} : 0 ≤ pts → (acc ++ [p])[pts.toNat]? = some x → dts ≤ pts →
      (∀ l ∈ last, l < dts) →
      (tight = true → fits = true ∧ (∀ l ∈ last, dts = l + 1) ∧ (last = none → dts ≤ 0)) →
      Played tight (acc ++ [p]) (some dts) r out acc' last' →
      Played tight acc last (.pic p true (.out pts dts fits) :: r)
        ((if fits then [⟨x.pTime, decTime (acc ++ [p]) dts, x.oTime, x.seq⟩] else []) ++ out) acc' last'

/-! ## Proof -/

/-- The entries that may still be needed are there. -/
structure Kept (s : St) (acc : List FTP) (last : Option Int) : Prop where
  n : s.inPts = acc.length
  has : ∀ i : Nat, i < acc.length → (∀ l ∈ last, l < (i : Int)) → s.q i = acc[i]?
  neg : ∀ i : Int, i < 0 → s.q i = none

theorem grid_q (s : St) (t : Int) : (grid s t).q = s.q ∧ (grid s t).inPts = s.inPts := by
  unfold grid; split
  · split <;> exact ⟨rfl, rfl⟩
  · exact ⟨rfl, rfl⟩

theorem kept_put {s : St} {acc : List FTP} {last : Option Int} (h : Kept s acc last) (p : FTP) (f : Bool) :
    Kept { grid s p.pTime with q := put (grid s p.pTime).q (grid s p.pTime).inPts p, forceIntra := f, inPts := (grid s p.pTime).inPts + 1 }
      (acc ++ [p]) last := by
  obtain ⟨e1, e2⟩ := grid_q s p.pTime
  have hn := h.n
  refine ⟨by simp [e2, h.n], ?_, ?_⟩
  · intro i hi hl
    show put (grid s p.pTime).q (grid s p.pTime).inPts p i = _
    rw [e1, e2, h.n]
    unfold put
    by_cases hc : (i : Int) = acc.length
    · rw [if_pos hc, List.getElem?_append_right (by omega), show i - acc.length = 0 by omega]; rfl
    · have hi' : i < acc.length := by simp at hi; omega
      rw [if_neg hc, List.getElem?_append_left hi']; exact h.has i hi' hl
  · intro i hi
    show put (grid s p.pTime).q (grid s p.pTime).inPts p i = _
    rw [e1, e2, h.n]; unfold put; rw [if_neg (by omega)]; exact h.neg i hi

theorem kept_stay {s : St} {acc : List FTP} {last : Option Int} (h : Kept s acc last) (p : FTP) (f : Bool) :
    Kept { grid s p.pTime with q := put (grid s p.pTime).q (grid s p.pTime).inPts p, forceIntra := f } acc last := by
  obtain ⟨e1, e2⟩ := grid_q s p.pTime
  have hn := h.n
  refine ⟨by show (grid s p.pTime).inPts = _; rw [e2]; exact h.n, ?_, ?_⟩
  · intro i hi hl
    show put (grid s p.pTime).q (grid s p.pTime).inPts p i = _
    rw [e1, e2, h.n]; unfold put; rw [if_neg (by omega)]; exact h.has i hi hl
  · intro i hi
    show put (grid s p.pTime).q (grid s p.pTime).inPts p i = _
    rw [e1, e2, h.n]; unfold put; rw [if_neg (by omega)]; exact h.neg i hi

/-- Taking a coded picture's entries. -/
theorem collect_eq {s : St} {acc : List FTP} {last : Option Int} (h : Kept s acc last) {pts dts : Int} {x : FTP} (h0 : 0 ≤ pts)
    (hx : acc[pts.toNat]? = some x) (hle : dts ≤ pts) (hl : ∀ l ∈ last, l < dts) :
    (collect s pts dts).2 = ⟨x.pTime, decTime acc dts, x.oTime, x.seq⟩ ∧ (collect s pts dts).1.inPts = s.inPts ∧
    ∀ i, (collect s pts dts).1.q i = if i = dts then none else s.q i := by
  have hlen : pts.toNat < acc.length := by
    rcases Nat.lt_or_ge pts.toNat acc.length with h | h
    · exact h
    · rw [List.getElem?_eq_none h] at hx; cases hx
  have hp : s.q pts = some x := by
    have := h.has pts.toNat hlen (fun l hm => by have := hl l hm; omega)
    rw [show ((pts.toNat : Nat) : Int) = pts by omega, hx] at this
    exact this
  by_cases hd : dts < 0
  · have hdn := h.neg dts hd
    have hne : dts ≠ pts := by omega
    have ta : touch s.q pts = (s.q, x) := by unfold touch; rw [hp]
    have tb : touch s.q dts = (put s.q dts {}, {}) := by unfold touch; rw [hdn]
    have tc : touch (put s.q dts {}) pts = (put s.q dts {}, x) := by
      have : put s.q dts {} pts = some x := by unfold put; rw [if_neg (by omega)]; exact hp
      unfold touch; rw [this]
    refine ⟨?_, ?_, ?_⟩
    · simp only [collect, ta, tb, tc]; unfold decTime; rw [if_pos hd]
    · simp only [collect]
    · intro i
      simp only [collect, ta, tb, tc, erase, put]
      by_cases hi : i = dts
      · rw [if_pos hi, if_pos hi]
      · rw [if_neg hi, if_neg hi, if_neg hi]
  · have hdl : dts.toNat < acc.length := by omega
    have hdq : s.q dts = acc[dts.toNat]? := by
      have := h.has dts.toNat hdl (fun l hm => by have := hl l hm; omega)
      rwa [show ((dts.toNat : Nat) : Int) = dts by omega] at this
    obtain ⟨y, hy⟩ : ∃ y, acc[dts.toNat]? = some y := ⟨acc[dts.toNat], List.getElem?_eq_getElem hdl⟩
    rw [hy] at hdq
    have ta : touch s.q pts = (s.q, x) := by unfold touch; rw [hp]
    have tb : touch s.q dts = (s.q, y) := by unfold touch; rw [hdq]
    refine ⟨?_, ?_, ?_⟩
    · simp only [collect, ta, tb]; unfold decTime; rw [if_neg hd, hy]; rfl
    · simp only [collect]
    · intro i; simp only [collect, ta, tb, erase]

theorem kept_collect {s : St} {acc : List FTP} {last : Option Int} (h : Kept s acc last) {pts dts : Int} {x : FTP} (h0 : 0 ≤ pts)
    (hx : acc[pts.toNat]? = some x) (hle : dts ≤ pts) (hl : ∀ l ∈ last, l < dts) :
    Kept (collect s pts dts).1 acc (some dts) := by
  obtain ⟨_, h2, h3⟩ := collect_eq h h0 hx hle hl
  refine ⟨by rw [h2]; exact h.n, ?_, ?_⟩
  · intro i hi hd
    have hd' : dts < (i : Int) := hd dts (by simp)
    rw [h3, if_neg (by omega)]
    exact h.has i hi (fun l hm => by have := hl l hm; omega)
  · intro i hi
    rw [h3]; by_cases hc : i = dts
    · rw [if_pos hc]
    · rw [if_neg hc]; exact h.neg i hi

theorem kept_mono {s : St} {acc : List FTP} {last : Option Int} (h : Kept s acc last) {dts : Int} (hl : ∀ l ∈ last, l < dts) :
    Kept s acc (some dts) :=
  ⟨h.n, fun i hi hd => h.has i hi (fun l hm => by have := hl l hm; have : dts < (i : Int) := hd dts (by simp); omega), h.neg⟩

/-- **C43**: whatever order the encoder codes pictures in, each coded picture carries the presentation
time, origin time and sequence number of the picture it encodes, and the decoding time its index
names. -/
theorem times_kept (tight : Bool) : ∀ (evs : List Ev) (acc acc' : List FTP) (last last' : Option Int) (out : List Coded),
    Played tight acc last evs out acc' last' → ∀ s, Kept s acc last →
    coded s evs = out ∧ Kept (final s evs) acc' last' := by
  intro evs acc acc' last last' out h
  induction h with
  | nil => intro s hs; exact ⟨rfl, hs⟩
  | force _ ih => intro s hs; exact ih _ ⟨hs.n, hs.has, hs.neg⟩
  | reference _ ih => intro s hs; exact ih _ ⟨hs.n, hs.has, hs.neg⟩
  | notReady _ ih => intro s hs; exact ih _ hs
  | @refused acc last p ans r out acc' last' ha _ ih =>
    intro s hs
    rcases ha with rfl | rfl
    · exact ih _ (kept_stay hs p _)
    · exact ih _ (kept_stay hs p false)
  | @buffered acc last p r out acc' last' _ ih => intro s hs; exact ih _ (kept_put hs p false)
  | @out acc last p pts dts fits x r out acc' last' h0 hx hle hl _ _ ih =>
    intro s hs
    have hk := kept_put hs p false
    cases fits with
    | true =>
      obtain ⟨h1, h2⟩ := ih _ (kept_collect hk h0 hx hle hl)
      refine ⟨?_, h2⟩
      rw [if_pos rfl, ← h1, ← (collect_eq hk h0 hx hle hl).1]
      rfl
    | false =>
      obtain ⟨h1, h2⟩ := ih _ (kept_mono hk hl)
      refine ⟨?_, h2⟩
      rw [if_neg (by decide), ← h1]
      rfl

/-- Entries lie after the last decoding index, and before the next input (or at it, when the last
picture was refused). -/
def Tidy (s : St) (last : Option Int) : Prop := ∀ i, s.q i ≠ none → (∀ l ∈ last, l < i) ∧ 0 ≤ i ∧ i ≤ s.inPts

theorem tidy_stay {s : St} {last : Option Int} (h : Tidy s last) (p : FTP) (f : Bool) (hn : 0 ≤ s.inPts)
    (hl : ∀ l ∈ last, l < s.inPts) :
    Tidy { grid s p.pTime with q := put (grid s p.pTime).q (grid s p.pTime).inPts p, forceIntra := f } last := by
  obtain ⟨e1, e2⟩ := grid_q s p.pTime
  intro i hi
  have hi : put (grid s p.pTime).q (grid s p.pTime).inPts p i ≠ none := hi
  show (∀ l ∈ last, l < i) ∧ 0 ≤ i ∧ i ≤ (grid s p.pTime).inPts
  rw [e2]
  rw [e1, e2] at hi; unfold put at hi
  by_cases hc : i = s.inPts
  · subst hc; exact ⟨hl, hn, Int.le_refl _⟩
  · rw [if_neg hc] at hi; exact h i hi

theorem tidy_put {s : St} {last : Option Int} (h : Tidy s last) (p : FTP) (f : Bool) (hn : 0 ≤ s.inPts)
    (hl : ∀ l ∈ last, l < s.inPts) :
    Tidy { grid s p.pTime with q := put (grid s p.pTime).q (grid s p.pTime).inPts p, forceIntra := f, inPts := (grid s p.pTime).inPts + 1 } last := by
  intro i hi
  obtain ⟨h1, h2, h3⟩ := tidy_stay h p f hn hl i hi
  exact ⟨h1, h2, Int.le_trans h3 (by show (grid s p.pTime).inPts ≤ (grid s p.pTime).inPts + 1; omega)⟩

/-- **C43, release**: with an encoder whose decoding indices increase by one, the bookkeeping holds at
any moment only entries of pictures after the last decoding index: as many as the encoder holds back. -/
theorem entries_released : ∀ (evs : List Ev) (acc acc' : List FTP) (last last' : Option Int) (out : List Coded),
    Played true acc last evs out acc' last' → ∀ s, Kept s acc last → Tidy s last → (∀ l ∈ last, l < (acc.length : Int)) →
    Tidy (final s evs) last' ∧ (final s evs).inPts = acc'.length := by
  intro evs acc acc' last last' out h
  induction h with
  | nil => intro s hs ht _; exact ⟨ht, hs.n⟩
  | force _ ih => intro s hs ht hl; exact ih _ ⟨hs.n, hs.has, hs.neg⟩ ht hl
  | reference _ ih => intro s hs ht hl; exact ih _ ⟨hs.n, hs.has, hs.neg⟩ ht hl
  | notReady _ ih => intro s hs ht hl; exact ih _ hs ht hl
  | @refused acc last p ans r out acc' last' ha _ ih =>
    intro s hs ht hl
    have hn := hs.n
    rcases ha with rfl | rfl
    · exact ih _ (kept_stay hs p _) (tidy_stay ht p _ (by omega) (by rw [hn]; exact hl)) hl
    · exact ih _ (kept_stay hs p false) (tidy_stay ht p false (by omega) (by rw [hn]; exact hl)) hl
  | @buffered acc last p r out acc' last' _ ih =>
    intro s hs ht hl
    have hn := hs.n
    exact ih _ (kept_put hs p false) (tidy_put ht p false (by omega) (by rw [hn]; exact hl))
      (fun l hm => by have := hl l hm; simp; omega)
  | @out acc last p pts dts fits x r out acc' last' h0 hx hle hl htight _ ih =>
    intro s hs ht hlast
    obtain ⟨rfl, hsucc, hfirst⟩ := htight rfl
    have hn := hs.n
    have hk := kept_put hs p false
    have htp := tidy_put ht p false (by omega) (by rw [hn]; exact hlast)
    have hplen : pts.toNat < (acc ++ [p]).length := by
      rcases Nat.lt_or_ge pts.toNat (acc ++ [p]).length with h | h
      · exact h
      · rw [List.getElem?_eq_none h] at hx; cases hx
    have := ih _ (kept_collect hk h0 hx hle hl) (by
      obtain ⟨_, h2, h3⟩ := collect_eq hk h0 hx hle hl
      intro i hi
      rw [h3] at hi
      by_cases hc : i = dts
      · rw [if_pos hc] at hi; exact absurd rfl hi
      · rw [if_neg hc] at hi
        obtain ⟨g1, g2, g3⟩ := htp i hi
        refine ⟨?_, g2, by rw [h2]; exact g3⟩
        intro l hm
        simp at hm; subst hm
        cases hlc : last with
        | none => have := hfirst hlc; omega
        | some l => have e1 := hsucc l (by simp [hlc]); have e2 := g1 l (by simp [hlc]); omega) (by
      intro l hm; simp at hm; subst hm
      omega)
    exact this

theorem init_kept (g : Nat) : Kept (init g) [] none := ⟨rfl, fun i hi => by simp at hi, fun _ _ => rfl⟩
theorem init_tidy (g : Nat) : Tidy (init g) none := fun i hi => absurd rfl hi

/-! ## A case: I P B order with one picture of delay -/

/-- Four pictures. -/
def demoPic (i : Nat) : FTP := ⟨100 + 40 * i, 7 + i, 50 + i⟩

/-- The encoder holds back two pictures, then codes 0, 2, 1. -/
def demoEvs : List Ev :=
  [.pic (demoPic 0) true .buffered, .pic (demoPic 1) true .buffered, .pic (demoPic 2) true (.out 0 (-1) true),
   .pic (demoPic 3) true (.out 2 0 true), .force, .pic (demoPic 4) false .fail, .pic (demoPic 5) true (.out 1 1 true)]

theorem demo_played : Played true [] none demoEvs
    [⟨100, 0, 7, 50⟩, ⟨180, 100, 9, 52⟩, ⟨140, 140, 8, 51⟩]
    [demoPic 0, demoPic 1, demoPic 2, demoPic 3, demoPic 5] (some 1) :=
  .buffered (.buffered (.out (x := demoPic 0) (by decide) rfl (by decide) (by simp) (by simp)
    (.out (x := demoPic 2) (by decide) rfl (by decide) (by simp) (by simp)
      (.force (.notReady (.out (x := demoPic 1) (by decide) rfl (by decide) (by simp) (by simp) .nil))))))

example : coded (init 0) demoEvs = [⟨100, 0, 7, 50⟩, ⟨180, 100, 9, 52⟩, ⟨140, 140, 8, 51⟩] :=
  (times_kept true _ _ _ _ _ _ demo_played _ (init_kept 0)).1
example : Tidy (final (init 0) demoEvs) (some 1) :=
  (entries_released _ _ _ _ _ _ demo_played _ (init_kept 0) (init_tidy 0) (by simp)).1

/-! ## The recorded exceptions -/

/-- With reordering the first coded pictures get the decoding time 0: the indices before the first
picture have no entry. -/
theorem first_decode_time_zero : (coded (init 0) demoEvs).head?.map (·.dTime) = some 0 := by decide

/-- An entry the decoding indices jump over (as when the encoder is closed and opened again with pictures
inside) stays for ever. -/
theorem skipped_entry_stays (tight : Bool) (i : Int) : ∀ (evs : List Ev) (acc acc' : List FTP) (last last' : Option Int) (out : List Coded),
    Played tight acc last evs out acc' last' → ∀ s, Kept s acc last → s.q i ≠ none → (∃ l ∈ last, i ≤ l) → i < acc.length →
    (final s evs).q i ≠ none := by
  intro evs acc acc' last last' out h
  induction h with
  | nil => intro s _ hq _ _; exact hq
  | force _ ih => intro s hs hq hl hi; exact ih _ ⟨hs.n, hs.has, hs.neg⟩ hq hl hi
  | reference _ ih => intro s hs hq hl hi; exact ih _ ⟨hs.n, hs.has, hs.neg⟩ hq hl hi
  | notReady _ ih => intro s hs hq hl hi; exact ih _ hs hq hl hi
  | @refused acc last p ans r out acc' last' ha _ ih =>
    intro s hs hq hl hi
    obtain ⟨e1, e2⟩ := grid_q s p.pTime
    have hn := hs.n
    have hq' : put (grid s p.pTime).q (grid s p.pTime).inPts p i ≠ none := by
      rw [e1, e2]; unfold put; rw [if_neg (by omega)]; exact hq
    rcases ha with rfl | rfl
    · exact ih _ (kept_stay hs p _) hq' hl hi
    · exact ih _ (kept_stay hs p false) hq' hl hi
  | @buffered acc last p r out acc' last' _ ih =>
    intro s hs hq hl hi
    obtain ⟨e1, e2⟩ := grid_q s p.pTime
    have hn := hs.n
    have hq' : put (grid s p.pTime).q (grid s p.pTime).inPts p i ≠ none := by
      rw [e1, e2]; unfold put; rw [if_neg (by omega)]; exact hq
    exact ih _ (kept_put hs p false) hq' hl (by simp; omega)
  | @out acc last p pts dts fits x r out acc' last' h0 hx hle hl _ _ ih =>
    intro s hs hq hex hi
    obtain ⟨l0, hl0, hil⟩ := hex
    obtain ⟨e1, e2⟩ := grid_q s p.pTime
    have hn := hs.n
    have hq' : put (grid s p.pTime).q (grid s p.pTime).inPts p i ≠ none := by
      rw [e1, e2]; unfold put; rw [if_neg (by omega)]; exact hq
    have hk := kept_put hs p false
    have hlt := hl l0 hl0
    cases fits with
    | true =>
      refine ih _ (kept_collect hk h0 hx hle hl) ?_ ⟨dts, by simp, by omega⟩ (by simp; omega)
      have hcq := (collect_eq hk h0 hx hle hl).2.2 i
      rw [if_neg (by omega)] at hcq
      exact fun e => hq' (hcq.symm.trans e)
    | false => exact ih _ (kept_mono hk hl) hq' ⟨dts, by simp, by omega⟩ (by simp; omega)

/-- So it happens: an encoder holding one picture back is reopened after two pictures (so the picture
1 is never coded) and goes on with index 2: entry 1 stays. -/
theorem reopening_leaks : (final (init 0) [.pic (demoPic 0) true .buffered, .pic (demoPic 1) true (.out 0 0 true),
    .pic (demoPic 2) true (.out 2 2 true), .pic (demoPic 3) true (.out 3 3 true)]).q 1 = some (demoPic 1) := by decide

/-- A coded picture with too many NAL units is lost and its entry stays. -/
theorem overflow_leaks : coded (init 0) [.pic (demoPic 0) true (.out 0 0 false), .pic (demoPic 1) true (.out 1 1 true)] = [⟨140, 140, 8, 51⟩] ∧
    (final (init 0) [.pic (demoPic 0) true (.out 0 0 false), .pic (demoPic 1) true (.out 1 1 true)]).q 0 = some (demoPic 0) := by decide

end Lms.Encoder
