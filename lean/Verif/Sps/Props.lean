import Verif.Sps.Model
import Verif.Sps.Spec
import Verif.Rbsp.Props

/-!
# C28: the dimensions announced by a sequence parameter set
-/

namespace Lms.Sps

open Lms BitStream

/-- `p` standing before the bits `l` reads exactly these and returns `a`. -/
def Reads {α : Type} (p : P α) (l : List Bool) (a : α) : Prop :=
  ∀ b xs, Ok b → rest b = l ++ xs → ∃ b', p b = .ok (a, b') ∧ rest b' = xs ∧ Ok b'

theorem reads_pure {α : Type} (a : α) : Reads (pure a) [] a := fun b _ h hr => ⟨b, rfl, hr, h⟩

theorem reads_bind {α β : Type} {p : P α} {f : α → P β} {l m : List Bool} {a : α} {c : β}
    (h1 : Reads p l a) (h2 : Reads (f a) m c) : Reads (p >>= f) (l ++ m) c := by
  intro b xs h hr
  rw [List.append_assoc] at hr
  obtain ⟨b1, e1, r1, o1⟩ := h1 b _ h hr
  obtain ⟨b2, e2, r2, o2⟩ := h2 b1 _ o1 r1
  refine ⟨b2, ?_, r2, o2⟩
  show (p b).bind (fun r => f r.1 r.2) = _
  rw [e1, Outcome.bind_ok]; exact e2

theorem reads_last {α β : Type} {p : P α} {l : List Bool} {a : α} (g : α → β)
    (h1 : Reads p l a) : Reads (p >>= fun x => pure (g x)) l (g a) := by
  have := reads_bind (f := fun x => (pure (g x) : P β)) h1 (reads_pure (g a))
  rw [List.append_nil] at this
  exact this

theorem reads_loop {n v : Nat} (hv : v < 2 ^ n) (b : BS) (xs : List Bool) (h : Ok b) (hr : rest b = bitsN n v ++ xs) :
    ∃ b', readLoop n b 0 = (v, b') ∧ rest b' = xs ∧ Ok b' := by
  obtain ⟨b', e, h2, h3, _⟩ := read_field (.u8 v) xs b h |> fun _ => (by
    obtain ⟨r1, r2, r3, r4, r5⟩ := read_spec n b h
    refine ⟨(readLoop n b 0).2, ?_, ?_, r3, r4⟩
    · apply Prod.ext
      · rw [r1, hr]
        have ht := takeZ_append (bitsN n v) xs
        rw [bitsN_length] at ht
        rw [ht, natOf_bitsN_of_lt hv]
      · rfl
    · rw [r2, hr, List.drop_left' (bitsN_length n v)] :
      ∃ b', readLoop n b 0 = (v, b') ∧ rest b' = xs ∧ Ok b' ∧ pos b' = pos b + n)
  exact ⟨b', e, h2, h3⟩

theorem reads_u {n v : Nat} (hn : n ≤ 32) (hv : v < 2 ^ n) : Reads (u n) (bitsN n v) v := by
  intro b xs h hr
  obtain ⟨b', e, h2, h3⟩ := reads_loop hv b xs h hr
  refine ⟨b', ?_, h2, h3⟩
  unfold u readU
  rw [if_neg (by omega), e]

theorem reads_u8 {v : Nat} (hv : v < 256) : Reads u8 (bitsN 8 v) v := by
  intro b xs h hr
  obtain ⟨b', e, h2, h3⟩ := reads_loop (n := 8) hv b xs h hr
  refine ⟨b', ?_, h2, h3⟩
  unfold u8
  rw [readU8_eq b h, e]

theorem reads_u1 (f : Bool) : Reads u1 [f] f.toNat := by
  intro b xs h hr
  obtain ⟨r1, r2, r3, _, _⟩ := readU1_spec b h
  rw [hr] at r1 r2
  refine ⟨(readU1 b).2, ?_, r2, r3⟩
  unfold u1
  congr 1
  exact Prod.ext r1 rfl

theorem reads_ue {v : Nat} (hv : UeOk v) : Reads ue (ueBits v) v := by
  intro b xs h hr
  obtain ⟨b', e, h2, h3, _⟩ := readUe_spec v xs b h hv hr
  exact ⟨b', e, h2, h3⟩

theorem reads_se {v : Int} (hv : SeOk v) : Reads se (ueBits (seIndex v)) v := by
  intro b xs h hr
  obtain ⟨b', e, h2, h3, _⟩ := readSe_spec v xs b h hv hr
  exact ⟨b', e, h2, h3⟩

theorem reads_flag {β : Type} {f : Nat → P β} {m : List Bool} {c : β} (b : Bool) (h : Reads (f b.toNat) m c) :
    Reads (u1 >>= f) (b :: m) c := reads_bind (reads_u1 b) h

theorem reads_cast {α : Type} {p : P α} {l m : List Bool} {a b : α} (h : Reads p l a) (hl : l = m) (ha : a = b) : Reads p m b := by
  subst hl ha; exact h

/-! ## What the parser should make of each part -/

def HrdSyn.expect (h : HrdSyn) (old : Hrd) : Hrd :=
  ⟨h.cpbs.length - 1, h.bitRateScale, h.cpbSizeScale,
    h.cpbs.map (fun c => (c.1, c.2.1, c.2.2.toNat)) ++ old.entries.drop h.cpbs.length,
    h.initialDelayLen, h.removalDelayLen, h.outputDelayLen, h.timeOffsetLen⟩

theorem hrdLoop_reads (l : List (Nat × Nat × Bool)) (i : Nat) (hi : i + l.length ≤ 32) (hl : ∀ c ∈ l, UeOk c.1 ∧ UeOk c.2.1) :
    Reads (hrdLoop l.length i) (l.flatMap (fun c => ueBits c.1 ++ (ueBits c.2.1 ++ [c.2.2])))
      (l.map fun c => (c.1, c.2.1, c.2.2.toNat)) := by
  induction l generalizing i with
  | nil => exact reads_pure _
  | cons c l ih =>
    simp only [List.length_cons] at hi
    obtain ⟨h1, h2⟩ := hl c (by simp)
    simp only [List.length_cons, hrdLoop, if_neg (show ¬32 ≤ i by omega), List.flatMap_cons, List.map_cons,
      List.append_assoc, List.singleton_append]
    exact reads_bind (reads_ue h1) (reads_bind (reads_ue h2) (reads_flag _
      (reads_last _ (ih (i + 1) (by omega) fun c hc => hl c (by simp [hc])))))

theorem readHrd_reads (h : HrdSyn) (old : Hrd) (hl : h.Legal) : Reads (readHrd old) h.enc (h.expect old) := by
  obtain ⟨⟨n1, n2⟩, ⟨s1, s2⟩, ⟨l1, l2, l3, l4⟩, hc⟩ := hl
  have e : h.cpbs.length - 1 + 1 = h.cpbs.length := by omega
  have loop := hrdLoop_reads h.cpbs 0 (by omega) hc
  have hlen : (h.cpbs.map fun c => (c.1, c.2.1, c.2.2.toNat)).length = h.cpbs.length := by simp
  unfold readHrd HrdSyn.enc HrdSyn.expect
  refine reads_bind (reads_ue (by unfold UeOk; omega)) (reads_bind (reads_u (by omega) (by omega))
    (reads_bind (reads_u (by omega) (by omega)) (reads_bind (by rw [e]; exact loop) (reads_bind (reads_u (by omega) (by omega))
      (reads_bind (reads_u (by omega) (by omega)) (reads_bind (reads_u (by omega) (by omega)) ?_))))))
  have := reads_last (fun d => (⟨h.cpbs.length - 1, h.bitRateScale, h.cpbSizeScale,
    h.cpbs.map (fun c => (c.1, c.2.1, c.2.2.toNat)) ++ old.entries.drop (h.cpbs.map fun c => (c.1, c.2.1, c.2.2.toNat)).length,
    h.initialDelayLen, h.removalDelayLen, h.outputDelayLen, d⟩ : Hrd)) (reads_u (n := 5) (v := h.timeOffsetLen) (by omega) l4)
  exact reads_cast this rfl (by rw [hlen])

def expAspect (o : Option (Nat × Nat × Nat)) (v : Vui) : Vui :=
  match o with
  | none => v
  | some a => if a.1 = 255 then { v with aspectPresent := 1, aspectIdc := a.1, sarWidth := a.2.1, sarHeight := a.2.2 }
    else { v with aspectPresent := 1, aspectIdc := a.1 }

theorem aspect_reads (o : Option (Nat × Nat × Nat)) (v : Vui) (hv : v.aspectPresent = 0)
    (h : ∀ a, o = some a → a.1 < 256 ∧ a.2.1 < 2 ^ 16 ∧ a.2.2 < 2 ^ 16) :
    Reads (readAspect v) (optBits o (fun a => bitsN 8 a.1 ++ if a.1 = 255 then bitsN 16 a.2.1 ++ bitsN 16 a.2.2 else []))
      (expAspect o v) := by
  unfold readAspect expAspect
  cases o with
  | none =>
    refine reads_flag false ?_
    exact reads_cast (reads_pure _) rfl (by simp [← hv])
  | some a =>
    obtain ⟨h1, h2, h3⟩ := h a rfl
    refine reads_flag true (reads_bind (reads_u8 h1) ?_)
    simp only
    split
    · exact reads_bind (reads_u (by omega) h2) (reads_last _ (reads_u (by omega) h3))
    · exact reads_pure _

def expOverscan (o : Option Bool) (v : Vui) : Vui :=
  match o with
  | none => v
  | some a => { v with overscanPresent := 1, overscanAppropriate := a.toNat }

theorem overscan_reads (o : Option Bool) (v : Vui) (hv : v.overscanPresent = 0) :
    Reads (readOverscan v) (optBits o (fun b => [b])) (expOverscan o v) := by
  unfold readOverscan expOverscan
  cases o with
  | none => exact reads_flag false (reads_cast (reads_pure _) rfl (by simp [← hv]))
  | some a => exact reads_flag true (reads_last _ (reads_u1 a))

def expSignal (o : Option (Nat × Bool × Option (Nat × Nat × Nat))) (v : Vui) : Vui :=
  match o with
  | none => v
  | some s =>
    match s.2.2 with
    | none => { v with signalPresent := 1, videoFormat := s.1, fullRange := s.2.1.toNat, colourPresent := 0 }
    | some c => { v with signalPresent := 1, videoFormat := s.1, fullRange := s.2.1.toNat, colourPresent := 1,
                         primaries := c.1, transfer := c.2.1, matrix := c.2.2 }

theorem signal_reads (o : Option (Nat × Bool × Option (Nat × Nat × Nat))) (v : Vui) (hv : v.signalPresent = 0)
    (h : ∀ s, o = some s → s.1 < 8 ∧ ∀ c, s.2.2 = some c → c.1 < 256 ∧ c.2.1 < 256 ∧ c.2.2 < 256) :
    Reads (readSignal v)
      (optBits o (fun s => bitsN 3 s.1 ++ (s.2.1 :: optBits s.2.2 (fun c => bitsN 8 c.1 ++ (bitsN 8 c.2.1 ++ bitsN 8 c.2.2)))))
      (expSignal o v) := by
  unfold readSignal expSignal
  cases o with
  | none => exact reads_flag false (reads_cast (reads_pure _) rfl (by simp [← hv]))
  | some s =>
    obtain ⟨f, r, c⟩ := s
    obtain ⟨h1, h2⟩ := h _ rfl
    refine reads_flag true (reads_bind (reads_u (by omega) h1) (reads_flag r ?_))
    cases c with
    | none => exact reads_flag false (reads_pure _)
    | some c =>
      obtain ⟨c1, c2, c3⟩ := h2 c rfl
      exact reads_flag true (reads_bind (reads_u8 c1) (reads_bind (reads_u8 c2) (reads_last _ (reads_u8 c3))))

def expLoc (o : Option (Nat × Nat)) (v : Vui) : Vui :=
  match o with
  | none => v
  | some l => { v with locPresent := 1, locTop := l.1, locBottom := l.2 }

theorem loc_reads (o : Option (Nat × Nat)) (v : Vui) (hv : v.locPresent = 0) (h : ∀ l, o = some l → UeOk l.1 ∧ UeOk l.2) :
    Reads (readLoc v) (optBits o (fun l => ueBits l.1 ++ ueBits l.2)) (expLoc o v) := by
  unfold readLoc expLoc
  cases o with
  | none => exact reads_flag false (reads_cast (reads_pure _) rfl (by simp [← hv]))
  | some l =>
    obtain ⟨h1, h2⟩ := h l rfl
    exact reads_flag true (reads_bind (reads_ue h1) (reads_last _ (reads_ue h2)))

def expTiming (o : Option (Nat × Nat × Bool)) (v : Vui) : Vui :=
  match o with
  | none => v
  | some t => { v with timingPresent := 1, unitsInTick := i32 t.1, timeScale := i32 t.2.1, fixedRate := t.2.2.toNat }

theorem timing_reads (o : Option (Nat × Nat × Bool)) (v : Vui) (hv : v.timingPresent = 0)
    (h : ∀ t, o = some t → t.1 < 2 ^ 32 ∧ t.2.1 < 2 ^ 32) :
    Reads (readTiming v) (optBits o (fun t => bitsN 32 t.1 ++ (bitsN 32 t.2.1 ++ [t.2.2]))) (expTiming o v) := by
  unfold readTiming expTiming
  cases o with
  | none => exact reads_flag false (reads_cast (reads_pure _) rfl (by simp [← hv]))
  | some t =>
    obtain ⟨h1, h2⟩ := h t rfl
    exact reads_flag true (reads_bind (reads_u (by omega) h1) (reads_bind (reads_u (by omega) h2) (reads_last _ (reads_u1 _))))

def expHrdIf (o : Option HrdSyn) (h : Hrd) : Nat × Hrd :=
  match o with
  | none => (0, h)
  | some s => (1, s.expect h)

theorem hrdIf_reads (o : Option HrdSyn) (h : Hrd) (hl : ∀ s, o = some s → s.Legal) :
    Reads (readHrdIf h) (optBits o HrdSyn.enc) (expHrdIf o h) := by
  unfold readHrdIf expHrdIf
  cases o with
  | none => exact reads_flag false (reads_pure _)
  | some s => exact reads_flag true (reads_last _ (readHrd_reads s h (hl s rfl)))

def expHrds (s : VuiSyn) (v : Vui) : Vui × Hrd :=
  ({ v with nalHrd := s.nalHrd.isSome.toNat, vclHrd := s.vclHrd.isSome.toNat,
            lowDelay := if s.nalHrd.isSome ∨ s.vclHrd.isSome then s.lowDelay.toNat else 0, picStruct := s.picStruct.toNat },
    (expHrdIf s.vclHrd (expHrdIf s.nalHrd {}).2).2)

theorem expHrdIf_fst (o : Option HrdSyn) (h : Hrd) : (expHrdIf o h).1 = o.isSome.toNat := by cases o <;> rfl

theorem hrds_reads (s : VuiSyn) (v : Vui) (h1 : ∀ h, s.nalHrd = some h → h.Legal) (h2 : ∀ h, s.vclHrd = some h → h.Legal) :
    Reads (readHrds v {}) (optBits s.nalHrd HrdSyn.enc ++ (optBits s.vclHrd HrdSyn.enc ++
      ((if s.nalHrd.isSome ∨ s.vclHrd.isSome then [s.lowDelay] else []) ++ [s.picStruct]))) (expHrds s v) := by
  unfold readHrds
  refine reads_bind (hrdIf_reads _ _ h1) (reads_bind (hrdIf_reads _ _ h2) ?_)
  rw [expHrdIf_fst, expHrdIf_fst]
  have low : Reads (if s.nalHrd.isSome.toNat = 1 ∨ s.vclHrd.isSome.toNat = 1 then u1 else pure 0)
      (if s.nalHrd.isSome ∨ s.vclHrd.isSome then [s.lowDelay] else [])
      (if s.nalHrd.isSome ∨ s.vclHrd.isSome then s.lowDelay.toNat else 0) := by
    cases s.nalHrd <;> cases s.vclHrd <;> first | exact reads_pure _ | exact reads_u1 _
  exact reads_bind low (reads_last _ (reads_u1 _))

def expRestriction (o : Option RestrictionSyn) (v : Vui) : Vui :=
  match o with
  | none => v
  | some r => { v with restriction := 1, mvOverBoundaries := r.mvOver.toNat, maxBytesDenom := r.maxBytes, maxBitsDenom := r.maxBits,
                       mvLenH := r.mvH, mvLenV := r.mvV, reorder := r.reorder, maxDec := r.maxDec }

theorem restriction_reads (o : Option RestrictionSyn) (v : Vui) (hv : v.restriction = 0)
    (h : ∀ r, o = some r → UeOk r.maxBytes ∧ UeOk r.maxBits ∧ UeOk r.mvH ∧ UeOk r.mvV ∧ UeOk r.reorder ∧ UeOk r.maxDec) :
    Reads (readRestriction v) (optBits o (fun r => r.mvOver :: (ueBits r.maxBytes ++ (ueBits r.maxBits ++ (ueBits r.mvH ++
      (ueBits r.mvV ++ (ueBits r.reorder ++ ueBits r.maxDec))))))) (expRestriction o v) := by
  unfold readRestriction expRestriction
  cases o with
  | none => exact reads_flag false (reads_cast (reads_pure _) rfl (by simp [← hv]))
  | some r =>
    obtain ⟨h1, h2, h3, h4, h5, h6⟩ := h r rfl
    exact reads_flag true (reads_flag _ (reads_bind (reads_ue h1) (reads_bind (reads_ue h2) (reads_bind (reads_ue h3)
      (reads_bind (reads_ue h4) (reads_bind (reads_ue h5) (reads_last _ (reads_ue h6))))))))

def VuiSyn.expect (s : VuiSyn) : Vui × Hrd :=
  let v := expTiming s.timing (expLoc s.loc (expSignal s.signal (expOverscan s.overscan (expAspect s.aspect {}))))
  (expRestriction s.restriction (expHrds s v).1, (expHrds s v).2)

theorem vui_reads (s : VuiSyn) (hl : s.Legal) : Reads readVui s.enc s.expect := by
  obtain ⟨a, sg, lc, tm, n, v, r⟩ := hl
  unfold readVui VuiSyn.enc VuiSyn.expect
  have e1 : (expAspect s.aspect {}).overscanPresent = 0 := by unfold expAspect; split <;> (try split) <;> rfl
  have e2 : (expOverscan s.overscan (expAspect s.aspect {})).signalPresent = 0 := by
    unfold expOverscan expAspect; split <;> split <;> (try split) <;> rfl
  have e3 : (expSignal s.signal (expOverscan s.overscan (expAspect s.aspect {}))).locPresent = 0 := by
    unfold expSignal expOverscan expAspect; split <;> (try split) <;> split <;> (try split) <;> (try split) <;> rfl
  have e4 : (expLoc s.loc (expSignal s.signal (expOverscan s.overscan (expAspect s.aspect {})))).timingPresent = 0 := by
    unfold expLoc expSignal expOverscan expAspect
    repeat' split
    all_goals rfl
  have e5 : (expHrds s (expTiming s.timing (expLoc s.loc (expSignal s.signal (expOverscan s.overscan
      (expAspect s.aspect {})))))).1.restriction = 0 := by
    show (expTiming _ _).restriction = 0
    unfold expTiming expLoc expSignal expOverscan expAspect
    repeat' split
    all_goals rfl
  refine reads_bind (aspect_reads _ _ rfl a) (reads_bind (overscan_reads _ _ e1) (reads_bind (signal_reads _ _ e2 sg)
    (reads_bind (loc_reads _ _ e3 lc) (reads_bind (timing_reads _ _ e4 tm) (reads_bind (hrds_reads s _ n v) ?_)))))
  exact reads_last _ (restriction_reads _ _ e5 r)

/-- No scaling list is transmitted (flags only, all clear). -/
def HighSyn.NoLists (h : HighSyn) : Prop := h.scaling = none ∨ h.scaling = some (List.replicate 8 none)

def HighSyn.expect (h : HighSyn) : High :=
  ⟨h.chroma, if h.chroma = 3 then h.separate.toNat else 0, h.depthLuma, h.depthChroma, h.bypass.toNat, h.scaling.isSome.toNat,
    if h.scaling.isSome then List.replicate 8 0 else []⟩

theorem high_reads (h : HighSyn) (hl : h.Legal) (hn : h.NoLists) : Reads readHigh h.enc h.expect := by
  obtain ⟨c, ⟨d1, d2⟩, _⟩ := hl
  unfold readHigh HighSyn.enc HighSyn.expect
  have hc : UeOk h.chroma := by unfold UeOk; omega
  have sep : Reads (if h.chroma = 3 then u1 else pure 0) (if h.chroma = 3 then [h.separate] else [])
      (if h.chroma = 3 then h.separate.toNat else 0) := by
    split
    · exact reads_u1 _
    · exact reads_pure _
  refine reads_bind (reads_ue hc) (reads_bind sep (reads_bind (reads_ue d1) (reads_bind (reads_ue d2) (reads_bind (reads_u1 _) ?_))))
  rcases hn with hn | hn
  · rw [hn]
    exact reads_flag false (reads_last (l := []) _ (reads_pure _))
  · rw [hn]
    have flags : ∀ n, Reads (listFlags n) (List.replicate n false) (List.replicate n 0) := by
      intro n
      induction n with
      | zero => exact reads_pure _
      | succ n ih => exact reads_flag false (reads_last _ ih)
    exact reads_flag true (reads_last (l := List.replicate 8 false) _ (flags 8))

def PocSyn.expect : PocSyn → PocInfo
  | .t0 l => { type := 0, lsb := l }
  | .t1 z n t o => { type := 1, alwaysZero := z.toNat, nonRef := n, topBottom := t, cycle := o.length, offsets := o }
  | .t2 => { type := 2 }

theorem offsets_read (o : List Int) (i : Nat) (hi : i + o.length ≤ 256) (h : ∀ x ∈ o, SeOk x) :
    Reads (offsetLoop o.length i) (o.flatMap fun x => ueBits (seIndex x)) o := by
  induction o generalizing i with
  | nil => exact reads_pure _
  | cons x o ih =>
    simp only [List.length_cons] at hi
    simp only [List.length_cons, offsetLoop, if_neg (show ¬256 ≤ i by omega), List.flatMap_cons]
    exact reads_bind (reads_se (h x (by simp))) (reads_last _ (ih (i + 1) (by omega) fun y hy => h y (by simp [hy])))

theorem poc_reads (p : PocSyn) (hl : p.Legal) : Reads readPoc p.enc p.expect := by
  unfold readPoc
  cases p with
  | t0 l => exact reads_bind (reads_ue (v := 0) (by unfold UeOk; decide)) (reads_last _ (reads_ue hl))
  | t1 z n t o =>
    obtain ⟨h1, h2, h3, h4⟩ := hl
    exact reads_bind (reads_ue (v := 1) (by unfold UeOk; decide)) (reads_bind (reads_u1 _) (reads_bind (reads_se h1) (reads_bind (reads_se h2)
      (reads_bind (reads_ue (by unfold UeOk; omega)) (reads_last _ (offsets_read o 0 (by omega) h4))))))
  | t2 =>
    have := reads_bind (f := fun t => if t = 0 then (do let l ← ue; pure { type := t, lsb := l }) else if t = 1 then (do
      let z ← u1
      let n ← se
      let tb ← se
      let c ← ue
      let o ← offsetLoop c 0
      pure { type := t, alwaysZero := z, nonRef := n, topBottom := tb, cycle := c, offsets := o })
      else (pure { type := t } : P PocInfo)) (reads_ue (v := 2) (by unfold UeOk; decide)) (reads_pure _)
    exact reads_cast this (List.append_nil _) rfl

/-- What the library's parser can handle: the profiles it knows to carry the extension agree with the standard's on this
one, and no scaling lists are transmitted. -/
structure SpsSyn.Handled (s : SpsSyn) : Prop where
  profile : s.profile ∈ highProfiles ↔ s.profile ∈ [100, 110, 122, 144]
  lists : ∀ h, s.high = some h → h.NoLists

def SpsSyn.expect (s : SpsSyn) : Sps where
  profile := s.profile
  constraints := s.constraints.map Bool.toNat
  reserved := 0
  level := s.level
  id := s.id
  high := match s.high with | none => {} | some h => h.expect
  frameNum := s.frameNum
  poc := s.poc.expect
  refFrames := s.refFrames
  gaps := s.gaps.toNat
  mbsMinus1 := s.widthMbs - 1
  unitsMinus1 := s.heightUnits - 1
  frameMbsOnly := s.frameMbsOnly.toNat
  mbAdaptive := if s.frameMbsOnly then 0 else s.mbAdaptive.toNat
  direct8x8 := s.direct8x8.toNat
  cropping := s.crop.isSome.toNat
  crop := match s.crop with | none => {} | some c => ⟨c.1, c.2.1, c.2.2.1, c.2.2.2⟩
  vuiPresent := s.vui.isSome.toNat
  vui := match s.vui with | none => {} | some v => v.expect.1
  hrd := match s.vui with | none => {} | some v => v.expect.2

theorem sps_reads (s : SpsSyn) (hl : s.Legal) (hh : s.Handled) : Reads readSps s.enc s.expect := by
  obtain ⟨lp, ll, lc, lh, lhl, ⟨k1, k2, k3⟩, lpoc, ⟨z1, z2, z3, z4⟩, lv, lcr⟩ := hl
  obtain ⟨hp, hls⟩ := hh
  obtain ⟨c0, c1, c2, c3, c4, c5, hc⟩ : ∃ c0 c1 c2 c3 c4 c5, s.constraints = [c0, c1, c2, c3, c4, c5] := by
    match hm : s.constraints with
    | [] => rw [hm] at lc; simp at lc
    | [_] => rw [hm] at lc; simp at lc
    | [_, _] => rw [hm] at lc; simp at lc
    | [_, _, _] => rw [hm] at lc; simp at lc
    | [_, _, _, _] => rw [hm] at lc; simp at lc
    | [_, _, _, _, _] => rw [hm] at lc; simp at lc
    | [a, b, c, d, e, f] => exact ⟨a, b, c, d, e, f, rfl⟩
    | _ :: _ :: _ :: _ :: _ :: _ :: _ :: _ => rw [hm] at lc; simp at lc
  have hi : Reads (if s.profile = 100 ∨ s.profile = 110 ∨ s.profile = 122 ∨ s.profile = 144 then readHigh else pure {})
      (match s.high with | none => [] | some h => h.enc) (match s.high with | none => {} | some h => h.expect) := by
    have hiff : s.high.isSome = true ↔ (s.profile = 100 ∨ s.profile = 110 ∨ s.profile = 122 ∨ s.profile = 144) := by
      rw [lh, hp]; simp
    cases hs : s.high with
    | none =>
      rw [hs] at hiff
      rw [if_neg (fun h => by have := hiff.2 h; simp at this)]
      exact reads_pure _
    | some h =>
      rw [hs] at hiff
      rw [if_pos (hiff.1 rfl)]
      exact high_reads h (lhl h hs) (hls h hs)
  have mb : Reads (if s.frameMbsOnly.toNat = 0 then u1 else pure 0) (if s.frameMbsOnly then [] else [s.mbAdaptive])
      (if s.frameMbsOnly then 0 else s.mbAdaptive.toNat) := by
    cases s.frameMbsOnly
    · exact reads_u1 _
    · exact reads_pure _
  unfold readSps SpsSyn.enc SpsSyn.expect
  rw [hc, show ∀ l : List Bool, [c0, c1, c2, c3, c4, c5] ++ l = c0 :: c1 :: c2 :: c3 :: c4 :: c5 :: l from fun _ => rfl]
  refine reads_bind (reads_u8 lp) (reads_flag c0 (reads_flag c1 (reads_flag c2 (reads_flag c3 (reads_flag c4 (reads_flag c5 ?_))))))
  refine reads_bind (reads_u (n := 2) (v := 0) (by omega) (by omega)) (reads_bind (reads_u8 ll) (reads_bind (reads_ue k1)
    (reads_bind hi (reads_bind (reads_ue k2) (reads_bind (poc_reads _ lpoc) (reads_bind (reads_ue k3) (reads_bind (reads_u1 _) ?_)))))))
  refine reads_bind (reads_ue (by unfold UeOk; omega)) (reads_bind (reads_ue (by unfold UeOk; omega)) (reads_bind (reads_u1 _)
    (reads_bind mb (reads_bind (reads_u1 _) ?_))))
  have tail : ∀ (cf : Nat) (crop : CropInfo), cf = s.crop.isSome.toNat →
      crop = (match s.crop with | none => {} | some c => ⟨c.1, c.2.1, c.2.2.1, c.2.2.2⟩) →
      Reads (do
        let vf ← u1
        let vh ← (if vf = 1 then readVui else pure ({}, {}))
        pure (Sps.mk s.profile [c0.toNat, c1.toNat, c2.toNat, c3.toNat, c4.toNat, c5.toNat] 0 s.level s.id
          (match s.high with | none => {} | some h => h.expect) s.frameNum s.poc.expect s.refFrames s.gaps.toNat (s.widthMbs - 1)
          (s.heightUnits - 1) s.frameMbsOnly.toNat (if s.frameMbsOnly then 0 else s.mbAdaptive.toNat) s.direct8x8.toNat cf crop vf
          vh.1 vh.2)) (optBits s.vui VuiSyn.enc)
        (Sps.mk s.profile [c0.toNat, c1.toNat, c2.toNat, c3.toNat, c4.toNat, c5.toNat] 0 s.level s.id
          (match s.high with | none => {} | some h => h.expect) s.frameNum s.poc.expect s.refFrames s.gaps.toNat (s.widthMbs - 1)
          (s.heightUnits - 1) s.frameMbsOnly.toNat (if s.frameMbsOnly then 0 else s.mbAdaptive.toNat) s.direct8x8.toNat
          s.crop.isSome.toNat (match s.crop with | none => {} | some c => ⟨c.1, c.2.1, c.2.2.1, c.2.2.2⟩) s.vui.isSome.toNat
          (match s.vui with | none => {} | some v => v.expect.1) (match s.vui with | none => {} | some v => v.expect.2)) := by
    intro cf crop e1 e2
    subst e1 e2
    cases hv : s.vui with
    | none => exact reads_flag false (reads_last (l := []) _ (reads_pure _))
    | some v => exact reads_flag true (reads_last _ (vui_reads v (lv v hv)))
  cases hcr : s.crop with
  | none =>
    have := tail 0 {} (by rw [hcr]; rfl) (by rw [hcr])
    rw [hcr] at this
    exact reads_flag false (reads_bind (l := []) (reads_pure _) this)
  | some c =>
    obtain ⟨x1, x2⟩ := lcr c hcr
    have := tail 1 ⟨c.1, c.2.1, c.2.2.1, c.2.2.2⟩ (by rw [hcr]; rfl) (by rw [hcr])
    rw [hcr] at this
    have crop : Reads readCrop (ueBits c.1 ++ (ueBits c.2.1 ++ (ueBits c.2.2.1 ++ ueBits c.2.2.2))) ⟨c.1, c.2.1, c.2.2.1, c.2.2.2⟩ :=
      reads_bind (reads_ue (by unfold UeOk; omega)) (reads_bind (reads_ue (by unfold UeOk; omega))
        (reads_bind (reads_ue (by unfold UeOk; omega)) (reads_last _ (reads_ue (by unfold UeOk; omega)))))
    exact reads_flag true (reads_bind crop this)

/-- More than 32 buffers are never read to the end: the arrays for them have 32 elements, so that what happens is undefined. -/
theorem buffers_beyond_arrays (n : Nat) : ∀ (i : Nat) (b : BitStream.BS) (r : List (Nat × Nat × Nat) × BitStream.BS), 32 < i + n → 0 < n →
    hrdLoop n i b ≠ .ok r := by
  induction n with
  | zero => intro i b r _ h0; omega
  | succ n ih =>
    intro i b r h _ he
    unfold hrdLoop at he
    by_cases hi : 32 ≤ i
    · rw [if_pos hi] at he; cases he
    · rw [if_neg hi] at he
      change (ue b).bind _ = _ at he
      cases h1 : ue b with
      | ub => rw [h1] at he; cases he
      | hang => rw [h1] at he; cases he
      | ok x =>
        rw [h1] at he
        change (ue x.2).bind _ = _ at he
        cases h2 : ue x.2 with
        | ub => rw [h2] at he; cases he
        | hang => rw [h2] at he; cases he
        | ok y =>
          rw [h2] at he
          change (hrdLoop n (i + 1) (BitStream.readU1 y.2).2).bind _ = _ at he
          cases h3 : hrdLoop n (i + 1) (BitStream.readU1 y.2).2 with
          | ub => rw [h3] at he; cases he
          | hang => rw [h3] at he; cases he
          | ok z => exact ih (i + 1) _ z (by omega) (by omega) h3

end Lms.Sps
