import Verif.Sps.Props

/-!
# C28: from the unit on the wire to the reported dimensions
-/

namespace Lms.Sps

open Lms BitStream

/-- `d` is the raw payload of `s`: its code, the stop bit and zeros up to the byte (7.3.2.11). -/
def IsRbsp (s : SpsSyn) (d : Bytes) : Prop := ∃ k, k < 8 ∧ bitsOf d = s.enc ++ true :: List.replicate k false

/-- The unit as transmitted. -/
def IsUnit (s : SpsSyn) (nal : Bytes) : Prop := ∃ h d, IsRbsp s d ∧ nal = h :: Rbsp.encapsulate d

theorem last_byte_nonzero (s : SpsSyn) (d : Bytes) (h : IsRbsp s d) : Rbsp.zerosAtEnd 0 d = 0 := by
  obtain ⟨k, hk, he⟩ := h
  apply Decidable.byContradiction
  intro hz
  have hl := (Rbsp.last_iff d).2 hz
  rw [List.getLast?_eq_some_iff] at hl
  obtain ⟨d', rfl⟩ := hl
  rw [bitsOf_append] at he
  have h8 : bitsOf [(0 : UInt8)] = List.replicate 8 false := by decide
  rw [h8] at he
  have hr := congrArg List.reverse he
  rw [List.reverse_append, List.reverse_append, List.reverse_cons, List.reverse_replicate, List.reverse_replicate] at hr
  have hg := congrArg (fun l => l[k]?) hr
  rw [List.getElem?_append_left (by simp; omega), List.getElem?_append_left (by simp),
    List.getElem?_append_right (by simp), List.getElem?_replicate, if_pos hk] at hg
  simp at hg

/-- **C28, parsing.**  Every legal parameter set the library handles is parsed into exactly what was encoded, whatever follows
it. -/
theorem sps_recovered (s : SpsSyn) (hl : s.Legal) (hh : s.Handled) (d : Bytes) (xs : List Bool) (he : bitsOf d = s.enc ++ xs) :
    ∃ b', readSps (init d) = .ok (s.expect, b') := by
  obtain ⟨b', e, _⟩ := sps_reads s hl hh (init d) xs (ok_init d).1 (by rw [(ok_init d).2.2]; exact he)
  exact ⟨b', e⟩

/-- Units in a tick as announced (0 if not). -/
def SpsSyn.units (s : SpsSyn) : Nat := match s.vui with | none => 0 | some v => match v.timing with | none => 0 | some t => t.1
def SpsSyn.scale (s : SpsSyn) : Nat := match s.vui with | none => 0 | some v => match v.timing with | none => 0 | some t => t.2.1

theorem expect_timing (s : SpsSyn) : s.expect.vui.unitsInTick = i32 s.units ∧ s.expect.vui.timeScale = i32 s.scale := by
  unfold SpsSyn.expect SpsSyn.units SpsSyn.scale
  simp only
  cases s.vui with
  | none => exact ⟨rfl, rfl⟩
  | some v =>
    simp only [VuiSyn.expect]
    have hr : ∀ (o : Option RestrictionSyn) (w : Vui), (expRestriction o w).unitsInTick = w.unitsInTick ∧
        (expRestriction o w).timeScale = w.timeScale := by intro o w; cases o <;> exact ⟨rfl, rfl⟩
    rw [(hr _ _).1, (hr _ _).2]
    show (expTiming _ _).unitsInTick = _ ∧ (expTiming _ _).timeScale = _
    cases v.timing with
    | some t => exact ⟨rfl, rfl⟩
    | none =>
      have h0 : (i32 0 : Int) = 0 := rfl
      simp only [expTiming, h0]
      unfold expLoc expSignal expOverscan expAspect
      repeat' split
      all_goals exact ⟨rfl, rfl⟩

/-- What the sampler reports: coded size less twice the cropping offsets (modulo 2^32). -/
theorem reported (s : SpsSyn) (hl : s.Legal) (hh : s.Handled) (nal : Bytes) (hn : IsUnit s nal) (st : Info) (hu : s.units < 2 ^ 30) :
    update st nal = .ok
      ⟨let w := ((16 * s.widthMbs - 2 * s.cropX : Int) % 2 ^ 32).toNat; if 0 < w then w else st.width,
       let h := ((16 * (s.fields * s.heightUnits) - 2 * s.cropY : Int) % 2 ^ 32).toNat; if 0 < h then h else st.height,
       if 0 < s.units then some ((i32 s.scale).tdiv (2 * s.units)) else st.rate⟩ := by
  obtain ⟨h, d, hd, rfl⟩ := hn
  obtain ⟨k, hk, he⟩ := id hd
  unfold update
  rw [Rbsp.legal_payload_recovered h d (by rw [last_byte_nonzero s d hd])]
  obtain ⟨b', e⟩ := sps_recovered s hl hh d _ he
  simp only [e, Outcome.bind_ok]
  obtain ⟨t1, t2⟩ := expect_timing s
  have hi : i32 s.units = s.units := by unfold i32; rw [if_pos (by omega)]
  rw [hi] at t1
  obtain ⟨z1, z2, z3, z4⟩ := hl.size
  have hw : (((s.widthMbs - 1 : Nat) : Int) + 1) * 16 = 16 * s.widthMbs := by omega
  have hf : (2 - ((s.frameMbsOnly.toNat : Nat) : Int)) = s.fields := by
    unfold SpsSyn.fields; cases s.frameMbsOnly <;> rfl
  have hf12 : s.fields = 1 ∨ s.fields = 2 := by unfold SpsSyn.fields; split <;> simp
  have hh' : (s.fields : Int) * (((s.heightUnits - 1 : Nat) : Int) + 1) * 16 = 16 * (s.fields * s.heightUnits) := by
    rcases hf12 with h | h <;> rw [h] <;> omega
  have hbig : (16 * ((s.fields : Int) * s.heightUnits)) ≤ 2 ^ 21 ∧ 0 < (16 * ((s.fields : Int) * s.heightUnits)) := by
    rcases hf12 with h | h <;> rw [h] <;> omega
  have hcases : (s.crop = none ∧ s.cropX = 0 ∧ s.cropY = 0) ∨ ∃ c, s.crop = some c ∧ s.cropX = c.1 + c.2.1 ∧ s.cropY = c.2.2.1 + c.2.2.2 := by
    unfold SpsSyn.cropX SpsSyn.cropY
    cases s.crop with
    | none => exact Or.inl ⟨rfl, rfl, rfl⟩
    | some c => exact Or.inr ⟨c, rfl, rfl, rfl⟩
  unfold dims
  rw [t1, t2]
  simp only [SpsSyn.expect, hw, hf, hh', INT_MAX]
  rw [if_neg (by omega)]
  rcases hcases with ⟨hc, hx, hy⟩ | ⟨c, hc, hx, hy⟩
  · rw [hc, hx, hy]
    simp only [Option.isSome_none, Bool.toNat_false]
    rw [if_neg (by simp), if_neg (by omega)]
    have e1 : ((16 * (s.widthMbs : Int) - 2 * ((0 : Nat) : Int)) % 2 ^ 32) = 16 * s.widthMbs := by omega
    have e2 : ((16 * ((s.fields : Int) * s.heightUnits) - 2 * ((0 : Nat) : Int)) % 2 ^ 32) = 16 * (s.fields * s.heightUnits) := by omega
    rw [e1, e2]
    simp
  · obtain ⟨x1, x2⟩ := hl.crop c hc
    rw [hc, hx, hy]
    simp only [Option.isSome_some, Bool.toNat_true]
    rw [if_neg (by omega), if_neg (by omega)]
    have e1 : (16 * (s.widthMbs : Int) - ((c.1 : Int) * 2 + c.2.1 * 2)) = 16 * s.widthMbs - 2 * ((c.1 + c.2.1 : Nat) : Int) := by omega
    have e2 : (16 * ((s.fields : Int) * s.heightUnits) - ((c.2.2.1 : Int) * 2 + c.2.2.2 * 2)) =
        16 * (s.fields * s.heightUnits) - 2 * ((c.2.2.1 + c.2.2.2 : Nat) : Int) := by omega
    simp only [e1, e2, if_true]
    simp

/-- **C28, size.**  The reported size is the displayed size whenever the crop units are the ones assumed (in particular for
progressive 4:2:0) or there is nothing to crop. -/
theorem dimensions_right (s : SpsSyn) (hl : s.Legal) (hh : s.Handled) (nal : Bytes) (hn : IsUnit s nal) (st : Info) (hu : s.units < 2 ^ 30)
    (hx : s.cropUnitX = 2 ∨ s.cropX = 0) (hy : s.cropUnitY = 2 ∨ s.cropY = 0) (hw : 0 < s.width) (hhh : 0 < s.height) :
    ∃ i, update st nal = .ok i ∧ (i.width : Int) = s.width ∧ (i.height : Int) = s.height := by
  refine ⟨_, reported s hl hh nal hn st hu, ?_, ?_⟩
  · obtain ⟨z1, z2, z3, z4⟩ := hl.size
    have e : s.width = 16 * s.widthMbs - 2 * s.cropX := by
      unfold SpsSyn.width; rcases hx with h | h <;> rw [h] <;> simp
    rw [e] at hw ⊢
    simp only
    rw [if_pos (by omega)]
    omega
  · obtain ⟨z1, z2, z3, z4⟩ := hl.size
    have hf12 : s.fields = 1 ∨ s.fields = 2 := by unfold SpsSyn.fields; split <;> simp
    have e : s.height = 16 * (s.fields * s.heightUnits) - 2 * s.cropY := by
      unfold SpsSyn.height; rcases hy with h | h <;> rw [h] <;> simp
    have hb : (16 * ((s.fields : Int) * s.heightUnits)) ≤ 2 ^ 21 := by rcases hf12 with h | h <;> rw [h] <;> omega
    rw [e] at hhh ⊢
    simp only
    rw [if_pos (by omega)]
    omega

/-- Progressive 4:2:0 video has these crop units. -/
theorem progressive_420 (s : SpsSyn) (h1 : s.chroma = 1) (h2 : s.frameMbsOnly = true) : s.cropUnitX = 2 ∧ s.cropUnitY = 2 := by
  unfold SpsSyn.cropUnitX SpsSyn.cropUnitY SpsSyn.fields
  rw [h1, h2]; exact ⟨rfl, rfl⟩

/-- **C28, recorded exceptions, exactly.**  A fresh sampler reports a wrong width as soon as there is cropping with another
unit, and likewise for the height. -/
theorem dimensions_wrong (s : SpsSyn) (hl : s.Legal) (hh : s.Handled) (nal : Bytes) (hn : IsUnit s nal) (hu : s.units < 2 ^ 30)
    (hw : 0 < s.width) (hhh : 0 < s.height) :
    ∃ i, update ⟨0, 0, none⟩ nal = .ok i ∧ ((i.width : Int) = s.width ↔ (s.cropUnitX = 2 ∨ s.cropX = 0)) ∧
      ((i.height : Int) = s.height ↔ (s.cropUnitY = 2 ∨ s.cropY = 0)) := by
  have hf12 : s.fields = 1 ∨ s.fields = 2 := by unfold SpsSyn.fields; split <;> simp
  obtain ⟨z1, z2, z3, z4⟩ := hl.size
  have hux : s.cropUnitX = 1 ∨ s.cropUnitX = 2 := by unfold SpsSyn.cropUnitX; split <;> simp
  have huy : s.cropUnitY = 1 ∨ s.cropUnitY = 2 ∨ s.cropUnitY = 4 := by
    unfold SpsSyn.cropUnitY; rcases hf12 with h | h <;> rw [h] <;> split <;> simp
  have hb : (16 * ((s.fields : Int) * s.heightUnits)) ≤ 2 ^ 21 := by rcases hf12 with h | h <;> rw [h] <;> omega
  have hcx : s.cropX < 2 ^ 20 ∧ s.cropY < 2 ^ 21 := by
    unfold SpsSyn.cropX SpsSyn.cropY
    cases hc : s.crop with
    | none => exact ⟨by decide, by decide⟩
    | some c => obtain ⟨x1, x2⟩ := hl.crop c hc; simp only; omega
  refine ⟨_, reported s hl hh nal hn _ hu, ?_, ?_⟩
  · unfold SpsSyn.width at hw ⊢
    simp only
    rcases hux with h | h <;> rw [h] at hw ⊢
    · simp only [show ¬(1 : Nat) = 2 by decide, false_or]
      constructor
      · intro he
        split at he <;> omega
      · intro he
        rw [he]
        split <;> omega
    · simp only [true_or, iff_true]
      split <;> omega
  · unfold SpsSyn.height at hhh ⊢
    simp only
    rcases huy with h | h | h <;> rw [h] at hhh ⊢
    · simp only [show ¬(1 : Nat) = 2 by decide, false_or]
      constructor
      · intro he
        split at he <;> omega
      · intro he
        rw [he]
        split <;> omega
    · simp only [true_or, iff_true]
      split <;> omega
    · simp only [show ¬(4 : Nat) = 2 by decide, false_or]
      constructor
      · intro he
        split at he <;> omega
      · intro he
        rw [he]
        split <;> omega

/-- The announced rate: time scale over twice the units, rounded towards zero. -/
theorem rate_is_truncated (s : SpsSyn) (hl : s.Legal) (hh : s.Handled) (nal : Bytes) (hn : IsUnit s nal) (st : Info)
    (hu : s.units < 2 ^ 30) (h0 : 0 < s.units) (hs : s.scale < 2 ^ 31) :
    ∃ i, update st nal = .ok i ∧ i.rate = some ((s.scale / (2 * s.units) : Nat) : Int) := by
  refine ⟨_, reported s hl hh nal hn st hu, ?_⟩
  simp only
  rw [if_pos h0]
  unfold i32
  rw [if_pos hs]
  rfl

/-! ## Witnesses -/

def widthOf (o : Outcome Info) : Option (Nat × Nat) := match o with | .ok i => some (i.width, i.height) | _ => none

/-- 1920x1080 progressive, 4:2:0, baseline: 120x68 macroblocks, four times two lines cropped, VUI with timing. -/
def hd : SpsSyn where
  profile := 66
  constraints := [true, true, false, false, false, false]
  level := 40
  id := 0
  high := none
  frameNum := 0
  poc := .t0 2
  refFrames := 3
  gaps := false
  widthMbs := 120
  heightUnits := 68
  frameMbsOnly := true
  mbAdaptive := false
  direct8x8 := true
  crop := some (0, 0, 0, 4)
  vui := some ⟨none, none, none, none, some (1001, 60000, true), none, none, false, false, none⟩

/-- Its raw payload. -/
def hdBytes : Bytes := [66, 192, 40, 236, 128, 60, 1, 19, 242, 194, 0, 0, 7, 210, 0, 1, 212, 193, 8]

theorem hd_legal : hd.Legal where
  profile := by decide
  level := by decide
  constraints := by decide
  high := by decide
  highLegal := by intro h e; simp [hd] at e
  codes := by unfold UeOk; decide
  poc := by show UeOk 2; unfold UeOk; decide
  size := by decide
  vui := by
    intro v e
    have : v = ⟨none, none, none, none, some (1001, 60000, true), none, none, false, false, none⟩ := by
      simpa [hd] using e.symm
    subst this
    exact ⟨by simp, by simp, by simp, by intro t h; cases h; decide, by simp, by simp, by simp⟩
  crop := by intro c e; cases e; decide

/-- The hypotheses are met by an ordinary high-definition stream: 1920x1080; its 29.97 frames a second are reported as 29. -/
example : hd.Legal ∧ hd.Handled ∧ IsRbsp hd hdBytes ∧ hd.units < 2 ^ 30 ∧ hd.chroma = 1 ∧ hd.width = 1920 ∧ hd.height = 1080 :=
  ⟨hd_legal, ⟨by decide, by intro h e; simp [hd] at e⟩, ⟨3, by decide, by decide +kernel⟩, by decide +kernel, by decide +kernel,
    by decide +kernel, by decide +kernel⟩

example : (match update ⟨0, 0, none⟩ (0x67 :: Rbsp.encapsulate hdBytes) with | .ok i => some (i.width, i.height, i.rate) | _ => none) =
    some (1920, 1080, some 29) := by decide +kernel

/-- Recorded exception: of a legal set of a profile the parser does not know to carry the extension (here 244), another size
is reported. -/
def hd244 : SpsSyn := { hd with profile := 244, high := some ⟨1, false, 0, 0, false, none⟩ }

theorem other_high_profiles_misread : hd244.Legal ∧
    ∃ d, IsRbsp hd244 d ∧ widthOf (update ⟨0, 0, none⟩ (0x67 :: Rbsp.encapsulate d)) ≠ some (1920, 1080) ∧
      hd244.width = 1920 ∧ hd244.height = 1080 := by
  refine ⟨?_, [244, 192, 40, 172, 217, 0, 120, 2, 39, 229, 132, 0, 0, 15, 164, 0, 3, 169, 130, 16],
    ⟨4, by decide, by decide +kernel⟩, by decide +kernel, by decide +kernel, by decide +kernel⟩
  exact { hd_legal with
    profile := by decide
    high := by decide
    highLegal := by intro h e; cases e; exact ⟨by decide, by unfold UeOk; decide, by simp⟩ }

/-- Recorded exception: transmitted scaling lists are not skipped, so that what follows is misread. -/
def hdLists : SpsSyn :=
  { hd with profile := 100, high := some ⟨1, false, 0, 0, false, some (some (List.replicate 16 0) :: List.replicate 7 none)⟩ }

theorem scaling_lists_misread : hdLists.Legal ∧
    ∃ d, IsRbsp hdLists d ∧ widthOf (update ⟨0, 0, none⟩ (0x67 :: Rbsp.encapsulate d)) ≠ some (1920, 1080) ∧
      hdLists.width = 1920 ∧ hdLists.height = 1080 := by
  refine ⟨?_, [100, 192, 40, 173, 255, 255, 128, 217, 0, 120, 2, 39, 229, 132, 0, 0, 15, 164, 0, 3, 169, 130, 16],
    ⟨4, by decide, by decide +kernel⟩, by decide +kernel, by decide +kernel, by decide +kernel⟩
  exact { hd_legal with
    profile := by decide
    high := by decide
    highLegal := by intro h e; cases e; exact ⟨by decide, by unfold UeOk; decide, by intro l e; cases e; rfl⟩ }

/-- Recorded exception: interlaced 1080-line video is reported as 1084 lines. -/
def hdInterlaced : SpsSyn := { hd with frameMbsOnly := false, heightUnits := 34, crop := some (0, 0, 0, 2) }

theorem interlaced_height_wrong : hdInterlaced.Legal ∧ hdInterlaced.Handled ∧ hdInterlaced.height = 1080 ∧
    ∃ d, IsRbsp hdInterlaced d ∧ widthOf (update ⟨0, 0, none⟩ (0x67 :: Rbsp.encapsulate d)) = some (1920, 1084) := by
  refine ⟨?_, ⟨by decide, by intro h e; simp [hdInterlaced, hd] at e⟩, by decide +kernel,
    [66, 192, 40, 236, 128, 60, 2, 35, 238, 16, 0, 0, 62, 144, 0, 14, 166, 8, 64], ⟨6, by decide, by decide +kernel⟩,
    by decide +kernel⟩
  exact { hd_legal with
    high := by decide
    highLegal := by intro h e; simp [hdInterlaced, hd] at e
    size := by decide
    crop := by intro c e; cases e; decide }

/-! ### Undefined behaviour on hostile sets -/

/-- More than 256 offsets in the picture-order cycle are written past the end of the array. -/
theorem offset_array_overflows (n : Nat) (hn : 256 < n) (b : BS) (ys : List Int) (hy : ys.length = 256) (hs : ∀ x ∈ ys, SeOk x)
    (xs : List Bool) (h : Ok b) (hr : rest b = (ys.flatMap fun x => ueBits (seIndex x)) ++ xs) : offsetLoop n 0 b = .ub := by
  have gen : ∀ (ys : List Int) (i n : Nat) (b : BS), i + ys.length = 256 → ys.length < n → (∀ x ∈ ys, SeOk x) → Ok b →
      rest b = (ys.flatMap fun x => ueBits (seIndex x)) ++ xs → offsetLoop n i b = .ub := by
    intro ys
    induction ys with
    | nil =>
      intro i n b hi hn _ _ _
      obtain ⟨m, rfl⟩ : ∃ m, n = m + 1 := ⟨n - 1, by simp at hn; omega⟩
      simp only [offsetLoop, if_pos (show 256 ≤ i by simp at hi; omega)]
      rfl
    | cons y ys ih =>
      intro i n b hi hn hs h hr
      simp only [List.length_cons] at hi hn
      obtain ⟨m, rfl⟩ : ∃ m, n = m + 1 := ⟨n - 1, by omega⟩
      rw [List.flatMap_cons, List.append_assoc] at hr
      obtain ⟨b1, e1, r1, o1⟩ := reads_se (hs y (by simp)) b _ h hr
      have := ih (i + 1) m b1 (by omega) (by omega) (fun x hx => hs x (by simp [hx])) o1 r1
      simp only [offsetLoop, if_neg (show ¬256 ≤ i by omega)]
      show (se b).bind (fun r => (offsetLoop m (i + 1) r.2).bind fun q => (pure (r.1 :: q.1) : P (List Int)) q.2) = _
      rw [e1, Outcome.bind_ok, this]
      rfl
  exact gen ys 0 n b (by omega) (by omega) hs h hr

example : (256 : Nat) < 257 ∧ SeOk 0 ∧ (List.replicate 256 (0 : Int)).length = 256 := ⟨by decide, by unfold SeOk; decide, List.length_replicate⟩

end Lms.Sps
