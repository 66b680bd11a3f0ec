import Verif.Isoff.Props

/-!
# C20 and C21: media segments
-/

namespace Lms.Isoff

/-! ## Layout of a media segment -/

theorem entry_length (m : Media) (s : Smp) : (runEntry m s).length = 4 * nitems m := by
  unfold runEntry nitems
  cases m.isVideo <;> rfl

theorem entries_length (m : Media) (l : List Smp) : (runEntries m l).length = l.length * nitems m * 4 := by
  induction l with
  | nil => simp [runEntries]
  | cons s l ih =>
    simp only [runEntries, List.length_append, entry_length, ih, List.length_cons]
    rw [Nat.add_mul, Nat.add_mul]
    omega

/-- The content of the run box, given its data offset. -/
def trunBody (c : Ctx) (offset : Nat) : Bytes :=
  be32 (boxFlags c.media) ++ be32 c.samples.length ++ be32 offset ++ runEntries c.media c.samples

theorem trunBody_length (c : Ctx) (offset : Nat) :
    (trunBody c offset).length = 12 + c.samples.length * nitems c.media * 4 := by
  simp only [trunBody, List.length_append, be32_length, entries_length]

def trafBody (c : Ctx) (offset : Nat) : Bytes :=
  box (ascii "tfhd") (tfhd.drop 8) ++ (box (ascii "tfdt") ((tfdt c).drop 8) ++ (box (ascii "trun") (trunBody c offset) ++ []))

def moofBody (c : Ctx) (offset : Nat) : Bytes :=
  box (ascii "mfhd") ((mfhd c).drop 8) ++ (box (ascii "traf") ([] ++ trafBody c offset) ++ [])

theorem tfhd_body_length : (tfhd.drop 8).length = 8 := rfl
theorem tfdt_body_length (c : Ctx) : ((tfdt c).drop 8).length = 12 := rfl
theorem mfhd_body_length (c : Ctx) : ((mfhd c).drop 8).length = 8 := rfl

theorem trafBody_length (c : Ctx) (offset : Nat) :
    (trafBody c offset).length = 56 + c.samples.length * nitems c.media * 4 := by
  simp only [trafBody, List.length_append, box_length _ _ (show (ascii "tfhd").length = 4 from rfl),
    box_length _ _ (show (ascii "tfdt").length = 4 from rfl), box_length _ _ (show (ascii "trun").length = 4 from rfl),
    trunBody_length, tfhd_body_length, tfdt_body_length, List.length_nil]
  omega

theorem moofBody_length (c : Ctx) (offset : Nat) :
    (moofBody c offset).length = 80 + c.samples.length * nitems c.media * 4 := by
  simp only [moofBody, List.length_append, box_length _ _ (show (ascii "mfhd").length = 4 from rfl),
    box_length _ _ (show (ascii "traf").length = 4 from rfl), trafBody_length, mfhd_body_length, List.length_nil]
  omega

/-- The data offset of a context whose positions coincide. -/
def dataOffset (c : Ctx) : Nat := 96 + c.samples.length * nitems c.media * 4

/-- The indexed part: size of the fragment box and of the data box. -/
def indexed (c : Ctx) : Nat := 96 + c.samples.length * nitems c.media * 4 + c.data.length

/-- A whole media segment. -/
def segBytes (c : Ctx) (offset refSize : Nat) : Bytes :=
  box (ascii "styp") (styp.drop 8) ++ (box (ascii "sidx") ((sidx { c with refSize := refSize }).drop 8) ++
    (box (ascii "moof") ([] ++ moofBody c offset) ++ (box (ascii "mdat") c.data ++ [])))

theorem segBytes_length (c : Ctx) (offset refSize : Nat) : (segBytes c offset refSize).length = 80 + indexed c := by
  have h1 : (styp.drop 8).length = 20 := rfl
  have h2 : ((sidx { c with refSize := refSize }).drop 8).length = 44 := rfl
  simp only [segBytes, List.length_append, box_length _ _ (show (ascii "styp").length = 4 from rfl),
    box_length _ _ (show (ascii "sidx").length = 4 from rfl), box_length _ _ (show (ascii "moof").length = 4 from rfl),
    box_length _ _ (show (ascii "mdat").length = 4 from rfl), moofBody_length, List.length_nil, h1, h2, indexed]
  omega

/-- The data offset written by `trun` inside `moof`. -/
def rawOffset (c : Ctx) : Nat :=
  (((((c.trunPos + 24) % 2 ^ 32 + 44) % 2 ^ 32 + 2 ^ 32 - c.moofPos) + 20 + (c.samples.length * nitems c.media * 4) + 8) % 2 ^ 32)

theorem moof_eq (c : Ctx) : (moof c).2 = box (ascii "moof") ([] ++ moofBody c (rawOffset c)) := by
  have ht : ∀ d : Ctx, trun d = box (ascii "trun") (trunBody d
      (((d.trunPos + 2 ^ 32 - d.moofPos) + 20 + (d.samples.length * nitems d.media * 4) + 8) % 2 ^ 32)) := by
    intro d
    simp only [trun, trunBody]
    exact patched_box _ _ rfl
  have h1 : ∀ d : Ctx, (traf d).2 = box (ascii "traf") ([] ++ trafBody d
      ((((d.trunPos + 44) % 2 ^ 32 + 2 ^ 32 - d.moofPos) + 20 + (d.samples.length * nitems d.media * 4) + 8) % 2 ^ 32)) := by
    intro d
    simp only [traf]
    rw [patched_box _ _ rfl, ht, List.nil_append, trafBody, List.append_nil]
    rfl
  simp only [moof]
  rw [patched_box _ _ rfl, h1, List.nil_append, moofBody, List.append_nil]
  rfl

/-- What the generator writes, for positions that coincide. -/
theorem segment_layout {cap : Nat} {c c' : Ctx} {bytes : Bytes} (hcap : cap < 2 ^ 32) (hpos : c.trunPos = c.moofPos)
    (h : segmentGenerator cap c = .ok (.out c' bytes)) :
    bytes = segBytes c (dataOffset c) (indexed c) ∧ 0 < c.data.length ∧ 80 + indexed c ≤ cap ∧
      c'.samples = c.samples ∧ c'.data = c.data ∧ c'.ept = c.ept ∧ c'.cur = c.cur ∧ c'.media = c.media := by
  simp only [segmentGenerator, store] at h
  (repeat' split at h) <;> cases h
  rename_i h1 h2
  obtain ⟨d, hd⟩ : ∃ d : Ctx, d = { c with
      trunPos := (c.trunPos + (styp.length + (sidx c).length)) % 2 ^ 32
      moofPos := (c.moofPos + (styp.length + (sidx c).length)) % 2 ^ 32 } := ⟨_, rfl⟩
  have hn : styp.length + (sidx c).length = 80 := rfl
  rw [hn] at hd
  rw [hn] at h2 ⊢
  rw [← hd] at h2 ⊢
  have e1 : ∀ r, sidx { (moof d).1 with refSize := r } = sidx { c with refSize := r } := by
    intro r; rw [hd]; rfl
  have e2 : (moof d).1.data = c.data := by rw [hd]; rfl
  have e3 : moof d = ((moof d).1, (moof d).2) := rfl
  have e4 : moofBody d (rawOffset d) = moofBody c (rawOffset d) := by
    rw [hd]; rfl
  have hml : ((moof d).2).length = 88 + c.samples.length * nitems c.media * 4 := by
    rw [moof_eq, e4, box_length _ _ rfl, List.nil_append, moofBody_length]; omega
  have hb : (styp ++ (sidx { (moof d).1 with refSize := ((moof d).2.length + 8 + (moof d).1.data.length) % 2 ^ 32 } ++
      ((moof d).2 ++ mdat (moof d).1.data))) = segBytes c (rawOffset d) (indexed c % 2 ^ 32) := by
    rw [e1, e2, hml, moof_eq, e4]
    simp only [segBytes, List.append_nil, ← styp_box, ← sidx_box]
    have e5 : 88 + c.samples.length * nitems c.media * 4 + 8 + c.data.length = indexed c := by
      simp only [indexed]; omega
    rw [e5]
    simp only [mdat, box, List.append_assoc, Nat.add_comm c.data.length 8]
  rw [hb] at h2 ⊢
  rw [segBytes_length] at h2
  have hX : c.samples.length * nitems c.media * 4 < 2 ^ 32 - 96 := by
    simp only [indexed] at h2; omega
  have ho : rawOffset d = dataOffset c := by
    have h3 : d.trunPos = (c.trunPos + 80) % 2 ^ 32 := by rw [hd]
    have h4 : d.moofPos = (c.trunPos + 80) % 2 ^ 32 := by rw [hd, hpos]
    have h5 : d.samples.length * nitems d.media * 4 = c.samples.length * nitems c.media * 4 := by rw [hd]
    simp only [rawOffset, dataOffset, h5, h3, h4]
    generalize c.samples.length * nitems c.media * 4 = X at hX
    omega
  rw [ho, Nat.mod_eq_of_lt (by omega)]
  refine ⟨rfl, by omega, by omega, ?_⟩
  rw [hd]
  exact ⟨rfl, rfl, rfl, rfl, rfl⟩

/-! ## C20 -/

/-- The tree of a media segment with the fields of every box. -/
def segmentBoxes (c : Ctx) : List Box :=
  [leafBox "styp" styp, leafBox "sidx" (sidx { c with refSize := indexed c }), .mk (ascii "moof") []
    [leafBox "mfhd" (mfhd c), .mk (ascii "traf") [] [leafBox "tfhd" tfhd, leafBox "tfdt" (tfdt c), .mk (ascii "trun") (trunBody c (dataOffset c)) []]],
   .mk (ascii "mdat") c.data []]

theorem segment_parses (c : Ctx) (hl : 80 + indexed c < 2 ^ 32) : Parses (segBytes c (dataOffset c) (indexed c)) (segmentBoxes c) := by
  have h1 := moofBody_length c (dataOffset c)
  have h2 := trafBody_length c (dataOffset c)
  have h3 := trunBody_length c (dataOffset c)
  simp only [indexed] at hl
  have p1 : Parses (trafBody c (dataOffset c)) [leafBox "tfhd" tfhd, leafBox "tfdt" (tfdt c),
      .mk (ascii "trun") (trunBody c (dataOffset c)) []] := by
    refine Parses.leaf rfl rfl (by decide) (Parses.leaf rfl rfl ?_ (Parses.leaf rfl rfl (by omega) Parses.nil))
    rw [tfdt_body_length]; omega
  have p2 : Parses (moofBody c (dataOffset c)) [leafBox "mfhd" (mfhd c), .mk (ascii "traf") []
      [leafBox "tfhd" tfhd, leafBox "tfdt" (tfdt c), .mk (ascii "trun") (trunBody c (dataOffset c)) []]] := by
    refine Parses.leaf rfl rfl ?_ (Parses.node (k := 0) rfl rfl rfl ?_ p1 Parses.nil)
    · rw [mfhd_body_length]; omega
    · rw [List.nil_append]; omega
  refine Parses.leaf rfl rfl (by decide) (Parses.leaf rfl rfl ?_ (Parses.node (k := 0) rfl rfl rfl ?_ p2
    (Parses.leaf rfl rfl (by omega) Parses.nil)))
  · have : ((sidx { c with refSize := indexed c }).drop 8).length = 44 := rfl
    rw [this]; omega
  · rw [List.nil_append]; omega

/-- **C20 (media segments).**  The bytes written are boxes that tile the output exactly at every level, with
the boxes the format requires, in order. -/
theorem segment_is_box_tree (cap : Nat) (hcap : cap < 2 ^ 32) (c c' : Ctx) (bytes : Bytes)
    (hpos : c.trunPos = c.moofPos) (h : segmentGenerator cap c = .ok (.out c' bytes)) :
    ∃ boxes, parseFile bytes = some boxes ∧ hasAll boxes segmentTree := by
  obtain ⟨hb, _, hle, _⟩ := segment_layout hcap hpos h
  subst hb
  exact ⟨_, (segment_parses c (by omega)).file, by simp [segmentBoxes, segmentTree, hasAll, Box.has, leafBox]⟩

/-- With data there is always a result to store, of a known size. -/
theorem segment_result (cap : Nat) (c : Ctx) (h : 0 < c.data.length) :
    ∃ c' bytes, segmentGenerator cap c = store cap c' bytes ∧
      bytes.length = 176 + c.samples.length * nitems c.media * 4 + c.data.length := by
  have hlen : ∀ (d r : Ctx) (x : Bytes), d.samples = c.samples → d.media = c.media → c.data = x →
      (styp ++ (sidx r ++ ((moof d).2 ++ mdat x))).length =
        176 + c.samples.length * nitems c.media * 4 + c.data.length := by
    intro d r x hs hm hx
    subst hx
    have h1 : styp.length = 28 := rfl
    have h2 : (sidx r).length = 52 := rfl
    have h3 : (mdat c.data).length = 8 + c.data.length := by
      simp only [mdat, List.length_append, be32_length]
      have : (ascii "mdat").length = 4 := rfl
      omega
    rw [moof_eq]
    simp only [List.length_append, box_length _ _ (show (ascii "moof").length = 4 from rfl), List.length_nil,
      moofBody_length, h1, h2, h3, hs, hm]
    omega
  have hd : ∀ d : Ctx, (moof d).1.data = d.data := fun _ => rfl
  simp only [segmentGenerator]
  rw [if_neg (by omega)]
  refine ⟨_, _, rfl, ?_⟩
  apply hlen
  · rfl
  · rfl
  · exact (hd _).symm

/-- **C20 (when a segment is written).**  A segment is written exactly when there is data and the whole fits
the destination; then its size is that of the data, 16 or 8 bytes per sample, and 176 bytes. -/
theorem segment_written_iff (cap : Nat) (c : Ctx) :
    (∃ c' bytes, segmentGenerator cap c = .ok (.out c' bytes) ∧
      bytes.length = 176 + c.samples.length * nitems c.media * 4 + c.data.length) ↔
    0 < c.data.length ∧ 176 + c.samples.length * nitems c.media * 4 + c.data.length ≤ cap := by
  constructor
  · rintro ⟨c', bytes, h, hl⟩
    have h0 : 0 < c.data.length := by
      rcases Nat.eq_zero_or_pos c.data.length with h0 | h0
      · simp only [segmentGenerator] at h
        rw [if_pos (by omega)] at h
        cases h
      · exact h0
    obtain ⟨c2, b2, h1, h2⟩ := segment_result cap c h0
    rw [h1, store] at h
    split at h
    · cases h; omega
    · cases h
  · rintro ⟨h0, h3⟩
    obtain ⟨c2, b2, h1, h2⟩ := segment_result cap c h0
    refine ⟨c2, b2, ?_, h2⟩
    rw [h1, store, if_pos (by omega)]

/-- **C20 (recorded exception).**  The samples are collected in a buffer of the same size as the one the
segment is written to, so data that fits the first can overflow the second. -/
theorem collected_data_can_overflow_output (c : Ctx) (h : MAX_DAT - 176 < c.data.length) :
    segmentGenerator MAX_DAT c = .ub := by
  simp only [MAX_DAT] at h
  obtain ⟨c2, b2, h1, h2⟩ := segment_result MAX_DAT c (by omega)
  rw [h1, store, if_neg]
  simp only [MAX_DAT]; omega

/-! ## C21 -/

/-- What a player should read for a sample. -/
def expected (m : Media) (s : Smp) : RunSample :=
  match m with
  | .audio => ⟨some (s.duration % 2 ^ 32), some (s.size % 2 ^ 32), none, none⟩
  | _ =>
    ⟨some (s.duration % 2 ^ 32), some (s.size % 2 ^ 32),
     some (if s.key then 0 else 0x10000), some ((s.pts + 2 ^ 64 - s.dts) % 2 ^ 32)⟩

theorem field_present (x : Nat) (rest : Bytes) : field true (be32 x ++ rest) = some (some (x % 2 ^ 32), rest) := by
  unfold field
  rw [if_pos rfl, if_neg (by rw [List.length_append, be32_length]; omega), take_append_self _ _ 4 rfl,
    drop_append_self _ _ 4 rfl, rd_be32]

theorem field_absent (bs : Bytes) : field false bs = some (none, bs) := rfl

theorem readRun_entries (m : Media) (l : List Smp) :
    readRun (boxFlags m) l.length (runEntries m l) = some (l.map (expected m)) := by
  induction l with
  | nil => rfl
  | cons s l ih =>
    simp only [List.length_cons, runEntries, runEntry, readRun, List.map_cons]
    cases hm : m.isVideo with
    | true =>
      have b8 : (boxFlags m).testBit 8 = true := by simp only [boxFlags, hm, if_true]; decide
      have b9 : (boxFlags m).testBit 9 = true := by simp only [boxFlags, hm, if_true]; decide
      have b10 : (boxFlags m).testBit 10 = true := by simp only [boxFlags, hm, if_true]; decide
      have b11 : (boxFlags m).testBit 11 = true := by simp only [boxFlags, hm, if_true]; decide
      simp only [b8, b9, b10, b11, if_true, List.append_assoc, field_present, ih, Option.bind_eq_bind,
        Option.bind_some]
      cases m with
      | audio => exact absurd hm (by decide)
      | avc => cases hk : s.key <;> simp [expected, hk]
      | hevc => cases hk : s.key <;> simp [expected, hk]
    | false =>
      have b8 : (boxFlags m).testBit 8 = true := by simp only [boxFlags, hm, Bool.false_eq_true, if_false]; decide
      have b9 : (boxFlags m).testBit 9 = true := by simp only [boxFlags, hm, Bool.false_eq_true, if_false]; decide
      have b10 : (boxFlags m).testBit 10 = false := by simp only [boxFlags, hm, Bool.false_eq_true, if_false]; decide
      have b11 : (boxFlags m).testBit 11 = false := by simp only [boxFlags, hm, Bool.false_eq_true, if_false]; decide
      simp only [b8, b9, b10, b11, Bool.false_eq_true, if_false, List.append_assoc, List.nil_append, field_present,
        field_absent, ih, Option.bind_eq_bind, Option.bind_some]
      cases m with
      | audio => rfl
      | avc => exact absurd hm (by decide)
      | hevc => exact absurd hm (by decide)

theorem expected_size (m : Media) (s : Smp) : (expected m s).size = some (s.size % 2 ^ 32) := by
  cases m <;> rfl

theorem cut_chunks (m : Media) (l : List Smp) (chunks : List Bytes) (rest : Bytes)
    (h : l.map Smp.size = chunks.map List.length) (hlt : ∀ x ∈ chunks, x.length < 2 ^ 32) :
    cut (l.map (expected m)) (chunks.flatten ++ rest) = some ((l.map (expected m)).zip chunks, rest) := by
  induction l generalizing chunks with
  | nil =>
    cases chunks with
    | nil => rfl
    | cons _ _ => simp at h
  | cons s l ih =>
    cases chunks with
    | nil => simp at h
    | cons x xs =>
      simp only [List.map_cons, List.cons.injEq] at h
      have hx := hlt x (by simp)
      have hn : s.size % 2 ^ 32 = x.length := by omega
      simp only [List.map_cons, cut, expected_size, hn, List.flatten_cons, List.append_assoc, Option.bind_eq_bind,
        Option.bind_some]
      rw [if_neg (by rw [List.length_append]; omega), drop_append_self _ _ _ rfl, take_append_self _ _ _ rfl,
        ih xs h.2 (fun y hy => hlt y (by simp [hy]))]
      rfl

/-- **C21.**  Playing a generated media segment gives back every sample's data, duration, key flag and
composition offset in order, with nothing left over; the index gives the start time, the duration and the
size of the fragment and data boxes. -/
theorem segment_plays_back (cap : Nat) (hcap : cap < 2 ^ 32) (c c' : Ctx) (bytes : Bytes) (chunks : List Bytes)
    (hpos : c.trunPos = c.moofPos) (hdata : c.data = chunks.flatten)
    (hsizes : c.samples.map Smp.size = chunks.map List.length)
    (h : segmentGenerator cap c = .ok (.out c' bytes)) :
    ∃ seg, demux bytes = some seg ∧
      seg.samples = (c.samples.map (expected c.media)).zip chunks ∧ seg.samples.map Prod.snd = chunks ∧ seg.after = [] ∧
      seg.seq = c.seq % 2 ^ 32 ∧ seg.base = c.ept % 2 ^ 64 ∧ seg.indexTime = c.ept % 2 ^ 64 ∧
      seg.indexDuration = c.cur % 2 ^ 32 ∧ seg.indexSize = seg.actualSize := by
  obtain ⟨hb, _, hle, _⟩ := segment_layout hcap hpos h
  subst hb
  have hl : 80 + indexed c < 2 ^ 32 := by omega
  have h1 := moofBody_length c (dataOffset c)
  have h2 := trafBody_length c (dataOffset c)
  have h3 := trunBody_length c (dataOffset c)
  simp only [indexed] at hl
  have hsb : ((sidx { c with refSize := indexed c }).drop 8).length = 44 := rfl
  have f1 : find (ascii "sidx") (segBytes c (dataOffset c) (indexed c)) =
      some (28, (sidx { c with refSize := indexed c }).drop 8) := by
    refine Finds.find (Finds.miss rfl (by decide) (by decide) (Finds.hit rfl ?_))
    rw [hsb]; omega
  have f2 : find (ascii "moof") (segBytes c (dataOffset c) (indexed c)) = some (80, moofBody c (dataOffset c)) := by
    refine Finds.find (Finds.miss rfl (by decide) (by decide) (p := 52) (Finds.miss rfl ?_ (by decide) (p := 0)
      (Finds.hit rfl ?_)))
    · rw [hsb]; omega
    · rw [List.nil_append]; omega
  have f3 : find (ascii "mfhd") (moofBody c (dataOffset c)) = some (0, (mfhd c).drop 8) := by
    refine Finds.find (Finds.hit rfl ?_)
    rw [mfhd_body_length]; omega
  have f4 : find (ascii "traf") (moofBody c (dataOffset c)) = some (16, trafBody c (dataOffset c)) := by
    refine Finds.find (Finds.miss rfl ?_ (by decide) (p := 0) (Finds.hit rfl ?_))
    · rw [mfhd_body_length]; omega
    · rw [List.nil_append]; omega
  have f5 : find (ascii "tfdt") (trafBody c (dataOffset c)) = some (16, (tfdt c).drop 8) := by
    refine Finds.find (Finds.miss rfl (by decide) (by decide) (p := 0) (Finds.hit rfl ?_))
    rw [tfdt_body_length]; omega
  have f6 : find (ascii "trun") (trafBody c (dataOffset c)) = some (36, trunBody c (dataOffset c)) := by
    refine Finds.find (Finds.miss rfl (by decide) (by decide) (p := 20) (Finds.miss rfl ?_ (by decide) (p := 0)
      (Finds.hit rfl (by omega))))
    rw [tfdt_body_length]; omega
  have t0 : (trunBody c (dataOffset c)).take 4 = be32 (boxFlags c.media) := rfl
  have t1 : ((trunBody c (dataOffset c)).drop 4).take 4 = be32 c.samples.length := rfl
  have t2 : ((trunBody c (dataOffset c)).drop 8).take 4 = be32 (dataOffset c) := rfl
  have t3 : (trunBody c (dataOffset c)).drop 12 = runEntries c.media c.samples := rfl
  have hfl : boxFlags c.media % 2 ^ 32 = boxFlags c.media := by
    unfold boxFlags; split <;> rfl
  have hb0 : (boxFlags c.media).testBit 0 = true := by
    unfold boxFlags; split <;> decide
  have hnl : c.samples.length % 2 ^ 32 = c.samples.length := by
    have : c.samples.length ≤ c.samples.length * nitems c.media * 4 := by
      have h4 : 1 ≤ nitems c.media := by unfold nitems; split <;> omega
      rw [Nat.mul_assoc]
      exact Nat.le_mul_of_pos_right _ (by omega)
    omega
  have hol : dataOffset c % 2 ^ 32 = dataOffset c := by
    simp only [dataOffset]; omega
  have hdrop : (segBytes c (dataOffset c) (indexed c)).drop (80 + dataOffset c) = c.data := by
    have hc : segBytes c (dataOffset c) (indexed c) =
        (box (ascii "styp") (styp.drop 8) ++ (box (ascii "sidx") ((sidx { c with refSize := indexed c }).drop 8) ++
        (box (ascii "moof") ([] ++ moofBody c (dataOffset c)) ++ (be32 (8 + c.data.length) ++ ascii "mdat")))) ++
        c.data := by
      simp only [segBytes, box, List.append_assoc, List.append_nil]
    rw [hc]
    refine drop_append_self _ _ _ ?_
    have h5 : (styp.drop 8).length = 20 := rfl
    have h6 : (ascii "mdat").length = 4 := rfl
    simp only [List.length_append, box_length _ _ (show (ascii "styp").length = 4 from rfl),
      box_length _ _ (show (ascii "sidx").length = 4 from rfl), box_length _ _ (show (ascii "moof").length = 4 from rfl),
      hsb, h5, h6, h1, be32_length, List.length_nil]
    have h7 : dataOffset c = 96 + c.samples.length * nitems c.media * 4 := rfl
    omega
  have hchunks : ∀ x ∈ chunks, x.length < 2 ^ 32 := by
    intro x hx
    have : x.length ≤ c.data.length := by
      rw [hdata]
      exact (List.sublist_flatten_of_mem hx).length_le
    omega
  have hcut := cut_chunks c.media c.samples chunks [] hsizes hchunks
  rw [List.append_nil, ← hdata] at hcut
  simp only [demux, f1, f2, f3, f4, f5, f6, Option.bind_eq_bind, Option.bind_some, t0, t1, t2, t3, rd_be32, hfl, hb0,
    hnl, hol, readRun_entries, hdrop, hcut, Bool.true_eq_false, if_false]
  refine ⟨_, rfl, rfl, ?_, rfl, ?_, ?_, ?_, ?_, ?_⟩
  · have hlen : chunks.length = c.samples.length := by
      have := congrArg List.length hsizes; simpa using this.symm
    exact List.map_snd_zip (by simp [hlen])
  · exact rd_be32 c.seq
  · exact rd_be64 c.ept
  · exact rd_be64 c.ept
  · exact rd_be32 c.cur
  · show rdBE (be32 (indexed c)) = (segBytes c (dataOffset c) (indexed c)).length - 80
    rw [rd_be32, segBytes_length]
    simp only [indexed]; omega

/-! ## Non-triviality -/

def demoCtx (m : Media) : Ctx :=
  { media := m, extra := [], timeBase := 48000, sampleDuration := 1024, width := 640, height := 360, channels := 2,
    sampleRate := 48000, sampleSize := 16, ept := 90000, seq := 7, cur := 2048,
    samples := [⟨2, 1024, 3, 1, true⟩, ⟨3, 1024, 4, 5, false⟩], data := [1, 2, 3, 4, 5], moofPos := 0, trunPos := 0, refSize := 0 }

def outBytes : Outcome Gen → Bytes
  | .ok (.out _ b) => b
  | _ => []

example : (demux (outBytes (segmentGenerator MAX_DAT (demoCtx .avc)))).map (fun s => s.samples) =
    some [(⟨some 1024, some 2, some 0, some 2⟩, [1, 2]), (⟨some 1024, some 3, some 0x10000, some 4294967295⟩, [3, 4, 5])] := by decide +kernel

example : (demux (outBytes (segmentGenerator MAX_DAT (demoCtx .audio)))).map (fun s => (s.seq, s.base, s.indexSize)) =
    some (7, 90000, 117) := by
  decide +kernel

example : (readInit (outBytes (initGenerator MAX_DAT (demoCtx .hevc) [9, 8, 7]))).map
    (fun i => (i.timescale, i.trackWidth / 65536, i.config, i.handler)) =
    some (48000, 640, [9, 8, 7], ascii "vide") := by decide +kernel

example : ((readInit (outBytes (initGenerator MAX_DAT (demoCtx .audio) [0x11, 0x90]))).bind (fun i => decoderInfo i.config)) =
    some [0x11, 0x90] := by decide +kernel

/-- **C20 (recorded exception).**  With 105 bytes of audio codec data the lengths of the descriptors no longer
fit seven bits, and the decoder information cannot be read back. -/
theorem long_audio_config_is_unreadable :
    ((readInit (outBytes (initGenerator MAX_DAT (demoCtx .audio) (zeros 105)))).bind (fun i => decoderInfo i.config)) =
    none := by decide +kernel

end Lms.Isoff
