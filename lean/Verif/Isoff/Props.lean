import Verif.Isoff.Lemmas

/-!
# C20: initialisation and media segments are well-formed box trees
-/

namespace Lms.Isoff

/-! ## The trees required by the format -/

def entryTree : Media → Tree
  | .avc => .mk "avc1" [.mk "avcC" []]
  | .hevc => .mk "hev1" [.mk "hvcC" []]
  | .audio => .mk "mp4a" [.mk "esds" []]

/-- The boxes of an initialisation segment. -/
def initTree (m : Media) : List Tree :=
  [.mk "ftyp" [],
   .mk "moov" [
     .mk "mvhd" [],
     .mk "mvex" [.mk "trex" []],
     .mk "trak" [
       .mk "tkhd" [],
       .mk "mdia" [
         .mk "mdhd" [],
         .mk "hdlr" [],
         .mk "minf" [
           .mk (match m with | .audio => "smhd" | _ => "vmhd") [],
           .mk "dinf" [.mk "dref" [.mk "url " []]],
           .mk "stbl" [.mk "stsd" [entryTree m], .mk "stts" [], .mk "stsc" [], .mk "stsz" [], .mk "stco" []]]]]]]

/-- The boxes of a media segment. -/
def segmentTree : List Tree :=
  [.mk "styp" [], .mk "sidx" [],
   .mk "moof" [.mk "mfhd" [], .mk "traf" [.mk "tfhd" [], .mk "tfdt" [], .mk "trun" []]],
   .mk "mdat" []]

/-! ## Initialisation segments -/

/-- The box inside the sample entry. -/
def configBytes (c : Ctx) : Bytes :=
  match c.media with
  | .avc => avcc c
  | .hevc => hvcc c
  | .audio => esds c

def entryType : Media → Bytes
  | .avc => ascii "avc1"
  | .hevc => ascii "hev1"
  | .audio => ascii "mp4a"

def configType : Media → Bytes
  | .avc => ascii "avcC"
  | .hevc => ascii "hvcC"
  | .audio => ascii "esds"

def entryFields (c : Ctx) : Bytes := if c.media.isVideo then visual c else sound c

theorem config_box (c : Ctx) : configBytes c = box (configType c.media) ((configBytes c).drop 8) := by
  have h : ∀ t body : Bytes, t.length = 4 → ∀ x, x = box t body → x = box t (x.drop 8) := by
    intro t body ht x hx
    subst hx
    rw [box_body ht]
  cases hm : c.media with
  | avc =>
    apply h _ c.extra rfl
    simp only [configBytes, hm, avcc, box, configType, List.append_assoc, Nat.add_comm]
  | hevc =>
    apply h _ c.extra rfl
    simp only [configBytes, hm, hvcc, box, configType, List.append_assoc, Nat.add_comm]
  | audio =>
    simp only [configBytes, hm, esds, List.append_assoc, configType]
    apply h (ascii "esds") _ rfl
    exact patched_box _ _ rfl

theorem entry_box (c : Ctx) : entry c = box (entryType c.media) (entryFields c ++ configBytes c) := by
  cases hm : c.media with
  | avc =>
    simp only [entry, hm, avc1, entryType, entryFields, configBytes, Media.isVideo, if_true, List.append_assoc]
    exact patched_box _ _ rfl
  | hevc =>
    simp only [entry, hm, hev1, entryType, entryFields, configBytes, Media.isVideo, if_true, List.append_assoc]
    exact patched_box _ _ rfl
  | audio =>
    simp only [entry, hm, mp4a, entryType, entryFields, configBytes, Media.isVideo, Bool.false_eq_true, if_false,
      List.append_assoc]
    exact patched_box _ _ rfl

def leafBox (s : String) (b : Bytes) : Box := .mk (ascii s) (b.drop 8) []

def stblBoxes (c : Ctx) : List Box :=
  [.mk (ascii "stsd") (zeros 4 ++ be32 1)
     [.mk (entryType c.media) (entryFields c) [.mk (configType c.media) ((configBytes c).drop 8) []]],
   leafBox "stts" stts, leafBox "stsc" stsc, leafBox "stsz" stsz, leafBox "stco" stco]

def dinfBoxes (c : Ctx) : List Box :=
  [.mk (ascii "dinf") [] [.mk (ascii "dref") (zeros 4 ++ be32 1) [leafBox "url " url]],
   .mk (ascii "stbl") [] (stblBoxes c)]

def minfBoxes (c : Ctx) : List Box :=
  (if c.media.isVideo then leafBox "vmhd" vmhd else leafBox "smhd" smhd) :: dinfBoxes c

def mdiaBoxes (c : Ctx) : List Box :=
  [leafBox "mdhd" (mdhd c), leafBox "hdlr" (hdlr c), .mk (ascii "minf") [] (minfBoxes c)]

def trakBoxes (c : Ctx) : List Box := [leafBox "tkhd" (tkhd c), .mk (ascii "mdia") [] (mdiaBoxes c)]

def moovBoxes (c : Ctx) : List Box :=
  [leafBox "mvhd" mvhd, .mk (ascii "mvex") [] [leafBox "trex" (trex c)], .mk (ascii "trak") [] (trakBoxes c)]

/-- The tree of an initialisation segment with the fields of every box. -/
def initBoxes (c : Ctx) : List Box := [leafBox "ftyp" ftyp, .mk (ascii "moov") [] (moovBoxes c)]

theorem configType_length (m : Media) : (configType m).length = 4 := by cases m <;> rfl
theorem entryType_length (m : Media) : (entryType m).length = 4 := by cases m <;> rfl
theorem fields_configType (m : Media) : fieldsLength (configType m) = none := by cases m <;> rfl
theorem fields_entryType (m : Media) : fieldsLength (entryType m) = some (if m.isVideo then 78 else 28) := by
  cases m <;> rfl
theorem visual_length (c : Ctx) : (visual c).length = 78 := by
  simp only [visual, zeros, List.length_append, List.length_replicate, be16_length, be32_length]
theorem sound_length (c : Ctx) : (sound c).length = 28 := by
  simp only [sound, zeros, List.length_append, List.length_replicate, be16_length, be32_length]
theorem entryFields_length (c : Ctx) : (entryFields c).length = if c.media.isVideo then 78 else 28 := by
  unfold entryFields
  split
  · exact visual_length c
  · exact sound_length c

theorem append_nil_eq (b : Bytes) : b = b ++ [] := (List.append_nil b).symm

theorem init_parses (c : Ctx) (hlt : (ftyp ++ moov c).length < 2 ^ 32) :
    Parses (ftyp ++ moov c) (initBoxes c) := by
  -- sizes
  have hl : ∀ (t body : Bytes), t.length = 4 → (patched (t ++ body)).length = 8 + body.length := by
    intro t body ht
    rw [patched_box _ _ ht, box_length _ _ ht]
  have hftyp : ftyp.length = 28 := rfl
  have hmoov : (moov c).length = 8 + (mvhd ++ (mvex c ++ trak c)).length := hl _ _ rfl
  have hmvhd : mvhd.length = 108 := rfl
  have hmvex : (mvex c).length = 40 := rfl
  have htrak : (trak c).length = 8 + (tkhd c ++ mdia c).length := hl _ _ rfl
  have htkhd : (tkhd c).length = 92 := by unfold tkhd; cases c.media.isVideo <;> rfl
  have hmdia : (mdia c).length = 8 + (mdhd c ++ (hdlr c ++ minf c)).length := hl _ _ rfl
  have hmdhd : (mdhd c).length = 32 := rfl
  have hhdlr : (hdlr c).length = 45 := by unfold hdlr; cases c.media.isVideo <;> rfl
  obtain ⟨xm, hxm⟩ : ∃ x, x = (if c.media.isVideo then vmhd else smhd) := ⟨_, rfl⟩
  have hminf : (minf c).length = 8 + (xm ++ (dinf ++ stbl c)).length := by rw [hxm]; exact hl _ _ rfl
  have hdinf : dinf.length = 36 := rfl
  have hstbl : (stbl c).length = 8 + (stsd c ++ (stts ++ (stsc ++ (stsz ++ stco)))).length := hl _ _ rfl
  have hstsd' : stsd c = box (ascii "stsd") ((zeros 4 ++ be32 1) ++ entry c) := by
    simp only [stsd, List.append_assoc]; exact patched_box _ _ rfl
  have hstsd : (stsd c).length = 16 + (entry c).length := by
    rw [hstsd', box_length _ _ rfl, List.length_append]; simp [zeros]; omega
  have hentry : (entry c).length = 8 + (entryFields c ++ configBytes c).length := by
    rw [entry_box, box_length _ _ (entryType_length _)]
  have hconf : (configBytes c).length = 8 + ((configBytes c).drop 8).length := by
    conv => lhs; rw [config_box]
    rw [box_length _ _ (configType_length _)]
  simp only [List.length_append] at *
  -- from the inside out
  have p1 : Parses (configBytes c) [.mk (configType c.media) ((configBytes c).drop 8) []] := by
    have h := Parses.leaf (t := configType c.media) (body := (configBytes c).drop 8) (configType_length _)
      (fields_configType _) (by omega) Parses.nil
    rwa [List.append_nil, ← config_box] at h
  have p2 : Parses (entry c) [.mk (entryType c.media) (entryFields c)
      [.mk (configType c.media) ((configBytes c).drop 8) []]] := by
    rw [append_nil_eq (entry c), entry_box]
    refine Parses.node (entryType_length _) (fields_entryType _) (entryFields_length c) ?_ p1 Parses.nil
    rw [List.length_append]; omega
  have p3 : Parses (stsd c ++ (stts ++ (stsc ++ (stsz ++ stco)))) (stblBoxes c) := by
    rw [hstsd', append_nil_eq stco]
    refine Parses.node (k := 8) rfl rfl rfl ?_ p2 ?_
    · simp only [List.length_append, zeros, List.length_replicate, be32_length]; omega
    · exact Parses.leaf (t := ascii "stts") (body := stts.drop 8) rfl rfl (by decide) (Parses.leaf (t := ascii "stsc") (body := stsc.drop 8) rfl rfl (by decide)
        (Parses.leaf (t := ascii "stsz") (body := stsz.drop 8) rfl rfl (by decide)
          (Parses.leaf (t := ascii "stco") (body := stco.drop 8) rfl rfl (by decide) Parses.nil)))
  have p4 : Parses (dinf ++ stbl c) (dinfBoxes c) := by
    have e : stbl c = box (ascii "stbl") ([] ++ (stsd c ++ (stts ++ (stsc ++ (stsz ++ stco))))) := patched_box _ _ rfl
    rw [append_nil_eq (stbl c), e]
    have d : dinf = box (ascii "dinf") ([] ++ (box (ascii "dref") ((zeros 4 ++ be32 1) ++
        (box (ascii "url ") (url.drop 8) ++ [])) ++ [])) := rfl
    rw [d]
    refine Parses.node (k := 0) rfl rfl rfl (by decide) ?_ (Parses.node (k := 0) rfl rfl rfl ?_ p3 Parses.nil)
    · exact Parses.node (k := 8) rfl rfl rfl (by decide) (Parses.leaf rfl rfl (by decide) Parses.nil) Parses.nil
    · simp only [List.length_append, List.length_nil]; omega
  have p5 : Parses (xm ++ (dinf ++ stbl c)) (minfBoxes c) := by
    unfold minfBoxes
    rw [hxm]
    cases c.media.isVideo with
    | true => exact Parses.leaf (t := ascii "vmhd") (body := vmhd.drop 8) rfl rfl (by decide) p4
    | false => exact Parses.leaf (t := ascii "smhd") (body := smhd.drop 8) rfl rfl (by decide) p4
  have p6 : Parses (minf c) [.mk (ascii "minf") [] (minfBoxes c)] := by
    have e : minf c = box (ascii "minf") ([] ++ (xm ++ (dinf ++ stbl c))) := by rw [hxm]; exact patched_box _ _ rfl
    rw [append_nil_eq (minf c), e]
    refine Parses.node (k := 0) rfl rfl rfl ?_ p5 Parses.nil
    simp only [List.length_append, List.length_nil]; omega
  have p7 : Parses (mdhd c ++ (hdlr c ++ minf c)) (mdiaBoxes c) := by
    conv => arg 1; rw [mdhd_box, hdlr_box]
    refine Parses.leaf rfl rfl (by rw [List.length_drop]; omega) (Parses.leaf rfl rfl ?_ p6)
    rw [List.length_drop]; omega
  have p8 : Parses (tkhd c ++ mdia c) (trakBoxes c) := by
    have e : mdia c = box (ascii "mdia") ([] ++ (mdhd c ++ (hdlr c ++ minf c))) := patched_box _ _ rfl
    conv => arg 1; rw [append_nil_eq (mdia c), e, tkhd_box]
    refine Parses.leaf rfl rfl ?_ (Parses.node (k := 0) rfl rfl rfl ?_ p7 Parses.nil)
    · rw [List.length_drop]; omega
    · simp only [List.length_append, List.length_nil]; omega
  have p9 : Parses (mvhd ++ (mvex c ++ trak c)) (moovBoxes c) := by
    have e : trak c = box (ascii "trak") ([] ++ (tkhd c ++ mdia c)) := patched_box _ _ rfl
    have d : mvex c = box (ascii "mvex") ([] ++ (box (ascii "trex") ((trex c).drop 8) ++ [])) := rfl
    conv => arg 1; rw [append_nil_eq (trak c), e, d, mvhd_box]
    refine Parses.leaf rfl rfl (by decide) (Parses.node (k := 0) rfl rfl rfl ?_ ?_
      (Parses.node (k := 0) rfl rfl rfl ?_ p8 Parses.nil))
    · simp only [List.length_append, box_length _ _ (show (ascii "trex").length = 4 from rfl), List.length_drop]
      have : (trex c).length = 32 := rfl
      simp only [List.length_nil]; omega
    · refine Parses.leaf rfl rfl ?_ Parses.nil
      have : (trex c).length = 32 := rfl
      rw [List.length_drop]; omega
    · simp only [List.length_append, List.length_nil]; omega
  have e : moov c = box (ascii "moov") ([] ++ (mvhd ++ (mvex c ++ trak c))) := patched_box _ _ rfl
  conv => arg 1; rw [append_nil_eq (moov c), e, ftyp_box]
  refine Parses.leaf rfl rfl (by decide) (Parses.node (k := 0) rfl rfl rfl ?_ p9 Parses.nil)
  simp only [List.length_append, List.length_nil]; omega

/-- **C20 (initialisation segments).**  Whatever the context, for non-empty codec data that fits, the bytes
written are a sequence of boxes that tile it exactly at every level, with the boxes the format requires. -/
theorem init_segment_is_box_tree (cap : Nat) (hcap : cap < 2 ^ 32) (c c' : Ctx) (src bytes : Bytes)
    (h : initGenerator cap c src = .ok (.out c' bytes)) :
    ∃ boxes, parseFile bytes = some boxes ∧ hasAll boxes (initTree c.media) := by
  simp only [initGenerator, store] at h
  (repeat' split at h) <;> cases h
  rename_i h1 h2
  refine ⟨_, (init_parses _ (by omega)).file, ?_⟩
  cases hm : c.media <;>
    simp [initBoxes, moovBoxes, trakBoxes, mdiaBoxes, minfBoxes, dinfBoxes, stblBoxes, leafBox, initTree, entryTree, hasAll, Box.has, hm, entryType, configType, Media.isVideo]

def initInfo (c : Ctx) : InitInfo where
  trackId := num ((tkhd c).drop 8) 12 4
  trexTrackId := num ((trex c).drop 8) 4 4
  defaultDuration := num ((trex c).drop 8) 12 4
  timescale := num ((mdhd c).drop 8) 12 4
  handler := (((hdlr c).drop 8).drop 8).take 4
  trackWidth := num ((tkhd c).drop 8) 76 4
  trackHeight := num ((tkhd c).drop 8) 80 4
  entryType := Isoff.entryType c.media
  entry := entryFields c
  configType := Isoff.configType c.media
  config := (configBytes c).drop 8

theorem read_init (c : Ctx) (hlt : (ftyp ++ moov c).length < 2 ^ 32) :
    readInit (ftyp ++ moov c) = some (initInfo c) := by
  have hp := (init_parses c hlt).file
  have hx : child "stbl" (minfBoxes c) = some (.mk (ascii "stbl") [] (stblBoxes c)) := by
    unfold minfBoxes
    cases c.media.isVideo <;> rfl
  simp only [readInit]
  rw [hp]
  show ((child "stbl" (minfBoxes c)).bind _) = _
  rw [hx]
  rfl

theorem num_of {bs x : Bytes} {pos n v : Nat} (h : (bs.drop pos).take n = x) (hv : rdBE x = v) : num bs pos n = v := by
  rw [num, h, hv]

theorem tkhd_id (c : Ctx) : num ((tkhd c).drop 8) 12 4 = 1 := by
  refine num_of (x := be32 1) ?_ rfl
  unfold tkhd; cases c.media.isVideo <;> rfl

theorem trex_id (c : Ctx) : num ((trex c).drop 8) 4 4 = 1 := rfl

theorem trex_duration (c : Ctx) : num ((trex c).drop 8) 12 4 = c.sampleDuration % 2 ^ 32 :=
  num_of (x := be32 c.sampleDuration) rfl (rd_be32 _)

theorem mdhd_timescale (c : Ctx) : num ((mdhd c).drop 8) 12 4 = c.timeBase % 2 ^ 32 :=
  num_of (x := be32 c.timeBase) rfl (rd_be32 _)

theorem tkhd_width (c : Ctx) (hv : c.media.isVideo = true) :
    num ((tkhd c).drop 8) 76 4 = c.width % 2 ^ 16 * 2 ^ 16 := by
  refine num_of (x := be32 (c.width * 2 ^ 16)) ?_ ?_
  · unfold tkhd; rw [hv]; rfl
  · rw [rd_be32]; omega

theorem tkhd_height (c : Ctx) (hv : c.media.isVideo = true) :
    num ((tkhd c).drop 8) 80 4 = c.height % 2 ^ 16 * 2 ^ 16 := by
  refine num_of (x := be32 (c.height * 2 ^ 16)) ?_ ?_
  · unfold tkhd; rw [hv]; rfl
  · rw [rd_be32]; omega

theorem hdlr_type (c : Ctx) :
    (((hdlr c).drop 8).drop 8).take 4 = if c.media.isVideo then ascii "vide" else ascii "soun" := by
  unfold hdlr; cases c.media.isVideo <;> rfl

theorem video_config (c : Ctx) (hv : c.media.isVideo = true) : (configBytes c).drop 8 = c.extra := by
  cases hm : c.media with
  | audio => rw [hm] at hv; exact absurd hv (by decide)
  | avc =>
    simp only [configBytes, hm, avcc]
    exact drop_append_self _ _ 8 rfl
  | hevc =>
    simp only [configBytes, hm, hvcc]
    exact drop_append_self _ _ 8 rfl

theorem visual_width (c : Ctx) : num (visual c) 24 2 = c.width % 2 ^ 16 :=
  num_of (x := be16 c.width) (by simp [visual, zeros, be16, be32, List.replicate]) (rd_be16 _)

theorem visual_height (c : Ctx) : num (visual c) 26 2 = c.height % 2 ^ 16 :=
  num_of (x := be16 c.height) (by simp [visual, zeros, be16, be32, List.replicate]) (rd_be16 _)

/-- **C20 (what a player reads).**  The values read back from an initialisation segment. -/
theorem init_segment_values (cap : Nat) (hcap : cap < 2 ^ 32) (c c' : Ctx) (src bytes : Bytes)
    (h : initGenerator cap c src = .ok (.out c' bytes)) :
    ∃ i, readInit bytes = some i ∧ i.trackId = 1 ∧ i.trexTrackId = 1 ∧
      i.defaultDuration = c.sampleDuration % 2 ^ 32 ∧ i.timescale = c.timeBase % 2 ^ 32 ∧
      match c.media with
      | .audio =>
        i.handler = ascii "soun" ∧ i.entryType = ascii "mp4a" ∧ i.configType = ascii "esds" ∧
        num i.entry 16 2 = c.channels % 2 ^ 16 ∧ num i.entry 18 2 = c.sampleSize % 2 ^ 16 ∧
        num i.entry 24 2 = c.timeBase % 2 ^ 16 ∧ num i.entry 26 2 = c.sampleRate % 2 ^ 16
      | m =>
        i.handler = ascii "vide" ∧ i.trackWidth = c.width % 2 ^ 16 * 2 ^ 16 ∧ i.trackHeight = c.height % 2 ^ 16 * 2 ^ 16 ∧
        num i.entry 24 2 = c.width % 2 ^ 16 ∧ num i.entry 26 2 = c.height % 2 ^ 16 ∧ i.config = src ∧
        (m = .avc → i.entryType = ascii "avc1" ∧ i.configType = ascii "avcC") ∧
        (m = .hevc → i.entryType = ascii "hev1" ∧ i.configType = ascii "hvcC") := by
  simp only [initGenerator, store] at h
  (repeat' split at h) <;> cases h
  rename_i h1 h2
  refine ⟨_, read_init _ (by omega), ?_⟩
  refine ⟨tkhd_id { c with extra := src }, trex_id { c with extra := src }, trex_duration { c with extra := src },
    mdhd_timescale { c with extra := src }, ?_⟩
  have hh : (initInfo { c with extra := src }).handler = if c.media.isVideo then ascii "vide" else ascii "soun" :=
    hdlr_type _
  have hw : c.media.isVideo = true → (initInfo { c with extra := src }).trackWidth = c.width % 2 ^ 16 * 2 ^ 16 :=
    tkhd_width { c with extra := src }
  have hht : c.media.isVideo = true → (initInfo { c with extra := src }).trackHeight = c.height % 2 ^ 16 * 2 ^ 16 :=
    tkhd_height { c with extra := src }
  have hc : c.media.isVideo = true → (initInfo { c with extra := src }).config = src :=
    video_config { c with extra := src }
  have he : (initInfo { c with extra := src }).entry = if c.media.isVideo then visual c else sound c := rfl
  have h3 : (initInfo { c with extra := src }).entryType = entryType c.media := rfl
  have h4 : (initInfo { c with extra := src }).configType = configType c.media := rfl
  generalize initInfo { c with extra := src } = i at hh hw hht hc he h3 h4 ⊢
  cases hm : c.media with
  | audio =>
    rw [hm] at hh he h3 h4
    simp only [Media.isVideo, Bool.false_eq_true, if_false] at hh he
    rw [he]
    exact ⟨hh, h3, h4, num_of (x := be16 c.channels) rfl (rd_be16 _),
      num_of (x := be16 c.sampleSize) rfl (rd_be16 _), num_of (x := be16 c.timeBase) rfl (rd_be16 _),
      num_of (x := be16 c.sampleRate) rfl (rd_be16 _)⟩
  | avc =>
    rw [hm] at hh he h3 h4 hw hht hc
    simp only [Media.isVideo, if_true] at hh he
    rw [he]
    exact ⟨hh, hw rfl, hht rfl, visual_width c, visual_height c, hc rfl, fun _ => ⟨h3, h4⟩, fun e => absurd e (by decide)⟩
  | hevc =>
    rw [hm] at hh he h3 h4 hw hht hc
    simp only [Media.isVideo, if_true] at hh he
    rw [he]
    exact ⟨hh, hw rfl, hht rfl, visual_width c, visual_height c, hc rfl, fun e => absurd e (by decide), fun _ => ⟨h3, h4⟩⟩

theorem descLength_small (n : Nat) (hn : n < 128) (rest : Bytes) :
    descLength 4 0 (be8 (n % 128) ++ rest) = some (n, rest) := by
  have h : (UInt8.ofNat (n % 128)).toNat = n := by rw [ofNat_toNat]; omega
  simp only [be8, List.cons_append, List.nil_append, descLength, h]
  rw [if_neg (by omega)]
  simp only [Option.some.injEq, Prod.mk.injEq, and_true]
  omega

theorem descriptor_read (tag n : Nat) (ht : tag < 256) (hn : n < 128) (body rest : Bytes) (hb : body.length = n) :
    descriptor (be8 tag ++ (be8 (n % 128) ++ (body ++ rest))) = some (tag, body, rest) := by
  have h : (UInt8.ofNat tag).toNat = tag := by rw [ofNat_toNat]; omega
  show descriptor (UInt8.ofNat tag :: (be8 (n % 128) ++ (body ++ rest))) = _
  simp only [descriptor, descLength_small n hn]
  rw [if_neg (by rw [List.length_append]; omega), take_append_self _ _ _ hb, drop_append_self _ _ _ hb, h]

/-- **C20 (decoder information for audio).**  When the codec data is shorter than 105 bytes, reading the
descriptors of the initialisation segment gives it back. -/
theorem audio_decoder_info (cap : Nat) (hcap : cap < 2 ^ 32) (c c' : Ctx) (src bytes : Bytes)
    (hm : c.media = .audio) (hs : src.length < 105)
    (h : initGenerator cap c src = .ok (.out c' bytes)) :
    ∃ i, readInit bytes = some i ∧ decoderInfo i.config = some src := by
  simp only [initGenerator, store] at h
  (repeat' split at h) <;> cases h
  rename_i h1 h2
  refine ⟨_, read_init _ (by omega), ?_⟩
  have hcb : configBytes { c with extra := src } = esds { c with extra := src } := by
    simp only [configBytes, hm]
  simp only [initInfo]
  rw [hcb]
  obtain ⟨d, hd⟩ : ∃ d, d = be8 0x05 ++ (be8 (src.length % 128) ++ (src ++ [])) := ⟨_, rfl⟩
  obtain ⟨sl, hsl⟩ : ∃ sl, sl = be8 6 ++ (be8 (1 % 128) ++ (be8 2 ++ [])) := ⟨_, rfl⟩
  obtain ⟨dh, hdh⟩ : ∃ x, x = be8 0x40 ++ be8 0x15 ++ zeros 2 ++ be8 0 ++ be32 0x0001F151 ++ be32 0x0001F14D := ⟨_, rfl⟩
  have hdhl : dh.length = 13 := by rw [hdh]; rfl
  have hdl : d.length = 2 + src.length := by rw [hd]; simp; omega
  have hsll : sl.length = 3 := by rw [hsl]; rfl
  obtain ⟨dc, hdc⟩ : ∃ x, x = be8 4 ++ (be8 ((15 + src.length) % 128) ++ ((dh ++ d) ++ sl)) := ⟨_, rfl⟩
  have hdcl : dc.length = 20 + src.length := by
    rw [hdc]; simp only [List.length_append, be8_length]; omega
  obtain ⟨eh, heh⟩ : ∃ x, x = be16 1 ++ be8 0 := ⟨_, rfl⟩
  have hehl : eh.length = 3 := by rw [heh]; rfl
  have key : (esds { c with extra := src }).drop 8 =
      zeros 4 ++ (be8 3 ++ (be8 ((23 + src.length) % 128) ++ ((eh ++ dc) ++ []))) := by
    rw [heh, hdc, hdh, hd, hsl]
    simp only [esds, List.append_assoc, List.append_nil]
    rw [patched_box _ _ rfl, box_body rfl]
  rw [key]
  simp only [decoderInfo]
  rw [drop_append_self _ _ 4 rfl, descriptor_read 3 _ (by omega) (by omega) _ _ (by rw [List.length_append]; omega)]
  simp only
  rw [drop_append_self _ _ 3 hehl, hdc, descriptor_read 4 _ (by omega) (by omega) _ _ (by rw [List.length_append]; omega)]
  simp only
  rw [drop_append_self _ _ 13 hdhl, hd, hsl, descriptor_read 5 _ (by omega) (by omega) _ _ rfl]
  rfl

/-- **C23.** Without a decoder configuration no initialisation segment is made, with one there is no error. -/
theorem init_needs_record (cap : Nat) (c : Ctx) (src : Bytes) :
    (src = [] → initGenerator cap c src = .ok (.err 1)) ∧ (src ≠ [] → ∀ e, initGenerator cap c src ≠ .ok (.err e)) := by
  unfold initGenerator store
  constructor
  · intro h; subst h; rfl
  · intro h e
    rw [if_neg (by have := List.length_pos_iff.2 h; omega)]
    simp only
    split <;> simp

end Lms.Isoff
