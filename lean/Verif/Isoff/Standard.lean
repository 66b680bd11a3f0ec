import Verif.Isoff.Segment

/-!
# C20: the fields of every box

The layouts of ISO/IEC 14496-12, -14 and -15: what the standard fixes has to be there, what it leaves open is read.  Both kinds of
segments are read completely, box by box.
-/

namespace Lms.Isoff

/-! ## Layouts -/

/-- A field: reserved bytes, a number the standard fixes, a number, some bytes, or all that is left. -/
inductive F where
  | zero (n : Nat)
  | const (w v : Nat)
  | num (w : Nat)
  | bytes (n : Nat)
  | rest

/-- What is read. -/
inductive V where
  | n (x : Nat)
  | b (x : Bytes)
  deriving DecidableEq

/-- Read fields one after the other; nothing may be left over. -/
def readFields : List F → Bytes → Option (List V)
  | [], bs => if bs.isEmpty then some [] else none
  | .zero n :: l, bs => if bs.take n = List.replicate n 0 then readFields l (bs.drop n) else none
  | .const w v :: l, bs => if (bs.take w).length = w ∧ rdBE (bs.take w) = v then readFields l (bs.drop w) else none
  | .num w :: l, bs => if (bs.take w).length = w then (readFields l (bs.drop w)).map (.n (rdBE (bs.take w)) :: ·) else none
  | .bytes n :: l, bs => if (bs.take n).length = n then (readFields l (bs.drop n)).map (.b (bs.take n) :: ·) else none
  | .rest :: l, bs => (readFields l []).map (.b bs :: ·)

/-- Version 0 and no flags. -/
abbrev plainBox : F := .const 4 0

/-- The unity matrix. -/
def unity : List F :=
  [.const 4 0x10000, .const 4 0, .const 4 0, .const 4 0, .const 4 0x10000, .const 4 0, .const 4 0, .const 4 0, .const 4 0x40000000]

/-- Brand, version, compatible brands. -/
def brandsL : List F := [.bytes 4, .num 4, .rest]
/-- Times of creation and change, time scale, duration; rate and volume 1; next track. -/
def mvhdL : List F := [plainBox, .num 4, .num 4, .num 4, .num 4, .const 4 0x10000, .const 2 0x100, .zero 2, .zero 8] ++ (unity ++ [.zero 24, .num 4])
/-- Track, description; default duration, size and flags. -/
def trexL : List F := [plainBox, .num 4, .num 4, .num 4, .num 4, .num 4]
/-- Flags (version 0), times, track, duration, layer, alternate group, volume, width and height. -/
def tkhdL : List F :=
  [.num 4, .num 4, .num 4, .num 4, .zero 4, .num 4, .zero 8, .num 2, .num 2, .num 2, .zero 2] ++ (unity ++ [.num 4, .num 4])
/-- Times, time scale, duration, language. -/
def mdhdL : List F := [plainBox, .num 4, .num 4, .num 4, .num 4, .num 2, .zero 2]
/-- Handler and name. -/
def hdlrL : List F := [plainBox, .zero 4, .bytes 4, .zero 12, .rest]
def vmhdL : List F := [.const 4 1, .zero 2, .zero 6]
def smhdL : List F := [plainBox, .zero 2, .zero 2]
/-- A list of boxes inside: how many. -/
def countL : List F := [plainBox, .num 4]
/-- Flags (1: the media is in this file). -/
def urlL : List F := [.num 4]
/-- Data reference, width and height, name of the compressor. -/
def visualL : List F :=
  [.zero 6, .num 2, .zero 2, .zero 2, .zero 12, .num 2, .num 2, .const 4 0x480000, .const 4 0x480000, .zero 4, .const 2 1, .bytes 32, .const 2 0x18,
    .const 2 0xffff]
/-- Data reference, channels, bits of a sample, sampling rate in 16.16. -/
def soundL : List F := [.zero 6, .num 2, .zero 8, .num 2, .num 2, .zero 2, .zero 2, .num 4]
/-- Size of all samples, and how many there are. -/
def stszL : List F := [plainBox, .num 4, .num 4]
/-- Version 1: reference, time scale, time and offset; one entry: size, duration, stream access point. -/
def sidxL : List F := [.const 4 0x1000000, .num 4, .num 4, .num 8, .num 8, .zero 2, .const 2 1, .num 4, .num 4, .num 4]
/-- Flags and track. -/
def tfhdL : List F := [.num 4, .num 4]
/-- Version 1: time. -/
def tfdtL : List F := [.const 4 0x1000000, .num 8]
/-- Flags, number of samples, offset of the data, samples. -/
def trunL : List F := [.num 4, .num 4, .num 4, .rest]

/-- The layout of a type of box. -/
def layouts : List (Bytes × List F) :=
  [(ascii "ftyp", brandsL), (ascii "moov", []), (ascii "mvhd", mvhdL), (ascii "mvex", []), (ascii "trex", trexL), (ascii "trak", []), (ascii "tkhd", tkhdL),
   (ascii "mdia", []), (ascii "mdhd", mdhdL), (ascii "hdlr", hdlrL), (ascii "minf", []), (ascii "vmhd", vmhdL), (ascii "smhd", smhdL), (ascii "dinf", []),
   (ascii "dref", countL), (ascii "url ", urlL), (ascii "stbl", []), (ascii "stsd", countL), (ascii "avc1", visualL), (ascii "hev1", visualL),
   (ascii "mp4a", soundL), (ascii "avcC", [.rest]), (ascii "hvcC", [.rest]), (ascii "esds", [plainBox, .rest]), (ascii "stts", countL), (ascii "stsc", countL),
   (ascii "stsz", stszL), (ascii "stco", countL), (ascii "styp", brandsL), (ascii "sidx", sidxL), (ascii "moof", []), (ascii "mfhd", countL),
   (ascii "traf", []), (ascii "tfhd", tfhdL), (ascii "tfdt", tfdtL), (ascii "trun", trunL), (ascii "mdat", [.rest])]

/-- What is read of the fields of a box. -/
def readBox (t fields : Bytes) : Option (List V) := (layouts.lookup t).bind fun l => readFields l fields

mutual
/-- The boxes in order, each before those inside, with what is read of its fields. -/
def Box.read : Box → List (Bytes × Option (List V))
  | .mk t f kids => (t, readBox t f) :: readAll kids
def readAll : List Box → List (Bytes × Option (List V))
  | [] => []
  | b :: bs => b.read ++ readAll bs
end

/-- The boxes of a file. -/
def readFile (bytes : Bytes) : Option (List (Bytes × Option (List V))) := (parseFile bytes).map readAll

/-! ## Reading fields -/

theorem rf_zero (n : Nat) (l : List F) (bs : Bytes) : readFields (.zero n :: l) (zeros n ++ bs) = readFields l bs := by
  have h : (zeros n).length = n := List.length_replicate
  rw [readFields, take_append_self _ _ _ h, drop_append_self _ _ _ h]
  exact if_pos rfl

theorem rf_const (w v : Nat) (l : List F) (x bs : Bytes) (hl : x.length = w) (hv : rdBE x = v) : readFields (.const w v :: l) (x ++ bs) = readFields l bs := by
  rw [readFields, take_append_self _ _ _ hl, drop_append_self _ _ _ hl, if_pos ⟨hl, hv⟩]

theorem rf_num (w v : Nat) (l : List F) (x bs : Bytes) (hl : x.length = w) (hv : rdBE x = v) :
    readFields (.num w :: l) (x ++ bs) = (readFields l bs).map (.n v :: ·) := by
  rw [readFields, take_append_self _ _ _ hl, drop_append_self _ _ _ hl, if_pos hl, hv]

theorem rf_num2 (v : Nat) (l : List F) (bs : Bytes) : readFields (.num 2 :: l) (be16 v ++ bs) = (readFields l bs).map (.n (v % 2 ^ 16) :: ·) :=
  rf_num _ _ _ _ _ rfl (rd_be16 v)
theorem rf_num4 (v : Nat) (l : List F) (bs : Bytes) : readFields (.num 4 :: l) (be32 v ++ bs) = (readFields l bs).map (.n (v % 2 ^ 32) :: ·) :=
  rf_num _ _ _ _ _ rfl (rd_be32 v)
theorem rf_num8 (v : Nat) (l : List F) (bs : Bytes) : readFields (.num 8 :: l) (be64 v ++ bs) = (readFields l bs).map (.n (v % 2 ^ 64) :: ·) :=
  rf_num _ _ _ _ _ rfl (rd_be64 v)

theorem rf_bytes (n : Nat) (l : List F) (x bs : Bytes) (hl : x.length = n) : readFields (.bytes n :: l) (x ++ bs) = (readFields l bs).map (.b x :: ·) := by
  rw [readFields, take_append_self _ _ _ hl, drop_append_self _ _ _ hl, if_pos hl]

theorem rf_const4 (v : Nat) (l : List F) (bs : Bytes) (hv : v % 2 ^ 32 = v) : readFields (.const 4 v :: l) (be32 v ++ bs) = readFields l bs :=
  rf_const _ _ _ _ _ rfl ((rd_be32 v).trans hv)

theorem rf_rest (bs : Bytes) : readFields [.rest] bs = some [.b bs] := rfl

theorem rf_end : readFields [] [] = some [] := rfl

/-! ## Initialisation segments -/

/-- A number that has been written in so many bits. -/
abbrev n32 (x : Nat) : V := .n (x % 2 ^ 32)
abbrev n16 (x : Nat) : V := .n (x % 2 ^ 16)

/-- The fields of the sample entry: description of the media 1 and, of a picture, its size and no name for the compressor; of sound,
channels and bits of a sample, and as sampling rate, in 1/65536 Hz, the time base with the rate behind the point. -/
def entryValues (c : Ctx) : List V :=
  if c.media.isVideo then [.n 1, n16 c.width, n16 c.height, .b (List.replicate 32 0)]
  else [.n 1, n16 c.channels, n16 c.sampleSize, .n (c.timeBase % 2 ^ 16 * 2 ^ 16 + c.sampleRate % 2 ^ 16)]

/-- What is to be read of an initialisation segment. -/
def initValues (c : Ctx) : List (Bytes × Option (List V)) :=
  [(ascii "ftyp", some [.b (ascii "iso6"), .n 1, .b (ascii "isomiso6dash")]),
   (ascii "moov", some []),
   (ascii "mvhd", some [.n 0, .n 0, .n 1000, .n 0, .n 1]),
   (ascii "mvex", some []),
   (ascii "trex", some [.n 1, .n 1, n32 c.sampleDuration, .n 0, .n 0]),
   (ascii "trak", some []),
   (ascii "tkhd", some [.n 15, .n 0, .n 0, .n 1, .n 0, .n 0, .n 0, .n (if c.media.isVideo then 0 else 0x100),
     .n (if c.media.isVideo then c.width % 2 ^ 16 * 2 ^ 16 else 0), .n (if c.media.isVideo then c.height % 2 ^ 16 * 2 ^ 16 else 0)]),
   (ascii "mdia", some []),
   (ascii "mdhd", some [.n 0, .n 0, n32 c.timeBase, .n 0, .n 0x15C7]),
   (ascii "hdlr", some [.b (if c.media.isVideo then ascii "vide" else ascii "soun"),
     .b ((if c.media.isVideo then ascii "VideoHandler" else ascii "SoundHandler") ++ [0])]),
   (ascii "minf", some []),
   (if c.media.isVideo then ascii "vmhd" else ascii "smhd", some []),
   (ascii "dinf", some []),
   (ascii "dref", some [.n 1]),
   (ascii "url ", some [.n 1]),
   (ascii "stbl", some []),
   (ascii "stsd", some [.n 1]),
   ((match c.media with | .avc => ascii "avc1" | .hevc => ascii "hev1" | .audio => ascii "mp4a"), some (entryValues c)),
   ((match c.media with | .avc => ascii "avcC" | .hevc => ascii "hvcC" | .audio => ascii "esds"),
     some [.b (if c.media.isVideo then c.extra else ((esds c).drop 12))]),
   (ascii "stts", some [.n 0]),
   (ascii "stsc", some [.n 0]),
   (ascii "stsz", some [.n 0, .n 0]),
   (ascii "stco", some [.n 0])]

theorem read_trex (c : Ctx) : readFields trexL ((trex c).drop 8) = some [.n 1, .n 1, n32 c.sampleDuration, .n 0, .n 0] := by
  have h : (trex c).drop 8 = be32 0 ++ (be32 1 ++ (be32 1 ++ (be32 c.sampleDuration ++ (be32 0 ++ (be32 0 ++ []))))) := rfl
  rw [h, trexL, rf_const4 0 _ _ rfl, rf_num4, rf_num4, rf_num4, rf_num4, rf_num4, rf_end]
  rfl

theorem rf_unity (l : List F) (bs : Bytes) : readFields (unity ++ l) (matrix 1 0 0 1 0 0 ++ bs) = readFields l bs := by
  have h : matrix 1 0 0 1 0 0 ++ bs = be32 0x10000 ++ (be32 0 ++ (be32 0 ++ (be32 0 ++ (be32 0x10000 ++ (be32 0 ++ (be32 0 ++ (be32 0 ++ (be32 0x40000000 ++ bs)))))))) := rfl
  rw [h]
  show readFields (.const 4 _ :: .const 4 _ :: .const 4 _ :: .const 4 _ :: .const 4 _ :: .const 4 _ :: .const 4 _ :: .const 4 _ :: .const 4 _ :: l) _ = _
  rw [rf_const4 _ _ _ rfl, rf_const4 _ _ _ rfl, rf_const4 _ _ _ rfl, rf_const4 _ _ _ rfl, rf_const4 _ _ _ rfl, rf_const4 _ _ _ rfl, rf_const4 _ _ _ rfl,
    rf_const4 _ _ _ rfl, rf_const4 _ _ _ rfl]

theorem read_tkhd (c : Ctx) : readFields tkhdL ((tkhd c).drop 8) =
    some [.n 15, .n 0, .n 0, .n 1, .n 0, .n 0, .n 0, .n (if c.media.isVideo then 0 else 0x100),
      .n (if c.media.isVideo then c.width % 2 ^ 16 * 2 ^ 16 else 0), .n (if c.media.isVideo then c.height % 2 ^ 16 * 2 ^ 16 else 0)] := by
  have h : ∀ (v w x : Nat), readFields tkhdL (be32 15 ++ (be32 0 ++ (be32 0 ++ (be32 1 ++ (zeros 4 ++ (be32 0 ++ (zeros 8 ++ (be16 0 ++ (be16 0 ++
      (be16 v ++ (zeros 2 ++ (matrix 1 0 0 1 0 0 ++ (be32 w ++ (be32 x ++ [])))))))))))))) =
      some [.n 15, .n 0, .n 0, .n 1, .n 0, .n 0, .n 0, .n (v % 2 ^ 16), .n (w % 2 ^ 32), .n (x % 2 ^ 32)] := by
    intro v w x
    simp only [tkhdL, List.cons_append, List.nil_append, rf_num4, rf_zero, rf_num2, rf_unity, rf_end, Option.map_some]
  have e1 : ∀ x : Nat, x * 2 ^ 16 % 2 ^ 32 = x % 2 ^ 16 * 2 ^ 16 := by intro x; omega
  cases hv : c.media.isVideo with
  | true =>
    have e : (tkhd c).drop 8 = be32 15 ++ (be32 0 ++ (be32 0 ++ (be32 1 ++ (zeros 4 ++ (be32 0 ++ (zeros 8 ++ (be16 0 ++ (be16 0 ++
      (be16 0 ++ (zeros 2 ++ (matrix 1 0 0 1 0 0 ++ (be32 (c.width * 2 ^ 16) ++ (be32 (c.height * 2 ^ 16) ++ []))))))))))))) := by
      unfold tkhd; rw [hv]; rfl
    rw [e, h, e1, e1]
    rfl
  | false =>
    have e : (tkhd c).drop 8 = be32 15 ++ (be32 0 ++ (be32 0 ++ (be32 1 ++ (zeros 4 ++ (be32 0 ++ (zeros 8 ++ (be16 0 ++ (be16 0 ++
      (be16 0x100 ++ (zeros 2 ++ (matrix 1 0 0 1 0 0 ++ (be32 0 ++ (be32 0 ++ []))))))))))))) := by
      unfold tkhd; rw [hv]; rfl
    rw [e, h]
    rfl

theorem read_mdhd (c : Ctx) : readFields mdhdL ((mdhd c).drop 8) = some [.n 0, .n 0, n32 c.timeBase, .n 0, .n 0x15C7] := by
  have e : (mdhd c).drop 8 = be32 0 ++ (be32 0 ++ (be32 0 ++ (be32 c.timeBase ++ (be32 0 ++ (be16 0x15C7 ++ (zeros 2 ++ [])))))) := rfl
  rw [e, mdhdL, rf_const4 0 _ _ rfl]
  simp only [rf_num4, rf_num2, rf_zero, rf_end, Option.map_some]

theorem read_hdlr (c : Ctx) : readFields hdlrL ((hdlr c).drop 8) = some [.b (if c.media.isVideo then ascii "vide" else ascii "soun"),
     .b ((if c.media.isVideo then ascii "VideoHandler" else ascii "SoundHandler") ++ [0])] := by
  unfold hdlr
  cases c.media.isVideo <;> rfl

theorem read_visual (c : Ctx) : readFields visualL (visual c) = some [.n 1, n16 c.width, n16 c.height, .b (List.replicate 32 0)] := by
  have e : visual c = zeros 6 ++ (be16 1 ++ (zeros 2 ++ (zeros 2 ++ (zeros 12 ++ (be16 c.width ++ (be16 c.height ++ (be32 0x480000 ++ (be32 0x480000 ++
    (zeros 4 ++ (be16 1 ++ (zeros 32 ++ (be16 0x18 ++ (be16 0xffff ++ []))))))))))))) := rfl
  rw [e, visualL]
  simp only [rf_zero, rf_num2]
  rw [rf_const4 _ _ _ rfl, rf_const4 _ _ _ rfl, rf_zero, rf_const 2 1 _ (be16 1) _ rfl rfl, rf_bytes 32 _ (zeros 32) _ rfl, rf_const 2 0x18 _ (be16 0x18) _ rfl rfl,
    rf_const 2 0xffff _ (be16 0xffff) _ rfl rfl, rf_end]
  rfl

theorem read_sound (c : Ctx) : readFields soundL (sound c) =
    some [.n 1, n16 c.channels, n16 c.sampleSize, .n (c.timeBase % 2 ^ 16 * 2 ^ 16 + c.sampleRate % 2 ^ 16)] := by
  have e : sound c = zeros 6 ++ (be16 1 ++ (zeros 8 ++ (be16 c.channels ++ (be16 c.sampleSize ++ (zeros 2 ++ (zeros 2 ++ ((be16 c.timeBase ++ be16 c.sampleRate) ++ [])))))))  := rfl
  rw [e, soundL]
  simp only [rf_zero, rf_num2]
  rw [rf_num 4 (c.timeBase % 2 ^ 16 * 2 ^ 16 + c.sampleRate % 2 ^ 16) _ (be16 c.timeBase ++ be16 c.sampleRate) _ rfl, rf_end]
  · rfl
  · simp only [rdBE, be16, List.cons_append, List.nil_append, List.foldl, ofNat_toNat]; omega

theorem read_sidx (c : Ctx) : readFields sidxL ((sidx c).drop 8) =
    some [.n 1, n32 c.timeBase, .n (c.ept % 2 ^ 64), .n 0, n32 c.refSize, n32 c.cur, .n 0x90000000] := by
  have e : (sidx c).drop 8 = be32 0x1000000 ++ (be32 1 ++ (be32 c.timeBase ++ (be64 c.ept ++ (be64 0 ++ (zeros 2 ++ (be16 1 ++ (be32 c.refSize ++ (be32 c.cur ++
    (be32 0x90000000 ++ []))))))))) := rfl
  rw [e, sidxL, rf_const4 _ _ _ rfl]
  simp only [rf_zero, rf_num4, rf_num8]
  rw [rf_const 2 1 _ (be16 1) _ rfl rfl]
  simp only [rf_num4, rf_end, Option.map_some]

theorem read_tfdt (c : Ctx) : readFields tfdtL ((tfdt c).drop 8) = some [.n (c.ept % 2 ^ 64)] := by
  have e : (tfdt c).drop 8 = be32 0x1000000 ++ (be64 c.ept ++ []) := rfl
  rw [e, tfdtL, rf_const4 _ _ _ rfl, rf_num8, rf_end]
  rfl

theorem read_mfhd (c : Ctx) : readFields countL ((mfhd c).drop 8) = some [n32 c.seq] := by
  have e : (mfhd c).drop 8 = be32 0 ++ (be32 c.seq ++ []) := rfl
  rw [e, countL, rf_const4 _ _ _ rfl, rf_num4, rf_end]
  rfl

theorem read_trun (c : Ctx) (offset : Nat) : readFields trunL (trunBody c offset) =
    some [.n (if c.media.isVideo then 0xF01 else 0x301), n32 c.samples.length, n32 offset, .b (runEntries c.media c.samples)] := by
  have e : trunBody c offset = be32 (boxFlags c.media) ++ (be32 c.samples.length ++ (be32 offset ++ runEntries c.media c.samples)) := by
    simp only [trunBody, List.append_assoc]
  rw [e, trunL, rf_num4, rf_num4, rf_num4, rf_rest]
  cases hm : c.media <;> rfl

theorem read_esds (c : Ctx) : readFields [plainBox, .rest] ((esds c).drop 8) = some [.b ((esds c).drop 12)] := by
  have e : (esds c).drop 8 = be32 0 ++ (esds c).drop 12 := by
    obtain ⟨x, hx⟩ : ∃ x, esds c = patched (ascii "esds" ++ (zeros 4 ++ x)) := ⟨_, by simp only [esds, List.append_assoc]; rfl⟩
    have h8 : (esds c).drop 8 = zeros 4 ++ x := by rw [hx, patched_box _ _ rfl, box_body rfl]
    have h12 : (esds c).drop 12 = x := by
      rw [show (12 : Nat) = 8 + 4 from rfl, ← List.drop_drop, h8, drop_append_self _ _ 4 rfl]
    rw [h8, h12]
    rfl
  rw [e, rf_const4 _ _ _ rfl]
  rfl

/-! The boxes, by type. -/

theorem b_ftyp : readBox (ascii "ftyp") (ftyp.drop 8) = some [.b (ascii "iso6"), .n 1, .b (ascii "isomiso6dash")] := by decide +kernel
theorem b_mvhd : readBox (ascii "mvhd") (mvhd.drop 8) = some [.n 0, .n 0, .n 1000, .n 0, .n 1] := by decide +kernel
theorem b_vmhd : readBox (ascii "vmhd") (vmhd.drop 8) = some [] := by decide +kernel
theorem b_smhd : readBox (ascii "smhd") (smhd.drop 8) = some [] := by decide +kernel
theorem b_dref : readBox (ascii "dref") (zeros 4 ++ be32 1) = some [.n 1] := by decide +kernel
theorem b_stsd : readBox (ascii "stsd") (zeros 4 ++ be32 1) = some [.n 1] := by decide +kernel
theorem b_url : readBox (ascii "url ") (url.drop 8) = some [.n 1] := by decide +kernel
theorem b_stts : readBox (ascii "stts") (stts.drop 8) = some [.n 0] := by decide +kernel
theorem b_stsc : readBox (ascii "stsc") (stsc.drop 8) = some [.n 0] := by decide +kernel
theorem b_stsz : readBox (ascii "stsz") (stsz.drop 8) = some [.n 0, .n 0] := by decide +kernel
theorem b_stco : readBox (ascii "stco") (stco.drop 8) = some [.n 0] := by decide +kernel
theorem b_styp : readBox (ascii "styp") (styp.drop 8) = some [.b (ascii "iso6"), .n 1, .b (ascii "isomiso6dash")] := by decide +kernel
theorem b_tfhd : readBox (ascii "tfhd") (tfhd.drop 8) = some [.n 0x20000, .n 1] := by decide +kernel
theorem b_moov : readBox (ascii "moov") ([]) = some [] := by decide +kernel
theorem b_mvex : readBox (ascii "mvex") ([]) = some [] := by decide +kernel
theorem b_trak : readBox (ascii "trak") ([]) = some [] := by decide +kernel
theorem b_mdia : readBox (ascii "mdia") ([]) = some [] := by decide +kernel
theorem b_minf : readBox (ascii "minf") ([]) = some [] := by decide +kernel
theorem b_dinf : readBox (ascii "dinf") ([]) = some [] := by decide +kernel
theorem b_stbl : readBox (ascii "stbl") ([]) = some [] := by decide +kernel
theorem b_moof : readBox (ascii "moof") ([]) = some [] := by decide +kernel
theorem b_traf : readBox (ascii "traf") ([]) = some [] := by decide +kernel
theorem l_trex (x : Bytes) : readBox (ascii "trex") x = readFields trexL x := rfl
theorem l_tkhd (x : Bytes) : readBox (ascii "tkhd") x = readFields tkhdL x := rfl
theorem l_mdhd (x : Bytes) : readBox (ascii "mdhd") x = readFields mdhdL x := rfl
theorem l_hdlr (x : Bytes) : readBox (ascii "hdlr") x = readFields hdlrL x := rfl
theorem l_avc1 (x : Bytes) : readBox (ascii "avc1") x = readFields visualL x := rfl
theorem l_hev1 (x : Bytes) : readBox (ascii "hev1") x = readFields visualL x := rfl
theorem l_mp4a (x : Bytes) : readBox (ascii "mp4a") x = readFields soundL x := rfl
theorem l_avcC (x : Bytes) : readBox (ascii "avcC") x = readFields [.rest] x := rfl
theorem l_hvcC (x : Bytes) : readBox (ascii "hvcC") x = readFields [.rest] x := rfl
theorem l_esds (x : Bytes) : readBox (ascii "esds") x = readFields [plainBox, .rest] x := rfl
theorem l_sidx (x : Bytes) : readBox (ascii "sidx") x = readFields sidxL x := rfl
theorem l_mfhd (x : Bytes) : readBox (ascii "mfhd") x = readFields countL x := rfl
theorem l_tfdt (x : Bytes) : readBox (ascii "tfdt") x = readFields tfdtL x := rfl
theorem l_trun (x : Bytes) : readBox (ascii "trun") x = readFields trunL x := rfl
theorem l_mdat (x : Bytes) : readBox (ascii "mdat") x = readFields [.rest] x := rfl

/-- **C20.** Every box of an initialisation segment, with its fields as the standard lays them out. -/
theorem init_segment_fields (cap : Nat) (hcap : cap < 2 ^ 32) (c c' : Ctx) (src bytes : Bytes) (h : initGenerator cap c src = .ok (.out c' bytes)) :
    readFile bytes = some (initValues { c with extra := src }) := by
  simp only [initGenerator, store] at h
  (repeat' split at h) <;> cases h
  rename_i h1 h2
  unfold readFile
  rw [(init_parses _ (by omega)).file, Option.map_some]
  congr 1
  generalize { c with extra := src } = d
  have v1 := video_config d
  cases hm : d.media <;>
    simp only [hm, Media.isVideo, Bool.false_eq_true, if_true, if_false] at v1 <;>
    simp only [initBoxes, moovBoxes, trakBoxes, mdiaBoxes, minfBoxes, dinfBoxes, stblBoxes, leafBox, readAll, Box.read, hm, entryType, configType, Media.isVideo,
      entryFields, Bool.false_eq_true, if_true, if_false, List.append_nil, List.cons_append, List.nil_append, initValues, entryValues,
      b_ftyp, b_mvhd, b_vmhd, b_smhd, b_dref, b_stsd, b_url, b_stts, b_stsc, b_stsz, b_stco, b_moov, b_mvex, b_trak, b_mdia, b_minf, b_dinf, b_stbl, l_trex,
      l_tkhd, l_mdhd, l_hdlr, l_avc1, l_hev1, l_mp4a, l_avcC, l_hvcC, rf_rest, read_trex, read_tkhd, read_mdhd, read_hdlr, read_visual, read_sound, v1]
  have : (configBytes d) = esds d := by unfold configBytes; rw [hm]
  rw [this, l_esds, read_esds]

/-! ### The descriptors of sound -/

/-- What an elementary stream descriptor (ISO/IEC 14496-1) says. -/
structure StreamDesc where
  id : Nat
  flags : Nat
  /-- 0x40: MPEG-4 audio -/
  objectType : Nat
  /-- kind of stream (5: audio), not upstream, and the reserved bit -/
  streamType : Nat
  buffer : Nat
  maxRate : Nat
  avgRate : Nat
  info : Bytes
  /-- 2: the synchronisation layer predefined for MP4 files -/
  sync : Bytes
  deriving DecidableEq

/-- The descriptors one inside the other, nothing left over anywhere. -/
def readStreamDesc (bs : Bytes) : Option StreamDesc :=
  match descriptor bs with
  | some (3, es, []) =>
    match readFields [.num 2, .num 1, .rest] es with
    | some [.n id, .n flags, .b inner] =>
      match descriptor inner with
      | some (4, dc, sl) =>
        match readFields [.num 1, .num 1, .num 3, .num 4, .num 4, .rest] dc, descriptor sl with
        | some [.n ot, .n st, .n bu, .n mx, .n av, .b i], some (6, sync, []) =>
          match descriptor i with
          | some (5, info, []) => some ⟨id, flags, ot, st, bu, mx, av, info, sync⟩
          | _ => none
        | _, _ => none
      | _ => none
    | _ => none
  | _ => none

/-- **C20.** The descriptors of sound: stream 1 of MPEG-4 audio, with the decoder's information given. -/
theorem read_stream_desc (c : Ctx) (hs : c.extra.length < 105) :
    readStreamDesc ((esds c).drop 12) = some ⟨1, 0, 0x40, 0x15, 0, 0x1F151, 0x1F14D, c.extra, [2]⟩ := by
  obtain ⟨d, hd⟩ : ∃ d, d = be8 0x05 ++ (be8 (c.extra.length % 128) ++ (c.extra ++ [])) := ⟨_, rfl⟩
  obtain ⟨sl, hsl⟩ : ∃ sl, sl = be8 6 ++ (be8 (1 % 128) ++ (be8 2 ++ [])) := ⟨_, rfl⟩
  obtain ⟨dh, hdh⟩ : ∃ dh, dh = be8 0x40 ++ (be8 0x15 ++ (zeros 3 ++ (be32 0x1F151 ++ (be32 0x1F14D ++ d)))) := ⟨_, rfl⟩
  obtain ⟨es, hes⟩ : ∃ es, es = be16 1 ++ (be8 0 ++ (be8 4 ++ (be8 ((15 + c.extra.length) % 128) ++ (dh ++ sl)))) := ⟨_, rfl⟩
  have hld : d.length = 2 + c.extra.length := by rw [hd]; simp [be8]; omega
  have hldh : dh.length = 15 + c.extra.length := by rw [hdh]; simp [be8, be32, zeros, hld]; omega
  have hlsl : sl.length = 3 := by rw [hsl]; rfl
  have hles : es.length = 23 + c.extra.length := by rw [hes]; simp [be8, be16, hldh, hlsl]; omega
  have key : (esds c).drop 12 = be8 3 ++ (be8 ((23 + c.extra.length) % 128) ++ (es ++ [])) := by
    obtain ⟨x, hx⟩ : ∃ x, x = be8 3 ++ (be8 ((23 + c.extra.length) % 128) ++ (es ++ [])) := ⟨_, rfl⟩
    have he : esds c = patched (ascii "esds" ++ (zeros 4 ++ x)) := by
      rw [hx, hes, hdh, hsl, hd]
      simp only [esds, List.append_assoc, List.append_nil]
      rfl
    rw [← hx, show (12 : Nat) = 8 + 4 from rfl, ← List.drop_drop, he, patched_box _ _ rfl, box_body rfl, drop_append_self _ _ 4 rfl]
  have r1 : readFields [.num 2, .num 1, .rest] es = some [.n 1, .n 0, .b (be8 4 ++ (be8 ((15 + c.extra.length) % 128) ++ (dh ++ sl)))] := by
    rw [hes, rf_num 2 1 _ (be16 1) _ rfl rfl, rf_num 1 0 _ (be8 0) _ rfl rfl, rf_rest]
    rfl
  have r2 : readFields [.num 1, .num 1, .num 3, .num 4, .num 4, .rest] dh = some [.n 0x40, .n 0x15, .n 0, .n 0x1F151, .n 0x1F14D, .b d] := by
    rw [hdh, rf_num 1 0x40 _ (be8 0x40) _ rfl rfl, rf_num 1 0x15 _ (be8 0x15) _ rfl rfl, rf_num 3 0 _ (zeros 3) _ rfl rfl,
      rf_num 4 0x1F151 _ (be32 0x1F151) _ rfl rfl, rf_num 4 0x1F14D _ (be32 0x1F14D) _ rfl rfl, rf_rest]
    rfl
  have r3 : descriptor sl = some (6, [2], []) := by rw [hsl]; rfl
  have r4 : descriptor d = some (5, c.extra, []) := by rw [hd]; exact descriptor_read 5 _ (by omega) (by omega) _ _ rfl
  rw [key]
  unfold readStreamDesc
  rw [descriptor_read 3 _ (by omega) (by omega) _ _ hles]
  simp only [r1]
  rw [descriptor_read 4 _ (by omega) (by omega) _ _ hldh]
  simp only [r2, r3, r4]

/-- **C20.** The descriptors in the file: the box of the descriptors is read as those of `read_stream_desc`. -/
theorem init_stream_desc (cap : Nat) (hcap : cap < 2 ^ 32) (c c' : Ctx) (src bytes : Bytes) (hm : c.media = .audio) (hs : src.length < 105)
    (h : initGenerator cap c src = .ok (.out c' bytes)) :
    ∃ vs x, readFile bytes = some vs ∧ (ascii "esds", some [.b x]) ∈ vs ∧
      readStreamDesc x = some ⟨1, 0, 0x40, 0x15, 0, 0x1F151, 0x1F14D, src, [2]⟩ := by
  refine ⟨_, _, init_segment_fields cap hcap c c' src bytes h, ?_, read_stream_desc { c with extra := src } hs⟩
  simp [initValues, hm, Media.isVideo]

/-! The cases. -/

example : readFile (outBytes (initGenerator MAX_DAT (demoCtx .hevc) [9, 8, 7])) = some (initValues { demoCtx .hevc with extra := [9, 8, 7] }) ∧
    ((initValues { demoCtx .hevc with extra := [9, 8, 7] }).lookup (ascii "hvcC")) = some (some [.b [9, 8, 7]]) := by decide +kernel

example : (readFile (outBytes (initGenerator MAX_DAT (demoCtx .audio) [0x11, 0x90]))).bind (·.lookup (ascii "mp4a")) =
    some (some [.n 1, .n 2, .n 16, .n (48000 * 65536 + 48000)]) := by decide +kernel

example : readStreamDesc ((esds { demoCtx .audio with extra := [0x11, 0x90] }).drop 12) = some ⟨1, 0, 0x40, 0x15, 0, 0x1F151, 0x1F14D, [0x11, 0x90], [2]⟩ := by
  decide +kernel

/-- **C20 (recorded).** The number for the next track is that of the track there is; the standard has it larger than any in use. -/
theorem next_track_is_in_use (cap : Nat) (hcap : cap < 2 ^ 32) (c c' : Ctx) (src bytes : Bytes) (h : initGenerator cap c src = .ok (.out c' bytes)) :
    ∃ vs w x t l, readFile bytes = some vs ∧ (ascii "mvhd", some [.n 0, .n 0, .n 1000, .n 0, .n t]) ∈ vs ∧
      (ascii "tkhd", some (.n 15 :: .n w :: .n x :: .n t :: l)) ∈ vs :=
  ⟨_, 0, 0, 1, _, init_segment_fields cap hcap c c' src bytes h, by simp [initValues], List.mem_cons_of_mem _ (List.mem_cons_of_mem _ (List.mem_cons_of_mem _ (List.mem_cons_of_mem _ (List.mem_cons_of_mem _
    (List.mem_cons_of_mem _ List.mem_cons_self)))))⟩

/-! ## Media segments -/

/-- What is to be read of a media segment: the index says where it starts, how long it is and that it starts with a point to enter
(type 1); the run says which fields each sample has, and where the data is. -/
def segmentValues (c : Ctx) : List (Bytes × Option (List V)) :=
  [(ascii "styp", some [.b (ascii "iso6"), .n 1, .b (ascii "isomiso6dash")]),
   (ascii "sidx", some [.n 1, n32 c.timeBase, .n (c.ept % 2 ^ 64), .n 0, .n (indexed c), n32 c.cur, .n 0x90000000]),
   (ascii "moof", some []),
   (ascii "mfhd", some [n32 c.seq]),
   (ascii "traf", some []),
   (ascii "tfhd", some [.n 0x20000, .n 1]),
   (ascii "tfdt", some [.n (c.ept % 2 ^ 64)]),
   (ascii "trun", some [.n (if c.media.isVideo then 0xF01 else 0x301), .n c.samples.length, .n (dataOffset c), .b (runEntries c.media c.samples)]),
   (ascii "mdat", some [.b c.data])]

theorem read_sidx_of (c : Ctx) (r : Nat) (h : r % 2 ^ 32 = r) : readFields sidxL ((sidx { c with refSize := r }).drop 8) =
    some [.n 1, n32 c.timeBase, .n (c.ept % 2 ^ 64), .n 0, .n r, n32 c.cur, .n 0x90000000] := by
  have e := read_sidx { c with refSize := r }
  simp only [n32, h] at e
  exact e

theorem read_trun_of (c : Ctx) (o : Nat) (h1 : c.samples.length % 2 ^ 32 = c.samples.length) (h2 : o % 2 ^ 32 = o) : readFields trunL (trunBody c o) =
    some [.n (if c.media.isVideo then 0xF01 else 0x301), .n c.samples.length, .n o, .b (runEntries c.media c.samples)] := by
  rw [read_trun, n32, n32, h1, h2]

theorem readAll_segment (c : Ctx) (m1 : indexed c % 2 ^ 32 = indexed c) (m2 : c.samples.length % 2 ^ 32 = c.samples.length)
    (m3 : dataOffset c % 2 ^ 32 = dataOffset c) : readAll (segmentBoxes c) = segmentValues c := by
  have e1 := (l_sidx _).trans (read_sidx_of c (indexed c) m1)
  have e4 := (l_trun _).trans (read_trun_of c (dataOffset c) m2 m3)
  simp only [segmentBoxes, leafBox, readAll, Box.read, List.cons_append, List.nil_append, List.append_nil]
  rw [b_styp, e1, b_moof, l_mfhd, read_mfhd, b_traf, b_tfhd, l_tfdt, read_tfdt, e4, l_mdat, rf_rest]
  simp only [segmentValues]

/-- **C20.** Every box of a media segment, with its fields as the standard lays them out. -/
theorem segment_fields (cap : Nat) (hcap : cap < 2 ^ 32) (c c' : Ctx) (bytes : Bytes) (hpos : c.trunPos = c.moofPos)
    (h : segmentGenerator cap c = .ok (.out c' bytes)) : readFile bytes = some (segmentValues c) := by
  obtain ⟨hb, _, hle, _⟩ := segment_layout hcap hpos h
  have hl : 80 + indexed c < 2 ^ 32 := by omega
  have hX : c.samples.length ≤ c.samples.length * nitems c.media * 4 := by
    have : 1 ≤ nitems c.media := by unfold nitems; split <;> omega
    calc c.samples.length = c.samples.length * 1 := (Nat.mul_one _).symm
      _ ≤ c.samples.length * nitems c.media := Nat.mul_le_mul_left _ this
      _ ≤ _ := by omega
  have hl' := hl
  simp only [indexed] at hl'
  have hd : dataOffset c < 2 ^ 32 := by simp only [dataOffset]; omega
  rw [hb, readFile, (segment_parses c hl).file, Option.map_some,
    readAll_segment c (Nat.mod_eq_of_lt (by omega)) (Nat.mod_eq_of_lt (by omega)) (Nat.mod_eq_of_lt hd)]

example : readFile (outBytes (segmentGenerator MAX_DAT (demoCtx .avc))) = some (segmentValues (demoCtx .avc)) ∧
    (demoCtx .avc).trunPos = (demoCtx .avc).moofPos ∧
    (segmentValues (demoCtx .avc)).lookup (ascii "trun") =
      some (some [.n 0xF01, .n 2, .n 128, .b (be32 1024 ++ be32 2 ++ be32 0 ++ be32 2 ++ be32 1024 ++ be32 3 ++ be32 0x10000 ++ be32 4294967295)]) := by
  decide +kernel

end Lms.Isoff
