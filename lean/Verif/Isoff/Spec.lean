import Verif.Common.Bytes

/-!
# ISO base media files, read independently of the writer

A reader of box trees and of media segments, written from the format (ISO/IEC 14496-12) alone.
-/

namespace Lms.Isoff

/-- A box: its type, its own fields, and the boxes inside. -/
inductive Box where
  | mk (type : Bytes) (fields : Bytes) (kids : List Box)

/-- How many bytes of own fields a container of this type has; `none` for boxes without boxes inside. -/
def fieldsLength (t : Bytes) : Option Nat :=
  if t ∈ [ascii "moov", ascii "mvex", ascii "trak", ascii "mdia", ascii "minf", ascii "dinf", ascii "stbl",
      ascii "moof", ascii "traf"] then some 0
  else if t ∈ [ascii "dref", ascii "stsd"] then some 8
  else if t ∈ [ascii "avc1", ascii "hev1"] then some 78
  else if t = ascii "mp4a" then some 28
  else none

/-- Read a byte string as a sequence of boxes that tile it exactly. -/
def parse : Nat → Bytes → Option (List Box)
  | 0, bs => if bs.isEmpty then some [] else none
  | fuel + 1, bs =>
    if bs.isEmpty then some []
    else if bs.length < 8 then none
    else
      let size := rdBE (bs.take 4)
      let type := (bs.drop 4).take 4
      if size < 8 ∨ bs.length < size then none
      else
        let body := (bs.take size).drop 8
        match parse fuel (bs.drop size) with
        | none => none
        | some rest =>
          match fieldsLength type with
          | none => some (.mk type body [] :: rest)
          | some k =>
            if body.length < k then none
            else
              match parse fuel (body.drop k) with
              | none => none
              | some kids => some (.mk type (body.take k) kids :: rest)

/-- Read a whole file. -/
def parseFile (bs : Bytes) : Option (List Box) := parse bs.length bs

/-- The first box of a type in a sequence of boxes: its position and its content. -/
def findBox (type : Bytes) : Nat → Bytes → Option (Nat × Bytes)
  | 0, _ => none
  | fuel + 1, bs =>
    if bs.length < 8 then none
    else
      let size := rdBE (bs.take 4)
      if size < 8 ∨ bs.length < size then none
      else if (bs.drop 4).take 4 = type then some (0, (bs.take size).drop 8)
      else (findBox type fuel (bs.drop size)).map fun r => (size + r.1, r.2)

def find (type : Bytes) (bs : Bytes) : Option (Nat × Bytes) := findBox type bs.length bs

/-- One sample of a run, with the fields the flags say are there. -/
structure RunSample where
  duration : Option Nat
  size : Option Nat
  flags : Option Nat
  offset : Option Nat
  deriving DecidableEq, Repr

/-- A four-byte field if present. -/
def field (present : Bool) (bs : Bytes) : Option (Option Nat × Bytes) :=
  if present then (if bs.length < 4 then none else some (some (rdBE (bs.take 4)), bs.drop 4))
  else some (none, bs)

/-- The samples of a run. -/
def readRun (flags : Nat) : Nat → Bytes → Option (List RunSample)
  | 0, bs => if bs.isEmpty then some [] else none
  | n + 1, bs => do
    let (d, bs) ← field (flags.testBit 8) bs
    let (s, bs) ← field (flags.testBit 9) bs
    let (f, bs) ← field (flags.testBit 10) bs
    let (o, bs) ← field (flags.testBit 11) bs
    let rest ← readRun flags n bs
    return ⟨d, s, f, o⟩ :: rest

/-- What a player gets from a media segment. -/
structure Segment where
  /-- Sequence number of the fragment. -/
  seq : Nat
  /-- Decode time of the first sample. -/
  base : Nat
  /-- From the segment index: earliest presentation time, duration, size of the indexed part. -/
  indexTime : Nat
  indexDuration : Nat
  indexSize : Nat
  /-- Size of the part that the index refers to, as found in the file. -/
  actualSize : Nat
  samples : List (RunSample × Bytes)
  /-- What follows the samples in the file. -/
  after : Bytes

/-- Cut samples of the given sizes out of the data. -/
def cut : List RunSample → Bytes → Option (List (RunSample × Bytes) × Bytes)
  | [], bs => some ([], bs)
  | s :: ss, bs => do
    let n ← s.size
    if bs.length < n then none
    else
      let (r, rest) ← cut ss (bs.drop n)
      return ((s, bs.take n) :: r, rest)

/-- Play a media segment: locate the boxes, read the run, and take the sample data from the file at the
data offset, which counts from the start of the fragment box. -/
def demux (file : Bytes) : Option Segment := do
  let (_, sidx) ← find (ascii "sidx") file
  let (moofPos, moof) ← find (ascii "moof") file
  let (_, mfhd) ← find (ascii "mfhd") moof
  let (_, traf) ← find (ascii "traf") moof
  let (_, tfdt) ← find (ascii "tfdt") traf
  let (_, trun) ← find (ascii "trun") traf
  let flags := rdBE (trun.take 4)
  let n := rdBE ((trun.drop 4).take 4)
  if flags.testBit 0 = false then none
  else
    let dataOffset := rdBE ((trun.drop 8).take 4)
    let run ← readRun flags n (trun.drop 12)
    let (samples, rest) ← cut run (file.drop (moofPos + dataOffset))
    return {
      seq := rdBE ((mfhd.drop 4).take 4)
      base := rdBE ((tfdt.drop 4).take 8)
      indexTime := rdBE ((sidx.drop 12).take 8)
      indexDuration := rdBE ((sidx.drop 36).take 4)
      indexSize := rdBE ((sidx.drop 32).take 4)
      actualSize := file.length - moofPos
      samples := samples
      after := rest }

end Lms.Isoff

namespace Lms.Isoff

/-! ## Trees of box types -/

inductive Tree where
  | mk (type : String) (kids : List Tree)

mutual
/-- A box has the types of a tree. -/
def Box.has : Box → Tree → Prop
  | .mk t _ kids, .mk s trees => t = ascii s ∧ hasAll kids trees
def hasAll : List Box → List Tree → Prop
  | [], [] => True
  | b :: bs, t :: ts => b.has t ∧ hasAll bs ts
  | _, _ => False
end

/-! ## Reading an initialisation segment -/

def Box.fields : Box → Bytes
  | .mk _ f _ => f

def Box.kids : Box → List Box
  | .mk _ _ k => k

def Box.type : Box → Bytes
  | .mk t _ _ => t

def child (t : String) (bs : List Box) : Option Box := bs.find? fun b => b.type == ascii t

/-- `n` bytes at a position as a number. -/
def num (bs : Bytes) (pos n : Nat) : Nat := rdBE ((bs.drop pos).take n)

/-- What a player learns from an initialisation segment. -/
structure InitInfo where
  trackId : Nat
  trexTrackId : Nat
  defaultDuration : Nat
  timescale : Nat
  handler : Bytes
  /-- Width and height in 16.16 fixed point. -/
  trackWidth : Nat
  trackHeight : Nat
  entryType : Bytes
  /-- The own fields of the sample entry. -/
  entry : Bytes
  configType : Bytes
  config : Bytes

def readInit (file : Bytes) : Option InitInfo := do
  let top ← parseFile file
  let moov ← child "moov" top
  let mvex ← child "mvex" moov.kids
  let trex ← child "trex" mvex.kids
  let trak ← child "trak" moov.kids
  let tkhd ← child "tkhd" trak.kids
  let mdia ← child "mdia" trak.kids
  let mdhd ← child "mdhd" mdia.kids
  let hdlr ← child "hdlr" mdia.kids
  let minf ← child "minf" mdia.kids
  let stbl ← child "stbl" minf.kids
  let stsd ← child "stsd" stbl.kids
  let entry ← stsd.kids.head?
  let config ← entry.kids.head?
  return {
    trackId := num tkhd.fields 12 4
    trexTrackId := num trex.fields 4 4
    defaultDuration := num trex.fields 12 4
    timescale := num mdhd.fields 12 4
    handler := (hdlr.fields.drop 8).take 4
    trackWidth := num tkhd.fields 76 4
    trackHeight := num tkhd.fields 80 4
    entryType := entry.type
    entry := entry.fields
    configType := config.type
    config := config.fields }

/-! ## MPEG-4 descriptors (ISO/IEC 14496-1) -/

/-- The expandable length field: seven bits per byte, the high bit continues. -/
def descLength : Nat → Nat → Bytes → Option (Nat × Bytes)
  | 0, _, _ => none
  | _ + 1, _, [] => none
  | fuel + 1, acc, b :: bs =>
    let acc := acc * 128 + b.toNat % 128
    if b.toNat ≥ 128 then descLength fuel acc bs else some (acc, bs)

/-- A descriptor: tag, content, and what follows. -/
def descriptor (bs : Bytes) : Option (Nat × Bytes × Bytes) :=
  match bs with
  | [] => none
  | tag :: bs =>
    match descLength 4 0 bs with
    | none => none
    | some (n, bs) => if bs.length < n then none else some (tag.toNat, bs.take n, bs.drop n)

/-- The decoder specific information in an elementary stream descriptor box (its fields, with the four
bytes of version and flags): ES descriptor (3) > decoder configuration (4) > specific information (5),
and the synchronisation layer descriptor (6) after the configuration; nothing may be left over. -/
def decoderInfo (fields : Bytes) : Option Bytes :=
  match descriptor (fields.drop 4) with
  | some (3, es, []) =>
    match descriptor (es.drop 3) with
    | some (4, dc, sl) =>
      match descriptor (dc.drop 13), descriptor sl with
      | some (5, info, []), some (6, [2], []) => some info
      | _, _ => none
    | _ => none
  | _ => none

end Lms.Isoff
