import Verif.Nalu.Model

/-!
# Independent readers: start codes, length-prefixed samples, decoder configuration records
-/

namespace Lms.Nalu

/-- Remove an Annex-B start code. -/
def strip (b : Bytes) : Bytes :=
  if b.take 3 = [0, 0, 1] then b.drop 3
  else if b.take 4 = [0, 0, 0, 1] then b.drop 4
  else b

/-- Read a sample of units with 4-byte lengths (ISO/IEC 14496-15, 5.3.3). -/
def readUnits (fuel : Nat) (b : Bytes) : Option (List Bytes) :=
  match fuel with
  | 0 => none
  | fuel + 1 =>
    if b = [] then some []
    else if b.length < 4 then none
    else
      let n := rdBE (b.take 4)
      let r := b.drop 4
      if r.length < n then none
      else (readUnits fuel (r.drop n)).map (r.take n :: ·)

/-- A sample is read to its end; every unit takes at least four bytes. -/
def units (b : Bytes) : Option (List Bytes) := readUnits (b.length + 1) b

/-- `count` parameter sets, each with a 16-bit length. -/
def readSets : Nat → Bytes → Option (List Bytes × Bytes)
  | 0, b => some ([], b)
  | k + 1, b =>
    if b.length < 2 then none
    else
      let n := rdBE (b.take 2)
      let r := b.drop 2
      if r.length < n then none
      else (readSets k (r.drop n)).map fun p => (r.take n :: p.1, p.2)

/-- AVCDecoderConfigurationRecord (ISO/IEC 14496-15, 5.2.4.1). -/
structure AvcC where
  profile : UInt8
  compat : UInt8
  level : UInt8
  lengthSize : Nat
  sps : List Bytes
  pps : List Bytes
  deriving DecidableEq

def readAvcC (b : Bytes) : Option AvcC :=
  match b with
  | v :: p :: c :: l :: ls :: ns :: r =>
    if v ≠ 1 then none
    else
      match readSets (ns.toNat % 32) r with
      | some (sps, np :: r) =>
        match readSets np.toNat r with
        | some (pps, []) => some ⟨p, c, l, ls.toNat % 4 + 1, sps, pps⟩
        | _ => none
      | _ => none
  | _ => none

/-- Arrays of an HEVCDecoderConfigurationRecord: type and sets. -/
def readArrays : Nat → Bytes → Option (List (Nat × List Bytes) × Bytes)
  | 0, b => some ([], b)
  | k + 1, b =>
    match b with
    | t :: n1 :: n2 :: r =>
      match readSets (rdBE [n1, n2]) r with
      | some (sets, r) => (readArrays k r).map fun p => ((t.toNat % 64, sets) :: p.1, p.2)
      | none => none
    | _ => none

/-- HEVCDecoderConfigurationRecord (ISO/IEC 14496-15, 8.3.3.1). -/
structure HvcC where
  /-- general_profile_space, tier, profile_idc; compatibility flags; constraint flags; level. -/
  profile : Bytes
  level : UInt8
  lengthSize : Nat
  arrays : List (Nat × List Bytes)
  deriving DecidableEq

def readHvcC (b : Bytes) : Option HvcC :=
  if b.length < 23 ∨ b[0]? ≠ some 1 then none
  else
    match readArrays ((b[22]?.getD 0).toNat) (b.drop 23) with
    | some (a, []) => some ⟨(b.drop 1).take 11, b[12]?.getD 0, (b[21]?.getD 0).toNat % 4 + 1, a⟩
    | _ => none

end Lms.Nalu
