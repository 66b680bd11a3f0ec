import Verif.Common.Outcome
import Verif.Common.Bits

/-!
# The bit-stream reader and writer

Simplification: pointers are indices into the buffer, so a pointer that runs past the end by more than one element, which
C++ does not allow to be formed, is an ordinary number here.
-/

namespace Lms.BitStream

open Lms

/-- src/modules/transmitter/SPSparser/bs.h:34-40 `bs_t`: `p` is the distance from `start`, `buf` the bytes up to `end`. -/
structure BS where
  buf : Bytes
  p : Nat
  left : Nat

/-- bs.h:81-88 `bs_init`. -/
def init (buf : Bytes) : BS := ⟨buf, 0, 8⟩

/-- bs.h:116 `bs_eof`. -/
def eof (b : BS) : Bool := b.buf.length ≤ b.p

/-- bs.h:135, 143, 235: the move to the next bit, after `bits_left` was decremented to `left`. -/
def advance (b : BS) (left : Nat) : BS := if left = 0 then { b with p := b.p + 1, left := 8 } else { b with left := left }

/-- bs.h:124-138 `bs_read_u1`. -/
def readU1 (b : BS) : Nat × BS :=
  let left := b.left - 1
  let r := match b.buf[b.p]? with
    | some x => x.toNat / 2 ^ left % 2
    | none => 0
  (r, advance b left)

/-- bs.h:158-167 `bs_read_u`: `m` bits are still to be read. -/
def readLoop : Nat → BS → Nat → Nat × BS
  | 0, b, r => (r, b)
  | m + 1, b, r =>
    let (x, b') := readU1 b
    readLoop m b' (r ||| (x <<< m))

/-- bs.h:158-167 `bs_read_u`: a shift by 32 or more is undefined. -/
def readU (b : BS) (n : Nat) : Outcome (Nat × BS) := if 32 < n then .ub else .ok (readLoop n b 0)

/-- bs.h:180-191 `bs_read_u8`. -/
def readU8 (b : BS) : Nat × BS :=
  match b.buf[b.p]? with
  | some x => if b.left = 8 then (x.toNat, { b with p := b.p + 1 }) else readLoop 8 b 0
  | none => readLoop 8 b 0

/-- bs.h:198-201: the loop of `bs_read_ue`; the first argument is `32 - i`. -/
def ueLoop : Nat → BS → Nat → Nat × BS
  | 0, b, i => (i, (readU1 b).2)
  | n + 1, b, i =>
    let (x, b') := readU1 b
    if x = 0 ∧ eof b' = false then ueLoop n b' (i + 1) else (i, b')

/-- bs.h:193-205 `bs_read_ue`: `(1 << i) - 1` overflows `int` for `i = 31` and is undefined for `i = 32`. -/
def readUe (b : BS) : Outcome (Nat × BS) :=
  let (i, b') := ueLoop 32 b 0
  (readU b' i).bind fun r => if 31 ≤ i then .ub else .ok (r.1 + (2 ^ i - 1), r.2)

/-- bs.h:207-219 `bs_read_se`. -/
def readSe (b : BS) : Outcome (Int × BS) :=
  (readUe b).bind fun r => .ok (if r.1 % 2 = 1 then (((r.1 + 1) / 2 : Nat) : Int) else -((r.1 / 2 : Nat) : Int), r.2)

/-- bs.h:222-236 `bs_write_u1`. -/
def writeU1 (b : BS) (v : Nat) : BS :=
  let left := b.left - 1
  let buf := match b.buf[b.p]? with
    | some x => b.buf.set b.p ((x &&& ~~~((1 : UInt8) <<< UInt8.ofNat left)) ||| (UInt8.ofNat (v % 2) <<< UInt8.ofNat left))
    | none => b.buf
  advance { b with buf := buf } left

/-- bs.h:238-245 `bs_write_u`, `m` bits still to be written. -/
def writeLoop : Nat → BS → Nat → BS
  | 0, b, _ => b
  | m + 1, b, v => writeLoop m (writeU1 b (v / 2 ^ m % 2)) v

/-- bs.h:238-245 `bs_write_u`: shifting a 32-bit value by 32 or more is undefined. -/
def writeU (b : BS) (n v : Nat) : Outcome BS := if 32 < n then .ub else .ok (writeLoop n b v)

/-- bs.h:249-260 `bs_write_u8`. -/
def writeU8 (b : BS) (v : Nat) : BS :=
  if b.left = 8 ∧ eof b = false then { b with buf := b.buf.set b.p (UInt8.ofNat v), p := b.p + 1 } else writeLoop 8 b v

/-- bs.h:264-286 `len_table`, row by row. -/
def table : List Nat :=
  [1] ++ [1] ++ List.replicate 2 2 ++ List.replicate 4 3 ++ List.replicate 8 4 ++ List.replicate 16 5 ++
    List.replicate 32 6 ++ List.replicate 64 7 ++ List.replicate 128 8

/-- An entry (the indices used are below 256). -/
def lenTable (n : Nat) : Nat := table[n]?.getD 0

/-- bs.h:290-315: the number of bits of the incremented value. -/
def ueLen (v : Nat) : Nat :=
  if 0x01000000 ≤ v then 24 + lenTable (v / 2 ^ 24)
  else if 0x00010000 ≤ v then 16 + lenTable (v / 2 ^ 16)
  else if 0x00000100 ≤ v then 8 + lenTable (v / 2 ^ 8)
  else lenTable v

/-- bs.h:262-317 `bs_write_ue`. -/
def writeUe (b : BS) (v : Nat) : Outcome BS :=
  if v = 0 then .ok (writeU1 b 1)
  else
    let w := (v + 1) % 2 ^ 32
    writeU b (2 * ueLen w - 1) w

/-- bs.h:319-329 `bs_write_se`: `int` arithmetic, passed as unsigned. -/
def writeSe (b : BS) (v : Int) : Outcome BS :=
  if v ≤ 0 then (if 2 ^ 31 ≤ -v * 2 then .ub else writeUe b (-v * 2).toNat)
  else (if 2 ^ 31 ≤ v * 2 then .ub else writeUe b (v * 2 - 1).toNat)

/-- bs.h:331-340 `bs_read_bytes` for `len ≥ 0`: what is copied; note that the bit position within the byte is ignored. -/
def readBytes (b : BS) (n : Nat) : Bytes × BS := ((b.buf.drop b.p).take n, { b with p := b.p + n })

/-- bs.h:342-351 `bs_write_bytes` of a whole array. -/
def writeBytes (b : BS) (d : Bytes) : BS :=
  let n := min d.length (b.buf.length - b.p)
  { b with buf := b.buf.take b.p ++ d.take n ++ b.buf.drop (b.p + n), p := b.p + d.length }

/-- bs.h:353-361 `bs_skip_bytes`, 140-144 `bs_skip_u1`, 169-176 `bs_skip_u`. -/
def skipBytes (b : BS) (n : Nat) : BS := { b with p := b.p + n }
/-- src/modules/transmitter/SPSparser/bs.h:140-144, 169-176 `bs_skip_u1`, `bs_skip_u`. -/
def skipU : Nat → BS → BS
  | 0, b => b
  | n + 1, b => skipU n (advance b (b.left - 1))

/-- bs.h:363-368 `bs_next_bits`: reads on a copy. -/
def nextBits (b : BS) (n : Nat) : Outcome Nat := (readU ⟨b.buf.drop b.p, 0, b.left⟩ n).bind fun r => .ok r.1

end Lms.BitStream
