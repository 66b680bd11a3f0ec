import Verif.Common.Mem

/-!
# Extraction of the raw payload of a NAL unit
-/

namespace Lms.Rbsp

open Lms

/-- src/modules/transmitter/SPSparser/h264_stream.c:50-92: the loop of `nal_to_rbsp`.  `room` is `*rbsp_size - j`, `count` the
run of zeros; `none` is the error result -1; otherwise the bytes stored from `rbsp_buf + j` on and the number of input bytes
consumed (the final value of `i` less its present one). -/
def extract (room count : Nat) : Bytes → Option (Bytes × Nat)
  | [] => some ([], 0)
  | b :: d =>
    if count = 2 ∧ b < 3 then none                                          -- 53-56
    else if count = 2 ∧ b = 3 then                                          -- 58
      match d with
      | [] => some ([], 0)                                                  -- 67-70
      | n :: d' =>
        if 3 < n then none                                                  -- 61-64
        else if room = 0 then none                                          -- 76-80, i was incremented
        else (extract (room - 1) (if n = 0 then 1 else 0) d').map fun r => (n :: r.1, r.2 + 2)
    else if room = 0 then none                                              -- 76-80
    else (extract (room - 1) (if b = 0 then count + 1 else 0) d).map fun r => (b :: r.1, r.2 + 1)

/-- h264_stream.c:44-97 `nal_to_rbsp` on a unit of at least one byte (the first is skipped unread): the payload and the
reported unit size. -/
def nalToRbsp (nal : Bytes) (cap : Nat) : Option (Bytes × Nat) :=
  (extract cap 0 nal.tail).map fun r => (r.1, r.2 + 1)

end Lms.Rbsp
