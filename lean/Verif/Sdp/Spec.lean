import Verif.Sdp.Model

/-!
# Specification: reading a session description

A reader of session descriptions (RFC 4566, as far as the lines concerned), independent of the code that writes them.
-/

namespace Lms.Sdp

/-- The pieces between occurrences of `c`. -/
def cut (c : Char) : Str → List Str
  | [] => [[]]
  | x :: s => if x = c then [] :: cut c s else match cut c s with
    | p :: ps => (x :: p) :: ps
    | [] => [[x]]

/-- A decimal number: one or more digits. -/
def readDec (s : Str) : Option Nat :=
  if s ≠ [] ∧ s.all (fun c => '0' ≤ c ∧ c ≤ '9') then some (s.foldl (fun n c => 10 * n + (c.toNat - 48)) 0) else none

/-- What follows a prefix. -/
def after (p s : Str) : Option Str := if p <+: s then some (s.drop p.length) else none

/-- A media section as a reader understands it. -/
structure Media where
  medium : Str
  port : Nat
  format : Nat
  bandwidth : Option Nat
  rtpmap : Option (Str × Nat × Option Nat)
  fmtp : List Str
  deriving DecidableEq, Repr

/-- `<encoding>/<clock>[/<channels>]` of the format asked for. -/
def readMap (pt : Nat) (s : Str) : Option (Str × Nat × Option Nat) :=
  match cut ' ' s with
  | [p, e] => if readDec p = some pt then
      match cut '/' e with
      | [n, f] => (readDec f).map fun f => (n, f, none)
      | [n, f, c] => (readDec f).bind fun f => (readDec c).map fun c => (n, f, some c)
      | _ => none
    else none
  | _ => none

/-- `<format> <parameters>` of the format asked for. -/
def readFmtp (pt : Nat) (s : Str) : Option Str :=
  match cut ' ' s with
  | [p, e] => if readDec p = some pt then some e else none
  | _ => none

/-- One section. -/
def readMedia : List Str → Option Media
  | [] => none
  | m :: rest => (after "m=".toList m).bind fun m => match cut ' ' m with
    | [med, port, proto, fmt] => if proto = "RTP/AVP".toList then
        (readDec port).bind fun port => (readDec fmt).map fun fmt =>
          { medium := med, port := port, format := fmt
            bandwidth := (rest.filterMap fun l => (after "b=AS:".toList l).bind readDec).head?
            rtpmap := (rest.filterMap fun l => (after "a=rtpmap:".toList l).bind (readMap fmt)).head?
            fmtp := rest.filterMap fun l => (after "a=fmtp:".toList l).bind (readFmtp fmt) }
      else none
    | _ => none

/-- Lines before the first media line, and the media sections. -/
def sections : List Str → List Str × List (List Str)
  | [] => ([], [])
  | l :: ls => if "m=".toList <+: l then ([], (l :: (sections ls).1) :: (sections ls).2) else (l :: (sections ls).1, (sections ls).2)

/-- A description: the name of the session and its media. -/
structure Desc where
  name : Option Str
  media : List Media
  deriving DecidableEq, Repr

/-- Reads a whole text of lines ended by newlines. -/
def read (s : Str) : Option Desc :=
  let x := sections (cut '\n' s)
  (x.2.mapM readMedia).map fun ms => { name := (x.1.filterMap (after "s=".toList)).head?, media := ms }

/-- What a request for a stream should say: number 97 or 96 with name, rate and channels, or the static number 14. -/
def wanted (s : Sub) : Option Media :=
  let base : Media := { medium := s.medium, port := u32 s.port, format := 0, bandwidth := some (u32 s.bandwidth), rtpmap := none, fmtp := [] }
  let map := (s.codec, u32 s.freq, if u32 s.channels = 0 then none else some (u32 s.channels))
  if s.codec = "mp3".toList then some { base with format := 14 }
  else if s.codec = "H264".toList then some { base with format := 96, rtpmap := some map, fmtp := ["packetization-mode=1".toList] }
  else if s.codec = "MPEG4-GENERIC".toList then some { base with
    format := 97, rtpmap := some map
    fmtp := if s.medium = "audio".toList then ["streamtype=5;profile-level-id=1;mode=AAC-hbr;sizelength=13;indexlength=3;indexdeltalength=3".toList] else [] }
  else if s.codec = "opus".toList ∨ s.codec = "pcm".toList ∨ s.codec = "pcmu".toList then some { base with format := 97, rtpmap := some map }
  else none

/-- Non-empty lines, ended by carriage return or newline, as the library reads them. -/
def lines2 (s : Str) : List Str := ((cut '\n' s).flatMap (cut '\r')).filter fun l => l ≠ []

end Lms.Sdp
