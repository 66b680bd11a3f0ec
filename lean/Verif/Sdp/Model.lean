import Verif.Common.Outcome

/-!
# Session descriptions of the receiver

The text `SourceManager` makes for a session of plain RTP streams (`src/modules/receiver/SourceManager.cpp:363-408` with
the event 325-348), and the change of name made to a description got from a server (`Handlers.cpp:328-342`).

A C++ `char` is a Lean `Char` (only compared with ASCII ones).  What the library makes of the text is not modelled; the
specification has a reader of its own.
-/

namespace Lms.Sdp

abbrev Str := List Char

/-- Printing an `unsigned` to a stream in decimal. -/
def dec (n : Nat) : Str := if n < 10 then [Char.ofNat (48 + n)] else dec (n / 10) ++ [Char.ofNat (48 + n % 10)]

/-- An `int` passed as `unsigned` (`SourceManager.cpp:344-345` to 375-380). -/
def u32 (x : Int) : Nat := (x % 2 ^ 32).toNat

/-- `Utils.cpp:572-590` `getPayloadFromCodec`; `none` is -1. -/
def payloadOf (codec : Str) : Option Nat :=
  if codec = "pcmu".toList ∨ codec = "opus".toList ∨ codec = "pcm".toList ∨ codec = "MPEG4-GENERIC".toList then some 97
  else if codec = "mp3".toList then some 14
  else if codec = "H264".toList then some 96
  else none

/-- `SourceManager.cpp:363-373` `makeSessionSDP`. -/
def sessionText (name desc : Str) : Str :=
  "v=0\n".toList ++ ("o=- 0 0 IN IP4 127.0.0.1\n".toList ++ ("s=".toList ++ name ++ "\n".toList ++ ("i=".toList ++ desc ++ "\n".toList ++ "t= 0 0\n".toList)))

/-- One entry of `subsessions` in the event (`SourceManager.cpp:331-336`). -/
structure Sub where
  medium : Str
  codec : Str
  bandwidth : Int
  freq : Int
  port : Int
  channels : Int
  deriving DecidableEq, Repr

/-- `SourceManager.cpp:375-408` `makeSubsessionSDP` (the protocol name is not used). -/
def subText (pt : Nat) (s : Sub) : Str :=
  let head := "m=".toList ++ s.medium ++ " ".toList ++ dec (u32 s.port) ++ " RTP/AVP ".toList ++ dec pt ++ "\n".toList ++
    ("c=IN IP4 127.0.0.1\n".toList ++ ("b=AS:".toList ++ dec (u32 s.bandwidth) ++ "\n".toList))
  if pt < 96 then head
  else
    head ++ ("a=rtpmap:".toList ++ dec pt ++ " ".toList ++ s.codec ++ "/".toList ++ dec (u32 s.freq) ++
      (if u32 s.channels ≠ 0 then "/".toList ++ dec (u32 s.channels) else []) ++ "\n".toList ++
      ((if s.codec = "H264".toList then "a=fmtp:".toList ++ dec pt ++ " packetization-mode=1\n".toList else []) ++
       (if s.codec = "MPEG4-GENERIC".toList ∧ s.medium = "audio".toList then
          "a=fmtp:".toList ++ dec pt ++ " streamtype=5;profile-level-id=1;mode=AAC-hbr;sizelength=13;indexlength=3;indexdeltalength=3\n".toList
        else [])))

/-- `SourceManager.cpp:327-348`: the text for the entries, or a refusal when a codec has no payload number. -/
def subsText : List Sub → Option Str
  | [] => some []
  | s :: l => match payloadOf s.codec with
    | none => none
    | some pt => (subsText l).map fun t => subText pt s ++ t

/-- The whole description (`SourceManager.cpp:328, 344`). -/
def describe (id : Str) (l : List Sub) : Option Str := (subsText l).map fun t => sessionText id "this is a test".toList ++ t

/-! ## Renaming -/

/-- `std::getline` in a loop (`Handlers.cpp:334`): the pieces between newlines; nothing after a last newline. `cur` is the
piece being read. -/
def getlines : Str → Str → List Str
  | cur, [] => if cur = [] then [] else [cur]
  | cur, c :: s => if c = '\n' then cur :: getlines [] s else getlines (cur ++ [c]) s

/-- `Handlers.cpp:328-342` `modifySessionName`. -/
def rename (sdp name : Str) : Str :=
  ((getlines [] sdp).map fun line => if "s=".toList <+: line then "s=".toList ++ name ++ "\n".toList else line).flatten

end Lms.Sdp
