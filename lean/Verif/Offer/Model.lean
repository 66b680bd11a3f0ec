import Verif.Names.Model
import Verif.Sdp.Spec
import Verif.Sink.Model
import Verif.Adts.Model

/-!
# What is announced of a transmitted stream, and what a receiver makes of it

The RTP sinks chosen for a stream over plain RTP (`src/modules/transmitter/Connection.cpp:439-461, 484-522, 679-697`) and
over RTSP (`*QueueServerMediaSubsession.cpp`), and the stream information the receiver makes of an announced stream
(`src/modules/receiver/SourceManager.cpp:50-101`, `src/StreamInfo.hh:82-138`).

From the network library (not in the repository) are taken: the names and clocks of its own sinks (`H264`, `H265`, `VP8` at
90000; `MPA`, number 14, 90000; `SimpleRTPSink` as told); that a sink announces `a=rtpmap` only for numbers from 96 on, with
the channels unless there is one; that a reader takes name, clock and channels from that line, in capital letters, one channel
if none are told, and otherwise from the table of static numbers.  Numbers of samples and channels are natural numbers below
2^32 (the ranges are stated where they matter).
-/

namespace Lms.Offer
open Lms.Names Lms.Sdp

/-- What a transmitter's reader knows of its stream (`StreamInfo.hh`): video codec, or audio codec with channels, rate and
sample format (src/StreamInfo.hh:39-48). -/
inductive Stream where
  | video (c : Option VCodec)
  | audio (c : Option ACodec) (channels rate : Nat) (fmt : Option SampleFmt)
  deriving DecidableEq, Repr

/-- An RTP sink as far as it is announced. -/
structure Sink where
  medium : Str
  pt : Nat
  name : Str
  clock : Nat
  channels : Nat
  deriving DecidableEq, Repr

/-- `Connection.cpp:441-460` and, with `dyn` for 96, `H264QueueServerMediaSubsession.cpp:55-69`,
`H265QueueServerMediaSubsession.cpp:54-71`, `VP8QueueServerMediaSubsession.cpp:53-58` chosen in `Connection.cpp:139-167`. -/
def videoSink (dyn : Nat) : Option VCodec → Option Sink
  | some .h264 => some ⟨"video".toList, dyn, "H264".toList, 90000, 1⟩
  | some .h265 => some ⟨"video".toList, dyn, "H265".toList, 90000, 1⟩
  | some .vp8 => some ⟨"video".toList, dyn, "VP8".toList, 90000, 1⟩
  | _ => none

/-- The number and name chosen in `Connection.cpp:486-503` (`AudioQueueServerMediaSubsession.cpp:76-93`). -/
def audioChoice (dyn : Nat) (c : Option ACodec) (channels rate : Nat) (fmt : Option SampleFmt) : Nat × Str :=
  if c = some .pcm ∧ fmt = some .s16 then
    (if rate = 44100 then (if channels = 2 then 10 else if channels = 1 then 11 else dyn) else dyn, "L16".toList)
  else if (c = some .pcmu ∨ c = some .g711) ∧ rate = 8000 ∧ channels = 1 then (0, (aCodecName c).toList)
  else (dyn, (aCodecName c).toList)

/-- `Connection.cpp:484-522` with 97 for `dyn`. -/
def plainAudio (c : Option ACodec) (channels rate : Nat) (fmt : Option SampleFmt) : Sink :=
  let x := audioChoice 97 c channels rate fmt
  if c = some .mp3 then ⟨"audio".toList, 14, "MPA".toList, 90000, 1⟩
  else if c = some .aac then ⟨"audio".toList, x.1, "MPEG4-GENERIC".toList, rate, channels⟩
  else ⟨"audio".toList, x.1, x.2, rate, channels⟩

/-- `Connection.cpp:169-192`: AAC has a subsession of its own (`ADTSQueueServerMediaSubsession.cpp:106-111`), the others
`AudioQueueServerMediaSubsession.cpp:72-105`. -/
def rtspAudio (dyn : Nat) (c : Option ACodec) (channels rate : Nat) (fmt : Option SampleFmt) : Sink :=
  if c = some .aac then ⟨"audio".toList, dyn, "MPEG4-GENERIC".toList, rate, channels⟩
  else
    let x := audioChoice dyn c channels rate fmt
    if c = some .mp3 then ⟨"audio".toList, 14, "MPA".toList, 90000, 1⟩ else ⟨"audio".toList, x.1, x.2, rate, channels⟩

/-- The sink of a plain RTP connection (`SinkManager.cpp:316-362`). -/
def plainSink : Stream → Option Sink
  | .video c => videoSink 96 c
  | .audio c ch r f => some (plainAudio c ch r f)

/-- The sink of a subsession of an RTSP connection (`SinkManager.cpp:462-491`, `Connection.cpp:92-192`); `dyn` is the number
the library offers. -/
def rtspSink (dyn : Nat) : Stream → Option Sink
  | .video c => videoSink dyn c
  | .audio c ch r f => some (rtspAudio dyn c ch r f)

/-- A transport stream (`Connection.cpp:679-697`, `MPEGTSQueueServerMediaSubsession.cpp:134-140`). -/
def tsSink : Sink := ⟨"video".toList, 33, "MP2T".toList, 90000, 1⟩

/-- The kind a video stream has within a transport stream (`Connection.cpp:647-649`,
`MPEGTSQueueServerMediaSubsession.cpp:121-123`). -/
def tsVideo : Option VCodec → Option Nat
  | some .h264 => some 5
  | some .h265 => some 6
  | _ => none

/-- The kind an audio stream has within a transport stream (`Connection.cpp:673-674`,
`MPEGTSQueueServerMediaSubsession.cpp:126-129`). -/
def tsAudio : Option ACodec → Option Nat
  | some .aac => some 4
  | some .mp3 => some 1
  | _ => none

/-- `AudioQueueServerMediaSubsession.cpp:54-70` (`unsigned` arithmetic), 128 for AAC (`ADTSQueueServerMediaSubsession.cpp:102`),
2000 for video (`H264QueueServerMediaSubsession.cpp:50` and the like). -/
def bandwidth : Stream → Nat
  | .video _ => 2000
  | .audio c ch r f =>
    if c = some .aac then 128
    else
      let b := if f = some .s16 then r * 2 * ch % 2 ^ 32 else if f = some .u8 then r * 1 * ch % 2 ^ 32 else 0
      if 0 < b then (b + 500) % 2 ^ 32 / 1000 else 128

/-- The media section a server's description has for a sink (library), as a reader sees it. -/
def section_ (k : Sink) (bw : Nat) (fmtp : List Str) : Media :=
  { medium := k.medium, port := 0, format := k.pt, bandwidth := some bw
    rtpmap := if 96 ≤ k.pt then some (k.name, k.clock, if k.channels = 1 then none else some k.channels) else none
    fmtp := fmtp }

/-! ## The receiver -/

/-- What the receiver's library tells of a stream: `mediumName()`, `rtpPayloadFormat()`, `codecName()`,
`rtpTimestampFrequency()`, `numChannels()`. -/
structure Told where
  medium : Str
  pt : Nat
  name : Str
  clock : Nat
  channels : Nat
  deriving DecidableEq, Repr

/-- The library's table of static numbers, as far as they occur here. -/
def staticOf (pt : Nat) : Option (Str × Nat × Nat) :=
  if pt = 0 then some ("PCMU".toList, 8000, 1)
  else if pt = 10 then some ("L16".toList, 44100, 2)
  else if pt = 11 then some ("L16".toList, 44100, 1)
  else if pt = 14 then some ("MPA".toList, 90000, 1)
  else if pt = 33 then some ("MP2T".toList, 90000, 1)
  else none

/-- Reading a media section (library): nothing when no name is told. -/
def told (m : Media) : Option Told :=
  match m.rtpmap with
  | some (n, f, c) => if n = [] then none else some ⟨m.medium, m.format, n.map Char.toUpper, f, c.getD 1⟩
  | none => (staticOf m.format).map fun x => ⟨m.medium, m.format, x.1, x.2.1, x.2.2⟩

/-- Stream information made by the receiver (`StreamInfo.hh:118-138` with 82-116). -/
inductive Info where
  | video (c : VCodec) (annexb framed : Bool)
  | audio (c : ACodec) (channels rate : Nat) (fmt : Option SampleFmt)
  deriving DecidableEq, Repr

/-- The audio codec chosen in `SourceManager.cpp:57-77`. -/
def audioRead (t : Told) : Option ACodec :=
  if t.pt = 0 then some .g711
  else if t.name = "OPUS".toList then some .opus
  else if t.name = "MPEG4-GENERIC".toList then some .aac
  else if t.name = "PCMU".toList then some .pcmu
  else if t.name = "PCM".toList then some .pcm
  else none

/-- The video codec chosen in `SourceManager.cpp:84-97`. -/
def videoRead (t : Told) : Option VCodec :=
  if t.name = "H264".toList then some .h264
  else if t.name = "H265".toList then some .h265
  else if t.name = "VP8".toList then some .vp8
  else if t.name = "MJPEG".toList then some .mjpeg
  else none

/-- `setCodecDefaults` for audio (`StreamInfo.hh:98-111`): the sample format; the rest is overwritten
(`SourceManager.cpp:79-80`). -/
def defaultFmt : ACodec → Option SampleFmt
  | .opus | .aac | .mp3 => some .s16
  | .g711 => some .u8
  | _ => none

/-- `SourceManager.cpp:50-101` `createStreamInfo` with `StreamInfo.hh:82-116` (the parameter sets are in `Sdp/Parser.lean`). -/
def createInfo (t : Told) : Option Info :=
  if t.medium = "audio".toList then (audioRead t).map fun c => .audio c t.channels t.clock (defaultFmt c)
  else if t.medium = "video".toList then (videoRead t).map fun c =>
    .video c (c = .h264 ∨ c = .h265) (c = .h264 ∨ c = .h265)
  else none

/-- What the receiver makes of a media section. -/
def received (m : Media) : Option Info := (told m).bind createInfo

/-! ## The format line of AAC -/

/-- The format text without its four directives (`CustomMPEG4GenericRTPSink.cpp:138-142`). -/
def fmtpText (pt : Nat) (mode config : Str) : Str :=
  "a=fmtp:".toList ++ dec pt ++ " streamtype=".toList ++ dec 5 ++ ";profile-level-id=1;mode=".toList ++ mode ++
    ";sizelength=13;indexlength=3;indexdeltalength=3;config=".toList ++ config ++ "\r\n".toList

/-- The format string itself (`CustomMPEG4GenericRTPSink.cpp:138-142`). -/
def fmtpFmt : Str :=
  "a=fmtp:%d streamtype=%d;profile-level-id=1;mode=%s;sizelength=13;indexlength=3;indexdeltalength=3;config=%s\r\n".toList

/-- `CustomMPEG4GenericRTPSink.cpp:144-148`. -/
def fmtpSize (mode config : Str) : Nat := fmtpFmt.length + 3 + 3 + mode.length + config.length

/-- Characters of a text of bytes up to its NUL. -/
def cstr (b : Bytes) : Str := (b.takeWhile (· ≠ 0)).map fun x => Char.ofNat x.toNat

/-- `CustomMPEG4GenericRTPSink.cpp:121-160` `auxSDPLine`: the configuration text is a member array, so it is never missing; one
that was never written is read uninitialised. The text with its NUL is printed into the buffer. -/
def auxLine (pt : Nat) (mode : Str) (config : Option Bytes) : Outcome Str :=
  match config with
  | none => .ub
  | some b =>
    let t := fmtpText pt mode (cstr b)
    if fmtpSize mode (cstr b) < t.length + 1 then .ub else .ok t

/-- `ADTSStreamParser.cpp:59-73` `afterGettingFrame1`: every frame that arrives may change the configuration text. -/
def feed (cap : Nat) (config : Option Bytes) : List Bytes → Outcome (Option Bytes)
  | [] => .ok config
  | d :: l => match Adts.updateConfig cap d with
    | .ok (some t) => feed cap (some t) l
    | .ok none => feed cap config l
    | .ub => .ub
    | .hang => .hang

/-- `ADTSQueueServerMediaSubsession.cpp:67-98`: the frames that arrive before the line is asked for, and the line. -/
def describeAac (cap pt : Nat) (frames : List Bytes) : Outcome Str :=
  (feed cap none frames).bind fun c => auxLine pt "AAC-hbr".toList c

/-! ## With the connections -/

/-- The codecs as `Sink.Model` tells them apart. -/
def toSink : Stream → Lms.Sink.Stream
  | .video (some .h264) => .video .h264
  | .video (some .h265) => .video .h265
  | .video (some .vp8) => .video .vp8
  | .video _ => .video .other
  | .audio (some .aac) _ _ _ => .audio .aac
  | .audio (some .mp3) _ _ _ => .audio .mp3
  | .audio _ _ _ _ => .audio .other

end Lms.Offer
