/-!
# Names of enumerated values

`none` is the enumeration's `*_NONE` value.
-/

namespace Lms.Names

/-- src/Types.hh:77. -/
inductive SampleFmt where
  | u8 | s16 | flt | u8p | s16p | fltp
  deriving DecidableEq, Repr

/-- src/Utils.cpp:55-76 `getSampleFormatFromString`. -/
def sampleFmtOf (s : String) : Option SampleFmt :=
  if s = "u8" then some .u8
  else if s = "u8p" then some .u8p
  else if s = "s16" then some .s16
  else if s = "s16p" then some .s16p
  else if s = "flt" then some .flt
  else if s = "fltp" then some .fltp
  else none

/-- src/Utils.cpp:391-420 `getSampleFormatAsString`. -/
def sampleFmtName : Option SampleFmt → String
  | some .u8 => "u8"
  | some .s16 => "s16"
  | some .flt => "flt"
  | some .u8p => "u8p"
  | some .s16p => "s16p"
  | some .fltp => "fltp"
  | none => ""

/-- src/Types.hh:67. -/
inductive PixType where
  | rgb24 | rgb32 | yuv420p | yuv422p | yuv444p | yuyv422 | yuvj420p
  deriving DecidableEq, Repr

/-- src/Utils.cpp:78-96 `getPixTypeFromString`. -/
def pixTypeOf (s : String) : Option PixType :=
  if s = "YUYV" then some .yuyv422
  else if s = "YUV420" then some .yuv420p
  else if s = "RGB24" then some .rgb24
  else if s = "YUV422" then some .yuv422p
  else if s = "YUVJ" then some .yuvj420p
  else none

/-- src/Utils.cpp:422-454 `getPixTypeAsString`. -/
def pixTypeName : Option PixType → String
  | some .rgb24 => "RGB24"
  | some .rgb32 => "RGB32"
  | some .yuv420p => "YUV420P"
  | some .yuv422p => "YUV422P"
  | some .yuv444p => "YUV444P"
  | some .yuyv422 => "YUYV422"
  | some .yuvj420p => "YUVJ420P"
  | none => "Unknown"

/-- src/Types.hh:72. -/
inductive ACodec where
  | g711 | pcmu | opus | pcm | aac | mp3
  deriving DecidableEq, Repr

/-- src/Utils.cpp:98-118 `getAudioCodecFromString`. -/
def aCodecOf (s : String) : Option ACodec :=
  if s = "g711" then some .g711
  else if s = "pcmu" then some .pcmu
  else if s = "opus" then some .opus
  else if s = "pcm" then some .pcm
  else if s = "aac" then some .aac
  else if s = "mp3" then some .mp3
  else none

/-- src/Utils.cpp:233-262 `getAudioCodecAsString`. -/
def aCodecName : Option ACodec → String
  | some .g711 => "g711"
  | some .pcmu => "pcmu"
  | some .opus => "opus"
  | some .pcm => "pcm"
  | some .aac => "aac"
  | some .mp3 => "mp3"
  | none => ""

/-- src/Types.hh:62. -/
inductive VCodec where
  | h264 | h265 | vp8 | mjpeg | raw
  deriving DecidableEq, Repr

/-- src/Utils.cpp:120-138 `getVideoCodecFromString`. -/
def vCodecOf (s : String) : Option VCodec :=
  if s = "H264" then some .h264
  else if s = "H265" then some .h265
  else if s = "VP8" then some .vp8
  else if s = "MJPEG" then some .mjpeg
  else if s = "RAW" then some .raw
  else none

/-- src/Utils.cpp:205-231 `getVideoCodecAsString`. -/
def vCodecName : Option VCodec → String
  | some .h264 => "H264"
  | some .h265 => "H265"
  | some .raw => "RAW"
  | some .vp8 => "VP8"
  | some .mjpeg => "MJPEG"
  | none => ""

/-- src/Types.hh:82. -/
inductive FilterType where
  | receiver | transmitter | videoDecoder | videoEncoder | videoResampler | videoMixer | audioDecoder | audioEncoder | audioMixer | sharedMemory | dasher | demuxer | videoSplitter | v4lcapture
  deriving DecidableEq, Repr

/-- src/Utils.cpp:319-356 `getFilterTypeFromString`. -/
def filterTypeOf (s : String) : Option FilterType :=
  if s = "videoDecoder" then some .videoDecoder
  else if s = "videoEncoder" then some .videoEncoder
  else if s = "videoMixer" then some .videoMixer
  else if s = "videoResampler" then some .videoResampler
  else if s = "audioDecoder" then some .audioDecoder
  else if s = "audioEncoder" then some .audioEncoder
  else if s = "audioMixer" then some .audioMixer
  else if s = "receiver" then some .receiver
  else if s = "transmitter" then some .transmitter
  else if s = "sharedMemory" then some .sharedMemory
  else if s = "dasher" then some .dasher
  else if s = "demuxer" then some .demuxer
  else if s = "videoSplitter" then some .videoSplitter
  else if s = "v4lcapture" then some .v4lcapture
  else none

/-- src/Utils.cpp:264-317 `getFilterTypeAsString`. -/
def filterTypeName : Option FilterType → String
  | some .videoDecoder => "videoDecoder"
  | some .videoEncoder => "videoEncoder"
  | some .videoMixer => "videoMixer"
  | some .videoResampler => "videoResampler"
  | some .audioDecoder => "audioDecoder"
  | some .audioEncoder => "audioEncoder"
  | some .audioMixer => "audioMixer"
  | some .receiver => "receiver"
  | some .transmitter => "transmitter"
  | some .demuxer => "demuxer"
  | some .videoSplitter => "videoSplitter"
  | some .dasher => "dasher"
  | some .sharedMemory => "sharedMemory"
  | some .v4lcapture => "v4lcapture"
  | none => ""

/-- src/Types.hh:84. -/
inductive FilterRole where
  | regular | server
  deriving DecidableEq, Repr

/-- src/Utils.cpp:358-371 `getRoleTypeFromString`. -/
def roleOf (s : String) : Option FilterRole :=
  if s = "regular" then some .regular
  else if s = "server" then some .server
  else none

/-- src/Utils.cpp:372-389 `getRoleAsString`. -/
def roleName : Option FilterRole → String
  | some .regular => "regular"
  | some .server => "server"
  | none => ""

/-- src/Types.hh:89. -/
inductive TxFormat where
  | stdRtp | ultragrid | mpegts
  deriving DecidableEq, Repr

/-- src/Utils.cpp:482-497 `getTxFormatFromString`. -/
def txFormatOf (s : String) : Option TxFormat :=
  if s = "std" then some .stdRtp
  else if s = "ultragrid" then some .ultragrid
  else if s = "mpegts" then some .mpegts
  else none

/-- src/Utils.cpp:499-519 `getTxFormatAsString`. -/
def txFormatName : Option TxFormat → String
  | some .stdRtp => "std"
  | some .ultragrid => "ultragrid"
  | some .mpegts => "mpegts"
  | none => ""

/-- src/Utils.cpp:140-161 `getAudioCodecFromLibavString`; the string as a list of characters (two tests are on its first
five). -/
def aCodecOfLibav (s : List Char) : Option ACodec :=
  if s = "pcm_alaw".toList ∨ s = "pcm_mulaw".toList then some .g711
  else if s.take 5 = "pcm_u".toList then some .pcmu
  else if s = "opus".toList then some .opus
  else if s.take 5 = "pcm_s".toList then some .pcm
  else if s = "aac".toList then some .aac
  else if s = "mp3".toList then some .mp3
  else none

/-- src/Utils.cpp:163-181 `getVideoCodecFromLibavString`. -/
def vCodecOfLibav (s : String) : Option VCodec :=
  if s = "h264" then some .h264
  else if s = "hevc" then some .h265
  else if s = "vp8" then some .vp8
  else if s = "mjpeg" then some .mjpeg
  else if s = "rawvideo" then some .raw
  else none

/-- src/Utils.cpp:456-479 `getBytesPerSampleFromFormat`. -/
def bytesPerSample : Option SampleFmt → Nat
  | some .u8 | some .u8p => 1
  | some .s16 | some .s16p => 2
  | some .flt | some .fltp => 4
  | none => 0

end Lms.Names
