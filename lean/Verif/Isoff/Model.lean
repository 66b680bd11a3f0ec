import Verif.Common.Bytes

/-!
# Model of the ISO box writer (src/modules/dasher/i2libisoff.c)

Every writer copies fields one after the other (`memcpy(data + count, ...)` of `n` bytes followed by
`count += n`, the same `n`), and finally or initially stores the size of the box in front.  It is modelled
by the bytes it produces; the value it returns is their number.  The host is little-endian (so that
`htonl` swaps).  Numbers are kept unbounded and reduced where they are written.  `write_avc3` (83) has no
definition in the code.  The error returns for `size < 8` (for instance 159, 231) cannot be taken, since
no writer returns less than 8 for the three media types.
-/

namespace Lms.Isoff

/-- src/modules/dasher/i2context.h:30-32. -/
inductive Media where
  | avc | hevc | audio
  deriving DecidableEq, Repr

def Media.isVideo : Media → Bool
  | .audio => false
  | _ => true

/-- src/modules/dasher/i2context.h:34 `MAX_DAT`: size of the segment buffers. -/
abbrev MAX_DAT : Nat := 10485760
/-- src/modules/dasher/i2context.h:33 `MAX_MDAT_SAMPLE`. -/
abbrev MAX_MDAT_SAMPLE : Nat := 65536

/-- src/modules/dasher/i2context.h:53-60 `mdat_sample` (`index` is never used). -/
structure Smp where
  size : Nat
  duration : Nat
  pts : Nat
  dts : Nat
  key : Bool
  deriving DecidableEq, Repr

/-- src/modules/dasher/i2context.h:62-112: the context of one stream (the video and audio contexts have the
same shape; fields of the other kind are ignored). -/
structure Ctx where
  media : Media
  /-- `pps_sps_data` or `aac_data`. -/
  extra : Bytes
  timeBase : Nat
  sampleDuration : Nat
  width : Nat
  height : Nat
  channels : Nat
  sampleRate : Nat
  sampleSize : Nat
  /-- `earliest_presentation_time`. -/
  ept : Nat
  seq : Nat
  /-- `current_video_duration` or `current_audio_duration`. -/
  cur : Nat
  samples : List Smp
  /-- `segment_data` up to `segment_data_size`. -/
  data : Bytes
  moofPos : Nat
  trunPos : Nat
  refSize : Nat

/-- The pattern `count = 4; ...; memcpy(data, &hton_size, 4)`: the size is stored in front.
(src/modules/dasher/i2libisoff.c:296, 328, 414 and others.) -/
def patched (body : Bytes) : Bytes := be32 (4 + body.length) ++ body

def zeros (n : Nat) : Bytes := List.replicate n 0

/-- src/modules/dasher/i2libisoff.c:1987-2050 `write_matrix`. -/
def matrix (a b c d tx ty : Nat) : Bytes :=
  be32 (a * 2 ^ 16) ++ be32 (b * 2 ^ 16) ++ zeros 4 ++ be32 (c * 2 ^ 16) ++ be32 (d * 2 ^ 16) ++ zeros 4 ++
  be32 (tx * 2 ^ 16) ++ be32 (ty * 2 ^ 16) ++ be32 (2 ^ 30)

/-- src/modules/dasher/i2libisoff.c:266-298 `write_ftyp`. -/
def ftyp : Bytes :=
  patched (ascii "ftyp" ++ ascii "iso6" ++ be32 1 ++ ascii "isom" ++ ascii "iso6" ++ ascii "dash")

/-- src/modules/dasher/i2libisoff.c:332-417 `write_mvhd`. -/
def mvhd : Bytes :=
  patched (ascii "mvhd" ++ zeros 4 ++ zeros 4 ++ zeros 4 ++ be32 1000 ++ zeros 4 ++ be32 0x00010000 ++ be16 0x0100 ++
    zeros 2 ++ zeros 4 ++ zeros 4 ++ matrix 1 0 0 1 0 0 ++ zeros 24 ++ be32 1)

/-- src/modules/dasher/i2libisoff.c:440-497 `write_trex`. -/
def trex (c : Ctx) : Bytes :=
  be32 32 ++ ascii "trex" ++ zeros 4 ++ be32 1 ++ be32 1 ++ be32 c.sampleDuration ++ zeros 4 ++ zeros 4

/-- src/modules/dasher/i2libisoff.c:419-438 `write_mvex`. -/
def mvex (c : Ctx) : Bytes := patched (ascii "mvex" ++ trex c)

/-- src/modules/dasher/i2libisoff.c:525-626 `write_tkhd`. -/
def tkhd (c : Ctx) : Bytes :=
  patched (ascii "tkhd" ++ [0] ++ [0] ++ be16 0x000f ++ zeros 4 ++ zeros 4 ++ be32 1 ++ zeros 4 ++ zeros 4 ++
    zeros 12 ++ be16 (if c.media.isVideo then 0 else 0x0100) ++ zeros 2 ++ matrix 1 0 0 1 0 0 ++
    (if c.media.isVideo then be32 (c.width * 2 ^ 16) ++ be32 (c.height * 2 ^ 16) else zeros 4 ++ zeros 4))

/-- src/modules/dasher/i2libisoff.c:660-723 `write_mdhd`. -/
def mdhd (c : Ctx) : Bytes :=
  patched (ascii "mdhd" ++ zeros 4 ++ zeros 4 ++ zeros 4 ++ be32 c.timeBase ++ zeros 4 ++ be16 0x15C7 ++ zeros 2)

/-- src/modules/dasher/i2libisoff.c:725-776 `write_hdlr`. -/
def hdlr (c : Ctx) : Bytes :=
  patched (ascii "hdlr" ++ zeros 4 ++ zeros 4 ++ (if c.media.isVideo then ascii "vide" else ascii "soun") ++
    zeros 12 ++ (if c.media.isVideo then ascii "VideoHandler" else ascii "SoundHandler") ++ [0])

/-- src/modules/dasher/i2libisoff.c:814-845 `write_vmhd`. -/
def vmhd : Bytes := be32 20 ++ ascii "vmhd" ++ be32 1 ++ zeros 4 ++ zeros 4

/-- src/modules/dasher/i2libisoff.c:847-870 `write_smhd`. -/
def smhd : Bytes := be32 16 ++ ascii "smhd" ++ zeros 8

/-- src/modules/dasher/i2libisoff.c:920-942 `write_url`. -/
def url : Bytes := be32 12 ++ ascii "url " ++ be32 1

/-- src/modules/dasher/i2libisoff.c:891-918 `write_dref`. -/
def dref : Bytes := patched (ascii "dref" ++ zeros 4 ++ be32 1 ++ url)

/-- src/modules/dasher/i2libisoff.c:872-888 `write_dinf`. -/
def dinf : Bytes := patched (ascii "dinf" ++ dref)

/-- src/modules/dasher/i2libisoff.c:1233-1255 `write_avcc`. -/
def avcc (c : Ctx) : Bytes := be32 (c.extra.length + 8) ++ ascii "avcC" ++ c.extra

/-- src/modules/dasher/i2libisoff.c:1257-1279 `write_hvcc`. -/
def hvcc (c : Ctx) : Bytes := be32 (c.extra.length + 8) ++ ascii "hvcC" ++ c.extra

/-- The fields common to `write_avc1` (1060-1122) and `write_hev1` (1156-1218). -/
def visual (c : Ctx) : Bytes :=
  zeros 4 ++ zeros 2 ++ be16 1 ++ zeros 8 ++ zeros 8 ++ be16 c.width ++ be16 c.height ++ be32 0x00480000 ++
  be32 0x00480000 ++ zeros 4 ++ be16 1 ++ zeros 8 ++ zeros 4 ++ zeros 8 ++ zeros 8 ++ zeros 4 ++ be16 0x18 ++ be16 0xffff

/-- src/modules/dasher/i2libisoff.c:1041-1135 `write_avc1`. -/
def avc1 (c : Ctx) : Bytes := patched (ascii "avc1" ++ visual c ++ avcc c)

/-- src/modules/dasher/i2libisoff.c:1137-1231 `write_hev1`. -/
def hev1 (c : Ctx) : Bytes := patched (ascii "hev1" ++ visual c ++ hvcc c)

/-- src/modules/dasher/i2libisoff.c:1353-1461 `write_esds`; lengths of descriptors in 7 bits. -/
def esds (c : Ctx) : Bytes :=
  patched (ascii "esds" ++ zeros 4 ++ be8 0x03 ++ be8 ((23 + c.extra.length) % 128) ++ be16 1 ++ be8 0 ++ be8 0x04 ++
    be8 ((15 + c.extra.length) % 128) ++ be8 0x40 ++ be8 0x15 ++ zeros 2 ++ be8 0 ++ be32 0x0001F151 ++
    be32 0x0001F14D ++ be8 0x05 ++ be8 (c.extra.length % 128) ++ c.extra ++ be8 0x06 ++ be8 1 ++ be8 0x02)

/-- The fields of `write_mp4a` before the inner box (1298-1337). -/
def sound (c : Ctx) : Bytes :=
  zeros 4 ++ zeros 2 ++ be16 1 ++ zeros 4 ++ zeros 4 ++ be16 c.channels ++ be16 c.sampleSize ++ zeros 4 ++
  be16 c.timeBase ++ be16 c.sampleRate

/-- src/modules/dasher/i2libisoff.c:1281-1351 `write_mp4a`. -/
def mp4a (c : Ctx) : Bytes := patched (ascii "mp4a" ++ sound c ++ esds c)

/-- src/modules/dasher/i2libisoff.c:1011-1031: the sample entry. -/
def entry (c : Ctx) : Bytes :=
  match c.media with
  | .avc => avc1 c
  | .hevc => hev1 c
  | .audio => mp4a c

/-- src/modules/dasher/i2libisoff.c:986-1038 `write_stsd`. -/
def stsd (c : Ctx) : Bytes := patched (ascii "stsd" ++ zeros 4 ++ be32 1 ++ entry c)

/-- src/modules/dasher/i2libisoff.c:1463-1488 `write_stts`. -/
def stts : Bytes := be32 16 ++ ascii "stts" ++ zeros 4 ++ zeros 4
/-- src/modules/dasher/i2libisoff.c:1490-1515 `write_stsc`. -/
def stsc : Bytes := be32 16 ++ ascii "stsc" ++ zeros 4 ++ zeros 4
/-- src/modules/dasher/i2libisoff.c:1517-1546 `write_stsz`. -/
def stsz : Bytes := be32 20 ++ ascii "stsz" ++ zeros 4 ++ zeros 4 ++ zeros 4
/-- src/modules/dasher/i2libisoff.c:1548-1573 `write_stco`. -/
def stco : Bytes := be32 16 ++ ascii "stco" ++ zeros 4 ++ zeros 4

/-- src/modules/dasher/i2libisoff.c:944-984 `write_stbl`. -/
def stbl (c : Ctx) : Bytes := patched (ascii "stbl" ++ (stsd c ++ (stts ++ (stsc ++ (stsz ++ stco)))))

/-- src/modules/dasher/i2libisoff.c:778-812 `write_minf`. -/
def minf (c : Ctx) : Bytes :=
  patched (ascii "minf" ++ ((if c.media.isVideo then vmhd else smhd) ++ (dinf ++ stbl c)))

/-- src/modules/dasher/i2libisoff.c:628-658 `write_mdia`. -/
def mdia (c : Ctx) : Bytes := patched (ascii "mdia" ++ (mdhd c ++ (hdlr c ++ minf c)))

/-- src/modules/dasher/i2libisoff.c:499-523 `write_trak`. -/
def trak (c : Ctx) : Bytes := patched (ascii "trak" ++ (tkhd c ++ mdia c))

/-- src/modules/dasher/i2libisoff.c:300-330 `write_moov`. -/
def moov (c : Ctx) : Bytes := patched (ascii "moov" ++ (mvhd ++ (mvex c ++ trak c)))

/-- The result of a generator: an error code, or a new context and the bytes written. -/
inductive Gen where
  | err (code : Nat)
  | out (c : Ctx) (bytes : Bytes)

/-- Storing into a destination of `cap` bytes: writing past its end is undefined behaviour. -/
def store (cap : Nat) (c : Ctx) (bytes : Bytes) : Outcome Gen :=
  if bytes.length ≤ cap then .ok (.out c bytes) else .ub

/-- src/modules/dasher/i2libisoff.c:136-171 `initVideoGenerator` and 174-207 `initAudioGenerator`, on
non-null arguments; the codec data is kept in the context. -/
def initGenerator (cap : Nat) (c : Ctx) (source : Bytes) : Outcome Gen :=
  if source.length < 1 then .ok (.err 1)
  else
    let c := { c with extra := source }
    store cap c (ftyp ++ moov c)

/-- src/modules/dasher/i2libisoff.c:1575-1609 `write_styp`. -/
def styp : Bytes :=
  be32 28 ++ ascii "styp" ++ ascii "iso6" ++ be32 1 ++ ascii "isom" ++ ascii "iso6" ++ ascii "dash"

/-- src/modules/dasher/i2libisoff.c:1611-1706 `write_sidx` (the version is copied in host order). -/
def sidx (c : Ctx) : Bytes :=
  patched (ascii "sidx" ++ [1, 0, 0, 0] ++ be32 1 ++ be32 c.timeBase ++ be64 c.ept ++ be64 0 ++ zeros 2 ++ be16 1 ++
    be32 c.refSize ++ be32 c.cur ++ be8 0x90 ++ zeros 2 ++ be8 0)

/-- src/modules/dasher/i2libisoff.c:1746-1779 `write_mfhd`. -/
def mfhd (c : Ctx) : Bytes := be32 16 ++ ascii "mfhd" ++ zeros 4 ++ be32 c.seq

/-- src/modules/dasher/i2libisoff.c:1822-1850 `write_tfhd`. -/
def tfhd : Bytes := be32 16 ++ ascii "tfhd" ++ be32 0x00020000 ++ be32 1

/-- src/modules/dasher/i2libisoff.c:1852-1890 `write_tfdt` (the version is copied in host order). -/
def tfdt (c : Ctx) : Bytes := be32 20 ++ ascii "tfdt" ++ [1, 0, 0, 0] ++ be64 c.ept

/-- src/modules/dasher/i2libdash.c:68, 119 `box_flags`. -/
def boxFlags (m : Media) : Nat := if m.isVideo then 3841 else 769

/-- src/modules/dasher/i2libisoff.c:1904-1910 `nitems`. -/
def nitems (m : Media) : Nat := if m.isVideo then 4 else 2

/-- src/modules/dasher/i2libisoff.c:1939-1961: one sample of the run. -/
def runEntry (m : Media) (s : Smp) : Bytes :=
  be32 s.duration ++ (be32 s.size ++
    (if m.isVideo then
      be32 (if s.key then 0x00000000 else 0x00010000) ++ be32 ((s.pts + 2 ^ 64 - s.dts) % 2 ^ 64)
     else []))

/-- src/modules/dasher/i2libisoff.c:1937-1962. -/
def runEntries (m : Media) : List Smp → Bytes
  | [] => []
  | s :: ss => runEntry m s ++ runEntries m ss

/-- src/modules/dasher/i2libisoff.c:1892-1969 `write_trun`. -/
def trun (c : Ctx) : Bytes :=
  let offset := ((c.trunPos + 2 ^ 32 - c.moofPos) + 20 + (c.samples.length * nitems c.media * 4) + 8) % 2 ^ 32
  patched (ascii "trun" ++ (be32 (boxFlags c.media) ++ be32 c.samples.length ++ be32 offset ++
    runEntries c.media c.samples))

/-- src/modules/dasher/i2libisoff.c:1781-1820 `write_traf`, with the change of `trun_pos` (1802-1807). -/
def traf (c : Ctx) : Ctx × Bytes :=
  let c := { c with trunPos := (c.trunPos + (4 + (ascii "traf" ++ tfhd ++ tfdt c).length)) % 2 ^ 32 }
  (c, patched (ascii "traf" ++ (tfhd ++ (tfdt c ++ trun c))))

/-- src/modules/dasher/i2libisoff.c:1708-1744 `write_moof`, with the change of `trun_pos` (1725-1730). -/
def moof (c : Ctx) : Ctx × Bytes :=
  let c := { c with trunPos := (c.trunPos + (4 + (ascii "moof" ++ mfhd c).length)) % 2 ^ 32 }
  let t := traf c
  (t.1, patched (ascii "moof" ++ (mfhd c ++ t.2)))

/-- src/modules/dasher/i2libisoff.c:1971-1985 `write_mdat`. -/
def mdat (data : Bytes) : Bytes := be32 (data.length + 8) ++ ascii "mdat" ++ data

/-- src/modules/dasher/i2libisoff.c:209-264 `segmentGenerator` on the data of the context. -/
def segmentGenerator (cap : Nat) (c : Ctx) : Outcome Gen :=
  if c.data.length < 1 then .ok (.err 1)
  else
    let n := styp.length + (sidx c).length
    let c := { c with trunPos := (c.trunPos + n) % 2 ^ 32, moofPos := (c.moofPos + n) % 2 ^ 32 }
    let m := moof c
    let c := { m.1 with refSize := (m.2.length + 8 + m.1.data.length) % 2 ^ 32 }
    store cap c (styp ++ (sidx c ++ (m.2 ++ mdat c.data)))

end Lms.Isoff
