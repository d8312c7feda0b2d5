import Verif.Model.Format
import Verif.Model.IO
import Verif.Model.Search
/-!
# The format-specific readers (`src/readers.rs` 54-1099)

Each `from_*_reader` function is a `Prog FileFormat`. Loops are structural recursion on the number
of rounds left. `cfg` is the build profile, used where integer arithmetic can overflow.
-/

namespace FF
open FileFormat
open Prog (lift rdExact rd sk pos rdUntil throwErr)

/-! ## `ReadData` (`src/readers.rs` 1101-1185) -/

/-- `read_bytes` (`src/readers.rs` 1106-1110). -/
def readBytes (size : Nat) : Prog Bytes := rdExact size

/-- `read_u8` (`src/readers.rs` 1136-1140). -/
def readU8 : Prog UInt8 := do
  let buf ← rdExact 1
  lift (index buf 0)

/-- `read_u16_le` (`src/readers.rs` 1144-1148). -/
def readU16le : Prog Nat := do
  let buf ← rdExact 2
  pure (leNat buf)

/-- `read_u32_be` (`src/readers.rs` 1152-1156). -/
def readU32be : Prog Nat := do
  let buf ← rdExact 4
  pure (beNat buf)

/-- `read_u32_le` (`src/readers.rs` 1160-1164). -/
def readU32le : Prog Nat := do
  let buf ← rdExact 4
  pure (leNat buf)

/-- `read_u64_be` (`src/readers.rs` 1168-1172). -/
def readU64be : Prog Nat := do
  let buf ← rdExact 8
  pure (beNat buf)

/-- `read_u64_le` (`src/readers.rs` 1176-1180). -/
def readU64le : Prog Nat := do
  let buf ← rdExact 8
  pure (leNat buf)

/-- A lower-case hexadecimal digit as produced by `{:x}` (`src/readers.rs` 1120-1122). -/
def hexDigit (n : Nat) : Nat := if n < 10 then 48 + n else 87 + n

/-- `format!("{:02x}", byte)` (`src/readers.rs` 1120-1122). -/
def hex2 (b : UInt8) : Str := [hexDigit (b.toNat / 16), hexDigit (b.toNat % 16)]

/-- The index order of `read_guid` (`src/readers.rs` 1116). -/
def guidOrder : List Nat := [3, 2, 1, 0, 5, 4, 7, 6, 8, 9, 10, 11, 12, 13, 14, 15]

/-- One piece of the GUID text (`src/readers.rs` 1118-1124). -/
def guidPiece (buf : Bytes) (i : Nat) : Except Fail Str := do
  let b ← index buf i
  pure (if i == 5 || i == 7 || i == 8 || i == 10 then 45 :: hex2 b else hex2 b)

/-- Text of the GUID held in `buf` (`src/readers.rs` 1116-1125). -/
def guidText (buf : Bytes) : Except Fail Str := do
  let pieces ← guidOrder.mapM (guidPiece buf)
  pure pieces.flatten

/-- `read_guid` (`src/readers.rs` 1114-1126). -/
def readGuid : Prog Str := do
  let buf ← readBytes 16
  lift (guidText buf)

/-- `read_string` (`src/readers.rs` 1130-1132). -/
def readString (size : Nat) : Prog Str := do
  let buf ← readBytes size
  pure (decodeLossy buf)

/-! ## ASF (`src/readers.rs` 54-167) -/

/-- `DESCRIPTOR_LIMIT` (`src/readers.rs` 58). -/
def asfDescriptorLimit : Nat := 32
/-- `DESCRIPTOR_NAME_LIMIT` (`src/readers.rs` 61). -/
def asfDescriptorNameLimit : Nat := 64
/-- `OBJECT_LIMIT` (`src/readers.rs` 64). -/
def asfObjectLimit : Nat := 256
/-- `EXTENDED_CONTENT_DESCRIPTION_OBJECT_GUID` (`src/readers.rs` 67-68). -/
def asfExtContentGuid : Str := s!!"d2d0a440-e307-11d2-97f0-00a0c95ea850"
/-- `STREAM_PROPERTIES_OBJECT_GUID` (`src/readers.rs` 71). -/
def asfStreamPropsGuid : Str := s!!"b7dc0791-a9b7-11cf-8ee6-00c00c205365"
/-- `AUDIO_MEDIA_GUID` (`src/readers.rs` 74). -/
def asfAudioGuid : Str := s!!"f8699e40-5b4d-11cf-a8fd-00805f5c442b"
/-- `VIDEO_MEDIA_GUID` (`src/readers.rs` 77). -/
def asfVideoGuid : Str := s!!"bc19efc0-5b4d-11cf-a8fd-00805f5c442b"
/-- The descriptor name prefix tested at 134 (`src/readers.rs` 134). -/
def asfDvrName : Bytes := b!"D\x00V\x00R\x00 \x00F\x00i\x00l\x00e\x00 \x00V\x00e\x00r\x00s\x00i\x00o\x00n\x00"

/-- The content descriptor loop (`src/readers.rs` 125-147); `true` is the early `return` at 135. All seek
distances are at most `u16::MAX + 2`, so the additions cannot overflow. -/
def asfDescriptors : Nat → Prog Bool
  | 0 => pure false
  | n + 1 => do
    let len ← readU16le
    let name ← readBytes (min asfDescriptorNameLimit len)
    if startsWith name asfDvrName then pure true
    else
      let remainingLen := len - asfDescriptorNameLimit
      let _ ← sk (.current (remainingLen + 2))
      let len ← readU16le
      let _ ← sk (.current len)
      asfDescriptors n

/-- The header object loop (`src/readers.rs` 94-157) and the final verdict (160-166). -/
def asfObjects (cfg : Cfg) : Nat → (audio video : Bool) → Prog FileFormat
  | 0, audio, video =>
    pure (if video then WindowsMediaVideo
      else if audio then WindowsMediaAudio
      else AdvancedSystemsFormat)
  | n + 1, audio, video => do
    let guid ← readGuid
    let size ← readU64le
    if guid = asfStreamPropsGuid then
      let streamType ← readGuid
      let audio' := if streamType = asfAudioGuid then true else audio
      let video' := if streamType = asfAudioGuid then video
        else if streamType = asfVideoGuid then true else video
      let dist ← lift (i64Sub cfg (asI64 size) 40)
      let _ ← sk (.current dist)
      asfObjects cfg n audio' video'
    else if guid = asfExtContentGuid then
      let count ← readU16le
      let offset ← pos
      let dvr ← asfDescriptors (min asfDescriptorLimit count)
      if dvr then pure MicrosoftDigitalVideoRecording
      else
        let s ← lift (u64Add cfg offset size)
        let next ← lift (u64Sub cfg s 26)
        let _ ← sk (.start next)
        asfObjects cfg n audio video
    else
      let dist ← lift (i64Sub cfg (asI64 size) 24)
      let _ ← sk (.current dist)
      asfObjects cfg n audio video

/-- `from_asf_reader` (`src/readers.rs` 56-167). -/
def asfReader (cfg : Cfg) : Prog FileFormat := do
  let _ ← sk (.start 24)
  let numberOfHeaderObjects ← readU32le
  let _ ← sk (.current 2)
  asfObjects cfg (min asfObjectLimit numberOfHeaderObjects) false false

/-! ## CFB (`src/readers.rs` 169-261) -/

/-- The CLSID arms of the `match` (`src/readers.rs` 191-237), in source order. -/
def cfbClsids : List (Str × FileFormat) := [
  (s!!"e60f81e1-49b3-11d0-93c3-7e0706000000", AutodeskInventorAssembly),
  (s!!"bbf9fdf1-52dc-11d0-8c04-0800090be8ec", AutodeskInventorDrawing),
  (s!!"4d29b490-49b2-11d0-93c3-7e0706000000", AutodeskInventorPart),
  (s!!"76283a80-50dd-11d3-a7e3-00c04f79d7bc", AutodeskInventorPresentation),
  (s!!"402efe62-1999-101b-99ae-04021c007002", CorelPresentations7),
  (s!!"597caa70-72aa-11cf-831e-524153480000", FlashProject),
  (s!!"b4f235fe-dca6-4803-b7b2-c25a453c836b", FlashProject),
  (s!!"00020810-0000-0000-c000-000000000046", MicrosoftExcelSpreadsheet),
  (s!!"00020820-0000-0000-c000-000000000046", MicrosoftExcelSpreadsheet),
  (s!!"00044851-0000-0000-c000-000000000046", MicrosoftPowerpointPresentation),
  (s!!"64818d10-4f9b-11cf-86ea-00aa00b929e8", MicrosoftPowerpointPresentation),
  (s!!"ea7bae70-fb3b-11cd-a903-00aa00510ea3", MicrosoftPowerpointPresentation),
  (s!!"74b78f3a-c8c8-11d1-be11-00c04fb6faf1", MicrosoftProjectPlan),
  (s!!"00021201-0000-0000-00c0-000000000046", MicrosoftPublisherDocument),
  (s!!"000c1084-0000-0000-c000-000000000046", MicrosoftSoftwareInstaller),
  (s!!"00021a13-0000-0000-c000-000000000046", MicrosoftVisioDrawing),
  (s!!"00021a14-0000-0000-c000-000000000046", MicrosoftVisioDrawing),
  (s!!"00020900-0000-0000-c000-000000000046", MicrosoftWordDocument),
  (s!!"00020906-0000-0000-c000-000000000046", MicrosoftWordDocument),
  (s!!"00021303-0000-0000-c000-000000000046", MicrosoftWorksDatabase),
  (s!!"28cddbc3-0ae2-11ce-a29a-00aa004a1a72", MicrosoftWorksDatabase),
  (s!!"00021302-0000-0000-c000-000000000046", MicrosoftWorksWordProcessor),
  (s!!"0ea45ab2-9e0a-11d1-a407-00c04fb932ba", MicrosoftWorksWordProcessor),
  (s!!"28cddbc2-0ae2-11ce-a29a-00aa004a1a72", MicrosoftWorksWordProcessor),
  (s!!"83a33d36-27c5-11ce-bfd4-00400513bb57", SolidworksAssembly),
  (s!!"83a33d34-27c5-11ce-bfd4-00400513bb57", SolidworksDrawing),
  (s!!"83a33d30-27c5-11ce-bfd4-00400513bb57", SolidworksPart),
  (s!!"3f543fa0-b6a6-101b-9961-04021c007002", Starcalc),
  (s!!"6361d441-4235-11d0-89cb-008029e4b0b1", Starcalc),
  (s!!"c6a5b861-85d6-11d1-89cb-008029e4b0b1", Starcalc),
  (s!!"02b3b7e0-4225-11d0-89ca-008029e4b0b1", Starchart),
  (s!!"bf884321-85dd-11d1-89d0-008029e4b0b1", Starchart),
  (s!!"fb9c99e0-2c6d-101c-8e2c-00001b4cc711", Starchart),
  (s!!"2e8905a0-85bd-11d1-89d0-008029e4b0b1", Stardraw),
  (s!!"af10aae0-b36d-101b-9961-04021c007002", Stardraw),
  (s!!"012d3cc0-4216-11d0-89cb-008029e4b0b1", Starimpress),
  (s!!"565c7221-85bc-11d1-89d0-008029e4b0b1", Starimpress),
  (s!!"02b3b7e1-4225-11d0-89ca-008029e4b0b1", Starmath),
  (s!!"d4590460-35fd-101c-b12a-04021c007002", Starmath),
  (s!!"ffb5e640-85de-11d1-89d0-008029e4b0b1", Starmath),
  (s!!"8b04e9b0-420e-11d0-a45e-00a0249d57b1", Starwriter),
  (s!!"c20cf9d1-85ae-11d1-aab4-006097da561a", Starwriter),
  (s!!"dc5c7e40-b35c-101b-9961-04021c007002", Starwriter),
  (s!!"1cdd8c7b-81c0-45a0-9fed-04143144cc1e", ThreeDimensionalStudioMax),
  (s!!"519873ff-2dad-0220-1937-0000929679cd", WordperfectDocument),
  (s!!"402efe60-1999-101b-99ae-04021c007002", WordperfectGraphics)]

/-- `from_cfb_reader` (`src/readers.rs` 171-261). The offset (184) is at most
`4096 * 2^32 + 80`, so it cannot overflow. -/
def cfbReader : Prog FileFormat := do
  let _ ← sk (.start 26)
  let majorVersion ← readU16le
  let directorySectorSize := if majorVersion = 0x0003 then 512 else 4096
  let _ ← sk (.current 20)
  let firstDirectorySectorLocation ← readU32le
  let offset := directorySectorSize * (1 + firstDirectorySectorLocation) + 80
  let _ ← sk (.start offset)
  let clsid ← readGuid
  match cfbClsids.lookup clsid with
  | some fmt => pure fmt
  | none => do
    let _ ← sk (.current 32)
    let name2 ← readBytes 64
    if startsWith name2 b!"M\x00a\x00t\x00O\x00S\x00T\x00" then pure MicrosoftWorksWordProcessor
    else
      let _ ← sk (.current 64)
      let name3 ← readBytes 64
      if startsWith name3 b!"W\x00k\x00s\x00S\x00S\x00W\x00o\x00r\x00k\x00B\x00o\x00o\x00k\x00" then
        pure MicrosoftWorks6Spreadsheet
      else pure CompoundFileBinary

/-! ## EBML (`src/readers.rs` 263-422) -/

/-- `ELEMENT_LIMIT` (`src/readers.rs` 267). -/
def ebmlElementLimit : Nat := 256
/-- `CODEC_ID_LIMIT` (`src/readers.rs` 270). -/
def ebmlCodecIdLimit : Nat := 64
/-- `DOC_TYPE_LIMIT` (`src/readers.rs` 273). -/
def ebmlDocTypeLimit : Nat := 8
/-- `DOC_TYPE_ELEMENT_ID` (`src/readers.rs` 276). -/
def ebmlDocTypeId : Nat := 0x4282
/-- `EBML_ELEMENT_ID` (`src/readers.rs` 279). -/
def ebmlEbmlId : Nat := 0x1A45DFA3
/-- `CLUSTER_ELEMENT_ID` (`src/readers.rs` 282). -/
def ebmlClusterId : Nat := 0x1F43B675
/-- `CODEC_ID_ELEMENT_ID` (`src/readers.rs` 285). -/
def ebmlCodecIdId : Nat := 0x86
/-- `SEGMENT_ELEMENT_ID` (`src/readers.rs` 288). -/
def ebmlSegmentId : Nat := 0x18538067
/-- `STEREO_MODE_ELEMENT_ID` (`src/readers.rs` 291). -/
def ebmlStereoModeId : Nat := 0x53B8
/-- `TRACKS_ELEMENT_ID` (`src/readers.rs` 294). -/
def ebmlTracksId : Nat := 0x1654AE6B
/-- `TRACK_ENTRY_ELEMENT_ID` (`src/readers.rs` 297). -/
def ebmlTrackEntryId : Nat := 0xAE
/-- `VIDEO_ELEMENT_ID` (`src/readers.rs` 300). -/
def ebmlVideoId : Nat := 0xE0

/-- `for _ in 1..number_of_bytes { let byte = reader.read_u8()?; acc = (acc << 8) | byte }`
(`src/readers.rs` 330-333, 346-349). The accumulator never exceeds its type: at most 3 rounds on an `u32` that
starts below 2^8, at most 7 rounds on an `u64` that starts below 2^7. -/
def readMore : Nat → Nat → Prog Nat
  | 0, acc => pure acc
  | n + 1, acc => do
    let byte ← readU8
    readMore n ((acc <<< 8) ||| byte.toNat)

/-- Element ID (`src/readers.rs` 319-333). -/
def ebmlId : Prog Nat := do
  let firstByte ← readU8
  let numberOfBytes := leadingZeros8 firstByte + 1
  if numberOfBytes > 4 then throwErr .invalidData
  else readMore (numberOfBytes - 1) firstByte.toNat

/-- Element size (`src/readers.rs` 336-349). -/
def ebmlSize : Prog Nat := do
  let firstByte ← readU8
  let numberOfBytes := leadingZeros8 firstByte + 1
  if numberOfBytes > 8 then throwErr .invalidData
  else
    readMore (numberOfBytes - 1) (firstByte.toNat &&& ((128 >>> leadingZeros8 firstByte) - 1))

/-- The three track flags used by the EBML and MP4 readers (`src/readers.rs` 312-314, 548-550). -/
structure Tracks where
  audio : Bool
  video : Bool
  subtitle : Bool
  deriving DecidableEq, Repr

/-- No track seen yet (`src/readers.rs` 312-314, 548-550). -/
def Tracks.none : Tracks := ⟨false, false, false⟩

/-- Final verdict of the EBML reader (`src/readers.rs` 413-421). -/
def ebmlVerdict (t : Tracks) : FileFormat :=
  if t.video then MatroskaVideo
  else if t.audio then MatroskaAudio
  else if t.subtitle then MatroskaSubtitles
  else ExtensibleBinaryMetaLanguage

/-- The codec flags (`src/readers.rs` 380-386). -/
def ebmlCodec (codecId : Bytes) (t : Tracks) : Tracks :=
  if startsWith codecId b!"A_" then { t with audio := true }
  else if startsWith codecId b!"V_" then { t with video := true }
  else if startsWith codecId b!"S_" then { t with subtitle := true }
  else t

/-- The element loop (`src/readers.rs` 316-410); the first argument counts the elements left before
`ELEMENT_LIMIT`. -/
def ebmlLoop (len : Nat) : Nat → Tracks → Prog FileFormat
  | 0, t => pure (ebmlVerdict t)
  | n + 1, t => do
    let p ← pos
    if p < len then
      let id ← ebmlId
      let size ← ebmlSize
      if id = ebmlEbmlId ∨ id = ebmlSegmentId ∨ id = ebmlTracksId ∨ id = ebmlTrackEntryId ∨
          id = ebmlVideoId then
        ebmlLoop len n t
      else if id = ebmlDocTypeId then
        let docType ← readBytes (min ebmlDocTypeLimit size)
        if startsWith docType b!"webm" then pure Webm
        else if ¬ startsWith docType b!"matroska" then pure ExtensibleBinaryMetaLanguage
        else
          let _ ← sk (.current (asI64 (size - ebmlDocTypeLimit)))
          ebmlLoop len n t
      else if id = ebmlCodecIdId then
        let codecId ← readBytes (min ebmlCodecIdLimit size)
        let _ ← sk (.current (asI64 (size - ebmlCodecIdLimit)))
        ebmlLoop len n (ebmlCodec codecId t)
      else if id = ebmlStereoModeId then
        let stereoMode ← readU8
        if stereoMode.toNat > 0 then pure Matroska3dVideo
        else ebmlLoop len n t
      else if id = ebmlClusterId then pure (ebmlVerdict t)
      else
        let _ ← sk (.current (asI64 size))
        ebmlLoop len n t
    else pure (ebmlVerdict t)

/-- `from_ebml_reader` (`src/readers.rs` 265-422). -/
def ebmlReader : Prog FileFormat := do
  let len ← sk (.fromEnd 0)
  let _ ← sk (.start 0)
  ebmlLoop len ebmlElementLimit Tracks.none

/-! ## EXE (`src/readers.rs` 424-463) -/

/-- `from_exe_reader` (`src/readers.rs` 426-463). `offset` is an `u32`, so `offset + 4` (435)
cannot overflow an `u64`. -/
def exeReader : Prog FileFormat := do
  let len ← sk (.fromEnd 0)
  let _ ← sk (.start 60)
  let offset ← readU32le
  if offset + 4 < len then
    let _ ← sk (.start offset)
    let signature ← readBytes 4
    if signature = b!"PE\x00\x00" then
      let _ ← sk (.current 18)
      let characteristics ← readU16le
      pure (if characteristics &&& 0x2000 = 0x2000 then DynamicLinkLibrary else PortableExecutable)
    else
      let two ← lift (sliceIdx signature 0 2)
      if two = b!"LE" ∨ two = b!"LX" then pure LinearExecutable
      else if two = b!"NE" then pure NewExecutable
      else pure MsDosExecutable
  else pure MsDosExecutable

/-! ## ID3v2 (`src/readers.rs` 465-530) -/

/-- Tag size from the four synchsafe bytes (`src/readers.rs` 481-484). -/
def id3TagSize (b6 b7 b8 b9 : UInt8) : Nat :=
  ((b6.toNat &&& 0x7F) <<< 21) ||| ((b7.toNat &&& 0x7F) <<< 14) |||
    ((b8.toNat &&& 0x7F) <<< 7) ||| (b9.toNat &&& 0x7F)

/-- Addition of the extended header size (`src/readers.rs` 495-497); the flags are byte 5 (486). -/
def id3Extended (cfg : Cfg) (flags : UInt8) (next : Nat) : Prog Nat :=
  if flags.toNat &&& 0x40 ≠ 0 then do
    let ext ← readU32be
    lift (u64Add cfg next ext)
  else pure next

/-- Addition of the footer size (`src/readers.rs` 500-502). -/
def id3Footer (cfg : Cfg) (flags : UInt8) (next : Nat) : Except Fail Nat :=
  if flags.toNat &&& 0x10 ≠ 0 then u64Add cfg next 10 else .ok next

/-- The tag loop (`src/readers.rs` 469-506): returns the offset of the first position without an ID3v2 tag. The
loop has no limit; `fuel` running out is divergence. -/
def id3Loop (cfg : Cfg) : Nat → Nat → Prog Nat
  | 0, _ => .fail .diverge
  | fuel + 1, offset => do
    let _ ← sk (.start offset)
    let buf ← readBytes 10
    let magic ← lift (sliceIdx buf 0 3)
    if magic ≠ b!"ID3" then pure offset
    else
      let b6 ← lift (index buf 6)
      let b7 ← lift (index buf 7)
      let b8 ← lift (index buf 8)
      let b9 ← lift (index buf 9)
      let tagSize := id3TagSize b6 b7 b8 b9
      let flags ← lift (index buf 5)
      let next ← lift (u64Add cfg offset 10)
      let next ← lift (u64Add cfg next tagSize)
      let next ← id3Extended cfg flags next
      let next ← lift (id3Footer cfg flags next)
      id3Loop cfg fuel next

/-- Fuel for the tag loop: more than the number of 10-byte tags in any stream
(the `loop` of `src/readers.rs` 470-506 has no bound). -/
def id3Fuel : Nat := 2 ^ 64

/-- The layer 3 sync words (`src/readers.rs` 518-526). -/
def mp3Syncs : List Bytes :=
  [b!"\xFF\xE2", b!"\xFF\xE3", b!"\xFF\xF2", b!"\xFF\xF3", b!"\xFF\xFA", b!"\xFF\xFB"]

/-- `from_id3v2_reader` (`src/readers.rs` 467-530). -/
def id3v2Reader (cfg : Cfg) : Prog FileFormat := do
  let offset ← id3Loop cfg id3Fuel 0
  let _ ← sk (.start offset)
  let buf ← readBytes 4
  if buf = b!"fLaC" then pure FreeLosslessAudioCodec
  else
    let two ← lift (sliceIdx buf 0 2)
    if mp3Syncs.contains two then pure Mpeg12AudioLayer3
    else pure Id3v2

/-! ## MP4 (`src/readers.rs` 532-607) -/

/-- `BOX_LIMIT` (`src/readers.rs` 536). -/
def mp4BoxLimit : Nat := 256

/-- The handler flags (`src/readers.rs` 577-582). -/
def mp4Handler (handlerType : Bytes) (t : Tracks) : Tracks :=
  if handlerType = b!"vide" then { t with video := true }
  else if handlerType = b!"soun" then { t with audio := true }
  else if handlerType = b!"sbtl" ∨ handlerType = b!"subt" ∨ handlerType = b!"text" then
    { t with subtitle := true }
  else t

/-- Final verdict of the MP4 reader (`src/readers.rs` 598-606). -/
def mp4Verdict (t : Tracks) : FileFormat :=
  if t.video then Mpeg4Part14Video
  else if t.audio then Mpeg4Part14Audio
  else if t.subtitle then Mpeg4Part14Subtitles
  else Mpeg4Part14

/-- The 64-bit size that replaces a 32-bit size of 1 (`src/readers.rs` 562-566). -/
def mp4Size (size32 : Nat) : Prog Nat :=
  if size32 = 1 then readU64be else pure size32

/-- The box loop (`src/readers.rs` 552-595); the first argument counts the boxes left before `BOX_LIMIT`. -/
def mp4Loop (cfg : Cfg) (len : Nat) : Nat → Tracks → Prog FileFormat
  | 0, t => pure (mp4Verdict t)
  | n + 1, t => do
    let p ← pos
    if p < len then
      let size32 ← readU32be
      let boxType ← readBytes 4
      let size ← mp4Size size32
      if boxType = b!"moov" ∨ boxType = b!"trak" ∨ boxType = b!"mdia" then
        mp4Loop cfg len n t
      else if boxType = b!"hdlr" then
        let _ ← sk (.current 8)
        let handlerType ← readBytes 4
        let dist ← lift (i64Sub cfg (asI64 size) 20)
        let _ ← sk (.current dist)
        mp4Loop cfg len n (mp4Handler handlerType t)
      else
        let dist ← lift (i64Sub cfg (asI64 size) 8)
        let _ ← sk (.current dist)
        mp4Loop cfg len n t
    else pure (mp4Verdict t)

/-- `from_mp4_reader` (`src/readers.rs` 534-607). -/
def mp4Reader (cfg : Cfg) : Prog FileFormat := do
  let len ← sk (.fromEnd 0)
  let _ ← sk (.start 0)
  mp4Loop cfg len mp4BoxLimit Tracks.none

/-! ## PDF (`src/readers.rs` 609-656) -/

/-- `READ_LIMIT` (`src/readers.rs` 613). -/
def pdfReadLimit : Nat := 33554432
/-- `CHUNK_SIZE` (`src/readers.rs` 616). -/
def pdfChunkSize : Nat := 32768
/-- `AI_MARKER` (`src/readers.rs` 622). -/
def aiMarker : Bytes := b!"AIPrivateData"
/-- `OVERLAP_SIZE` (`src/readers.rs` 619). -/
def pdfOverlapSize : Nat := aiMarker.length - 1

/-- `slice::rotate_right(k)` (648); `k` is at most the length here (`src/readers.rs` 648). -/
def rotateRight (l : Bytes) (k : Nat) : Bytes := l.drop (l.length - k) ++ l.take (l.length - k)

/-- The chunk loop (`src/readers.rs` 631-652). Of the array `buf` only the first `OVERLAP_SIZE` bytes (`overlap`)
survive into the next round: the bytes after them are overwritten by `read` before they are looked
at. `fuel` bounds the rounds: each adds at least one byte to `total_nread`. -/
def pdfLoop : Nat → (totalNread : Nat) → (overlap : Bytes) → Prog FileFormat
  | 0, _, _ => .fail .diverge
  | fuel + 1, totalNread, overlap =>
    if totalNread < pdfReadLimit then do
      let chunk ← rd pdfChunkSize
      if chunk.length = 0 then pure PortableDocumentFormat
      else
        let buf := overlap ++ chunk
        let start := if totalNread = 0 then pdfOverlapSize else 0
        let window ← lift (sliceIdx buf start (pdfOverlapSize + chunk.length))
        let found ← lift (holdsBytes window aiMarker)
        if found then pure AdobeIllustratorArtwork
        else
          pdfLoop fuel (totalNread + chunk.length)
            ((rotateRight buf pdfOverlapSize).take pdfOverlapSize)
    else pure PortableDocumentFormat

/-- `from_pdf_reader` (`src/readers.rs` 611-656). -/
def pdfReader : Prog FileFormat := do
  let _ ← sk (.start 5)
  pdfLoop (pdfReadLimit + 1) 0 (List.replicate pdfOverlapSize 0)

/-! ## RM (`src/readers.rs` 658-724) -/

/-- `CHUNK_LIMIT` (`src/readers.rs` 662). -/
def rmChunkLimit : Nat := 64

/-- The chunk loop (`src/readers.rs` 676-714) and the final verdict (717-723). `chunk_size as i64 - 8` (713)
cannot overflow because `chunk_size` is an `u32`. -/
def rmLoop : Nat → (audio video : Bool) → Prog FileFormat
  | 0, audio, video =>
    pure (if video then Realvideo else if audio then Realaudio else Realmedia)
  | n + 1, audio, video => do
    let chunkType ← readBytes 4
    let chunkSize ← readU32be
    if chunkType = b!"MDPR" then
      let offset ← pos
      let _ ← sk (.current 32)
      let streamNameSize ← readU8
      let _ ← sk (.current streamNameSize.toNat)
      let mimeTypeSize ← readU8
      let mimeType ← readBytes mimeTypeSize.toNat
      let audio' := if startsWith mimeType b!"audio/" then true else audio
      let video' := if startsWith mimeType b!"audio/" then video
        else if startsWith mimeType b!"video/" then true else video
      let _ ← sk (.start offset)
      let _ ← sk (.current ((chunkSize : Int) - 8))
      rmLoop n audio' video'
    else
      let _ ← sk (.current ((chunkSize : Int) - 8))
      rmLoop n audio video

/-- `from_rm_reader` (`src/readers.rs` 660-724). -/
def rmReader : Prog FileFormat := do
  let _ ← sk (.start 14)
  let numberOfHeaders ← readU32be
  rmLoop (min rmChunkLimit (numberOfHeaders - 1)) false false

/-! ## SQLite 3 (`src/readers.rs` 726-746) -/

/-- `SKETCH_MARKER` (`src/readers.rs` 730). -/
def sketchMarker : Bytes := b!"com.bohemiancoding.sketch3"

/-- `from_sqlite3_reader` (`src/readers.rs` 728-746). -/
def sqlite3Reader : Prog FileFormat := do
  let _ ← sk (.start 100)
  let buf ← rd 32768
  let found ← lift (holdsBytes buf sketchMarker)
  if found then pure Sketch else pure Sqlite3

/-! ## TXT (`src/readers.rs` 748-777) -/

/-- `LINE_LIMIT` (`src/readers.rs` 752). -/
def txtLineLimit : Nat := 16
/-- `READ_LIMIT` (`src/readers.rs` 755). -/
def txtReadLimit : Nat := 65536

/-- `Lines::next`: removes a final `\n`, and then a final `\r` (std, for `src/readers.rs` 767). -/
def stripLineEnding (s : Str) : Str :=
  if s.getLast? = some 10 then
    let s := s.dropLast
    if s.getLast? = some 13 then s.dropLast else s
  else s

/-- `reader.take(READ_LIMIT).lines().take(LINE_LIMIT).try_for_each(..)` (`src/readers.rs` 765-776): `n` lines and
`limit` bytes are left. An empty `read_until` ends the iterator; a line that is not UTF-8 or holds a
control character other than white space is an error. -/
def txtLines : Nat → Nat → Prog FileFormat
  | 0, _ => pure PlainText
  | n + 1, limit => do
    let line ← rdUntil limit
    if line.length = 0 then pure PlainText
    else
      match decodeUtf8 line with
      | none => throwErr .invalidData
      | some s =>
        match (stripLineEnding s).find? (fun c => isControl c && !isWhitespace c) with
        | some _ => throwErr .invalidData
        | none => txtLines n (limit - line.length)

/-- `from_txt_reader` (`src/readers.rs` 750-777). -/
def txtReader : Prog FileFormat := do
  let _ ← sk (.start 0)
  txtLines txtLineLimit txtReadLimit

/-! ## XML (`src/readers.rs` 779-852) -/

/-- The `if .. else if ..` chain (`src/readers.rs` 791-851) as data, in source order: the condition of a rule is a
disjunction of conjunctions of `buf.holds(marker)`. -/
def xmlRules : List (List (List Bytes) × FileFormat) := [
  ([[b!"<abiword template=\"false\""]], Abiword),
  ([[b!"<abiword template=\"true\""]], AbiwordTemplate),
  ([[b!"<amf"]], AdditiveManufacturingFormat),
  ([[b!"<ASX"], [b!"<asx"]], AdvancedStreamRedirector),
  ([[b!"<feed"]], Atom),
  ([[b!"<COLLADA"]], CollaborativeDesignActivity),
  ([[b!"<mxfile"]], Drawio),
  ([[b!"<X3D"]], Extensible3d),
  ([[b!"<xsl"]], ExtensibleStylesheetLanguageTransformations),
  ([[b!"<FictionBook"]], Fictionbook),
  ([[b!"<gml"]], GeographyMarkupLanguage),
  ([[b!"<gpx"]], GpsExchangeFormat),
  ([[b!"<kml"]], KeyholeMarkupLanguage),
  ([[b!"<math"]], MathematicalMarkupLanguage),
  ([[b!"<MPD"]], MpegDashMpd),
  ([[b!"<score-partwise"]], Musicxml),
  ([[b!"<rss"]], ReallySimpleSyndication),
  ([[b!"<SVG"], [b!"<svg"]], ScalableVectorGraphics),
  ([[b!"<soap"]], SimpleObjectAccessProtocol),
  ([[b!"<map"]], TiledMapXml),
  ([[b!"<tileset"]], TiledTilesetXml),
  ([[b!"<tt", b!"xmlns=\"http://www.w3.org/ns/ttml\""]], TimedTextMarkupLanguage),
  ([[b!"<TrainingCenterDatabase"]], TrainingCenterXml),
  ([[b!"<uof:UOF", b!"uof:mimetype=\"vnd.uof.presentation\""]], UniformOfficeFormatPresentation),
  ([[b!"<uof:UOF", b!"uof:mimetype=\"vnd.uof.spreadsheet\""]], UniformOfficeFormatSpreadsheet),
  ([[b!"<uof:UOF", b!"uof:mimetype=\"vnd.uof.text\""]], UniformOfficeFormatText),
  ([[b!"<USFSubtitles"]], UniversalSubtitleFormat),
  ([[b!"<xliff"]], XmlLocalizationInterchangeFileFormat),
  ([[b!"<playlist"]], XmlShareablePlaylistFormat)]

/-- `buf.holds(a) && buf.holds(b) && ...`, with short-circuit evaluation (`src/readers.rs` 791-849). -/
def holdsAll (buf : Bytes) : List Bytes → Except Fail Bool
  | [] => pure true
  | m :: ms => do
    if ← holdsBytes buf m then holdsAll buf ms else pure false

/-- `c1 || c2 || ...`, with short-circuit evaluation (`src/readers.rs` 791-849). -/
def holdsAny (buf : Bytes) : List (List Bytes) → Except Fail Bool
  | [] => pure false
  | c :: cs => do
    if ← holdsAll buf c then pure true else holdsAny buf cs

/-- Evaluation of the chain: the first rule whose condition holds, else the default (`src/readers.rs` 850). -/
def xmlClassify (buf : Bytes) : List (List (List Bytes) × FileFormat) → Except Fail FileFormat
  | [] => pure ExtensibleMarkupLanguage
  | (cond, fmt) :: rules => do
    if ← holdsAny buf cond then pure fmt else xmlClassify buf rules

/-- `from_xml_reader` (`src/readers.rs` 781-852). -/
def xmlReader : Prog FileFormat := do
  let _ ← sk (.start 5)
  let buf ← rd 8192
  lift (xmlClassify buf xmlRules)

/-! ## ZIP (`src/readers.rs` 854-1098) -/

/-- `ENTRY_LIMIT` (`src/readers.rs` 858). -/
def zipEntryLimit : Nat := 1024
/-- `EOCD64_LOCATOR_SIGNATURE` (`src/readers.rs` 861). -/
def zipEocd64LocatorSignature : Bytes := b!"PK\x06\x07"
/-- `EOCD_SIGNATURE` (`src/readers.rs` 864). -/
def zipEocdSignature : Bytes := b!"PK\x05\x06"
/-- `EOCD64_LOCATOR_SIZE` (`src/readers.rs` 867). -/
def zipEocd64LocatorSize : Nat := 20
/-- `EOCD_MIN_SIZE` (`src/readers.rs` 873). -/
def zipEocdMinSize : Nat := 22
/-- `EOCD_MAX_SIZE` (`src/readers.rs` 870). -/
def zipEocdMaxSize : Nat := zipEocdMinSize + 65535

/-- The `match filename.as_str()` arms that return a format (`src/readers.rs` 967-981), without
`META-INF/MANIFEST.MF` and `mimetype`. -/
def zipNames : List (Str × FileFormat) := [
  (s!!"AndroidManifest.xml", AndroidPackage),
  (s!!"AppManifest.xaml", Xap),
  (s!!"AppxManifest.xml", WindowsAppPackage),
  (s!!"AppxMetadata/AppxBundleManifest.xml", WindowsAppBundle),
  (s!!"BundleConfig.pb", AndroidAppBundle),
  (s!!"DOMDocument.xml", FlashCs5Project),
  (s!!"META-INF/AIR/application.xml", AdobeIntegratedRuntime),
  (s!!"META-INF/application.xml", EnterpriseApplicationArchive),
  (s!!"META-INF/mozilla.rsa", Xpinstall),
  (s!!"WEB-INF/web.xml", WebApplicationArchive),
  (s!!"canvas.fig", FigmaDesign),
  (s!!"doc.kml", KeyholeMarkupLanguageZip),
  (s!!"document.json", Sketch43),
  (s!!"extension.vsixmanifest", MicrosoftVisualStudioExtension)]

/-- The default arm (`src/readers.rs` 1055-1089): tests on prefixes and suffixes. -/
def zipPatterns (filename : Str) : Option FileFormat :=
  if filename.startsWith s!!"Fusion[Active]/" then some Autodesk123d
  else if filename.startsWith s!!"circuitdiagram/" then some CircuitDiagramDocument
  else if filename.startsWith s!!"dwf/" then some DesignWebFormatXps
  else if filename.endsWith s!!".fb2" && !filename.containsChar 47 then some FictionbookZip
  else if filename.startsWith s!!"FusionAssetName[Active]/" then some Fusion360
  else if filename.startsWith s!!"Payload/" && filename.contains s!!".app/" then
    some IosAppStorePackage
  else if filename.startsWith s!!"word/" then some OfficeOpenXmlDocument
  else if filename.startsWith s!!"visio/" then some OfficeOpenXmlDrawing
  else if filename.startsWith s!!"ppt/" then some OfficeOpenXmlPresentation
  else if filename.startsWith s!!"xl/" then some OfficeOpenXmlSpreadsheet
  else if filename.startsWith s!!"Documents/" && filename.endsWith s!!".fpage" then some Openxps
  else if filename.startsWith s!!"SpaceClaim/" then some SpaceclaimDocument
  else if filename.startsWith s!!"3D/" && filename.endsWith s!!".model" then
    some ThreeDimensionalManufacturingFormat
  else if (filename.endsWith s!!".usd" || filename.endsWith s!!".usda" ||
      filename.endsWith s!!".usdc") && !filename.containsChar 47 then
    some UniversalSceneDescriptionZip
  else none

/-- The contents of a `mimetype` entry (`src/readers.rs` 1001-1053). -/
def zipMimetypes : List (Str × FileFormat) := [
  (s!!"application/epub+zip", ElectronicPublication),
  (s!!"application/vnd.adobe.indesign-idml-package", IndesignMarkupLanguage),
  (s!!"application/vnd.oasis.opendocument.base", OpendocumentDatabase),
  (s!!"application/vnd.oasis.opendocument.database", OpendocumentDatabase),
  (s!!"application/vnd.oasis.opendocument.formula", OpendocumentFormula),
  (s!!"application/vnd.oasis.opendocument.formula-template", OpendocumentFormulaTemplate),
  (s!!"application/vnd.oasis.opendocument.graphics", OpendocumentGraphics),
  (s!!"application/vnd.oasis.opendocument.graphics-template", OpendocumentGraphicsTemplate),
  (s!!"application/vnd.oasis.opendocument.presentation", OpendocumentPresentation),
  (s!!"application/vnd.oasis.opendocument.presentation-template", OpendocumentPresentationTemplate),
  (s!!"application/vnd.oasis.opendocument.spreadsheet", OpendocumentSpreadsheet),
  (s!!"application/vnd.oasis.opendocument.spreadsheet-template", OpendocumentSpreadsheetTemplate),
  (s!!"application/vnd.oasis.opendocument.text", OpendocumentText),
  (s!!"application/vnd.oasis.opendocument.text-master", OpendocumentTextMaster),
  (s!!"application/vnd.oasis.opendocument.text-master-template", OpendocumentTextMasterTemplate),
  (s!!"application/vnd.oasis.opendocument.text-template", OpendocumentTextTemplate),
  (s!!"application/vnd.recordare.musicxml", MusicxmlZip),
  (s!!"application/vnd.sun.xml.calc", SunXmlCalc),
  (s!!"application/vnd.sun.xml.calc.template", SunXmlCalcTemplate),
  (s!!"application/vnd.sun.xml.draw", SunXmlDraw),
  (s!!"application/vnd.sun.xml.draw.template", SunXmlDrawTemplate),
  (s!!"application/vnd.sun.xml.impress", SunXmlImpress),
  (s!!"application/vnd.sun.xml.impress.template", SunXmlImpressTemplate),
  (s!!"application/vnd.sun.xml.math", SunXmlMath),
  (s!!"application/vnd.sun.xml.writer", SunXmlWriter),
  (s!!"application/vnd.sun.xml.writer.global", SunXmlWriterGlobal),
  (s!!"application/vnd.sun.xml.writer.template", SunXmlWriterTemplate),
  (s!!"image/openraster", Openraster)]

/-- The `mimetype` arm (`src/readers.rs` 982-1054). Both skipped lengths are `u16`, so their sum cannot overflow. -/
def zipMimetype (compressedSize offset : Nat) : Prog FileFormat := do
  let _ ← sk (.start (offset + 26))
  let filenameLen ← readU16le
  let extraFieldLen ← readU16le
  let _ ← sk (.current ((filenameLen : Int) + extraFieldLen))
  let data ← readString compressedSize
  match zipMimetypes.lookup (trim data) with
  | some f => pure f
  | none => pure Zip

/-- The central directory loop (`src/readers.rs` 941-1097). -/
def zipEntries : Nat → FileFormat → Prog FileFormat
  | 0, fmt => pure fmt
  | n + 1, fmt => do
    let _ ← sk (.current 20)
    let compressedSize ← readU32le
    let uncompressedSize ← readU32le
    let filenameLen ← readU16le
    let extraFieldLen ← readU16le
    let fileCommentLen ← readU16le
    let _ ← sk (.current 8)
    let offset ← readU32le
    let filename ← readString filenameLen
    match zipNames.lookup filename with
    | some f => pure f
    | none =>
      if filename = s!!"META-INF/MANIFEST.MF" then do
        let _ ← sk (.current ((extraFieldLen : Int) + fileCommentLen))
        zipEntries n JavaArchive
      else if filename = s!!"mimetype" ∧ compressedSize = uncompressedSize then
        zipMimetype compressedSize offset
      else
        match zipPatterns filename with
        | some f => pure f
        | none => do
          let _ ← sk (.current ((extraFieldLen : Int) + fileCommentLen))
          zipEntries n fmt

/-- Number of entries and central directory offset from the ZIP64 records (`src/readers.rs` 906-920). -/
def zipDirectory64 (cfg : Cfg) : Prog (Nat × Nat) := do
  let _ ← sk (.current 4)
  let eocd64Offset ← readU64le
  let start ← lift (u64Add cfg eocd64Offset 32)
  let _ ← sk (.start start)
  let numberOfEntries ← readU64le
  let _ ← sk (.current 8)
  let socdOffset ← readU64le
  pure (numberOfEntries, socdOffset)

/-- Number of entries and central directory offset from the end record (`src/readers.rs` 921-932). -/
def zipDirectory (cfg : Cfg) (eocdOffset : Nat) : Prog (Nat × Nat) := do
  let start ← lift (u64Add cfg eocdOffset 10)
  let _ ← sk (.start start)
  let numberOfEntries ← readU16le
  let _ ← sk (.current 4)
  let socdOffset ← readU32le
  pure (numberOfEntries, socdOffset)

/-- Is there a ZIP64 locator before the end record (`src/readers.rs` 890-903)? -/
def zipIsZip64 (eocdOffset : Nat) : Prog Bool :=
  if eocdOffset ≥ zipEocd64LocatorSize then do
    let _ ← sk (.start (eocdOffset - zipEocd64LocatorSize))
    let signature ← readBytes 4
    pure (signature == zipEocd64LocatorSignature)
  else pure false

/-- The choice between the two end records (`src/readers.rs` 906-933). -/
def zipEnd (cfg : Cfg) (zip64 : Bool) (eocdOffset : Nat) : Prog (Nat × Nat) :=
  if zip64 then zipDirectory64 cfg else zipDirectory cfg eocdOffset

/-- `from_zip_reader` (`src/readers.rs` 856-1098). -/
def zipReader (cfg : Cfg) : Prog FileFormat := do
  let len ← sk (.fromEnd 0)
  let offset := len - zipEocdMaxSize
  let _ ← sk (.start offset)
  let buf ← readBytes (max zipEocdMinSize (min len zipEocdMaxSize))
  let found ← lift (rfindBytes buf zipEocdSignature)
  match found with
  | none => throwErr .invalidData
  | some bufIndex => do
    let eocdOffset ← lift (u64Add cfg offset bufIndex)
    let zip64 ← zipIsZip64 eocdOffset
    let dir ← zipEnd cfg zip64 eocdOffset
    let _ ← sk (.start dir.2)
    zipEntries (min zipEntryLimit dir.1) Zip

end FF
