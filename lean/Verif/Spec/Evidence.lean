import Verif.Spec.Magic
import Verif.Spec.Asf
import Verif.Spec.Cfb
import Verif.Spec.Window
import Verif.Spec.Zip
import Verif.Spec.Mimetype
/-!
# Specification: what backs the verdict of a reader

For each format that a reader adds, what the content must show somewhere. Only bytes at offsets are used. The
content need not be well-formed.
-/

namespace FF.Spec
open FileFormat

/-- There is something like an MP4 handler box with this handler type: four bytes of size, `hdlr`, eight more bytes of
size if the four bytes say 1, eight bytes, the type. -/
def HandlerOf (b type : Bytes) : Prop :=
  ∃ p, MagicAt (p + 4) b!"hdlr" b ∧
    ((¬ MagicAt p [0, 0, 0, 1] b ∧ MagicAt (p + 16) type b) ∨ (MagicAt p [0, 0, 0, 1] b ∧ MagicAt (p + 24) type b))

/-- There is something like an EBML element with this ID, whose content starts at `q`: a size of one to eight bytes lies
between them. -/
def ElementAt (b id : Bytes) (q : Nat) : Prop :=
  ∃ p k, 1 ≤ k ∧ k ≤ 8 ∧ q = p + id.length + k ∧ MagicAt p id b

/-- There is something like a codec ID element of EBML whose value starts with these two letters. -/
def CodecOf (b start : Bytes) : Prop := ∃ q, ElementAt b [0x86] q ∧ MagicAt q start b

/-- There is something like an ASF stream properties object for this kind of media: GUID, size (8 bytes), GUID of the
kind. -/
def StreamOf (b : Bytes) (media : Guid) : Prop :=
  ∃ p, MagicAt p asfStreamProperties.bytes b ∧ MagicAt (p + 24) media.bytes b

/-- There is something like a RealMedia media properties chunk whose MIME type starts with this: `MDPR`, 36 bytes, the
length of a name in one byte, the name, the length of the type in one byte, the type. -/
def MediaOf (b start : Bytes) : Prop :=
  ∃ p, MagicAt p b!"MDPR" b ∧ MagicAt (p + 42 + byteAt b (p + 40)) start b

/-- There is something like a central directory entry of a ZIP archive at `p` with this name. -/
def EntryAt (b : Bytes) (p : Nat) (name : Bytes) : Prop :=
  u16At b (p + 28) = name.length ∧ MagicAt (p + 46) name b

/-- What an input shows that a reader reports as a format which it adds. -/
inductive Evidence (b : Bytes) : FileFormat → Prop where
  -- reader-asf
  | asfAudio (h : StreamOf b asfAudioMedia) : Evidence b WindowsMediaAudio
  | asfVideo (h : StreamOf b asfVideoMedia) : Evidence b WindowsMediaVideo
  | asfDvr {p q} (h : MagicAt p asfExtendedContent.bytes b) (hq : p + 28 ≤ q)
      (hn : MagicAt q (utf16le b!"DVR File Version") b) : Evidence b MicrosoftDigitalVideoRecording
  -- reader-cfb
  | clsid {r} (h : r ∈ clsids) (hm : MagicAt (cfbDirectory b + 80) r.1.bytes b) : Evidence b r.2
  | works (h : MagicAt (cfbDirectory b + 128) (utf16 b!"MatOST") b) : Evidence b MicrosoftWorksWordProcessor
  | works6 (h : MagicAt (cfbDirectory b + 256) (utf16 b!"WksSSWorkBook") b) : Evidence b MicrosoftWorks6Spreadsheet
  -- reader-ebml
  | webm {q} (h : ElementAt b [0x42, 0x82] q) (hv : MagicAt q b!"webm" b) : Evidence b Webm
  | stereo {q} (h : ElementAt b [0x53, 0xB8] q) (hv : byteAt b q ≠ 0) : Evidence b Matroska3dVideo
  | mkv (h : CodecOf b b!"V_") : Evidence b MatroskaVideo
  | mka (h : CodecOf b b!"A_") : Evidence b MatroskaAudio
  | mks (h : CodecOf b b!"S_") : Evidence b MatroskaSubtitles
  -- reader-exe
  | dll (h : MagicAt (u32At b 60) b!"PE\x00\x00" b) (hc : (u16At b (u32At b 60 + 22)).testBit 13 = true) :
    Evidence b DynamicLinkLibrary
  | pe (h : MagicAt (u32At b 60) b!"PE\x00\x00" b) (hc : (u16At b (u32At b 60 + 22)).testBit 13 = false) :
    Evidence b PortableExecutable
  | le (h : MagicAt (u32At b 60) b!"LE" b ∨ MagicAt (u32At b 60) b!"LX" b) : Evidence b LinearExecutable
  | ne (h : MagicAt (u32At b 60) b!"NE" b) : Evidence b NewExecutable
  -- reader-id3v2
  | flac {q} (h : MagicAt q b!"fLaC" b) : Evidence b FreeLosslessAudioCodec
  | mp3 {q} {c} (h : c ∈ [0xE2, 0xE3, 0xF2, 0xF3, 0xFA, 0xFB]) (hq : MagicAt q [0xFF, c] b) : Evidence b Mpeg12AudioLayer3
  -- reader-mp4
  | mp4Video (h : HandlerOf b b!"vide") : Evidence b Mpeg4Part14Video
  | mp4Audio (h : HandlerOf b b!"soun") : Evidence b Mpeg4Part14Audio
  | mp4Text {t} (ht : t ∈ [b!"sbtl", b!"subt", b!"text"]) (h : HandlerOf b t) : Evidence b Mpeg4Part14Subtitles
  -- reader-pdf
  | artwork (h : OccursWithin b!"AIPrivateData" 5 b.length b) : Evidence b AdobeIllustratorArtwork
  -- reader-rm
  | rmAudio (h : MediaOf b b!"audio/") : Evidence b Realaudio
  | rmVideo (h : MediaOf b b!"video/") : Evidence b Realvideo
  -- reader-sqlite3
  | sketch (h : OccursWithin b!"com.bohemiancoding.sketch3" 100 32868 b) : Evidence b Sketch
  -- reader-xml
  | xml {row} (h : row ∈ xmlMarkers) (hs : ShowsXml b row) : Evidence b row.1
  -- reader-zip
  | zipEntry {p name f} (h : EntryAt b p name) (hn : NameMeans name f) : Evidence b f
  | jar {p} (h : EntryAt b p b!"META-INF/MANIFEST.MF") : Evidence b JavaArchive
  | mimetype {p q size content f} (h : MimetypeAt b p size) (hq : q = u32At b (p + 42))
      (hc : MagicAt (q + 30 + u16At b (q + 26) + u16At b (q + 28)) content b) (hl : content.length = size)
      (hm : MimeMeans content f) : Evidence b f

end FF.Spec
