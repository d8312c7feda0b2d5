import Verif.Spec.Families
import Verif.Spec.Magic
import Verif.Spec.Walk
import Verif.Spec.Cfb
import Verif.Spec.Window
import Verif.Spec.Text
import Verif.Spec.Second
/-!
# Specification: the verdict on every content

All of `from_bytes` as a relation between the content and the verdict: magic numbers, then the reader of the enabled
feature, then plain text or arbitrary data. The relations for the containers are in `Spec/Walk.lean`, the tables in
`Spec/Guid.lean` and `Spec/Window.lean`. Nothing of the code that is modelled is used but the table of magic numbers and
the list of formats.
-/

namespace FF.Spec
open FileFormat

/-- What the magic numbers tell: of the formats that have one in the content, the first one in the table. -/
inductive SignatureSays (b : Bytes) : FileFormat → Prop where
  | empty (h : b = []) : SignatureSays b FileFormat.Empty
  | magic {f} (h : HasMagic f b) (hn : ∀ g, ListedBefore g f → ¬ HasMagic g b) : SignatureSays b f
  | unknown (h : b ≠ []) (hn : ∀ f, ¬ HasMagic f b) : SignatureSays b ArbitraryBinaryData

/-- The CLSID of the root entry is none of the table. -/
def UnknownClsid (b : Bytes) : Prop := ∀ r ∈ clsids, ¬ MagicAt (cfbDirectory b + 80) r.1.bytes b

/-- Compound files: by the CLSID of the root entry, or else by the names of the second and third entry. -/
inductive CfbContent (b : Bytes) : FileFormat → Prop where
  | clsid {r} (hl : 52 ≤ b.length) (hr : r ∈ clsids) (hm : MagicAt (cfbDirectory b + 80) r.1.bytes b) : CfbContent b r.2
  | second (hl : 52 ≤ b.length) (hu : UnknownClsid b) (hd : cfbDirectory b + 192 ≤ b.length)
      (hm : MagicAt (cfbDirectory b + 128) (utf16 b!"MatOST") b) : CfbContent b MicrosoftWorksWordProcessor
  | third (hl : 52 ≤ b.length) (hu : UnknownClsid b) (hd : cfbDirectory b + 320 ≤ b.length)
      (hn : ¬ MagicAt (cfbDirectory b + 128) (utf16 b!"MatOST") b)
      (hm : MagicAt (cfbDirectory b + 256) (utf16 b!"WksSSWorkBook") b) : CfbContent b MicrosoftWorks6Spreadsheet
  | other (hl : 52 ≤ b.length) (hu : UnknownClsid b) (hd : cfbDirectory b + 320 ≤ b.length)
      (hn : ¬ MagicAt (cfbDirectory b + 128) (utf16 b!"MatOST") b)
      (hm : ¬ MagicAt (cfbDirectory b + 256) (utf16 b!"WksSSWorkBook") b) : CfbContent b CompoundFileBinary

/-- Executables: by the header at the offset that byte 60 holds. -/
inductive ExeContent (b : Bytes) : FileFormat → Prop where
  | dos (hl : 64 ≤ b.length) (h : b.length ≤ u32At b 60 + 4) : ExeContent b MsDosExecutable
  | library (hl : 64 ≤ b.length) (h : u32At b 60 + 24 ≤ b.length) (hm : MagicAt (u32At b 60) b!"PE\x00\x00" b)
      (hb : (u16At b (u32At b 60 + 22)).testBit 13 = true) : ExeContent b DynamicLinkLibrary
  | program (hl : 64 ≤ b.length) (h : u32At b 60 + 24 ≤ b.length) (hm : MagicAt (u32At b 60) b!"PE\x00\x00" b)
      (hb : (u16At b (u32At b 60 + 22)).testBit 13 = false) : ExeContent b PortableExecutable
  | linear (hl : 64 ≤ b.length) (h : u32At b 60 + 4 < b.length)
      (hm : MagicAt (u32At b 60) b!"LE" b ∨ MagicAt (u32At b 60) b!"LX" b) : ExeContent b LinearExecutable
  | new (hl : 64 ≤ b.length) (h : u32At b 60 + 4 < b.length) (hm : MagicAt (u32At b 60) b!"NE" b) : ExeContent b NewExecutable
  | other (hl : 64 ≤ b.length) (h : u32At b 60 + 4 < b.length) (hp : ¬ MagicAt (u32At b 60) b!"PE\x00\x00" b)
      (he : ¬ MagicAt (u32At b 60) b!"LE" b) (hx : ¬ MagicAt (u32At b 60) b!"LX" b)
      (hn : ¬ MagicAt (u32At b 60) b!"NE" b) : ExeContent b MsDosExecutable

/-- PDF documents, of which the reader sees `n` bytes from offset 5 on. -/
inductive PdfContent (b : Bytes) (top n : Nat) : FileFormat → Prop where
  | artwork (h : OccursWithin b!"AIPrivateData" 5 (5 + n) b) : PdfContent b top n AdobeIllustratorArtwork
  | document (ht : 5 ≤ top) (h : ¬ OccursWithin b!"AIPrivateData" 5 (5 + n) b) : PdfContent b top n PortableDocumentFormat

/-- SQLite databases, of which the reader sees `n` bytes from offset 100 on. -/
inductive SqliteContent (b : Bytes) (top n : Nat) : FileFormat → Prop where
  | sketch (h : OccursWithin b!"com.bohemiancoding.sketch3" 100 (100 + n) b) : SqliteContent b top n Sketch
  | database (ht : 100 ≤ top) (h : ¬ OccursWithin b!"com.bohemiancoding.sketch3" 100 (100 + n) b) : SqliteContent b top n Sqlite3

/-- How many bytes the three readers that do not insist on all of the bytes they ask for are served, if the content does not
end before. -/
structure Reads where
  xml : Nat
  sqlite3 : Nat
  pdf : Nat

/-- Served in full: 8 KiB, 32 KiB and 32 MiB. -/
def Reads.full : Reads := ⟨8192, 32768, 33554432⟩

/-- What the reader of a feature finds in the content, if anything. -/
def ReaderSays (b : Bytes) (top : Nat) (rd : Reads) : Feature → FileFormat → Prop
  | .asf, f => AsfContent b top f
  | .cfb, f => CfbContent b f
  | .ebml, f => EbmlWalk b top 256 0 [] f
  | .exe, f => ExeContent b f
  | .id3v2, f => Id3Walk b top 0 f
  | .mp4, f => Mp4Walk b top 256 0 [] f
  | .pdf, f => PdfContent b top rd.pdf f
  | .rm, f => RmContent b top f
  | .sqlite3, f => SqliteContent b top rd.sqlite3 f
  | .txt, f => IsText (firstLines 16 (b.take 65536)) ∧ f = PlainText
  | .xml, f => 5 ≤ top ∧ XmlVerdict (b.take (5 + rd.xml)) f
  | .zip, f => ZipContent b top f

/-- The verdict with the features `ft` on the content `b`, positions in which go up to `top`, if the magic numbers are looked
for in `w` and the later reads get as far as `rd`. -/
inductive VerdictOn (ft : Features) (w b : Bytes) (top : Nat) (rd : Reads) : FileFormat → Prop where
  /-- no enabled feature is about the format that the magic numbers tell -/
  | signature {f} (hs : SignatureSays w f) (hn : ∀ g : Feature, g.enabled ft = true → g.base ≠ f) : VerdictOn ft w b top rd f
  | reader {g : Feature} {f} (he : g.enabled ft = true) (hs : SignatureSays w g.base) (h : ReaderSays b top rd g f) :
    VerdictOn ft w b top rd f
  /-- the reader finds nothing: plain text, if that is enabled -/
  | text {g : Feature} {f} (he : g.enabled ft = true) (hs : SignatureSays w g.base) (hn : ∀ x, ¬ ReaderSays b top rd g x)
      (ht : ft.txt = true) (h : ReaderSays b top rd .txt f) : VerdictOn ft w b top rd f
  | default {g : Feature} (he : g.enabled ft = true) (hs : SignatureSays w g.base) (hn : ∀ x, ¬ ReaderSays b top rd g x)
      (ht : ¬ (ft.txt = true ∧ ∃ f, ReaderSays b top rd .txt f)) : VerdictOn ft w b top rd ArbitraryBinaryData

/-- The verdict on the content `b`, all of which can be read. -/
def Verdict (ft : Features) (b : Bytes) (top : Nat) : FileFormat → Prop := VerdictOn ft b b top Reads.full

/-- What the first `read` call delivers: from the position of the stream on, up to 36870 bytes, fewer if the stream cuts the
call short. -/
def firstWindow (s : Src) : Bytes := (s.data.drop s.pos).take ((s.revs.head?.getD .full).size 36870)

/-- How far the three readers get on a stream: XML and SQLite with the second `read` call, PDF with as many calls as it takes
to get 32 MiB. -/
def laterReads (s : Src) : Reads := ⟨s.secondRead 8192, s.secondRead 32768, reach 33554432 32768 s.revs.tail 0⟩

end FF.Spec
