import Verif.Spec.Encode
import Verif.Spec.Text
import Verif.Model.Format
/-!
# Specification: ZIP archives

What the names of the entries of an archive say about its format, the layout of the central directory
and of the end records, and the contents of a `mimetype` entry.
-/

namespace FF.Spec
open FileFormat

/-! ## Names -/

/-- Entries that only one format has (`src/readers.rs` 967-981). -/
def zipExactNames : List (Bytes × FileFormat) := [
  (b!"AndroidManifest.xml", AndroidPackage),
  (b!"AppManifest.xaml", Xap),
  (b!"AppxManifest.xml", WindowsAppPackage),
  (b!"AppxMetadata/AppxBundleManifest.xml", WindowsAppBundle),
  (b!"BundleConfig.pb", AndroidAppBundle),
  (b!"DOMDocument.xml", FlashCs5Project),
  (b!"META-INF/AIR/application.xml", AdobeIntegratedRuntime),
  (b!"META-INF/application.xml", EnterpriseApplicationArchive),
  (b!"META-INF/mozilla.rsa", Xpinstall),
  (b!"WEB-INF/web.xml", WebApplicationArchive),
  (b!"canvas.fig", FigmaDesign),
  (b!"doc.kml", KeyholeMarkupLanguageZip),
  (b!"document.json", Sketch43),
  (b!"extension.vsixmanifest", MicrosoftVisualStudioExtension)]

/-- Directories that only one format has. -/
def zipDirectories : List (Bytes × FileFormat) := [
  (b!"Fusion[Active]/", Autodesk123d),
  (b!"circuitdiagram/", CircuitDiagramDocument),
  (b!"dwf/", DesignWebFormatXps),
  (b!"FusionAssetName[Active]/", Fusion360),
  (b!"word/", OfficeOpenXmlDocument),
  (b!"visio/", OfficeOpenXmlDrawing),
  (b!"ppt/", OfficeOpenXmlPresentation),
  (b!"xl/", OfficeOpenXmlSpreadsheet),
  (b!"SpaceClaim/", SpaceclaimDocument)]

/-- The entry is at the top level: no slash in its name. -/
def TopLevel (name : Bytes) : Prop := 47 ∉ name

/-- The format that the name of an entry tells. -/
inductive NameMeans (name : Bytes) : FileFormat → Prop where
  | exact {f} (h : (name, f) ∈ zipExactNames) : NameMeans name f
  | inside {d f} (h : (d, f) ∈ zipDirectories) (hp : d <+: name) : NameMeans name f
  | fb2 (h : b!".fb2" <:+ name) (ht : TopLevel name) : NameMeans name FictionbookZip
  | app (h : b!"Payload/" <+: name) (ha : b!".app/" <:+: name) : NameMeans name IosAppStorePackage
  | page (h : b!"Documents/" <+: name) (hp : b!".fpage" <:+ name) : NameMeans name Openxps
  | model (h : b!"3D/" <+: name) (hm : b!".model" <:+ name) : NameMeans name ThreeDimensionalManufacturingFormat
  | usd {s} (hs : s ∈ [b!".usd", b!".usda", b!".usdc"]) (h : s <:+ name) (ht : TopLevel name) :
    NameMeans name UniversalSceneDescriptionZip

/-! ## Contents of `mimetype` -/

/-- Media types that a stored `mimetype` entry may contain (`src/readers.rs` 1001-1053). -/
def zipMediaTypes : List (Bytes × FileFormat) := [
  (b!"application/epub+zip", ElectronicPublication),
  (b!"application/vnd.adobe.indesign-idml-package", IndesignMarkupLanguage),
  (b!"application/vnd.oasis.opendocument.base", OpendocumentDatabase),
  (b!"application/vnd.oasis.opendocument.database", OpendocumentDatabase),
  (b!"application/vnd.oasis.opendocument.formula", OpendocumentFormula),
  (b!"application/vnd.oasis.opendocument.formula-template", OpendocumentFormulaTemplate),
  (b!"application/vnd.oasis.opendocument.graphics", OpendocumentGraphics),
  (b!"application/vnd.oasis.opendocument.graphics-template", OpendocumentGraphicsTemplate),
  (b!"application/vnd.oasis.opendocument.presentation", OpendocumentPresentation),
  (b!"application/vnd.oasis.opendocument.presentation-template", OpendocumentPresentationTemplate),
  (b!"application/vnd.oasis.opendocument.spreadsheet", OpendocumentSpreadsheet),
  (b!"application/vnd.oasis.opendocument.spreadsheet-template", OpendocumentSpreadsheetTemplate),
  (b!"application/vnd.oasis.opendocument.text", OpendocumentText),
  (b!"application/vnd.oasis.opendocument.text-master", OpendocumentTextMaster),
  (b!"application/vnd.oasis.opendocument.text-master-template", OpendocumentTextMasterTemplate),
  (b!"application/vnd.oasis.opendocument.text-template", OpendocumentTextTemplate),
  (b!"application/vnd.recordare.musicxml", MusicxmlZip),
  (b!"application/vnd.sun.xml.calc", SunXmlCalc),
  (b!"application/vnd.sun.xml.calc.template", SunXmlCalcTemplate),
  (b!"application/vnd.sun.xml.draw", SunXmlDraw),
  (b!"application/vnd.sun.xml.draw.template", SunXmlDrawTemplate),
  (b!"application/vnd.sun.xml.impress", SunXmlImpress),
  (b!"application/vnd.sun.xml.impress.template", SunXmlImpressTemplate),
  (b!"application/vnd.sun.xml.math", SunXmlMath),
  (b!"application/vnd.sun.xml.writer", SunXmlWriter),
  (b!"application/vnd.sun.xml.writer.global", SunXmlWriterGlobal),
  (b!"application/vnd.sun.xml.writer.template", SunXmlWriterTemplate),
  (b!"image/openraster", Openraster)]

/-- Unicode white space (property White_Space). -/
def White (c : Char) : Prop :=
  (0x9 ≤ c.toNat ∧ c.toNat ≤ 0xD) ∨ (0x2000 ≤ c.toNat ∧ c.toNat ≤ 0x200A) ∨
    c.toNat ∈ [0x20, 0x85, 0xA0, 0x1680, 0x2028, 0x2029, 0x202F, 0x205F, 0x3000]

instance decidableWhite (c : Char) : Decidable (White c) := inferInstanceAs (Decidable (_ ∨ _ ∨ _))

/-- The format that the contents of a `mimetype` entry tell: a media type, with white space around it. -/
def MimeMeans (content : Bytes) (f : FileFormat) : Prop :=
  ∃ m before after, (m, f) ∈ zipMediaTypes ∧ (∀ c ∈ before, White c) ∧ (∀ c ∈ after, White c) ∧
    content = utf8 before ++ m ++ utf8 after

/-! ## Layout -/

/-- An entry of the central directory. `head` is signature, versions, flags, method, time and checksum;
`attrs` is disk number and attributes. -/
structure ZipEntry where
  head : Bytes
  compressed : Nat
  uncompressed : Nat
  attrs : Bytes
  offset : Nat
  name : Bytes
  extra : Bytes
  comment : Bytes

/-- Bytes of an entry. -/
def ZipEntry.encode (e : ZipEntry) : Bytes :=
  e.head ++ leBytes 4 e.compressed ++ leBytes 4 e.uncompressed ++ leBytes 2 e.name.length ++ leBytes 2 e.extra.length ++
    leBytes 2 e.comment.length ++ e.attrs ++ leBytes 4 e.offset ++ e.name ++ e.extra ++ e.comment

/-- Everything fits. -/
def ZipEntry.Valid (e : ZipEntry) : Prop :=
  e.head.length = 20 ∧ e.compressed < 2 ^ 32 ∧ e.uncompressed < 2 ^ 32 ∧ e.attrs.length = 8 ∧ e.offset < 2 ^ 32 ∧
    e.name.length < 2 ^ 16 ∧ e.extra.length < 2 ^ 16 ∧ e.comment.length < 2 ^ 16

/-- `content` is stored in the file behind the local header at `offset`. -/
inductive StoredAt (offset : Nat) (content : Bytes) : Bytes → Prop where
  | intro (before head name extra after : Bytes) (hb : before.length = offset) (hh : head.length = 26)
      (hn : name.length < 2 ^ 16) (he : extra.length < 2 ^ 16) :
    StoredAt offset content (before ++ (head ++ (leBytes 2 name.length ++ (leBytes 2 extra.length ++
      (name ++ (extra ++ (content ++ after)))))))

/-- The entry is a `mimetype` entry that is not compressed. -/
def ZipEntry.IsMimetype (e : ZipEntry) : Prop := e.name = b!"mimetype" ∧ e.compressed = e.uncompressed

/-- The entry settles the format. -/
def ZipEntry.Decisive (e : ZipEntry) : Prop := (∃ f, NameMeans e.name f) ∨ e.IsMimetype

/-- The format that a decisive entry tells: by its name, or by its contents in the file. -/
inductive ZipEntry.Decides (file : Bytes) (e : ZipEntry) : FileFormat → Prop where
  | name {f} (h : NameMeans e.name f) : Decides file e f
  | mime {f content} (h : e.IsMimetype) (hl : content.length = e.compressed) (hs : StoredAt e.offset content file)
      (hc : MimeMeans content f) : Decides file e f
  | otherMime {content} (h : e.IsMimetype) (hl : content.length = e.compressed) (hs : StoredAt e.offset content file)
      (hc : ∀ f, ¬ MimeMeans content f) : Decides file e Zip

/-- The file ends with end records that put a central directory of `count` entries at `offset`. -/
inductive ZipEnd : Bytes → (count offset : Nat) → Prop where
  /-- The end record: magic, disk numbers (6 bytes), count, size (4 bytes), offset, then `tail`: the length of the
  comment (2 bytes), the comment and whatever was appended to the archive, together less than 2^16 bytes. The magic
  does not occur again in it, and there is no ZIP64 locator (20 bytes) in front of it. -/
  | classic (before disks size tail : Bytes) (count offset : Nat) (hc : count < 2 ^ 16) (ho : offset < 2 ^ 32)
      (hd : disks.length = 6) (hs : size.length = 4) (ht : 2 ≤ tail.length ∧ tail.length < 2 + 2 ^ 16)
      (hlast : ¬ b!"PK\x05\x06" <:+: disks ++ (leBytes 2 count ++ (size ++ (leBytes 4 offset ++ tail))))
      (hloc : ∀ a b, before = a ++ b → b.length = 20 → ¬ b!"PK\x06\x07" <+: b) :
    ZipEnd (before ++ (b!"PK\x05\x06" ++ (disks ++ (leBytes 2 count ++ (size ++ (leBytes 4 offset ++ tail)))))) count offset
  /-- ZIP64: the ZIP64 end record (32 bytes, count, size (8 bytes), offset, anything), somewhere behind it the
  locator (magic, disk (4 bytes), offset of the ZIP64 end record, disks (4 bytes)), then the end record, whose
  fields do not matter. -/
  | zip64 (before head size between disk disks tail : Bytes) (count offset : Nat) (hc : count < 2 ^ 64)
      (ho : offset < 2 ^ 64) (hh : head.length = 32) (hs : size.length = 8) (hd : disk.length = 4) (hds : disks.length = 4)
      (ht : 18 ≤ tail.length ∧ tail.length < 18 + 2 ^ 16) (hlast : ¬ b!"PK\x05\x06" <:+: tail) :
    ZipEnd ((before ++ (head ++ (leBytes 8 count ++ (size ++ (leBytes 8 offset ++ between))))) ++
      (b!"PK\x06\x07" ++ (disk ++ (leBytes 8 before.length ++ (disks ++ (b!"PK\x05\x06" ++ tail)))))) count offset

end FF.Spec
