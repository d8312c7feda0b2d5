import Verif.Model.Format
import Verif.Model.Bytes
/-!
# Specification: forms of text files (C56, C57)

Line endings and the byte order mark.
-/

namespace FF.Spec
open FileFormat

/-- The text with every line feed replaced by carriage return and line feed. -/
def crlf (b : Bytes) : Bytes := b.flatMap fun x => if x = 10 then [13, 10] else [x]

/-- The text has no carriage returns: its lines, if there are several, end with a line feed. -/
def LfOnly (b : Bytes) : Prop := 13 ∉ b

/-- The byte order mark of UTF-8. -/
def bom : Bytes := b!"\xef\xbb\xbf"

/-- Formats based on XML that are recognised without an XML declaration. -/
def xmlTextFormats : List FileFormat := [
  Abiword, AbiwordTemplate, AdditiveManufacturingFormat, AdvancedStreamRedirector, Atom, CollaborativeDesignActivity, Drawio,
  Extensible3d, ExtensibleMarkupLanguage, ExtensibleStylesheetLanguageTransformations, Fictionbook, GeographyMarkupLanguage,
  GpsExchangeFormat, KeyholeMarkupLanguage, MathematicalMarkupLanguage, MpegDashMpd, Musicxml, ReallySimpleSyndication,
  ScalableVectorGraphics, SimpleObjectAccessProtocol, TiledMapXml, TiledTilesetXml, TimedTextMarkupLanguage, TrainingCenterXml,
  UniversalSubtitleFormat, XmlLocalizationInterchangeFileFormat, XmlShareablePlaylistFormat]

/-- Text formats that may start with a byte order mark. -/
def bomFormats : List FileFormat := xmlTextFormats ++ [HypertextMarkupLanguage, SubripText, WebVideoTextTracks]

/-- Text formats: files of these formats are edited as text. -/
def textFormats : List FileFormat := bomFormats ++ [
  BmfontAscii, ClojureScript, DrawingExchangeFormatAscii, Glyphs, Icalendar, InterQuakeExport, JsonFeed, Latex, LuaScript,
  MayaAscii, MicrosoftVisualStudioSolution, Model3dAscii, Mp3Url, MsDosBatch, PemCertificate, PemCertificateSigningRequest,
  PemPrivateKey, PemPublicKey, PerlScript, PgpMessage, PgpPrivateKeyBlock, PgpPublicKeyBlock, PgpSignature, PgpSignedMessage,
  PolygonAscii, PythonScript, RichTextFormat, RubyScript, ShellScript, ShoutcastPlaylist, StandardForTheExchangeOfProductModelData,
  StereolithographyAscii, ToolCommandLanguageScript, UniversalSceneDescriptionAscii, Vcalendar, Vcard,
  VirtualRealityModelingLanguage, WebassemblyText, WindowsMediaPlaylist, XPixmap]

/-- The text starts with the document type declaration of AbiWord. -/
def AbiwordDoctype (b : Bytes) : Prop := b!"<!DOCTYPE abiword" <+: b

end FF.Spec
