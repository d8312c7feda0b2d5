import Verif.Model.Format
import Verif.Model.Bytes
/-!
# Specification: the root element of an XML document (C58)
-/

namespace FF.Spec
open FileFormat

/-- White space of XML. -/
def XmlSpace (c : UInt8) : Prop := c = 0x20 ∨ c = 0x09 ∨ c = 0x0A ∨ c = 0x0D

/-- What may stand between the XML declaration and the root element. -/
inductive XmlMisc where
  | space (text : Bytes)
  | comment (text : Bytes)
  | instruction (text : Bytes)
  | doctype (text : Bytes)

/-- The text of the item is one that XML allows (simplified: document types without internal subset). -/
def XmlMisc.Valid : XmlMisc → Prop
  | .space text => ∀ c ∈ text, XmlSpace c
  | .comment text => ¬ b!"--" <:+: text
  | .instruction text => ¬ b!"?>" <:+: text
  | .doctype text => 0x3E ∉ text ∧ 0x5B ∉ text

/-- The item as it is written. -/
def XmlMisc.encode : XmlMisc → Bytes
  | .space text => text
  | .comment text => b!"<!--" ++ text ++ b!"-->"
  | .instruction text => b!"<?" ++ text ++ b!"?>"
  | .doctype text => b!"<!DOCTYPE " ++ text ++ b!">"

/-- The bytes are the beginning of an XML document up to and including the name of its root element. -/
def XmlProlog (start name : Bytes) : Prop :=
  ∃ (decl : Bytes) (misc : List XmlMisc), start = b!"<?xml " ++ decl ++ b!"?>" ++ misc.flatMap XmlMisc.encode ++ b!"<" ++ name ∧
    ¬ b!"?>" <:+: decl ∧ ∀ m ∈ misc, m.Valid

/-- The end of a name: white space, `/` or `>`. -/
def EndsName (rest : Bytes) : Prop := ∃ c t, rest = c :: t ∧ (XmlSpace c ∨ c = 0x2F ∨ c = 0x3E)

/-- The root elements of formats based on XML that have a root element of their own. -/
def rootFormats : List (Bytes × FileFormat) := [
  (b!"amf", AdditiveManufacturingFormat), (b!"asx", AdvancedStreamRedirector), (b!"ASX", AdvancedStreamRedirector),
  (b!"feed", Atom), (b!"COLLADA", CollaborativeDesignActivity), (b!"mxfile", Drawio), (b!"X3D", Extensible3d),
  (b!"xsl:stylesheet", ExtensibleStylesheetLanguageTransformations),
  (b!"xsl:transform", ExtensibleStylesheetLanguageTransformations), (b!"FictionBook", Fictionbook),
  (b!"gml:FeatureCollection", GeographyMarkupLanguage), (b!"gpx", GpsExchangeFormat), (b!"kml", KeyholeMarkupLanguage),
  (b!"math", MathematicalMarkupLanguage), (b!"MPD", MpegDashMpd), (b!"score-partwise", Musicxml),
  (b!"rss", ReallySimpleSyndication), (b!"svg", ScalableVectorGraphics), (b!"soap:Envelope", SimpleObjectAccessProtocol),
  (b!"map", TiledMapXml), (b!"tileset", TiledTilesetXml), (b!"TrainingCenterDatabase", TrainingCenterXml),
  (b!"USFSubtitles", UniversalSubtitleFormat), (b!"xliff", XmlLocalizationInterchangeFileFormat),
  (b!"playlist", XmlShareablePlaylistFormat)]

end FF.Spec
