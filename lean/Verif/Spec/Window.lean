import Verif.Model.Format
import Verif.Model.Bytes
/-!
# Specification: markers inside a window of the input
-/

namespace FF.Spec
open FileFormat

/-- `pat` occurs in `d`, entirely within the bytes `lo .. hi`. -/
def OccursWithin (pat : Bytes) (lo hi : Nat) (d : Bytes) : Prop :=
  ∃ pre suf, d = pre ++ pat ++ suf ∧ lo ≤ pre.length ∧ pre.length + pat.length ≤ hi

/-- The markers of the formats based on XML, in order of precedence. A format is indicated by any
of the given lists of markers, all of which must be present. -/
def xmlMarkers : List (FileFormat × List (List Bytes)) := [
  (Abiword, [[b!"<abiword template=\"false\""]]),
  (AbiwordTemplate, [[b!"<abiword template=\"true\""]]),
  (AdditiveManufacturingFormat, [[b!"<amf"]]),
  (AdvancedStreamRedirector, [[b!"<ASX"], [b!"<asx"]]),
  (Atom, [[b!"<feed"]]),
  (CollaborativeDesignActivity, [[b!"<COLLADA"]]),
  (Drawio, [[b!"<mxfile"]]),
  (Extensible3d, [[b!"<X3D"]]),
  (ExtensibleStylesheetLanguageTransformations, [[b!"<xsl"]]),
  (Fictionbook, [[b!"<FictionBook"]]),
  (GeographyMarkupLanguage, [[b!"<gml"]]),
  (GpsExchangeFormat, [[b!"<gpx"]]),
  (KeyholeMarkupLanguage, [[b!"<kml"]]),
  (MathematicalMarkupLanguage, [[b!"<math"]]),
  (MpegDashMpd, [[b!"<MPD"]]),
  (Musicxml, [[b!"<score-partwise"]]),
  (ReallySimpleSyndication, [[b!"<rss"]]),
  (ScalableVectorGraphics, [[b!"<SVG"], [b!"<svg"]]),
  (SimpleObjectAccessProtocol, [[b!"<soap"]]),
  (TiledMapXml, [[b!"<map"]]),
  (TiledTilesetXml, [[b!"<tileset"]]),
  (TimedTextMarkupLanguage, [[b!"<tt", b!"xmlns=\"http://www.w3.org/ns/ttml\""]]),
  (TrainingCenterXml, [[b!"<TrainingCenterDatabase"]]),
  (UniformOfficeFormatPresentation, [[b!"<uof:UOF", b!"uof:mimetype=\"vnd.uof.presentation\""]]),
  (UniformOfficeFormatSpreadsheet, [[b!"<uof:UOF", b!"uof:mimetype=\"vnd.uof.spreadsheet\""]]),
  (UniformOfficeFormatText, [[b!"<uof:UOF", b!"uof:mimetype=\"vnd.uof.text\""]]),
  (UniversalSubtitleFormat, [[b!"<USFSubtitles"]]),
  (XmlLocalizationInterchangeFileFormat, [[b!"<xliff"]]),
  (XmlShareablePlaylistFormat, [[b!"<playlist"]])]

/-- The input shows the markers of a row of the table, after `<?xml` and within the first 8197
bytes. -/
def ShowsXml (d : Bytes) (row : FileFormat × List (List Bytes)) : Prop :=
  ∃ markers ∈ row.2, ∀ m ∈ markers, OccursWithin m 5 8197 d

/-- `f` is the format of the first row of `xmlMarkers` that the input shows, or
`ExtensibleMarkupLanguage` if it shows none. -/
def XmlVerdict (b : Bytes) (f : FileFormat) : Prop :=
  (∃ before row after, xmlMarkers = before ++ row :: after ∧ row.1 = f ∧ ShowsXml b row ∧
    ∀ r ∈ before, ¬ ShowsXml b r) ∨
  (f = ExtensibleMarkupLanguage ∧ ∀ r ∈ xmlMarkers, ¬ ShowsXml b r)

end FF.Spec
