import Verif.Model.Detect
/-!
# The documented reader features

Generated by `tools/gen.py` from the crate documentation (`src/lib.rs` 48-209): for each
reader feature the base format it refines and the formats it adds. Do not edit by hand.
-/

namespace FF.Spec
open FileFormat

/-- The reader features (`src/lib.rs` 53-209). -/
inductive Feature where
  | asf
  | cfb
  | ebml
  | exe
  | id3v2
  | mp4
  | pdf
  | rm
  | sqlite3
  | txt
  | xml
  | zip
  deriving DecidableEq, Repr

/-- Is the feature enabled? -/
def Feature.enabled (ft : Features) : Feature → Bool
  | .asf => ft.asf
  | .cfb => ft.cfb
  | .ebml => ft.ebml
  | .exe => ft.exe
  | .id3v2 => ft.id3v2
  | .mp4 => ft.mp4
  | .pdf => ft.pdf
  | .rm => ft.rm
  | .sqlite3 => ft.sqlite3
  | .txt => ft.txt
  | .xml => ft.xml
  | .zip => ft.zip

/-- All features but `reader-txt`, which has no base format. -/
def Feature.structured : List Feature := [.asf, .cfb, .ebml, .exe, .id3v2, .mp4, .pdf, .rm, .sqlite3, .xml, .zip]

/-- The format whose detection the feature refines. (`reader-txt` refines the default format: it
applies "when the file format is not recognized by its signature".) -/
def Feature.base : Feature → FileFormat
  | .asf => AdvancedSystemsFormat
  | .cfb => CompoundFileBinary
  | .ebml => ExtensibleBinaryMetaLanguage
  | .exe => MsDosExecutable
  | .id3v2 => Id3v2
  | .mp4 => Mpeg4Part14
  | .pdf => PortableDocumentFormat
  | .rm => Realmedia
  | .sqlite3 => Sqlite3
  | .txt => ArbitraryBinaryData
  | .xml => ExtensibleMarkupLanguage
  | .zip => Zip

/-- The formats listed under the feature. -/
def Feature.family : Feature → List FileFormat
  | .asf => [  -- src/lib.rs 54-58
      MicrosoftDigitalVideoRecording, WindowsMediaAudio, WindowsMediaVideo]
  | .cfb => [  -- src/lib.rs 59-88
      ThreeDimensionalStudioMax, AutodeskInventorAssembly, AutodeskInventorDrawing, AutodeskInventorPart, AutodeskInventorPresentation,
      CorelPresentations7, FlashProject, MicrosoftExcelSpreadsheet, MicrosoftPowerpointPresentation, MicrosoftProjectPlan,
      MicrosoftPublisherDocument, MicrosoftSoftwareInstaller, MicrosoftVisioDrawing, MicrosoftWordDocument, MicrosoftWorks6Spreadsheet,
      MicrosoftWorksDatabase, MicrosoftWorksWordProcessor, SolidworksAssembly, SolidworksDrawing, SolidworksPart,
      Starcalc, Starchart, Stardraw, Starimpress, Starmath,
      Starwriter, WordperfectDocument, WordperfectGraphics]
  | .ebml => [  -- src/lib.rs 89-95
      Matroska3dVideo, MatroskaAudio, MatroskaSubtitles, MatroskaVideo, Webm]
  | .exe => [  -- src/lib.rs 96-101
      DynamicLinkLibrary, LinearExecutable, NewExecutable, PortableExecutable]
  | .id3v2 => [  -- src/lib.rs 102-104
      FreeLosslessAudioCodec, Mpeg12AudioLayer3]
  | .mp4 => [  -- src/lib.rs 105-109
      Mpeg4Part14Audio, Mpeg4Part14Subtitles, Mpeg4Part14Video]
  | .pdf => [  -- src/lib.rs 110-112
      AdobeIllustratorArtwork]
  | .rm => [  -- src/lib.rs 113-115
      Realaudio, Realvideo]
  | .sqlite3 => [  -- src/lib.rs 116-117
      Sketch]
  | .txt => [  -- src/lib.rs 118-118
      PlainText]
  | .xml => [  -- src/lib.rs 121-152
      Abiword, AbiwordTemplate, AdditiveManufacturingFormat, AdvancedStreamRedirector, Atom,
      CollaborativeDesignActivity, Extensible3d, ExtensibleStylesheetLanguageTransformations, Fictionbook, GpsExchangeFormat,
      GeographyMarkupLanguage, KeyholeMarkupLanguage, MpegDashMpd, MathematicalMarkupLanguage, Musicxml,
      ReallySimpleSyndication, ScalableVectorGraphics, SimpleObjectAccessProtocol, TiledMapXml, TiledTilesetXml,
      TimedTextMarkupLanguage, TrainingCenterXml, UniformOfficeFormatPresentation, UniformOfficeFormatSpreadsheet, UniformOfficeFormatText,
      UniversalSubtitleFormat, XmlLocalizationInterchangeFileFormat, XmlShareablePlaylistFormat, Drawio]
  | .zip => [  -- src/lib.rs 153-209
      ThreeDimensionalManufacturingFormat, AdobeIntegratedRuntime, AndroidAppBundle, AndroidPackage, Autodesk123d,
      CircuitDiagramDocument, DesignWebFormatXps, ElectronicPublication, EnterpriseApplicationArchive, FictionbookZip,
      FigmaDesign, FlashCs5Project, Fusion360, IndesignMarkupLanguage, JavaArchive,
      KeyholeMarkupLanguageZip, MicrosoftVisualStudioExtension, MusicxmlZip, OfficeOpenXmlDocument, OfficeOpenXmlDrawing,
      OfficeOpenXmlPresentation, OfficeOpenXmlSpreadsheet, OpendocumentDatabase, OpendocumentFormula, OpendocumentFormulaTemplate,
      OpendocumentGraphics, OpendocumentGraphicsTemplate, OpendocumentPresentation, OpendocumentPresentationTemplate, OpendocumentSpreadsheet,
      OpendocumentSpreadsheetTemplate, OpendocumentText, OpendocumentTextMaster, OpendocumentTextMasterTemplate, OpendocumentTextTemplate,
      Openraster, Openxps, Sketch43, SpaceclaimDocument, SunXmlCalc,
      SunXmlCalcTemplate, SunXmlDraw, SunXmlDrawTemplate, SunXmlImpress, SunXmlImpressTemplate,
      SunXmlMath, SunXmlWriter, SunXmlWriterGlobal, SunXmlWriterTemplate, UniversalSceneDescriptionZip,
      WebApplicationArchive, WindowsAppBundle, WindowsAppPackage, Xap, Xpinstall,
      IosAppStorePackage]

end FF.Spec
