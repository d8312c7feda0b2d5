import Verif.Model.Format
/-!
Generated by `tools/genmeta.py`: orderings of the formats used as certificates. Do not edit by hand.
-/

namespace FF.Meta
open FileFormat

/-- The formats in the order of `README.md`, by kind. -/
def readmeOrder : List (Kind × List FileFormat) := [
  (.Archive, [
  SevenZip, Ace, Alz, ArchivedByRobertJung, Cabinet, ExtensibleArchive, Larc, Lha, MozillaArchive,
  MultiLayerArchive, Pmarc, RoshalArchive, Seqbox, Squashfs, Stuffit, StuffitX, TapeArchive,
  UnixArchiver, WindowsImagingFormat, Zip, Zpaq, Cpio, Zoo]),
  (.Audio, [
  EightBitSampledVoice, AdaptiveMultiRate, AdvancedAudioCoding, AppleItunesAudio,
  AppleItunesAudiobook, AppleItunesProtectedAudio, Au, AudioCodec3, AudioInterchangeFileFormat,
  AudioVisualResearch, CreativeVoice, Fasttracker2ExtendedModule, FlashMp4Audio, FlashMp4Audiobook,
  FreeLosslessAudioCodec, ImpulseTrackerModule, Mpeg12AudioLayer2, Mpeg12AudioLayer3,
  Mpeg4Part14Audio, MatroskaAudio, MonkeysAudio, Musepack, MusicalInstrumentDigitalInterface,
  OggFlac, OggOpus, OggSpeex, OggVorbis, QualcommPurevoice, QuiteOkAudio, Realaudio,
  ScreamTracker3Module, SonyDsdStreamFile, Soundfont2, UltimateSoundtrackerModule, Wavpack,
  WaveformAudio, WindowsMediaAudio]),
  (.Compressed, [
  Bzip3, Lz4, LempelZivFiniteStateEntropy, LempelZivMarkovChainAlgorithm, LongRangeZip, Snappy,
  UnixCompress, Xz, Zstandard, Bzip, Bzip2, Gzip, Lzip, Lzop, Rzip]),
  (.Database, [
  MicrosoftAccess2007Database, MicrosoftAccessDatabase, MicrosoftWorksDatabase,
  OpendocumentDatabase, Sqlite3]),
  (.Diagram, [
  CircuitDiagramDocument, MicrosoftVisioDrawing, OfficeOpenXmlDrawing, Starchart, Drawio]),
  (.Disk, [
  AmigaDiskFile, AppleDiskImage, Iso9660, MicrosoftVirtualHardDisk, MicrosoftVirtualHardDisk2,
  QemuCopyOnWrite, VirtualMachineDisk, VirtualboxVirtualDiskImage]),
  (.Document, [
  Abiword, AbiwordTemplate, AdobeIndesignDocument, Djvu, IndesignMarkupLanguage, Latex,
  MicrosoftPublisherDocument, MicrosoftWordDocument, MicrosoftWorksWordProcessor, MicrosoftWrite,
  OfficeOpenXmlDocument, OpendocumentText, OpendocumentTextMaster, OpendocumentTextMasterTemplate,
  OpendocumentTextTemplate, Openxps, PortableDocumentFormat, Postscript, RichTextFormat,
  Starwriter, SunXmlWriter, SunXmlWriterGlobal, SunXmlWriterTemplate, UniformOfficeFormatText,
  WordperfectDocument]),
  (.Ebook, [
  BroadBandEbook, ElectronicPublication, Fictionbook, FictionbookZip, MicrosoftReader, Mobipocket]),
  (.Executable, [
  Commodore64Program, CommonObjectFileFormat, DalvikExecutable, DynamicLinkLibrary,
  ExecutableAndLinkableFormat, JavaClass, LlvmBitcode, LinearExecutable, LuaBytecode,
  MsDosExecutable, MachO, NewExecutable, NintendoSwitchExecutable, OptimizedDalvikExecutable,
  PortableExecutable, WebassemblyBinary, Xbox360Executable, XboxExecutable]),
  (.Font, [
  BmfontAscii, BmfontBinary, EmbeddedOpentype, FigletFont, Glyphs, Opentype, Truetype,
  TruetypeCollection, WebOpenFontFormat, WebOpenFontFormat2]),
  (.Formula, [
  MathematicalMarkupLanguage, OpendocumentFormula, OpendocumentFormulaTemplate, Starmath,
  SunXmlMath]),
  (.Geospatial, [
  FlexibleAndInteroperableDataTransfer, GpsExchangeFormat, GeographyMarkupLanguage,
  KeyholeMarkupLanguage, KeyholeMarkupLanguageZip, Shapefile, TrainingCenterXml]),
  (.Image, [
  Av1ImageFileFormat, Av1ImageFileFormatSequence, AdaptableScalableTextureCompression,
  AdobeIllustratorArtwork, AdobePhotoshopDocument, AnimatedPortableNetworkGraphics, AppleIconImage,
  BetterPortableGraphics, CanonRaw, CanonRaw2, CanonRaw3, Cineon, DigitalPictureExchange,
  EncapsulatedPostscript, EnhancedMetafile, ExperimentalComputingFacility, FigmaDesign,
  FreeLosslessImageFormat, FujifilmRaw, GraphicsInterchangeFormat, HighEfficiencyImageCoding,
  HighEfficiencyImageCodingSequence, HighEfficiencyImageFileFormat,
  HighEfficiencyImageFileFormatSequence, Jpeg2000Codestream, Jpeg2000Part1, Jpeg2000Part2,
  Jpeg2000Part6, JpegExtendedRange, JpegNetworkGraphics, JpegXl, JpegLs,
  JointPhotographicExpertsGroup, KhronosTexture, KhronosTexture2, MagickImageFileFormat,
  MicrosoftDirectdrawSurface, MultipleImageNetworkGraphics, NikonElectronicFile, OlympusRawFormat,
  OpendocumentGraphics, OpendocumentGraphicsTemplate, Openexr, Openraster, PanasonicRaw,
  PictureExchange, PortableArbitraryMap, PortableBitmap, PortableFloatmap, PortableGraymap,
  PortableNetworkGraphics, PortablePixmap, QuiteOkImage, RadianceHdr, ScalableVectorGraphics,
  SiliconGraphicsImage, Sketch, Sketch43, Stardraw, SunXmlDraw, SunXmlDrawTemplate,
  TagImageFileFormat, Webp, WindowsAnimatedCursor, WindowsBitmap, WindowsCursor, WindowsIcon,
  WindowsMetafile, WordperfectGraphics, XPixmap, Farbfeld]),
  (.Metadata, [
  AndroidBinaryXml, Bittorrent, CdAudio, Id3v2, MetaInformationEncapsulation, Tasty,
  WindowsShortcut, MacosAlias]),
  (.Model, [
  ThreeDimensionalManufacturingFormat, ThreeDimensionalStudio, ThreeDimensionalStudioMax,
  AdditiveManufacturingFormat, AutocadDrawing, Autodesk123d, AutodeskAlias,
  AutodeskInventorAssembly, AutodeskInventorDrawing, AutodeskInventorPart,
  AutodeskInventorPresentation, Blender, Cinema4d, CollaborativeDesignActivity, DesignWebFormat,
  DesignWebFormatXps, DrawingExchangeFormatAscii, DrawingExchangeFormatBinary, Extensible3d,
  Filmbox, Fusion360, GlTransmissionFormatBinary, GoogleDraco,
  InitialGraphicsExchangeSpecification, InterQuakeExport, InterQuakeModel, Magicavoxel, MayaAscii,
  MayaBinary, Model3dAscii, Model3dBinary, PolygonAscii, PolygonBinary, Sketchup,
  SolidworksAssembly, SolidworksDrawing, SolidworksPart, SpaceclaimDocument,
  StandardForTheExchangeOfProductModelData, StereolithographyAscii, Universal3d,
  UniversalSceneDescriptionAscii, UniversalSceneDescriptionBinary, UniversalSceneDescriptionZip,
  VirtualRealityModelingLanguage, Opennurbs]),
  (.Other, [
  Activemime, AdvancedSystemsFormat, AndroidResourceStorageContainer, ApacheArrowColumnar,
  ApacheAvro, ApacheParquet, ArbitraryBinaryData, Atom, ClojureScript, CompoundFileBinary,
  DerCertificate, DigitalImagingAndCommunicationsInMedicine, FileFormat.Empty,
  ExtensibleBinaryMetaLanguage, ExtensibleMarkupLanguage,
  ExtensibleStylesheetLanguageTransformations, FlashCs5Project, FlashProject,
  FlexibleImageTransportSystem, HypertextMarkupLanguage, IccProfile, JsonFeed, JavaKeystore,
  LuaScript, Mpeg4Part14, MsDosBatch, MicrosoftCompiledHtmlHelp, MicrosoftProjectPlan,
  MicrosoftVisualStudioSolution, Musicxml, MusicxmlZip, OggMultiplexedMedia, PcapDump,
  PcapNextGenerationDump, PemCertificate, PemCertificateSigningRequest, PemPrivateKey,
  PemPublicKey, PgpMessage, PgpPrivateKeyBlock, PgpPublicKeyBlock, PgpSignature, PgpSignedMessage,
  PerlScript, PersonalStorageTable, PlainText, PythonScript, Realmedia, ReallySimpleSyndication,
  RubyScript, ShellScript, SimpleObjectAccessProtocol, SmallWebFormat, TiledMapXml,
  TiledTilesetXml, ToolCommandLanguageScript, WebassemblyText, WordperfectMacro,
  XmlLocalizationInterchangeFileFormat, AgeEncryption, GettextMachineObject, Icalendar, Vcalendar,
  Vcard]),
  (.Package, [
  AdobeIntegratedRuntime, AndroidAppBundle, AndroidPackage, Appimage, DebianPackage,
  EnterpriseApplicationArchive, GoogleChromeExtension, JavaArchive, MicrosoftSoftwareInstaller,
  MicrosoftVisualStudioExtension, NintendoSwitchPackage, RedHatPackageManager,
  WebApplicationArchive, WindowsAppBundle, WindowsAppPackage, Xap, Xpinstall, IosAppStorePackage]),
  (.Playlist, [
  AdvancedStreamRedirector, Mp3Url, MpegDashMpd, ShoutcastPlaylist, WindowsMediaPlaylist,
  XmlShareablePlaylistFormat]),
  (.Presentation, [
  CorelPresentations, CorelPresentations7, MicrosoftPowerpointPresentation,
  OfficeOpenXmlPresentation, OpendocumentPresentation, OpendocumentPresentationTemplate,
  Starimpress, SunXmlImpress, SunXmlImpressTemplate, UniformOfficeFormatPresentation,
  WordperfectPresentations]),
  (.Rom, [
  Atari7800Rom, Commodore64Cartridge, GameBoyAdvanceRom, GameBoyColorRom, GameBoyRom, GameGearRom,
  MegaDriveRom, NeoGeoPocketColorRom, NeoGeoPocketRom, Nintendo64Rom, NintendoDsRom,
  NintendoEntertainmentSystemRom, NintendoSwitchRom, SegaMasterSystemRom]),
  (.Spreadsheet, [
  MicrosoftExcelSpreadsheet, MicrosoftWorks6Spreadsheet, MicrosoftWorksSpreadsheet,
  OfficeOpenXmlSpreadsheet, OpendocumentSpreadsheet, OpendocumentSpreadsheetTemplate, Starcalc,
  SunXmlCalc, SunXmlCalcTemplate, UniformOfficeFormatSpreadsheet]),
  (.Subtitle, [
  Mpeg4Part14Subtitles, MatroskaSubtitles, SubripText, TimedTextMarkupLanguage,
  UniversalSubtitleFormat, WebVideoTextTracks]),
  (.Video, [
  ThirdGenerationPartnershipProject, ThirdGenerationPartnershipProject2, ActionsMediaVideo,
  AppleQuicktime, AppleItunesVideo, AudioVideoInterleave, AutodeskAnimator, AutodeskAnimatorPro,
  BdavMpeg2TransportStream, FlashMp4ProtectedVideo, FlashMp4Video, FlashVideo, Jpeg2000Part3,
  Mpeg12Video, Mpeg2TransportStream, Mpeg4Part14Video, Mtv, MaterialExchangeFormat,
  Matroska3dVideo, MatroskaVideo, MicrosoftDigitalVideoRecording, OggMedia, OggTheora, Realvideo,
  SiliconGraphicsMovie, SonyMovie, Webm, WindowsMediaVideo, WindowsRecordedTvShow])]

/-- The formats by name, shorter names first. -/
def nameOrder : List FileFormat := [
  Au, Xz, Ace, Alz, Lha, Lz4, Mtv, Xap, Zip, Zoo, Atom, Djvu, Larc, Webm, Webp, Zpaq, Bzip, Cpio,
  Gzip, Lzip, Lzop, Rzip, SevenZip, Bzip3, FileFormat.Empty, Id3v2, Latex, Pmarc, Tasty, Bzip2,
  Vcard, Cineon, Glyphs, MachO, Seqbox, Sketch, Snappy, Abiword, Blender, Cabinet, Filmbox, JpegXl,
  JpegLs, Mp3Url, Openexr, Openxps, Stuffit, Wavpack, Drawio, Appimage, CdAudio, Iso9660, Musepack,
  Musicxml, OggFlac, OggOpus, Opentype, Sqlite3, Sketchup, Squashfs, Starcalc, Stardraw, Starmath,
  Truetype, XPixmap, Farbfeld, ThreeDimensionalStudio, CanonRaw, Cinema4d, JsonFeed, OggMedia,
  OggSpeex, PcapDump, Realaudio, Realmedia, Realvideo, Shapefile, Sketch43, Starchart, StuffitX,
  Xpinstall, Zstandard, Icalendar, Opennurbs, Vcalendar, Activemime, Bittorrent, Fusion360,
  JavaClass, LuaScript, MayaAscii, Mobipocket, OggTheora, OggVorbis, Openraster, PlainText,
  Postscript, SonyMovie, Starwriter, ApacheAvro, CanonRaw2, CanonRaw3, FigletFont, Fictionbook,
  FlashVideo, IccProfile, Magicavoxel, MayaBinary, PgpMessage, PerlScript, RubyScript, Soundfont2,
  Starimpress, SubripText, MacosAlias, BmfontAscii, FigmaDesign, FujifilmRaw, GameBoyRom,
  GoogleDraco, JavaArchive, LlvmBitcode, LuaBytecode, MsDosBatch, MusicxmlZip, RadianceHdr,
  ShellScript, SunXmlCalc, SunXmlDraw, SunXmlMath, TapeArchive, Universal3d, WindowsIcon,
  ThreeDimensionalStudioMax, AudioCodec3, Autodesk123d, BmfontBinary, Extensible3d, FlashProject,
  GameGearRom, JavaKeystore, MpegDashMpd, PgpSignature, PanasonicRaw, PolygonAscii, PythonScript,
  TiledMapXml, UnixArchiver, UnixCompress, ApacheParquet, Atari7800Rom, AutodeskAlias,
  ClojureScript, CreativeVoice, DebianPackage, LongRangeZip, Mpeg12Video, Mpeg4Part14,
  MatroskaAudio, MatroskaVideo, MegaDriveRom, Model3dAscii, MonkeysAudio, NewExecutable,
  PemPublicKey, PolygonBinary, QuiteOkAudio, QuiteOkImage, RoshalArchive, SunXmlWriter,
  WaveformAudio, WindowsBitmap, WindowsCursor, AgeEncryption, AmigaDiskFile, AndroidPackage,
  AppleQuicktime, AutocadDrawing, DerCertificate, FictionbookZip, FlashMp4Audio, FlashMp4Video,
  KhronosTexture, MicrosoftWrite, Model3dBinary, MozillaArchive, Nintendo64Rom, NintendoDsRom,
  PemCertificate, PemPrivateKey, PortableBitmap, PortablePixmap, SolidworksPart, SunXmlImpress,
  XboxExecutable, AbiwordTemplate, AppleDiskImage, AppleIconImage, BroadBandEbook, Jpeg2000Part1,
  Jpeg2000Part2, Jpeg2000Part3, Jpeg2000Part6, MicrosoftReader, PictureExchange, PortableGraymap,
  RichTextFormat, SmallWebFormat, WebassemblyText, WindowsMetafile, WindowsShortcut,
  AutodeskAnimator, DalvikExecutable, DesignWebFormat, EmbeddedOpentype, EnhancedMetafile,
  FlashCs5Project, InterQuakeModel, KhronosTexture2, LinearExecutable, MsDosExecutable,
  Matroska3dVideo, OpendocumentText, PortableFloatmap, TiledTilesetXml, WordperfectMacro,
  AndroidAppBundle, AndroidBinaryXml, AppleItunesAudio, AppleItunesVideo, ExtensibleArchive,
  GameBoyColorRom, InterQuakeExport, MatroskaSubtitles, NeoGeoPocketRom, OlympusRawFormat,
  PgpSignedMessage, QemuCopyOnWrite, QualcommPurevoice, ShoutcastPlaylist, SolidworksDrawing,
  WebassemblyBinary, WindowsAppBundle, EightBitSampledVoice, ActionsMediaVideo, AdaptiveMultiRate,
  CorelPresentations, FlashMp4Audiobook, GpsExchangeFormat, JpegExtendedRange, MultiLayerArchive,
  NintendoSwitchRom, PortableExecutable, SolidworksAssembly, SpaceclaimDocument, TrainingCenterXml,
  TruetypeCollection, WindowsAppPackage, WindowsMediaAudio, WindowsMediaVideo, Xbox360Executable,
  Commodore64Program, CompoundFileBinary, DynamicLinkLibrary, GameBoyAdvanceRom,
  Jpeg2000Codestream, Mpeg4Part14Audio, Mpeg4Part14Video, OpendocumentFormula, PgpPublicKeyBlock,
  SonyDsdStreamFile, VirtualMachineDisk, WebOpenFontFormat, WordperfectDocument,
  WordperfectGraphics, Av1ImageFileFormat, AdvancedAudioCoding, ApacheArrowColumnar,
  ArbitraryBinaryData, AudioVisualResearch, AutodeskAnimatorPro, CorelPresentations7,
  DesignWebFormatXps, JpegNetworkGraphics, NikonElectronicFile, OggMultiplexedMedia,
  OpendocumentDatabase, OpendocumentGraphics, PgpPrivateKeyBlock, SunXmlCalcTemplate,
  SunXmlDrawTemplate, SunXmlWriterGlobal, TagImageFileFormat, WebVideoTextTracks,
  IosAppStorePackage, AppleItunesAudiobook, AudioVideoInterleave, AutodeskInventorPart,
  Commodore64Cartridge, ElectronicPublication, ImpulseTrackerModule, Mpeg12AudioLayer2,
  Mpeg12AudioLayer3, MicrosoftProjectPlan, PersonalStorageTable, PortableArbitraryMap,
  SegaMasterSystemRom, SiliconGraphicsImage, SiliconGraphicsMovie, WebOpenFontFormat2,
  WindowsImagingFormat, WindowsMediaPlaylist, GettextMachineObject,
  ThreeDimensionalManufacturingFormat, AdobeIndesignDocument, AdvancedSystemsFormat,
  ArchivedByRobertJung, EncapsulatedPostscript, GoogleChromeExtension, KeyholeMarkupLanguage,
  Mpeg2TransportStream, MicrosoftVisioDrawing, MicrosoftWordDocument, NintendoSwitchPackage,
  OfficeOpenXmlDrawing, RedHatPackageManager, ScreamTracker3Module, StereolithographyAscii,
  SunXmlWriterTemplate, WebApplicationArchive, WindowsAnimatedCursor, AdobeIntegratedRuntime,
  AdobePhotoshopDocument, BetterPortableGraphics, CircuitDiagramDocument, DigitalPictureExchange,
  IndesignMarkupLanguage, Mpeg4Part14Subtitles, MagickImageFileFormat, MaterialExchangeFormat,
  MicrosoftWorksDatabase, NeoGeoPocketColorRom, OfficeOpenXmlDocument, OpendocumentSpreadsheet,
  OpendocumentTextMaster, PortableDocumentFormat, ScalableVectorGraphics, SunXmlImpressTemplate,
  WindowsRecordedTvShow, AdobeIllustratorArtwork, AutodeskInventorDrawing, CommonObjectFileFormat,
  FlashMp4ProtectedVideo, FreeLosslessAudioCodec, GeographyMarkupLanguage, HypertextMarkupLanguage,
  MicrosoftAccessDatabase, OpendocumentPresentation, PcapNextGenerationDump,
  PortableNetworkGraphics, ReallySimpleSyndication, UniversalSubtitleFormat,
  WordperfectPresentations, AdvancedStreamRedirector, AutodeskInventorAssembly,
  ExtensibleMarkupLanguage, FreeLosslessImageFormat, NintendoSwitchExecutable,
  OpendocumentTextTemplate, TimedTextMarkupLanguage, UniformOfficeFormatText,
  GraphicsInterchangeFormat, KeyholeMarkupLanguageZip, MicrosoftExcelSpreadsheet,
  MicrosoftVirtualHardDisk, MicrosoftWorksSpreadsheet, OfficeOpenXmlSpreadsheet,
  OptimizedDalvikExecutable, AppleItunesProtectedAudio, BdavMpeg2TransportStream,
  HighEfficiencyImageCoding, MathematicalMarkupLanguage, MicrosoftCompiledHtmlHelp,
  MicrosoftDirectdrawSurface, MicrosoftPublisherDocument, MicrosoftSoftwareInstaller,
  OfficeOpenXmlPresentation, ToolCommandLanguageScript, UltimateSoundtrackerModule,
  AdditiveManufacturingFormat, AudioInterchangeFileFormat, CollaborativeDesignActivity,
  DrawingExchangeFormatAscii, Fasttracker2ExtendedModule, GlTransmissionFormatBinary,
  MicrosoftVirtualHardDisk2, MicrosoftWorks6Spreadsheet, OpendocumentFormulaTemplate,
  SimpleObjectAccessProtocol, VirtualboxVirtualDiskImage, XmlShareablePlaylistFormat,
  Av1ImageFileFormatSequence, AutodeskInventorPresentation, DrawingExchangeFormatBinary,
  EnterpriseApplicationArchive, ExecutableAndLinkableFormat, MetaInformationEncapsulation,
  MicrosoftAccess2007Database, MicrosoftWorksWordProcessor, OpendocumentGraphicsTemplate,
  ExperimentalComputingFacility, ExtensibleBinaryMetaLanguage, FlexibleImageTransportSystem,
  LempelZivFiniteStateEntropy, MultipleImageNetworkGraphics, PemCertificateSigningRequest,
  UniversalSceneDescriptionZip, JointPhotographicExpertsGroup, MicrosoftVisualStudioSolution,
  HighEfficiencyImageFileFormat, LempelZivMarkovChainAlgorithm, MicrosoftDigitalVideoRecording,
  MicrosoftPowerpointPresentation, MicrosoftVisualStudioExtension, NintendoEntertainmentSystemRom,
  OpendocumentSpreadsheetTemplate, OpendocumentTextMasterTemplate, UniformOfficeFormatSpreadsheet,
  UniversalSceneDescriptionAscii, VirtualRealityModelingLanguage,
  ThirdGenerationPartnershipProject, AndroidResourceStorageContainer,
  AnimatedPortableNetworkGraphics, OpendocumentPresentationTemplate,
  UniformOfficeFormatPresentation, UniversalSceneDescriptionBinary,
  ThirdGenerationPartnershipProject2, MusicalInstrumentDigitalInterface,
  HighEfficiencyImageCodingSequence, AdaptableScalableTextureCompression,
  InitialGraphicsExchangeSpecification, FlexibleAndInteroperableDataTransfer,
  XmlLocalizationInterchangeFileFormat, HighEfficiencyImageFileFormatSequence,
  DigitalImagingAndCommunicationsInMedicine, ExtensibleStylesheetLanguageTransformations,
  StandardForTheExchangeOfProductModelData]

/-- The formats by README entry, shorter entries first. -/
def entryOrder : List FileFormat := [
  Au, Xz, Ace, Alz, Lha, Lz4, Mtv, Xap, Zip, Zoo, Atom, Djvu, Webm, Webp, Zpaq, Cpio,
  FileFormat.Empty, Tasty, Glyphs, MachO, Sketch, Snappy, Appimage, Musicxml, Sqlite3, Squashfs,
  JsonFeed, Sketch43, Bzip, Gzip, Lzip, Rzip, SevenZip, JavaClass, Larc, LuaScript, Lzop, Bzip3,
  Id3v2, Latex, Pmarc, PerlScript, RubyScript, Bzip2, MacosAlias, Vcard, Cineon, LuaBytecode,
  Seqbox, ShellScript, Wavpack, Abiword, Cabinet, Filmbox, JpegXl, JpegLs, Mp3Url, Openexr,
  PythonScript, Stuffit, Farbfeld, CdAudio, ClojureScript, Iso9660, Musepack, OggFlac, Opentype,
  Openxps, Realaudio, Realmedia, Realvideo, Sketchup, Starcalc, Stardraw, Starmath, Truetype,
  XPixmap, AgeEncryption, ThreeDimensionalStudio, Blender, CanonRaw, Cinema4d, MayaAscii, OggMedia,
  OggOpus, Postscript, Shapefile, Starchart, Xpinstall, Icalendar, Opennurbs, Vcalendar,
  Activemime, Fusion360, MayaBinary, Openraster, PcapDump, PlainText, SonyMovie, Starwriter,
  StuffitX, Zstandard, Drawio, CanonRaw2, CanonRaw3, FigletFont, Fictionbook, FlashVideo,
  GameBoyRom, IccProfile, LlvmBitcode, Magicavoxel, Mobipocket, OggSpeex, PgpMessage, Soundfont2,
  Starimpress, SubripText, ApacheAvro, BmfontAscii, FigmaDesign, FujifilmRaw, GameGearRom,
  JavaArchive, MusicxmlZip, RadianceHdr, SunXmlCalc, SunXmlDraw, SunXmlMath, TapeArchive,
  Universal3d, WindowsIcon, ThreeDimensionalStudioMax, BmfontBinary, Extensible3d, FlashProject,
  JavaKeystore, MpegDashMpd, MegaDriveRom, NewExecutable, OggTheora, OggVorbis, PgpSignature,
  PanasonicRaw, PolygonAscii, TiledMapXml, Atari7800Rom, AudioCodec3, Bittorrent, CreativeVoice,
  DebianPackage, GoogleDraco, Mpeg12Video, Mpeg4Part14, MsDosBatch, MatroskaAudio, MatroskaVideo,
  Model3dAscii, MonkeysAudio, PemPublicKey, PolygonBinary, QuiteOkAudio, QuiteOkImage,
  RoshalArchive, SunXmlWriter, WaveformAudio, WindowsBitmap, WindowsCursor, AmigaDiskFile,
  AndroidPackage, AppleQuicktime, AutocadDrawing, Autodesk123d, AutodeskAlias, DerCertificate,
  FictionbookZip, FlashMp4Audio, FlashMp4Video, KhronosTexture, MicrosoftWrite, Model3dBinary,
  MozillaArchive, Nintendo64Rom, NintendoDsRom, PemCertificate, PemPrivateKey, PortableBitmap,
  PortablePixmap, SunXmlImpress, XboxExecutable, AbiwordTemplate, AppleDiskImage, Jpeg2000Part1,
  Jpeg2000Part2, Jpeg2000Part3, Jpeg2000Part6, LinearExecutable, LongRangeZip, MicrosoftReader,
  PictureExchange, PortableGraymap, RichTextFormat, SmallWebFormat, WebassemblyText,
  WindowsMetafile, WindowsShortcut, AppleIconImage, AutodeskAnimator, BroadBandEbook,
  DalvikExecutable, DesignWebFormat, EmbeddedOpentype, EnhancedMetafile, FlashCs5Project,
  InterQuakeModel, MsDosExecutable, OpendocumentText, PortableFloatmap, TiledTilesetXml,
  WordperfectMacro, AndroidAppBundle, ApacheParquet, AppleItunesAudio, AppleItunesVideo,
  ExtensibleArchive, GameBoyColorRom, InterQuakeExport, KhronosTexture2, Matroska3dVideo,
  MatroskaSubtitles, NeoGeoPocketRom, OlympusRawFormat, PgpSignedMessage, PortableExecutable,
  QualcommPurevoice, ShoutcastPlaylist, SolidworksPart, UnixArchiver, UnixCompress,
  ActionsMediaVideo, AdaptiveMultiRate, AndroidBinaryXml, CorelPresentations, FlashMp4Audiobook,
  GpsExchangeFormat, JpegExtendedRange, MultiLayerArchive, NintendoSwitchRom, QemuCopyOnWrite,
  TrainingCenterXml, TruetypeCollection, WebassemblyBinary, WindowsMediaAudio, WindowsMediaVideo,
  Xbox360Executable, EightBitSampledVoice, Commodore64Program, CompoundFileBinary,
  DynamicLinkLibrary, GameBoyAdvanceRom, Jpeg2000Codestream, Mpeg4Part14Audio, Mpeg4Part14Video,
  OpendocumentFormula, PgpPublicKeyBlock, SonyDsdStreamFile, WindowsAppPackage,
  WordperfectDocument, WordperfectGraphics, AdvancedAudioCoding, ArbitraryBinaryData,
  AudioVisualResearch, AutodeskAnimatorPro, CorelPresentations7, ImpulseTrackerModule,
  JpegNetworkGraphics, NikonElectronicFile, OggMultiplexedMedia, OpendocumentDatabase,
  OpendocumentGraphics, PgpPrivateKeyBlock, SolidworksDrawing, SpaceclaimDocument,
  SunXmlCalcTemplate, SunXmlDrawTemplate, SunXmlWriterGlobal, VirtualMachineDisk,
  WebOpenFontFormat, GettextMachineObject, IosAppStorePackage, Av1ImageFileFormat,
  AppleItunesAudiobook, AudioVideoInterleave, AutodeskInventorPart, Commodore64Cartridge,
  DesignWebFormatXps, Mpeg12AudioLayer2, Mpeg12AudioLayer3, Mpeg2TransportStream,
  MicrosoftProjectPlan, PersonalStorageTable, PortableArbitraryMap, SegaMasterSystemRom,
  SiliconGraphicsImage, SiliconGraphicsMovie, SolidworksAssembly, TagImageFileFormat,
  WindowsImagingFormat, WindowsMediaPlaylist, ThreeDimensionalManufacturingFormat,
  AdvancedSystemsFormat, ApacheArrowColumnar, ArchivedByRobertJung, ElectronicPublication,
  EncapsulatedPostscript, GoogleChromeExtension, KeyholeMarkupLanguage, MicrosoftVisioDrawing,
  MicrosoftWordDocument, NintendoSwitchPackage, RedHatPackageManager, ScreamTracker3Module,
  StereolithographyAscii, SunXmlWriterTemplate, WebApplicationArchive, WindowsAnimatedCursor,
  AdobeIllustratorArtwork, AdobeIndesignDocument, AdobeIntegratedRuntime, AdobePhotoshopDocument,
  BetterPortableGraphics, DigitalPictureExchange, Mpeg4Part14Subtitles, MaterialExchangeFormat,
  MicrosoftWorksDatabase, NeoGeoPocketColorRom, OfficeOpenXmlDrawing, OpendocumentSpreadsheet,
  OpendocumentTextMaster, PortableDocumentFormat, ScalableVectorGraphics, SunXmlImpressTemplate,
  WebOpenFontFormat2, WebVideoTextTracks, WindowsRecordedTvShow, AutodeskInventorDrawing,
  CircuitDiagramDocument, FlashMp4ProtectedVideo, GeographyMarkupLanguage, IndesignMarkupLanguage,
  MagickImageFileFormat, MicrosoftAccessDatabase, OfficeOpenXmlDocument, OpendocumentPresentation,
  PortableNetworkGraphics, ReallySimpleSyndication, UniversalSubtitleFormat, WindowsAppBundle,
  WordperfectPresentations, AdvancedStreamRedirector, AutodeskInventorAssembly,
  CommonObjectFileFormat, ExtensibleMarkupLanguage, FreeLosslessAudioCodec,
  HypertextMarkupLanguage, NintendoSwitchExecutable, OpendocumentTextTemplate,
  UniformOfficeFormatText, FreeLosslessImageFormat, GraphicsInterchangeFormat,
  KeyholeMarkupLanguageZip, MicrosoftExcelSpreadsheet, MicrosoftVirtualHardDisk,
  MicrosoftWorksSpreadsheet, OptimizedDalvikExecutable, TimedTextMarkupLanguage,
  AppleItunesProtectedAudio, Fasttracker2ExtendedModule, MicrosoftCompiledHtmlHelp,
  MicrosoftDirectdrawSurface, MicrosoftPublisherDocument, MicrosoftSoftwareInstaller,
  OfficeOpenXmlSpreadsheet, PcapNextGenerationDump, UltimateSoundtrackerModule,
  AdditiveManufacturingFormat, BdavMpeg2TransportStream, DrawingExchangeFormatAscii,
  GlTransmissionFormatBinary, HighEfficiencyImageCoding, MicrosoftWorks6Spreadsheet,
  OfficeOpenXmlPresentation, OpendocumentFormulaTemplate, VirtualboxVirtualDiskImage,
  AudioInterchangeFileFormat, AutodeskInventorPresentation, DrawingExchangeFormatBinary,
  EnterpriseApplicationArchive, ExecutableAndLinkableFormat, MetaInformationEncapsulation,
  MicrosoftVirtualHardDisk2, MicrosoftWorksWordProcessor, OpendocumentGraphicsTemplate,
  SimpleObjectAccessProtocol, XmlShareablePlaylistFormat, ExperimentalComputingFacility,
  MathematicalMarkupLanguage, MultipleImageNetworkGraphics, PemCertificateSigningRequest,
  Av1ImageFileFormatSequence, ExtensibleBinaryMetaLanguage, FlexibleImageTransportSystem,
  MicrosoftAccess2007Database, MicrosoftVisualStudioSolution, UniversalSceneDescriptionZip,
  CollaborativeDesignActivity, JointPhotographicExpertsGroup, LempelZivFiniteStateEntropy,
  MicrosoftPowerpointPresentation, NintendoEntertainmentSystemRom, OpendocumentSpreadsheetTemplate,
  OpendocumentTextMasterTemplate, UniformOfficeFormatSpreadsheet, HighEfficiencyImageFileFormat,
  LempelZivMarkovChainAlgorithm, MicrosoftVisualStudioExtension, OpendocumentPresentationTemplate,
  UniformOfficeFormatPresentation, UniversalSceneDescriptionAscii, VirtualRealityModelingLanguage,
  ThirdGenerationPartnershipProject, AndroidResourceStorageContainer,
  AnimatedPortableNetworkGraphics, ToolCommandLanguageScript, UniversalSceneDescriptionBinary,
  MicrosoftDigitalVideoRecording, MusicalInstrumentDigitalInterface,
  ThirdGenerationPartnershipProject2, AdaptableScalableTextureCompression,
  HighEfficiencyImageCodingSequence, FlexibleAndInteroperableDataTransfer,
  InitialGraphicsExchangeSpecification, XmlLocalizationInterchangeFileFormat,
  HighEfficiencyImageFileFormatSequence, ExtensibleStylesheetLanguageTransformations,
  DigitalImagingAndCommunicationsInMedicine, StandardForTheExchangeOfProductModelData]

end FF.Meta
