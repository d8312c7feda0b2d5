import Verif.Model.Format
/-!
Generated by `tools/gen.py`: an ordering of the formats used as a certificate. Do not edit by hand.
-/

namespace FF.Meta
open FileFormat

/-- The formats by the name of the variant, in lower case, shorter ones first. -/
def variantOrder : List FileFormat := [
  Au, Xz, Ace, Alz,
  Lha, Lz4, Mtv, Xap,
  Zip, Zoo, Atom, Bzip,
  Cpio, Djvu, Gzip, Larc,
  Lzip, Lzop, Rzip, Webm,
  Webp, Zpaq, Bzip2, Bzip3,
  FileFormat.Empty, Id3v2, Latex, MachO,
  Pmarc, Tasty, Vcard, Cineon,
  Drawio, Glyphs, JpegLs, JpegXl,
  Mp3Url, Seqbox, Sketch, Snappy,
  Abiword, Blender, Cabinet, CdAudio,
  Filmbox, Iso9660, OggFlac, OggOpus,
  Openexr, Openxps, Sqlite3, Stuffit,
  Wavpack, XPixmap, Appimage, CanonRaw,
  Cinema4d, Farbfeld, JsonFeed, Musepack,
  Musicxml, OggMedia, OggSpeex, Opentype,
  PcapDump, SevenZip, Sketch43, Sketchup,
  Squashfs, Starcalc, Stardraw, Starmath,
  StuffitX, Truetype, CanonRaw2, CanonRaw3,
  Fusion360, Icalendar, JavaClass, LuaScript,
  MayaAscii, OggTheora, OggVorbis, Opennurbs,
  PlainText, Realaudio, Realmedia, Realvideo,
  Shapefile, SonyMovie, Starchart, Vcalendar,
  Xpinstall, Zstandard, Activemime, ApacheAvro,
  Bittorrent, FigletFont, FlashVideo, GameBoyRom,
  IccProfile, MacosAlias, MayaBinary, Mobipocket,
  MsDosBatch, Openraster, PerlScript, PgpMessage,
  Postscript, RubyScript, Soundfont2, Starwriter,
  SubripText, SunXmlCalc, SunXmlDraw, SunXmlMath,
  AudioCodec3, BmfontAscii, Fictionbook, FigmaDesign,
  FujifilmRaw, GameGearRom, GoogleDraco, JavaArchive,
  LlvmBitcode, LuaBytecode, Magicavoxel, Mpeg12Video,
  Mpeg4Part14, MpegDashMpd, MusicxmlZip, RadianceHdr,
  ShellScript, Starimpress, TapeArchive, TiledMapXml,
  Universal3d, WindowsIcon, Atari7800Rom, Autodesk123d,
  BmfontBinary, Extensible3d, FlashProject, JavaKeystore,
  LongRangeZip, MegaDriveRom, Model3dAscii, MonkeysAudio,
  PanasonicRaw, PemPublicKey, PgpSignature, PolygonAscii,
  PythonScript, QuiteOkAudio, QuiteOkImage, SunXmlWriter,
  UnixArchiver, UnixCompress, AgeEncryption, AmigaDiskFile,
  ApacheParquet, AutodeskAlias, ClojureScript, CreativeVoice,
  DebianPackage, FlashMp4Audio, FlashMp4Video, Jpeg2000Part1,
  Jpeg2000Part2, Jpeg2000Part3, Jpeg2000Part6, MatroskaAudio,
  MatroskaVideo, Model3dBinary, NewExecutable, Nintendo64Rom,
  NintendoDsRom, PemPrivateKey, PolygonBinary, RoshalArchive,
  SunXmlImpress, WaveformAudio, WindowsBitmap, WindowsCursor,
  AndroidPackage, AppleDiskImage, AppleIconImage, AppleQuicktime,
  AutocadDrawing, BroadBandEbook, DerCertificate, FictionbookZip,
  KhronosTexture, MicrosoftWrite, MozillaArchive, PemCertificate,
  PortableBitmap, PortablePixmap, RichTextFormat, SmallWebFormat,
  SolidworksPart, XboxExecutable, AbiwordTemplate, DesignWebFormat,
  FlashCs5Project, GameBoyColorRom, InterQuakeModel, KhronosTexture2,
  Matroska3dVideo, MicrosoftReader, MsDosExecutable, NeoGeoPocketRom,
  PictureExchange, PortableGraymap, QemuCopyOnWrite, TiledTilesetXml,
  WebassemblyText, WindowsMetafile, WindowsShortcut, AndroidAppBundle,
  AndroidBinaryXml, AppleItunesAudio, AppleItunesVideo, AutodeskAnimator,
  DalvikExecutable, EmbeddedOpentype, EnhancedMetafile, InterQuakeExport,
  LinearExecutable, Mpeg4Part14Audio, Mpeg4Part14Video, OlympusRawFormat,
  OpendocumentText, PgpSignedMessage, PortableFloatmap, WindowsAppBundle,
  WordperfectMacro, ActionsMediaVideo, AdaptiveMultiRate, ExtensibleArchive,
  FlashMp4Audiobook, GameBoyAdvanceRom, GpsExchangeFormat, JpegExtendedRange,
  MatroskaSubtitles, Mpeg12AudioLayer2, Mpeg12AudioLayer3, MultiLayerArchive,
  NintendoSwitchRom, PgpPublicKeyBlock, QualcommPurevoice, ShoutcastPlaylist,
  SolidworksDrawing, SonyDsdStreamFile, TrainingCenterXml, WebassemblyBinary,
  WebOpenFontFormat, WindowsAppPackage, WindowsMediaAudio, WindowsMediaVideo,
  Xbox360Executable, Av1ImageFileFormat, Commodore64Program, CompoundFileBinary,
  CorelPresentations, DesignWebFormatXps, DynamicLinkLibrary, IosAppStorePackage,
  Jpeg2000Codestream, PgpPrivateKeyBlock, PortableExecutable, SolidworksAssembly,
  SpaceclaimDocument, SunXmlCalcTemplate, SunXmlDrawTemplate, SunXmlWriterGlobal,
  TagImageFileFormat, TruetypeCollection, VirtualMachineDisk, WebOpenFontFormat2,
  WebVideoTextTracks, AdvancedAudioCoding, ApacheArrowColumnar, ArbitraryBinaryData,
  AudioVisualResearch, AutodeskAnimatorPro, CorelPresentations7, JpegNetworkGraphics,
  NikonElectronicFile, OggMultiplexedMedia, OpendocumentFormula, SegaMasterSystemRom,
  WordperfectDocument, WordperfectGraphics, AppleItunesAudiobook, ArchivedByRobertJung,
  AudioVideoInterleave, AutodeskInventorPart, Commodore64Cartridge, EightBitSampledVoice,
  GettextMachineObject, ImpulseTrackerModule, MicrosoftProjectPlan, Mpeg2TransportStream,
  Mpeg4Part14Subtitles, NeoGeoPocketColorRom, OfficeOpenXmlDrawing, OpendocumentDatabase,
  OpendocumentGraphics, PersonalStorageTable, PortableArbitraryMap, RedHatPackageManager,
  ScreamTracker3Module, SiliconGraphicsImage, SiliconGraphicsMovie, SunXmlWriterTemplate,
  WindowsImagingFormat, WindowsMediaPlaylist, AdobeIndesignDocument, AdvancedSystemsFormat,
  ElectronicPublication, GoogleChromeExtension, KeyholeMarkupLanguage, MagickImageFileFormat,
  MicrosoftVisioDrawing, MicrosoftWordDocument, NintendoSwitchPackage, OfficeOpenXmlDocument,
  SunXmlImpressTemplate, WebApplicationArchive, WindowsAnimatedCursor, WindowsRecordedTvShow,
  AdobeIntegratedRuntime, AdobePhotoshopDocument, BetterPortableGraphics, CircuitDiagramDocument,
  CommonObjectFileFormat, DigitalPictureExchange, EncapsulatedPostscript, FlashMp4ProtectedVideo,
  FreeLosslessAudioCodec, IndesignMarkupLanguage, MaterialExchangeFormat, MicrosoftWorksDatabase,
  OpendocumentTextMaster, PcapNextGenerationDump, PortableDocumentFormat, ScalableVectorGraphics,
  StereolithographyAscii, ThreeDimensionalStudio, AdobeIllustratorArtwork, AutodeskInventorDrawing,
  FreeLosslessImageFormat, GeographyMarkupLanguage, HypertextMarkupLanguage, MicrosoftAccessDatabase,
  OpendocumentSpreadsheet, PortableNetworkGraphics, ReallySimpleSyndication, TimedTextMarkupLanguage,
  UniformOfficeFormatText, UniversalSubtitleFormat, AdvancedStreamRedirector, AutodeskInventorAssembly,
  BdavMpeg2TransportStream, ExtensibleMarkupLanguage, KeyholeMarkupLanguageZip, MicrosoftVirtualHardDisk,
  NintendoSwitchExecutable, OfficeOpenXmlSpreadsheet, OpendocumentPresentation, OpendocumentTextTemplate,
  WordperfectPresentations, AppleItunesProtectedAudio, GraphicsInterchangeFormat, HighEfficiencyImageCoding,
  MicrosoftCompiledHtmlHelp, MicrosoftExcelSpreadsheet, MicrosoftVirtualHardDisk2, MicrosoftWorksSpreadsheet,
  OfficeOpenXmlPresentation, OptimizedDalvikExecutable, ThreeDimensionalStudioMax, ToolCommandLanguageScript,
  AudioInterchangeFileFormat, Av1ImageFileFormatSequence, DrawingExchangeFormatAscii, Fasttracker2ExtendedModule,
  GlTransmissionFormatBinary, MathematicalMarkupLanguage, MicrosoftDirectdrawSurface, MicrosoftPublisherDocument,
  MicrosoftSoftwareInstaller, MicrosoftWorks6Spreadsheet, SimpleObjectAccessProtocol, UltimateSoundtrackerModule,
  VirtualboxVirtualDiskImage, XmlShareablePlaylistFormat, AdditiveManufacturingFormat, CollaborativeDesignActivity,
  DrawingExchangeFormatBinary, ExecutableAndLinkableFormat, LempelZivFiniteStateEntropy, MicrosoftAccess2007Database,
  MicrosoftWorksWordProcessor, OpendocumentFormulaTemplate, AutodeskInventorPresentation, EnterpriseApplicationArchive,
  ExtensibleBinaryMetaLanguage, FlexibleImageTransportSystem, MetaInformationEncapsulation, MultipleImageNetworkGraphics,
  OpendocumentGraphicsTemplate, PemCertificateSigningRequest, UniversalSceneDescriptionZip, ExperimentalComputingFacility,
  HighEfficiencyImageFileFormat, JointPhotographicExpertsGroup, LempelZivMarkovChainAlgorithm, MicrosoftVisualStudioSolution,
  MicrosoftDigitalVideoRecording, MicrosoftVisualStudioExtension, NintendoEntertainmentSystemRom, OpendocumentTextMasterTemplate,
  UniformOfficeFormatSpreadsheet, UniversalSceneDescriptionAscii, VirtualRealityModelingLanguage, AndroidResourceStorageContainer,
  AnimatedPortableNetworkGraphics, MicrosoftPowerpointPresentation, OpendocumentSpreadsheetTemplate, UniformOfficeFormatPresentation,
  UniversalSceneDescriptionBinary, OpendocumentPresentationTemplate, HighEfficiencyImageCodingSequence, MusicalInstrumentDigitalInterface,
  ThirdGenerationPartnershipProject, ThirdGenerationPartnershipProject2, AdaptableScalableTextureCompression, ThreeDimensionalManufacturingFormat,
  FlexibleAndInteroperableDataTransfer, InitialGraphicsExchangeSpecification, XmlLocalizationInterchangeFileFormat, HighEfficiencyImageFileFormatSequence,
  StandardForTheExchangeOfProductModelData, DigitalImagingAndCommunicationsInMedicine, ExtensibleStylesheetLanguageTransformations]

end FF.Meta
