import Verif.Model.Display
/-!
# `Debug`

Generated by `tools/gen.py` from `src/formats.rs` (1-3094) and `src/lib.rs` (332-382). `Debug` is derived
(`src/macros.rs` 25, `src/lib.rs` 333): for an enum without fields that is `formatter.write_str` with the name of the
variant. Do not edit by hand.
-/

namespace FF

/-- The names of the variants of `Kind` (`src/lib.rs` 335-382). -/
def Kind.variantName : Kind → String
  | Archive => "Archive"
  | Audio => "Audio"
  | Compressed => "Compressed"
  | Database => "Database"
  | Diagram => "Diagram"
  | Disk => "Disk"
  | Document => "Document"
  | Ebook => "Ebook"
  | Executable => "Executable"
  | Font => "Font"
  | Formula => "Formula"
  | Geospatial => "Geospatial"
  | Image => "Image"
  | Metadata => "Metadata"
  | Model => "Model"
  | Other => "Other"
  | Package => "Package"
  | Playlist => "Playlist"
  | Presentation => "Presentation"
  | Rom => "Rom"
  | Spreadsheet => "Spreadsheet"
  | Subtitle => "Subtitle"
  | Video => "Video"

/-- The names of the variants of `FileFormat` (`format = ...` in `src/formats.rs`, `src/macros.rs` 33). -/
def FileFormat.variantName : FileFormat → String
  | Abiword => "Abiword"
  | AbiwordTemplate => "AbiwordTemplate"
  | Ace => "Ace"
  | ActionsMediaVideo => "ActionsMediaVideo"
  | Activemime => "Activemime"
  | AdaptableScalableTextureCompression => "AdaptableScalableTextureCompression"
  | AdaptiveMultiRate => "AdaptiveMultiRate"
  | AdditiveManufacturingFormat => "AdditiveManufacturingFormat"
  | AdobeIllustratorArtwork => "AdobeIllustratorArtwork"
  | AdobeIndesignDocument => "AdobeIndesignDocument"
  | AdobeIntegratedRuntime => "AdobeIntegratedRuntime"
  | AdobePhotoshopDocument => "AdobePhotoshopDocument"
  | AdvancedAudioCoding => "AdvancedAudioCoding"
  | AdvancedStreamRedirector => "AdvancedStreamRedirector"
  | AdvancedSystemsFormat => "AdvancedSystemsFormat"
  | AgeEncryption => "AgeEncryption"
  | Alz => "Alz"
  | AmigaDiskFile => "AmigaDiskFile"
  | AndroidAppBundle => "AndroidAppBundle"
  | AndroidBinaryXml => "AndroidBinaryXml"
  | AndroidPackage => "AndroidPackage"
  | AndroidResourceStorageContainer => "AndroidResourceStorageContainer"
  | AnimatedPortableNetworkGraphics => "AnimatedPortableNetworkGraphics"
  | ApacheArrowColumnar => "ApacheArrowColumnar"
  | ApacheAvro => "ApacheAvro"
  | ApacheParquet => "ApacheParquet"
  | Appimage => "Appimage"
  | AppleDiskImage => "AppleDiskImage"
  | AppleIconImage => "AppleIconImage"
  | AppleItunesAudio => "AppleItunesAudio"
  | AppleItunesAudiobook => "AppleItunesAudiobook"
  | AppleItunesProtectedAudio => "AppleItunesProtectedAudio"
  | AppleItunesVideo => "AppleItunesVideo"
  | AppleQuicktime => "AppleQuicktime"
  | ArbitraryBinaryData => "ArbitraryBinaryData"
  | ArchivedByRobertJung => "ArchivedByRobertJung"
  | Atari7800Rom => "Atari7800Rom"
  | Atom => "Atom"
  | Au => "Au"
  | AudioCodec3 => "AudioCodec3"
  | AudioInterchangeFileFormat => "AudioInterchangeFileFormat"
  | AudioVideoInterleave => "AudioVideoInterleave"
  | AudioVisualResearch => "AudioVisualResearch"
  | AutocadDrawing => "AutocadDrawing"
  | Autodesk123d => "Autodesk123d"
  | AutodeskAlias => "AutodeskAlias"
  | AutodeskAnimator => "AutodeskAnimator"
  | AutodeskAnimatorPro => "AutodeskAnimatorPro"
  | AutodeskInventorAssembly => "AutodeskInventorAssembly"
  | AutodeskInventorDrawing => "AutodeskInventorDrawing"
  | AutodeskInventorPart => "AutodeskInventorPart"
  | AutodeskInventorPresentation => "AutodeskInventorPresentation"
  | Av1ImageFileFormat => "Av1ImageFileFormat"
  | Av1ImageFileFormatSequence => "Av1ImageFileFormatSequence"
  | BdavMpeg2TransportStream => "BdavMpeg2TransportStream"
  | BetterPortableGraphics => "BetterPortableGraphics"
  | Bittorrent => "Bittorrent"
  | Blender => "Blender"
  | BmfontAscii => "BmfontAscii"
  | BmfontBinary => "BmfontBinary"
  | BroadBandEbook => "BroadBandEbook"
  | Bzip => "Bzip"
  | Bzip2 => "Bzip2"
  | Bzip3 => "Bzip3"
  | Cabinet => "Cabinet"
  | CanonRaw => "CanonRaw"
  | CanonRaw2 => "CanonRaw2"
  | CanonRaw3 => "CanonRaw3"
  | CdAudio => "CdAudio"
  | Cinema4d => "Cinema4d"
  | Cineon => "Cineon"
  | CircuitDiagramDocument => "CircuitDiagramDocument"
  | ClojureScript => "ClojureScript"
  | CollaborativeDesignActivity => "CollaborativeDesignActivity"
  | Commodore64Cartridge => "Commodore64Cartridge"
  | Commodore64Program => "Commodore64Program"
  | CommonObjectFileFormat => "CommonObjectFileFormat"
  | CompoundFileBinary => "CompoundFileBinary"
  | CorelPresentations => "CorelPresentations"
  | CorelPresentations7 => "CorelPresentations7"
  | Cpio => "Cpio"
  | CreativeVoice => "CreativeVoice"
  | DalvikExecutable => "DalvikExecutable"
  | DebianPackage => "DebianPackage"
  | DerCertificate => "DerCertificate"
  | DesignWebFormat => "DesignWebFormat"
  | DesignWebFormatXps => "DesignWebFormatXps"
  | DigitalImagingAndCommunicationsInMedicine => "DigitalImagingAndCommunicationsInMedicine"
  | DigitalPictureExchange => "DigitalPictureExchange"
  | Djvu => "Djvu"
  | DrawingExchangeFormatAscii => "DrawingExchangeFormatAscii"
  | DrawingExchangeFormatBinary => "DrawingExchangeFormatBinary"
  | Drawio => "Drawio"
  | DynamicLinkLibrary => "DynamicLinkLibrary"
  | EightBitSampledVoice => "EightBitSampledVoice"
  | ElectronicPublication => "ElectronicPublication"
  | EmbeddedOpentype => "EmbeddedOpentype"
  | Empty => "Empty"
  | EncapsulatedPostscript => "EncapsulatedPostscript"
  | EnhancedMetafile => "EnhancedMetafile"
  | EnterpriseApplicationArchive => "EnterpriseApplicationArchive"
  | ExecutableAndLinkableFormat => "ExecutableAndLinkableFormat"
  | ExperimentalComputingFacility => "ExperimentalComputingFacility"
  | Extensible3d => "Extensible3d"
  | ExtensibleArchive => "ExtensibleArchive"
  | ExtensibleBinaryMetaLanguage => "ExtensibleBinaryMetaLanguage"
  | ExtensibleMarkupLanguage => "ExtensibleMarkupLanguage"
  | ExtensibleStylesheetLanguageTransformations => "ExtensibleStylesheetLanguageTransformations"
  | Farbfeld => "Farbfeld"
  | Fasttracker2ExtendedModule => "Fasttracker2ExtendedModule"
  | Fictionbook => "Fictionbook"
  | FictionbookZip => "FictionbookZip"
  | FigletFont => "FigletFont"
  | FigmaDesign => "FigmaDesign"
  | Filmbox => "Filmbox"
  | FlashCs5Project => "FlashCs5Project"
  | FlashMp4Audio => "FlashMp4Audio"
  | FlashMp4Audiobook => "FlashMp4Audiobook"
  | FlashMp4ProtectedVideo => "FlashMp4ProtectedVideo"
  | FlashMp4Video => "FlashMp4Video"
  | FlashProject => "FlashProject"
  | FlashVideo => "FlashVideo"
  | FlexibleAndInteroperableDataTransfer => "FlexibleAndInteroperableDataTransfer"
  | FlexibleImageTransportSystem => "FlexibleImageTransportSystem"
  | FreeLosslessAudioCodec => "FreeLosslessAudioCodec"
  | FreeLosslessImageFormat => "FreeLosslessImageFormat"
  | FujifilmRaw => "FujifilmRaw"
  | Fusion360 => "Fusion360"
  | GameBoyAdvanceRom => "GameBoyAdvanceRom"
  | GameBoyColorRom => "GameBoyColorRom"
  | GameBoyRom => "GameBoyRom"
  | GameGearRom => "GameGearRom"
  | GeographyMarkupLanguage => "GeographyMarkupLanguage"
  | GettextMachineObject => "GettextMachineObject"
  | GlTransmissionFormatBinary => "GlTransmissionFormatBinary"
  | Glyphs => "Glyphs"
  | GoogleChromeExtension => "GoogleChromeExtension"
  | GoogleDraco => "GoogleDraco"
  | GpsExchangeFormat => "GpsExchangeFormat"
  | GraphicsInterchangeFormat => "GraphicsInterchangeFormat"
  | Gzip => "Gzip"
  | HighEfficiencyImageCoding => "HighEfficiencyImageCoding"
  | HighEfficiencyImageCodingSequence => "HighEfficiencyImageCodingSequence"
  | HighEfficiencyImageFileFormat => "HighEfficiencyImageFileFormat"
  | HighEfficiencyImageFileFormatSequence => "HighEfficiencyImageFileFormatSequence"
  | HypertextMarkupLanguage => "HypertextMarkupLanguage"
  | Icalendar => "Icalendar"
  | IccProfile => "IccProfile"
  | Id3v2 => "Id3v2"
  | ImpulseTrackerModule => "ImpulseTrackerModule"
  | IndesignMarkupLanguage => "IndesignMarkupLanguage"
  | InitialGraphicsExchangeSpecification => "InitialGraphicsExchangeSpecification"
  | InterQuakeExport => "InterQuakeExport"
  | InterQuakeModel => "InterQuakeModel"
  | IosAppStorePackage => "IosAppStorePackage"
  | Iso9660 => "Iso9660"
  | JavaArchive => "JavaArchive"
  | JavaClass => "JavaClass"
  | JavaKeystore => "JavaKeystore"
  | JointPhotographicExpertsGroup => "JointPhotographicExpertsGroup"
  | Jpeg2000Codestream => "Jpeg2000Codestream"
  | Jpeg2000Part1 => "Jpeg2000Part1"
  | Jpeg2000Part2 => "Jpeg2000Part2"
  | Jpeg2000Part3 => "Jpeg2000Part3"
  | Jpeg2000Part6 => "Jpeg2000Part6"
  | JpegExtendedRange => "JpegExtendedRange"
  | JpegLs => "JpegLs"
  | JpegNetworkGraphics => "JpegNetworkGraphics"
  | JpegXl => "JpegXl"
  | JsonFeed => "JsonFeed"
  | KeyholeMarkupLanguage => "KeyholeMarkupLanguage"
  | KeyholeMarkupLanguageZip => "KeyholeMarkupLanguageZip"
  | KhronosTexture => "KhronosTexture"
  | KhronosTexture2 => "KhronosTexture2"
  | Larc => "Larc"
  | Latex => "Latex"
  | LempelZivFiniteStateEntropy => "LempelZivFiniteStateEntropy"
  | LempelZivMarkovChainAlgorithm => "LempelZivMarkovChainAlgorithm"
  | Lha => "Lha"
  | LinearExecutable => "LinearExecutable"
  | LlvmBitcode => "LlvmBitcode"
  | LongRangeZip => "LongRangeZip"
  | LuaBytecode => "LuaBytecode"
  | LuaScript => "LuaScript"
  | Lz4 => "Lz4"
  | Lzip => "Lzip"
  | Lzop => "Lzop"
  | MachO => "MachO"
  | MacosAlias => "MacosAlias"
  | Magicavoxel => "Magicavoxel"
  | MagickImageFileFormat => "MagickImageFileFormat"
  | MaterialExchangeFormat => "MaterialExchangeFormat"
  | MathematicalMarkupLanguage => "MathematicalMarkupLanguage"
  | Matroska3dVideo => "Matroska3dVideo"
  | MatroskaAudio => "MatroskaAudio"
  | MatroskaSubtitles => "MatroskaSubtitles"
  | MatroskaVideo => "MatroskaVideo"
  | MayaAscii => "MayaAscii"
  | MayaBinary => "MayaBinary"
  | MegaDriveRom => "MegaDriveRom"
  | MetaInformationEncapsulation => "MetaInformationEncapsulation"
  | MicrosoftAccess2007Database => "MicrosoftAccess2007Database"
  | MicrosoftAccessDatabase => "MicrosoftAccessDatabase"
  | MicrosoftCompiledHtmlHelp => "MicrosoftCompiledHtmlHelp"
  | MicrosoftDigitalVideoRecording => "MicrosoftDigitalVideoRecording"
  | MicrosoftDirectdrawSurface => "MicrosoftDirectdrawSurface"
  | MicrosoftExcelSpreadsheet => "MicrosoftExcelSpreadsheet"
  | MicrosoftPowerpointPresentation => "MicrosoftPowerpointPresentation"
  | MicrosoftProjectPlan => "MicrosoftProjectPlan"
  | MicrosoftPublisherDocument => "MicrosoftPublisherDocument"
  | MicrosoftReader => "MicrosoftReader"
  | MicrosoftSoftwareInstaller => "MicrosoftSoftwareInstaller"
  | MicrosoftVirtualHardDisk => "MicrosoftVirtualHardDisk"
  | MicrosoftVirtualHardDisk2 => "MicrosoftVirtualHardDisk2"
  | MicrosoftVisioDrawing => "MicrosoftVisioDrawing"
  | MicrosoftVisualStudioExtension => "MicrosoftVisualStudioExtension"
  | MicrosoftVisualStudioSolution => "MicrosoftVisualStudioSolution"
  | MicrosoftWordDocument => "MicrosoftWordDocument"
  | MicrosoftWorks6Spreadsheet => "MicrosoftWorks6Spreadsheet"
  | MicrosoftWorksDatabase => "MicrosoftWorksDatabase"
  | MicrosoftWorksSpreadsheet => "MicrosoftWorksSpreadsheet"
  | MicrosoftWorksWordProcessor => "MicrosoftWorksWordProcessor"
  | MicrosoftWrite => "MicrosoftWrite"
  | Mobipocket => "Mobipocket"
  | Model3dAscii => "Model3dAscii"
  | Model3dBinary => "Model3dBinary"
  | MonkeysAudio => "MonkeysAudio"
  | MozillaArchive => "MozillaArchive"
  | Mp3Url => "Mp3Url"
  | Mpeg12AudioLayer2 => "Mpeg12AudioLayer2"
  | Mpeg12AudioLayer3 => "Mpeg12AudioLayer3"
  | Mpeg12Video => "Mpeg12Video"
  | Mpeg2TransportStream => "Mpeg2TransportStream"
  | Mpeg4Part14 => "Mpeg4Part14"
  | Mpeg4Part14Audio => "Mpeg4Part14Audio"
  | Mpeg4Part14Subtitles => "Mpeg4Part14Subtitles"
  | Mpeg4Part14Video => "Mpeg4Part14Video"
  | MpegDashMpd => "MpegDashMpd"
  | MsDosBatch => "MsDosBatch"
  | MsDosExecutable => "MsDosExecutable"
  | Mtv => "Mtv"
  | MultiLayerArchive => "MultiLayerArchive"
  | MultipleImageNetworkGraphics => "MultipleImageNetworkGraphics"
  | Musepack => "Musepack"
  | MusicalInstrumentDigitalInterface => "MusicalInstrumentDigitalInterface"
  | Musicxml => "Musicxml"
  | MusicxmlZip => "MusicxmlZip"
  | NeoGeoPocketColorRom => "NeoGeoPocketColorRom"
  | NeoGeoPocketRom => "NeoGeoPocketRom"
  | NewExecutable => "NewExecutable"
  | NikonElectronicFile => "NikonElectronicFile"
  | Nintendo64Rom => "Nintendo64Rom"
  | NintendoDsRom => "NintendoDsRom"
  | NintendoEntertainmentSystemRom => "NintendoEntertainmentSystemRom"
  | NintendoSwitchExecutable => "NintendoSwitchExecutable"
  | NintendoSwitchPackage => "NintendoSwitchPackage"
  | NintendoSwitchRom => "NintendoSwitchRom"
  | OfficeOpenXmlDocument => "OfficeOpenXmlDocument"
  | OfficeOpenXmlDrawing => "OfficeOpenXmlDrawing"
  | OfficeOpenXmlPresentation => "OfficeOpenXmlPresentation"
  | OfficeOpenXmlSpreadsheet => "OfficeOpenXmlSpreadsheet"
  | OggFlac => "OggFlac"
  | OggMedia => "OggMedia"
  | OggMultiplexedMedia => "OggMultiplexedMedia"
  | OggOpus => "OggOpus"
  | OggSpeex => "OggSpeex"
  | OggTheora => "OggTheora"
  | OggVorbis => "OggVorbis"
  | OlympusRawFormat => "OlympusRawFormat"
  | OpendocumentDatabase => "OpendocumentDatabase"
  | OpendocumentFormula => "OpendocumentFormula"
  | OpendocumentFormulaTemplate => "OpendocumentFormulaTemplate"
  | OpendocumentGraphics => "OpendocumentGraphics"
  | OpendocumentGraphicsTemplate => "OpendocumentGraphicsTemplate"
  | OpendocumentPresentation => "OpendocumentPresentation"
  | OpendocumentPresentationTemplate => "OpendocumentPresentationTemplate"
  | OpendocumentSpreadsheet => "OpendocumentSpreadsheet"
  | OpendocumentSpreadsheetTemplate => "OpendocumentSpreadsheetTemplate"
  | OpendocumentText => "OpendocumentText"
  | OpendocumentTextMaster => "OpendocumentTextMaster"
  | OpendocumentTextMasterTemplate => "OpendocumentTextMasterTemplate"
  | OpendocumentTextTemplate => "OpendocumentTextTemplate"
  | Openexr => "Openexr"
  | Opennurbs => "Opennurbs"
  | Openraster => "Openraster"
  | Opentype => "Opentype"
  | Openxps => "Openxps"
  | OptimizedDalvikExecutable => "OptimizedDalvikExecutable"
  | PanasonicRaw => "PanasonicRaw"
  | PcapDump => "PcapDump"
  | PcapNextGenerationDump => "PcapNextGenerationDump"
  | PemCertificate => "PemCertificate"
  | PemCertificateSigningRequest => "PemCertificateSigningRequest"
  | PemPrivateKey => "PemPrivateKey"
  | PemPublicKey => "PemPublicKey"
  | PerlScript => "PerlScript"
  | PersonalStorageTable => "PersonalStorageTable"
  | PgpMessage => "PgpMessage"
  | PgpPrivateKeyBlock => "PgpPrivateKeyBlock"
  | PgpPublicKeyBlock => "PgpPublicKeyBlock"
  | PgpSignature => "PgpSignature"
  | PgpSignedMessage => "PgpSignedMessage"
  | PictureExchange => "PictureExchange"
  | PlainText => "PlainText"
  | Pmarc => "Pmarc"
  | PolygonAscii => "PolygonAscii"
  | PolygonBinary => "PolygonBinary"
  | PortableArbitraryMap => "PortableArbitraryMap"
  | PortableBitmap => "PortableBitmap"
  | PortableDocumentFormat => "PortableDocumentFormat"
  | PortableExecutable => "PortableExecutable"
  | PortableFloatmap => "PortableFloatmap"
  | PortableGraymap => "PortableGraymap"
  | PortableNetworkGraphics => "PortableNetworkGraphics"
  | PortablePixmap => "PortablePixmap"
  | Postscript => "Postscript"
  | PythonScript => "PythonScript"
  | QemuCopyOnWrite => "QemuCopyOnWrite"
  | QualcommPurevoice => "QualcommPurevoice"
  | QuiteOkAudio => "QuiteOkAudio"
  | QuiteOkImage => "QuiteOkImage"
  | RadianceHdr => "RadianceHdr"
  | Realaudio => "Realaudio"
  | ReallySimpleSyndication => "ReallySimpleSyndication"
  | Realmedia => "Realmedia"
  | Realvideo => "Realvideo"
  | RedHatPackageManager => "RedHatPackageManager"
  | RichTextFormat => "RichTextFormat"
  | RoshalArchive => "RoshalArchive"
  | RubyScript => "RubyScript"
  | Rzip => "Rzip"
  | ScalableVectorGraphics => "ScalableVectorGraphics"
  | ScreamTracker3Module => "ScreamTracker3Module"
  | SegaMasterSystemRom => "SegaMasterSystemRom"
  | Seqbox => "Seqbox"
  | SevenZip => "SevenZip"
  | Shapefile => "Shapefile"
  | ShellScript => "ShellScript"
  | ShoutcastPlaylist => "ShoutcastPlaylist"
  | SiliconGraphicsImage => "SiliconGraphicsImage"
  | SiliconGraphicsMovie => "SiliconGraphicsMovie"
  | SimpleObjectAccessProtocol => "SimpleObjectAccessProtocol"
  | Sketch => "Sketch"
  | Sketch43 => "Sketch43"
  | Sketchup => "Sketchup"
  | SmallWebFormat => "SmallWebFormat"
  | Snappy => "Snappy"
  | SolidworksAssembly => "SolidworksAssembly"
  | SolidworksDrawing => "SolidworksDrawing"
  | SolidworksPart => "SolidworksPart"
  | SonyDsdStreamFile => "SonyDsdStreamFile"
  | SonyMovie => "SonyMovie"
  | Soundfont2 => "Soundfont2"
  | SpaceclaimDocument => "SpaceclaimDocument"
  | Sqlite3 => "Sqlite3"
  | Squashfs => "Squashfs"
  | StandardForTheExchangeOfProductModelData => "StandardForTheExchangeOfProductModelData"
  | Starcalc => "Starcalc"
  | Starchart => "Starchart"
  | Stardraw => "Stardraw"
  | Starimpress => "Starimpress"
  | Starmath => "Starmath"
  | Starwriter => "Starwriter"
  | StereolithographyAscii => "StereolithographyAscii"
  | Stuffit => "Stuffit"
  | StuffitX => "StuffitX"
  | SubripText => "SubripText"
  | SunXmlCalc => "SunXmlCalc"
  | SunXmlCalcTemplate => "SunXmlCalcTemplate"
  | SunXmlDraw => "SunXmlDraw"
  | SunXmlDrawTemplate => "SunXmlDrawTemplate"
  | SunXmlImpress => "SunXmlImpress"
  | SunXmlImpressTemplate => "SunXmlImpressTemplate"
  | SunXmlMath => "SunXmlMath"
  | SunXmlWriter => "SunXmlWriter"
  | SunXmlWriterGlobal => "SunXmlWriterGlobal"
  | SunXmlWriterTemplate => "SunXmlWriterTemplate"
  | TagImageFileFormat => "TagImageFileFormat"
  | TapeArchive => "TapeArchive"
  | Tasty => "Tasty"
  | ThirdGenerationPartnershipProject => "ThirdGenerationPartnershipProject"
  | ThirdGenerationPartnershipProject2 => "ThirdGenerationPartnershipProject2"
  | ThreeDimensionalManufacturingFormat => "ThreeDimensionalManufacturingFormat"
  | ThreeDimensionalStudio => "ThreeDimensionalStudio"
  | ThreeDimensionalStudioMax => "ThreeDimensionalStudioMax"
  | TiledMapXml => "TiledMapXml"
  | TiledTilesetXml => "TiledTilesetXml"
  | TimedTextMarkupLanguage => "TimedTextMarkupLanguage"
  | ToolCommandLanguageScript => "ToolCommandLanguageScript"
  | TrainingCenterXml => "TrainingCenterXml"
  | Truetype => "Truetype"
  | TruetypeCollection => "TruetypeCollection"
  | UltimateSoundtrackerModule => "UltimateSoundtrackerModule"
  | UniformOfficeFormatPresentation => "UniformOfficeFormatPresentation"
  | UniformOfficeFormatSpreadsheet => "UniformOfficeFormatSpreadsheet"
  | UniformOfficeFormatText => "UniformOfficeFormatText"
  | Universal3d => "Universal3d"
  | UniversalSceneDescriptionAscii => "UniversalSceneDescriptionAscii"
  | UniversalSceneDescriptionBinary => "UniversalSceneDescriptionBinary"
  | UniversalSceneDescriptionZip => "UniversalSceneDescriptionZip"
  | UniversalSubtitleFormat => "UniversalSubtitleFormat"
  | UnixArchiver => "UnixArchiver"
  | UnixCompress => "UnixCompress"
  | Vcalendar => "Vcalendar"
  | Vcard => "Vcard"
  | VirtualMachineDisk => "VirtualMachineDisk"
  | VirtualRealityModelingLanguage => "VirtualRealityModelingLanguage"
  | VirtualboxVirtualDiskImage => "VirtualboxVirtualDiskImage"
  | WaveformAudio => "WaveformAudio"
  | Wavpack => "Wavpack"
  | WebApplicationArchive => "WebApplicationArchive"
  | WebOpenFontFormat => "WebOpenFontFormat"
  | WebOpenFontFormat2 => "WebOpenFontFormat2"
  | WebVideoTextTracks => "WebVideoTextTracks"
  | WebassemblyBinary => "WebassemblyBinary"
  | WebassemblyText => "WebassemblyText"
  | Webm => "Webm"
  | Webp => "Webp"
  | WindowsAnimatedCursor => "WindowsAnimatedCursor"
  | WindowsAppBundle => "WindowsAppBundle"
  | WindowsAppPackage => "WindowsAppPackage"
  | WindowsBitmap => "WindowsBitmap"
  | WindowsCursor => "WindowsCursor"
  | WindowsIcon => "WindowsIcon"
  | WindowsImagingFormat => "WindowsImagingFormat"
  | WindowsMediaAudio => "WindowsMediaAudio"
  | WindowsMediaPlaylist => "WindowsMediaPlaylist"
  | WindowsMediaVideo => "WindowsMediaVideo"
  | WindowsMetafile => "WindowsMetafile"
  | WindowsRecordedTvShow => "WindowsRecordedTvShow"
  | WindowsShortcut => "WindowsShortcut"
  | WordperfectDocument => "WordperfectDocument"
  | WordperfectGraphics => "WordperfectGraphics"
  | WordperfectMacro => "WordperfectMacro"
  | WordperfectPresentations => "WordperfectPresentations"
  | XPixmap => "XPixmap"
  | Xap => "Xap"
  | Xbox360Executable => "Xbox360Executable"
  | XboxExecutable => "XboxExecutable"
  | XmlLocalizationInterchangeFileFormat => "XmlLocalizationInterchangeFileFormat"
  | XmlShareablePlaylistFormat => "XmlShareablePlaylistFormat"
  | Xpinstall => "Xpinstall"
  | Xz => "Xz"
  | Zip => "Zip"
  | Zoo => "Zoo"
  | Zpaq => "Zpaq"
  | Zstandard => "Zstandard"

/-- `Debug for Kind` (derived, `src/lib.rs` 333) for a formatter with these options. -/
def Kind.debug {σ : Type} (x : Kind) (k : Sink σ) (_o : FmtOptions) (s : σ) : Option σ :=
  k.write s x.variantName.toList

/-- `Debug for FileFormat` (derived, `src/macros.rs` 25) for a formatter with these options. -/
def FileFormat.debug {σ : Type} (f : FileFormat) (k : Sink σ) (_o : FmtOptions) (s : σ) : Option σ :=
  k.write s f.variantName.toList

end FF
