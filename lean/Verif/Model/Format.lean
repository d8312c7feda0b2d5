/-!
# `FileFormat`, `Kind` and their metadata

Generated by `tools/gen.py` from `src/formats.rs` (1-3094) and `src/lib.rs` (332-382), following
the macro `formats!` of `src/macros.rs` (13-149). Do not edit by hand.
-/

namespace FF

/-- `Kind` (`src/lib.rs` 332-382). -/
inductive Kind where
  | Archive
  | Audio
  | Compressed
  | Database
  | Diagram
  | Disk
  | Document
  | Ebook
  | Executable
  | Font
  | Formula
  | Geospatial
  | Image
  | Metadata
  | Model
  | Other
  | Package
  | Playlist
  | Presentation
  | Rom
  | Spreadsheet
  | Subtitle
  | Video
  deriving DecidableEq, Repr

/-- `FileFormat` (`src/formats.rs`, enum generated by `src/macros.rs` 24-35). -/
inductive FileFormat where
  | Abiword
  | AbiwordTemplate
  | Ace
  | ActionsMediaVideo
  | Activemime
  | AdaptableScalableTextureCompression
  | AdaptiveMultiRate
  | AdditiveManufacturingFormat
  | AdobeIllustratorArtwork
  | AdobeIndesignDocument
  | AdobeIntegratedRuntime
  | AdobePhotoshopDocument
  | AdvancedAudioCoding
  | AdvancedStreamRedirector
  | AdvancedSystemsFormat
  | AgeEncryption
  | Alz
  | AmigaDiskFile
  | AndroidAppBundle
  | AndroidBinaryXml
  | AndroidPackage
  | AndroidResourceStorageContainer
  | AnimatedPortableNetworkGraphics
  | ApacheArrowColumnar
  | ApacheAvro
  | ApacheParquet
  | Appimage
  | AppleDiskImage
  | AppleIconImage
  | AppleItunesAudio
  | AppleItunesAudiobook
  | AppleItunesProtectedAudio
  | AppleItunesVideo
  | AppleQuicktime
  | ArbitraryBinaryData
  | ArchivedByRobertJung
  | Atari7800Rom
  | Atom
  | Au
  | AudioCodec3
  | AudioInterchangeFileFormat
  | AudioVideoInterleave
  | AudioVisualResearch
  | AutocadDrawing
  | Autodesk123d
  | AutodeskAlias
  | AutodeskAnimator
  | AutodeskAnimatorPro
  | AutodeskInventorAssembly
  | AutodeskInventorDrawing
  | AutodeskInventorPart
  | AutodeskInventorPresentation
  | Av1ImageFileFormat
  | Av1ImageFileFormatSequence
  | BdavMpeg2TransportStream
  | BetterPortableGraphics
  | Bittorrent
  | Blender
  | BmfontAscii
  | BmfontBinary
  | BroadBandEbook
  | Bzip
  | Bzip2
  | Bzip3
  | Cabinet
  | CanonRaw
  | CanonRaw2
  | CanonRaw3
  | CdAudio
  | Cinema4d
  | Cineon
  | CircuitDiagramDocument
  | ClojureScript
  | CollaborativeDesignActivity
  | Commodore64Cartridge
  | Commodore64Program
  | CommonObjectFileFormat
  | CompoundFileBinary
  | CorelPresentations
  | CorelPresentations7
  | Cpio
  | CreativeVoice
  | DalvikExecutable
  | DebianPackage
  | DerCertificate
  | DesignWebFormat
  | DesignWebFormatXps
  | DigitalImagingAndCommunicationsInMedicine
  | DigitalPictureExchange
  | Djvu
  | DrawingExchangeFormatAscii
  | DrawingExchangeFormatBinary
  | Drawio
  | DynamicLinkLibrary
  | EightBitSampledVoice
  | ElectronicPublication
  | EmbeddedOpentype
  | Empty
  | EncapsulatedPostscript
  | EnhancedMetafile
  | EnterpriseApplicationArchive
  | ExecutableAndLinkableFormat
  | ExperimentalComputingFacility
  | Extensible3d
  | ExtensibleArchive
  | ExtensibleBinaryMetaLanguage
  | ExtensibleMarkupLanguage
  | ExtensibleStylesheetLanguageTransformations
  | Farbfeld
  | Fasttracker2ExtendedModule
  | Fictionbook
  | FictionbookZip
  | FigletFont
  | FigmaDesign
  | Filmbox
  | FlashCs5Project
  | FlashMp4Audio
  | FlashMp4Audiobook
  | FlashMp4ProtectedVideo
  | FlashMp4Video
  | FlashProject
  | FlashVideo
  | FlexibleAndInteroperableDataTransfer
  | FlexibleImageTransportSystem
  | FreeLosslessAudioCodec
  | FreeLosslessImageFormat
  | FujifilmRaw
  | Fusion360
  | GameBoyAdvanceRom
  | GameBoyColorRom
  | GameBoyRom
  | GameGearRom
  | GeographyMarkupLanguage
  | GettextMachineObject
  | GlTransmissionFormatBinary
  | Glyphs
  | GoogleChromeExtension
  | GoogleDraco
  | GpsExchangeFormat
  | GraphicsInterchangeFormat
  | Gzip
  | HighEfficiencyImageCoding
  | HighEfficiencyImageCodingSequence
  | HighEfficiencyImageFileFormat
  | HighEfficiencyImageFileFormatSequence
  | HypertextMarkupLanguage
  | Icalendar
  | IccProfile
  | Id3v2
  | ImpulseTrackerModule
  | IndesignMarkupLanguage
  | InitialGraphicsExchangeSpecification
  | InterQuakeExport
  | InterQuakeModel
  | IosAppStorePackage
  | Iso9660
  | JavaArchive
  | JavaClass
  | JavaKeystore
  | JointPhotographicExpertsGroup
  | Jpeg2000Codestream
  | Jpeg2000Part1
  | Jpeg2000Part2
  | Jpeg2000Part3
  | Jpeg2000Part6
  | JpegExtendedRange
  | JpegLs
  | JpegNetworkGraphics
  | JpegXl
  | JsonFeed
  | KeyholeMarkupLanguage
  | KeyholeMarkupLanguageZip
  | KhronosTexture
  | KhronosTexture2
  | Larc
  | Latex
  | LempelZivFiniteStateEntropy
  | LempelZivMarkovChainAlgorithm
  | Lha
  | LinearExecutable
  | LlvmBitcode
  | LongRangeZip
  | LuaBytecode
  | LuaScript
  | Lz4
  | Lzip
  | Lzop
  | MachO
  | MacosAlias
  | Magicavoxel
  | MagickImageFileFormat
  | MaterialExchangeFormat
  | MathematicalMarkupLanguage
  | Matroska3dVideo
  | MatroskaAudio
  | MatroskaSubtitles
  | MatroskaVideo
  | MayaAscii
  | MayaBinary
  | MegaDriveRom
  | MetaInformationEncapsulation
  | MicrosoftAccess2007Database
  | MicrosoftAccessDatabase
  | MicrosoftCompiledHtmlHelp
  | MicrosoftDigitalVideoRecording
  | MicrosoftDirectdrawSurface
  | MicrosoftExcelSpreadsheet
  | MicrosoftPowerpointPresentation
  | MicrosoftProjectPlan
  | MicrosoftPublisherDocument
  | MicrosoftReader
  | MicrosoftSoftwareInstaller
  | MicrosoftVirtualHardDisk
  | MicrosoftVirtualHardDisk2
  | MicrosoftVisioDrawing
  | MicrosoftVisualStudioExtension
  | MicrosoftVisualStudioSolution
  | MicrosoftWordDocument
  | MicrosoftWorks6Spreadsheet
  | MicrosoftWorksDatabase
  | MicrosoftWorksSpreadsheet
  | MicrosoftWorksWordProcessor
  | MicrosoftWrite
  | Mobipocket
  | Model3dAscii
  | Model3dBinary
  | MonkeysAudio
  | MozillaArchive
  | Mp3Url
  | Mpeg12AudioLayer2
  | Mpeg12AudioLayer3
  | Mpeg12Video
  | Mpeg2TransportStream
  | Mpeg4Part14
  | Mpeg4Part14Audio
  | Mpeg4Part14Subtitles
  | Mpeg4Part14Video
  | MpegDashMpd
  | MsDosBatch
  | MsDosExecutable
  | Mtv
  | MultiLayerArchive
  | MultipleImageNetworkGraphics
  | Musepack
  | MusicalInstrumentDigitalInterface
  | Musicxml
  | MusicxmlZip
  | NeoGeoPocketColorRom
  | NeoGeoPocketRom
  | NewExecutable
  | NikonElectronicFile
  | Nintendo64Rom
  | NintendoDsRom
  | NintendoEntertainmentSystemRom
  | NintendoSwitchExecutable
  | NintendoSwitchPackage
  | NintendoSwitchRom
  | OfficeOpenXmlDocument
  | OfficeOpenXmlDrawing
  | OfficeOpenXmlPresentation
  | OfficeOpenXmlSpreadsheet
  | OggFlac
  | OggMedia
  | OggMultiplexedMedia
  | OggOpus
  | OggSpeex
  | OggTheora
  | OggVorbis
  | OlympusRawFormat
  | OpendocumentDatabase
  | OpendocumentFormula
  | OpendocumentFormulaTemplate
  | OpendocumentGraphics
  | OpendocumentGraphicsTemplate
  | OpendocumentPresentation
  | OpendocumentPresentationTemplate
  | OpendocumentSpreadsheet
  | OpendocumentSpreadsheetTemplate
  | OpendocumentText
  | OpendocumentTextMaster
  | OpendocumentTextMasterTemplate
  | OpendocumentTextTemplate
  | Openexr
  | Opennurbs
  | Openraster
  | Opentype
  | Openxps
  | OptimizedDalvikExecutable
  | PanasonicRaw
  | PcapDump
  | PcapNextGenerationDump
  | PemCertificate
  | PemCertificateSigningRequest
  | PemPrivateKey
  | PemPublicKey
  | PerlScript
  | PersonalStorageTable
  | PgpMessage
  | PgpPrivateKeyBlock
  | PgpPublicKeyBlock
  | PgpSignature
  | PgpSignedMessage
  | PictureExchange
  | PlainText
  | Pmarc
  | PolygonAscii
  | PolygonBinary
  | PortableArbitraryMap
  | PortableBitmap
  | PortableDocumentFormat
  | PortableExecutable
  | PortableFloatmap
  | PortableGraymap
  | PortableNetworkGraphics
  | PortablePixmap
  | Postscript
  | PythonScript
  | QemuCopyOnWrite
  | QualcommPurevoice
  | QuiteOkAudio
  | QuiteOkImage
  | RadianceHdr
  | Realaudio
  | ReallySimpleSyndication
  | Realmedia
  | Realvideo
  | RedHatPackageManager
  | RichTextFormat
  | RoshalArchive
  | RubyScript
  | Rzip
  | ScalableVectorGraphics
  | ScreamTracker3Module
  | SegaMasterSystemRom
  | Seqbox
  | SevenZip
  | Shapefile
  | ShellScript
  | ShoutcastPlaylist
  | SiliconGraphicsImage
  | SiliconGraphicsMovie
  | SimpleObjectAccessProtocol
  | Sketch
  | Sketch43
  | Sketchup
  | SmallWebFormat
  | Snappy
  | SolidworksAssembly
  | SolidworksDrawing
  | SolidworksPart
  | SonyDsdStreamFile
  | SonyMovie
  | Soundfont2
  | SpaceclaimDocument
  | Sqlite3
  | Squashfs
  | StandardForTheExchangeOfProductModelData
  | Starcalc
  | Starchart
  | Stardraw
  | Starimpress
  | Starmath
  | Starwriter
  | StereolithographyAscii
  | Stuffit
  | StuffitX
  | SubripText
  | SunXmlCalc
  | SunXmlCalcTemplate
  | SunXmlDraw
  | SunXmlDrawTemplate
  | SunXmlImpress
  | SunXmlImpressTemplate
  | SunXmlMath
  | SunXmlWriter
  | SunXmlWriterGlobal
  | SunXmlWriterTemplate
  | TagImageFileFormat
  | TapeArchive
  | Tasty
  | ThirdGenerationPartnershipProject
  | ThirdGenerationPartnershipProject2
  | ThreeDimensionalManufacturingFormat
  | ThreeDimensionalStudio
  | ThreeDimensionalStudioMax
  | TiledMapXml
  | TiledTilesetXml
  | TimedTextMarkupLanguage
  | ToolCommandLanguageScript
  | TrainingCenterXml
  | Truetype
  | TruetypeCollection
  | UltimateSoundtrackerModule
  | UniformOfficeFormatPresentation
  | UniformOfficeFormatSpreadsheet
  | UniformOfficeFormatText
  | Universal3d
  | UniversalSceneDescriptionAscii
  | UniversalSceneDescriptionBinary
  | UniversalSceneDescriptionZip
  | UniversalSubtitleFormat
  | UnixArchiver
  | UnixCompress
  | Vcalendar
  | Vcard
  | VirtualMachineDisk
  | VirtualRealityModelingLanguage
  | VirtualboxVirtualDiskImage
  | WaveformAudio
  | Wavpack
  | WebApplicationArchive
  | WebOpenFontFormat
  | WebOpenFontFormat2
  | WebVideoTextTracks
  | WebassemblyBinary
  | WebassemblyText
  | Webm
  | Webp
  | WindowsAnimatedCursor
  | WindowsAppBundle
  | WindowsAppPackage
  | WindowsBitmap
  | WindowsCursor
  | WindowsIcon
  | WindowsImagingFormat
  | WindowsMediaAudio
  | WindowsMediaPlaylist
  | WindowsMediaVideo
  | WindowsMetafile
  | WindowsRecordedTvShow
  | WindowsShortcut
  | WordperfectDocument
  | WordperfectGraphics
  | WordperfectMacro
  | WordperfectPresentations
  | XPixmap
  | Xap
  | Xbox360Executable
  | XboxExecutable
  | XmlLocalizationInterchangeFileFormat
  | XmlShareablePlaylistFormat
  | Xpinstall
  | Xz
  | Zip
  | Zoo
  | Zpaq
  | Zstandard
  deriving DecidableEq, Repr

namespace FileFormat

/-- `FileFormat::name` (`src/macros.rs` 50-56, data from `src/formats.rs`). -/
def name : FileFormat → String
  | Abiword => "AbiWord"
  | AbiwordTemplate => "AbiWord Template"
  | Ace => "ACE"
  | ActionsMediaVideo => "Actions Media Video"
  | Activemime => "ActiveMime"
  | AdaptableScalableTextureCompression => "Adaptable Scalable Texture Compression"
  | AdaptiveMultiRate => "Adaptive Multi-Rate"
  | AdditiveManufacturingFormat => "Additive Manufacturing Format"
  | AdobeIllustratorArtwork => "Adobe Illustrator Artwork"
  | AdobeIndesignDocument => "Adobe InDesign Document"
  | AdobeIntegratedRuntime => "Adobe Integrated Runtime"
  | AdobePhotoshopDocument => "Adobe Photoshop Document"
  | AdvancedAudioCoding => "Advanced Audio Coding"
  | AdvancedStreamRedirector => "Advanced Stream Redirector"
  | AdvancedSystemsFormat => "Advanced Systems Format"
  | AgeEncryption => "age encryption"
  | Alz => "ALZ"
  | AmigaDiskFile => "Amiga Disk File"
  | AndroidAppBundle => "Android App Bundle"
  | AndroidBinaryXml => "Android Binary XML"
  | AndroidPackage => "Android Package"
  | AndroidResourceStorageContainer => "Android Resource Storage Container"
  | AnimatedPortableNetworkGraphics => "Animated Portable Network Graphics"
  | ApacheArrowColumnar => "Apache Arrow Columnar"
  | ApacheAvro => "Apache Avro"
  | ApacheParquet => "Apache Parquet"
  | Appimage => "AppImage"
  | AppleDiskImage => "Apple Disk Image"
  | AppleIconImage => "Apple Icon Image"
  | AppleItunesAudio => "Apple iTunes Audio"
  | AppleItunesAudiobook => "Apple iTunes Audiobook"
  | AppleItunesProtectedAudio => "Apple iTunes Protected Audio"
  | AppleItunesVideo => "Apple iTunes Video"
  | AppleQuicktime => "Apple QuickTime"
  | ArbitraryBinaryData => "Arbitrary Binary Data"
  | ArchivedByRobertJung => "Archived by Robert Jung"
  | Atari7800Rom => "Atari 7800 ROM"
  | Atom => "Atom"
  | Au => "Au"
  | AudioCodec3 => "Audio Codec 3"
  | AudioInterchangeFileFormat => "Audio Interchange File Format"
  | AudioVideoInterleave => "Audio Video Interleave"
  | AudioVisualResearch => "Audio Visual Research"
  | AutocadDrawing => "AutoCAD Drawing"
  | Autodesk123d => "Autodesk 123D"
  | AutodeskAlias => "Autodesk Alias"
  | AutodeskAnimator => "Autodesk Animator"
  | AutodeskAnimatorPro => "Autodesk Animator Pro"
  | AutodeskInventorAssembly => "Autodesk Inventor Assembly"
  | AutodeskInventorDrawing => "Autodesk Inventor Drawing"
  | AutodeskInventorPart => "Autodesk Inventor Part"
  | AutodeskInventorPresentation => "Autodesk Inventor Presentation"
  | Av1ImageFileFormat => "AV1 Image File Format"
  | Av1ImageFileFormatSequence => "AV1 Image File Format Sequence"
  | BdavMpeg2TransportStream => "BDAV MPEG-2 Transport Stream"
  | BetterPortableGraphics => "Better Portable Graphics"
  | Bittorrent => "BitTorrent"
  | Blender => "Blender"
  | BmfontAscii => "BMFont ASCII"
  | BmfontBinary => "BMFont Binary"
  | BroadBandEbook => "Broad Band eBook"
  | Bzip => "bzip"
  | Bzip2 => "bzip2"
  | Bzip3 => "BZip3"
  | Cabinet => "Cabinet"
  | CanonRaw => "Canon Raw"
  | CanonRaw2 => "Canon Raw 2"
  | CanonRaw3 => "Canon Raw 3"
  | CdAudio => "CD Audio"
  | Cinema4d => "Cinema 4D"
  | Cineon => "Cineon"
  | CircuitDiagramDocument => "Circuit Diagram Document"
  | ClojureScript => "Clojure Script"
  | CollaborativeDesignActivity => "Collaborative Design Activity"
  | Commodore64Cartridge => "Commodore 64 Cartridge"
  | Commodore64Program => "Commodore 64 Program"
  | CommonObjectFileFormat => "Common Object File Format"
  | CompoundFileBinary => "Compound File Binary"
  | CorelPresentations => "Corel Presentations"
  | CorelPresentations7 => "Corel Presentations 7"
  | Cpio => "cpio"
  | CreativeVoice => "Creative Voice"
  | DalvikExecutable => "Dalvik Executable"
  | DebianPackage => "Debian Package"
  | DerCertificate => "DER Certificate"
  | DesignWebFormat => "Design Web Format"
  | DesignWebFormatXps => "Design Web Format XPS"
  | DigitalImagingAndCommunicationsInMedicine => "Digital Imaging and Communications in Medicine"
  | DigitalPictureExchange => "Digital Picture Exchange"
  | Djvu => "DjVu"
  | DrawingExchangeFormatAscii => "Drawing Exchange Format ASCII"
  | DrawingExchangeFormatBinary => "Drawing Exchange Format Binary"
  | Drawio => "draw.io"
  | DynamicLinkLibrary => "Dynamic Link Library"
  | EightBitSampledVoice => "8-Bit Sampled Voice"
  | ElectronicPublication => "Electronic Publication"
  | EmbeddedOpentype => "Embedded OpenType"
  | Empty => "Empty"
  | EncapsulatedPostscript => "Encapsulated PostScript"
  | EnhancedMetafile => "Enhanced Metafile"
  | EnterpriseApplicationArchive => "Enterprise Application Archive"
  | ExecutableAndLinkableFormat => "Executable and Linkable Format"
  | ExperimentalComputingFacility => "Experimental Computing Facility"
  | Extensible3d => "Extensible 3D"
  | ExtensibleArchive => "Extensible Archive"
  | ExtensibleBinaryMetaLanguage => "Extensible Binary Meta Language"
  | ExtensibleMarkupLanguage => "Extensible Markup Language"
  | ExtensibleStylesheetLanguageTransformations => "Extensible Stylesheet Language Transformations"
  | Farbfeld => "farbfeld"
  | Fasttracker2ExtendedModule => "FastTracker 2 Extended Module"
  | Fictionbook => "FictionBook"
  | FictionbookZip => "FictionBook ZIP"
  | FigletFont => "FIGlet Font"
  | FigmaDesign => "Figma Design"
  | Filmbox => "Filmbox"
  | FlashCs5Project => "Flash CS5 Project"
  | FlashMp4Audio => "Flash MP4 Audio"
  | FlashMp4Audiobook => "Flash MP4 Audiobook"
  | FlashMp4ProtectedVideo => "Flash MP4 Protected Video"
  | FlashMp4Video => "Flash MP4 Video"
  | FlashProject => "Flash Project"
  | FlashVideo => "Flash Video"
  | FlexibleAndInteroperableDataTransfer => "Flexible and Interoperable Data Transfer"
  | FlexibleImageTransportSystem => "Flexible Image Transport System"
  | FreeLosslessAudioCodec => "Free Lossless Audio Codec"
  | FreeLosslessImageFormat => "Free Lossless Image Format"
  | FujifilmRaw => "Fujifilm Raw"
  | Fusion360 => "Fusion 360"
  | GameBoyAdvanceRom => "Game Boy Advance ROM"
  | GameBoyColorRom => "Game Boy Color ROM"
  | GameBoyRom => "Game Boy ROM"
  | GameGearRom => "Game Gear ROM"
  | GeographyMarkupLanguage => "Geography Markup Language"
  | GettextMachineObject => "gettext Machine Object"
  | GlTransmissionFormatBinary => "GL Transmission Format Binary"
  | Glyphs => "Glyphs"
  | GoogleChromeExtension => "Google Chrome Extension"
  | GoogleDraco => "Google Draco"
  | GpsExchangeFormat => "GPS Exchange Format"
  | GraphicsInterchangeFormat => "Graphics Interchange Format"
  | Gzip => "gzip"
  | HighEfficiencyImageCoding => "High Efficiency Image Coding"
  | HighEfficiencyImageCodingSequence => "High Efficiency Image Coding Sequence"
  | HighEfficiencyImageFileFormat => "High Efficiency Image File Format"
  | HighEfficiencyImageFileFormatSequence => "High Efficiency Image File Format Sequence"
  | HypertextMarkupLanguage => "HyperText Markup Language"
  | Icalendar => "iCalendar"
  | IccProfile => "ICC Profile"
  | Id3v2 => "ID3v2"
  | ImpulseTrackerModule => "Impulse Tracker Module"
  | IndesignMarkupLanguage => "InDesign Markup Language"
  | InitialGraphicsExchangeSpecification => "Initial Graphics Exchange Specification"
  | InterQuakeExport => "Inter-Quake Export"
  | InterQuakeModel => "Inter-Quake Model"
  | IosAppStorePackage => "iOS App Store Package"
  | Iso9660 => "ISO 9660"
  | JavaArchive => "Java Archive"
  | JavaClass => "Java Class"
  | JavaKeystore => "Java KeyStore"
  | JointPhotographicExpertsGroup => "Joint Photographic Experts Group"
  | Jpeg2000Codestream => "JPEG 2000 Codestream"
  | Jpeg2000Part1 => "JPEG 2000 Part 1"
  | Jpeg2000Part2 => "JPEG 2000 Part 2"
  | Jpeg2000Part3 => "JPEG 2000 Part 3"
  | Jpeg2000Part6 => "JPEG 2000 Part 6"
  | JpegExtendedRange => "JPEG Extended Range"
  | JpegLs => "JPEG-LS"
  | JpegNetworkGraphics => "JPEG Network Graphics"
  | JpegXl => "JPEG XL"
  | JsonFeed => "JSON Feed"
  | KeyholeMarkupLanguage => "Keyhole Markup Language"
  | KeyholeMarkupLanguageZip => "Keyhole Markup Language ZIP"
  | KhronosTexture => "Khronos Texture"
  | KhronosTexture2 => "Khronos Texture 2"
  | Larc => "LArc"
  | Latex => "LaTeX"
  | LempelZivFiniteStateEntropy => "Lempel-Ziv Finite State Entropy"
  | LempelZivMarkovChainAlgorithm => "Lempel-Ziv-Markov chain algorithm"
  | Lha => "LHA"
  | LinearExecutable => "Linear Executable"
  | LlvmBitcode => "LLVM Bitcode"
  | LongRangeZip => "Long Range ZIP"
  | LuaBytecode => "Lua Bytecode"
  | LuaScript => "Lua Script"
  | Lz4 => "LZ4"
  | Lzip => "lzip"
  | Lzop => "lzop"
  | MachO => "Mach-O"
  | MacosAlias => "macOS Alias"
  | Magicavoxel => "MagicaVoxel"
  | MagickImageFileFormat => "Magick Image File Format"
  | MaterialExchangeFormat => "Material Exchange Format"
  | MathematicalMarkupLanguage => "Mathematical Markup Language"
  | Matroska3dVideo => "Matroska 3D Video"
  | MatroskaAudio => "Matroska Audio"
  | MatroskaSubtitles => "Matroska Subtitles"
  | MatroskaVideo => "Matroska Video"
  | MayaAscii => "Maya ASCII"
  | MayaBinary => "Maya Binary"
  | MegaDriveRom => "Mega Drive ROM"
  | MetaInformationEncapsulation => "Meta Information Encapsulation"
  | MicrosoftAccess2007Database => "Microsoft Access 2007 Database"
  | MicrosoftAccessDatabase => "Microsoft Access Database"
  | MicrosoftCompiledHtmlHelp => "Microsoft Compiled HTML Help"
  | MicrosoftDigitalVideoRecording => "Microsoft Digital Video Recording"
  | MicrosoftDirectdrawSurface => "Microsoft DirectDraw Surface"
  | MicrosoftExcelSpreadsheet => "Microsoft Excel Spreadsheet"
  | MicrosoftPowerpointPresentation => "Microsoft PowerPoint Presentation"
  | MicrosoftProjectPlan => "Microsoft Project Plan"
  | MicrosoftPublisherDocument => "Microsoft Publisher Document"
  | MicrosoftReader => "Microsoft Reader"
  | MicrosoftSoftwareInstaller => "Microsoft Software Installer"
  | MicrosoftVirtualHardDisk => "Microsoft Virtual Hard Disk"
  | MicrosoftVirtualHardDisk2 => "Microsoft Virtual Hard Disk 2"
  | MicrosoftVisioDrawing => "Microsoft Visio Drawing"
  | MicrosoftVisualStudioExtension => "Microsoft Visual Studio Extension"
  | MicrosoftVisualStudioSolution => "Microsoft Visual Studio Solution"
  | MicrosoftWordDocument => "Microsoft Word Document"
  | MicrosoftWorks6Spreadsheet => "Microsoft Works 6 Spreadsheet"
  | MicrosoftWorksDatabase => "Microsoft Works Database"
  | MicrosoftWorksSpreadsheet => "Microsoft Works Spreadsheet"
  | MicrosoftWorksWordProcessor => "Microsoft Works Word Processor"
  | MicrosoftWrite => "Microsoft Write"
  | Mobipocket => "Mobipocket"
  | Model3dAscii => "Model 3D ASCII"
  | Model3dBinary => "Model 3D Binary"
  | MonkeysAudio => "Monkey's Audio"
  | MozillaArchive => "Mozilla Archive"
  | Mp3Url => "MP3 URL"
  | Mpeg12AudioLayer2 => "MPEG-1/2 Audio Layer 2"
  | Mpeg12AudioLayer3 => "MPEG-1/2 Audio Layer 3"
  | Mpeg12Video => "MPEG-1/2 Video"
  | Mpeg2TransportStream => "MPEG-2 Transport Stream"
  | Mpeg4Part14 => "MPEG-4 Part 14"
  | Mpeg4Part14Audio => "MPEG-4 Part 14 Audio"
  | Mpeg4Part14Subtitles => "MPEG-4 Part 14 Subtitles"
  | Mpeg4Part14Video => "MPEG-4 Part 14 Video"
  | MpegDashMpd => "MPEG-DASH MPD"
  | MsDosBatch => "MS-DOS Batch"
  | MsDosExecutable => "MS-DOS Executable"
  | Mtv => "MTV"
  | MultiLayerArchive => "Multi Layer Archive"
  | MultipleImageNetworkGraphics => "Multiple-image Network Graphics"
  | Musepack => "Musepack"
  | MusicalInstrumentDigitalInterface => "Musical Instrument Digital Interface"
  | Musicxml => "MusicXML"
  | MusicxmlZip => "MusicXML ZIP"
  | NeoGeoPocketColorRom => "Neo Geo Pocket Color ROM"
  | NeoGeoPocketRom => "Neo Geo Pocket ROM"
  | NewExecutable => "New Executable"
  | NikonElectronicFile => "Nikon Electronic File"
  | Nintendo64Rom => "Nintendo 64 ROM"
  | NintendoDsRom => "Nintendo DS ROM"
  | NintendoEntertainmentSystemRom => "Nintendo Entertainment System ROM"
  | NintendoSwitchExecutable => "Nintendo Switch Executable"
  | NintendoSwitchPackage => "Nintendo Switch Package"
  | NintendoSwitchRom => "Nintendo Switch ROM"
  | OfficeOpenXmlDocument => "Office Open XML Document"
  | OfficeOpenXmlDrawing => "Office Open XML Drawing"
  | OfficeOpenXmlPresentation => "Office Open XML Presentation"
  | OfficeOpenXmlSpreadsheet => "Office Open XML Spreadsheet"
  | OggFlac => "Ogg FLAC"
  | OggMedia => "Ogg Media"
  | OggMultiplexedMedia => "Ogg Multiplexed Media"
  | OggOpus => "Ogg Opus"
  | OggSpeex => "Ogg Speex"
  | OggTheora => "Ogg Theora"
  | OggVorbis => "Ogg Vorbis"
  | OlympusRawFormat => "Olympus Raw Format"
  | OpendocumentDatabase => "OpenDocument Database"
  | OpendocumentFormula => "OpenDocument Formula"
  | OpendocumentFormulaTemplate => "OpenDocument Formula Template"
  | OpendocumentGraphics => "OpenDocument Graphics"
  | OpendocumentGraphicsTemplate => "OpenDocument Graphics Template"
  | OpendocumentPresentation => "OpenDocument Presentation"
  | OpendocumentPresentationTemplate => "OpenDocument Presentation Template"
  | OpendocumentSpreadsheet => "OpenDocument Spreadsheet"
  | OpendocumentSpreadsheetTemplate => "OpenDocument Spreadsheet Template"
  | OpendocumentText => "OpenDocument Text"
  | OpendocumentTextMaster => "OpenDocument Text Master"
  | OpendocumentTextMasterTemplate => "OpenDocument Text Master Template"
  | OpendocumentTextTemplate => "OpenDocument Text Template"
  | Openexr => "OpenEXR"
  | Opennurbs => "openNURBS"
  | Openraster => "OpenRaster"
  | Opentype => "OpenType"
  | Openxps => "OpenXPS"
  | OptimizedDalvikExecutable => "Optimized Dalvik Executable"
  | PanasonicRaw => "Panasonic Raw"
  | PcapDump => "PCAP Dump"
  | PcapNextGenerationDump => "PCAP Next Generation Dump"
  | PemCertificate => "PEM Certificate"
  | PemCertificateSigningRequest => "PEM Certificate Signing Request"
  | PemPrivateKey => "PEM Private Key"
  | PemPublicKey => "PEM Public Key"
  | PerlScript => "Perl Script"
  | PersonalStorageTable => "Personal Storage Table"
  | PgpMessage => "PGP Message"
  | PgpPrivateKeyBlock => "PGP Private Key Block"
  | PgpPublicKeyBlock => "PGP Public Key Block"
  | PgpSignature => "PGP Signature"
  | PgpSignedMessage => "PGP Signed Message"
  | PictureExchange => "Picture Exchange"
  | PlainText => "Plain Text"
  | Pmarc => "PMarc"
  | PolygonAscii => "Polygon ASCII"
  | PolygonBinary => "Polygon Binary"
  | PortableArbitraryMap => "Portable Arbitrary Map"
  | PortableBitmap => "Portable BitMap"
  | PortableDocumentFormat => "Portable Document Format"
  | PortableExecutable => "Portable Executable"
  | PortableFloatmap => "Portable FloatMap"
  | PortableGraymap => "Portable GrayMap"
  | PortableNetworkGraphics => "Portable Network Graphics"
  | PortablePixmap => "Portable PixMap"
  | Postscript => "PostScript"
  | PythonScript => "Python Script"
  | QemuCopyOnWrite => "QEMU Copy On Write"
  | QualcommPurevoice => "Qualcomm PureVoice"
  | QuiteOkAudio => "Quite OK Audio"
  | QuiteOkImage => "Quite OK Image"
  | RadianceHdr => "Radiance HDR"
  | Realaudio => "RealAudio"
  | ReallySimpleSyndication => "Really Simple Syndication"
  | Realmedia => "RealMedia"
  | Realvideo => "RealVideo"
  | RedHatPackageManager => "Red Hat Package Manager"
  | RichTextFormat => "Rich Text Format"
  | RoshalArchive => "Roshal Archive"
  | RubyScript => "Ruby Script"
  | Rzip => "rzip"
  | ScalableVectorGraphics => "Scalable Vector Graphics"
  | ScreamTracker3Module => "Scream Tracker 3 Module"
  | SegaMasterSystemRom => "Sega Master System ROM"
  | Seqbox => "SeqBox"
  | SevenZip => "7-Zip"
  | Shapefile => "Shapefile"
  | ShellScript => "Shell Script"
  | ShoutcastPlaylist => "SHOUTcast Playlist"
  | SiliconGraphicsImage => "Silicon Graphics Image"
  | SiliconGraphicsMovie => "Silicon Graphics Movie"
  | SimpleObjectAccessProtocol => "Simple Object Access Protocol"
  | Sketch => "Sketch"
  | Sketch43 => "Sketch 43"
  | Sketchup => "SketchUp"
  | SmallWebFormat => "Small Web Format"
  | Snappy => "Snappy"
  | SolidworksAssembly => "SolidWorks Assembly"
  | SolidworksDrawing => "SolidWorks Drawing"
  | SolidworksPart => "SolidWorks Part"
  | SonyDsdStreamFile => "Sony DSD Stream File"
  | SonyMovie => "Sony Movie"
  | Soundfont2 => "SoundFont 2"
  | SpaceclaimDocument => "SpaceClaim Document"
  | Sqlite3 => "SQLite 3"
  | Squashfs => "Squashfs"
  | StandardForTheExchangeOfProductModelData => "Standard for the Exchange of Product model data"
  | Starcalc => "StarCalc"
  | Starchart => "StarChart"
  | Stardraw => "StarDraw"
  | Starimpress => "StarImpress"
  | Starmath => "StarMath"
  | Starwriter => "StarWriter"
  | StereolithographyAscii => "Stereolithography ASCII"
  | Stuffit => "StuffIt"
  | StuffitX => "StuffIt X"
  | SubripText => "SubRip Text"
  | SunXmlCalc => "Sun XML Calc"
  | SunXmlCalcTemplate => "Sun XML Calc Template"
  | SunXmlDraw => "Sun XML Draw"
  | SunXmlDrawTemplate => "Sun XML Draw Template"
  | SunXmlImpress => "Sun XML Impress"
  | SunXmlImpressTemplate => "Sun XML Impress Template"
  | SunXmlMath => "Sun XML Math"
  | SunXmlWriter => "Sun XML Writer"
  | SunXmlWriterGlobal => "Sun XML Writer Global"
  | SunXmlWriterTemplate => "Sun XML Writer Template"
  | TagImageFileFormat => "Tag Image File Format"
  | TapeArchive => "Tape Archive"
  | Tasty => "TASTy"
  | ThirdGenerationPartnershipProject => "3rd Generation Partnership Project"
  | ThirdGenerationPartnershipProject2 => "3rd Generation Partnership Project 2"
  | ThreeDimensionalManufacturingFormat => "3D Manufacturing Format"
  | ThreeDimensionalStudio => "3D Studio"
  | ThreeDimensionalStudioMax => "3D Studio Max"
  | TiledMapXml => "Tiled Map XML"
  | TiledTilesetXml => "Tiled Tileset XML"
  | TimedTextMarkupLanguage => "Timed Text Markup Language"
  | ToolCommandLanguageScript => "Tool Command Language Script"
  | TrainingCenterXml => "Training Center XML"
  | Truetype => "TrueType"
  | TruetypeCollection => "TrueType Collection"
  | UltimateSoundtrackerModule => "Ultimate Soundtracker Module"
  | UniformOfficeFormatPresentation => "Uniform Office Format Presentation"
  | UniformOfficeFormatSpreadsheet => "Uniform Office Format Spreadsheet"
  | UniformOfficeFormatText => "Uniform Office Format Text"
  | Universal3d => "Universal 3D"
  | UniversalSceneDescriptionAscii => "Universal Scene Description ASCII"
  | UniversalSceneDescriptionBinary => "Universal Scene Description Binary"
  | UniversalSceneDescriptionZip => "Universal Scene Description ZIP"
  | UniversalSubtitleFormat => "Universal Subtitle Format"
  | UnixArchiver => "UNIX archiver"
  | UnixCompress => "UNIX compress"
  | Vcalendar => "vCalendar"
  | Vcard => "vCard"
  | VirtualMachineDisk => "Virtual Machine Disk"
  | VirtualRealityModelingLanguage => "Virtual Reality Modeling Language"
  | VirtualboxVirtualDiskImage => "VirtualBox Virtual Disk Image"
  | WaveformAudio => "Waveform Audio"
  | Wavpack => "WavPack"
  | WebApplicationArchive => "Web Application Archive"
  | WebOpenFontFormat => "Web Open Font Format"
  | WebOpenFontFormat2 => "Web Open Font Format 2"
  | WebVideoTextTracks => "Web Video Text Tracks"
  | WebassemblyBinary => "WebAssembly Binary"
  | WebassemblyText => "WebAssembly Text"
  | Webm => "WebM"
  | Webp => "WebP"
  | WindowsAnimatedCursor => "Windows Animated Cursor"
  | WindowsAppBundle => "Windows App Bundle"
  | WindowsAppPackage => "Windows App Package"
  | WindowsBitmap => "Windows Bitmap"
  | WindowsCursor => "Windows Cursor"
  | WindowsIcon => "Windows Icon"
  | WindowsImagingFormat => "Windows Imaging Format"
  | WindowsMediaAudio => "Windows Media Audio"
  | WindowsMediaPlaylist => "Windows Media Playlist"
  | WindowsMediaVideo => "Windows Media Video"
  | WindowsMetafile => "Windows Metafile"
  | WindowsRecordedTvShow => "Windows Recorded TV Show"
  | WindowsShortcut => "Windows Shortcut"
  | WordperfectDocument => "WordPerfect Document"
  | WordperfectGraphics => "WordPerfect Graphics"
  | WordperfectMacro => "WordPerfect Macro"
  | WordperfectPresentations => "WordPerfect Presentations"
  | XPixmap => "X PixMap"
  | Xap => "XAP"
  | Xbox360Executable => "Xbox 360 Executable"
  | XboxExecutable => "Xbox Executable"
  | XmlLocalizationInterchangeFileFormat => "XML Localization Interchange File Format"
  | XmlShareablePlaylistFormat => "XML Shareable Playlist Format"
  | Xpinstall => "XPInstall"
  | Xz => "XZ"
  | Zip => "ZIP"
  | Zoo => "zoo"
  | Zpaq => "ZPAQ"
  | Zstandard => "Zstandard"

/-- `FileFormat::short_name` (`src/macros.rs` 73-80): formats without `short_name` fall to `_ => None`. -/
def shortName : FileFormat → Option String
  | Abiword => some "ABW"
  | AbiwordTemplate => some "AWT"
  | ActionsMediaVideo => some "AMV"
  | Activemime => some "MSO"
  | AdaptableScalableTextureCompression => some "ASTC"
  | AdaptiveMultiRate => some "AMR"
  | AdditiveManufacturingFormat => some "AMF"
  | AdobeIllustratorArtwork => some "AI"
  | AdobeIndesignDocument => some "INDD"
  | AdobeIntegratedRuntime => some "AIR"
  | AdobePhotoshopDocument => some "PSD"
  | AdvancedAudioCoding => some "AAC"
  | AdvancedStreamRedirector => some "ASX"
  | AdvancedSystemsFormat => some "ASF"
  | AmigaDiskFile => some "ADF"
  | AndroidAppBundle => some "AAB"
  | AndroidBinaryXml => some "AXML"
  | AndroidPackage => some "APK"
  | AndroidResourceStorageContainer => some "ARSC"
  | AnimatedPortableNetworkGraphics => some "APNG"
  | ApacheArrowColumnar => some "Arrow"
  | ApacheAvro => some "Avro"
  | ApacheParquet => some "Parquet"
  | AppleDiskImage => some "DMG"
  | AppleIconImage => some "ICNS"
  | AppleItunesAudio => some "M4A"
  | AppleItunesAudiobook => some "M4B"
  | AppleItunesProtectedAudio => some "M4P"
  | AppleItunesVideo => some "M4V"
  | AppleQuicktime => some "MOV"
  | ArbitraryBinaryData => some "BIN"
  | ArchivedByRobertJung => some "ARJ"
  | Atari7800Rom => some "A78"
  | AudioCodec3 => some "AC-3"
  | AudioInterchangeFileFormat => some "AIFF"
  | AudioVideoInterleave => some "AVI"
  | AudioVisualResearch => some "AVR"
  | AutocadDrawing => some "DWG"
  | Autodesk123d => some "123DX"
  | AutodeskAlias => some "WIRE"
  | AutodeskAnimator => some "FLI"
  | AutodeskAnimatorPro => some "FLC"
  | AutodeskInventorAssembly => some "IAM"
  | AutodeskInventorDrawing => some "IDW"
  | AutodeskInventorPart => some "IPT"
  | AutodeskInventorPresentation => some "IPN"
  | Av1ImageFileFormat => some "AVIF"
  | Av1ImageFileFormatSequence => some "AVIFS"
  | BdavMpeg2TransportStream => some "M2TS"
  | BetterPortableGraphics => some "BPG"
  | Bittorrent => some "Torrent"
  | Blender => some "BLEND"
  | BmfontAscii => some "FNT"
  | BmfontBinary => some "FNT"
  | BroadBandEbook => some "BBeB"
  | Bzip => some "BZ"
  | Bzip2 => some "BZ2"
  | Bzip3 => some "BZ3"
  | Cabinet => some "CAB"
  | CanonRaw => some "CRW"
  | CanonRaw2 => some "CR2"
  | CanonRaw3 => some "CR3"
  | CdAudio => some "CDA"
  | Cinema4d => some "C4D"
  | Cineon => some "CIN"
  | CircuitDiagramDocument => some "CDDX"
  | CollaborativeDesignActivity => some "COLLADA"
  | Commodore64Cartridge => some "CRT"
  | Commodore64Program => some "PRG"
  | CommonObjectFileFormat => some "COFF"
  | CompoundFileBinary => some "CFB"
  | CorelPresentations => some "SHW"
  | CorelPresentations7 => some "SHW"
  | CreativeVoice => some "VOC"
  | DalvikExecutable => some "DEX"
  | DebianPackage => some "DEB"
  | DerCertificate => some "DER"
  | DesignWebFormat => some "DWF"
  | DesignWebFormatXps => some "DWFX"
  | DigitalImagingAndCommunicationsInMedicine => some "DICOM"
  | DigitalPictureExchange => some "DPX"
  | DrawingExchangeFormatAscii => some "DXF"
  | DrawingExchangeFormatBinary => some "DXF"
  | Drawio => some "DRAWIO"
  | DynamicLinkLibrary => some "DLL"
  | EightBitSampledVoice => some "8SVX"
  | ElectronicPublication => some "EPUB"
  | EmbeddedOpentype => some "EOT"
  | EncapsulatedPostscript => some "EPS"
  | EnhancedMetafile => some "EMF"
  | EnterpriseApplicationArchive => some "EAR"
  | ExecutableAndLinkableFormat => some "ELF"
  | ExperimentalComputingFacility => some "XCF"
  | Extensible3d => some "X3D"
  | ExtensibleArchive => some "XAR"
  | ExtensibleBinaryMetaLanguage => some "EBML"
  | ExtensibleMarkupLanguage => some "XML"
  | ExtensibleStylesheetLanguageTransformations => some "XSLT"
  | Farbfeld => some "FF"
  | Fasttracker2ExtendedModule => some "XM"
  | Fictionbook => some "FB2"
  | FictionbookZip => some "FBZ"
  | FigletFont => some "FLF"
  | FigmaDesign => some "FIG"
  | Filmbox => some "FBX"
  | FlashCs5Project => some "FLA"
  | FlashMp4Audio => some "F4A"
  | FlashMp4Audiobook => some "F4B"
  | FlashMp4ProtectedVideo => some "F4P"
  | FlashMp4Video => some "F4V"
  | FlashProject => some "FLA"
  | FlashVideo => some "FLV"
  | FlexibleAndInteroperableDataTransfer => some "FIT"
  | FlexibleImageTransportSystem => some "FITS"
  | FreeLosslessAudioCodec => some "FLAC"
  | FreeLosslessImageFormat => some "FLIF"
  | FujifilmRaw => some "RAF"
  | Fusion360 => some "F3D"
  | GameBoyAdvanceRom => some "GBA"
  | GameBoyColorRom => some "GBC"
  | GameBoyRom => some "GB"
  | GameGearRom => some "GG"
  | GeographyMarkupLanguage => some "GML"
  | GettextMachineObject => some "MO"
  | GlTransmissionFormatBinary => some "GLB"
  | GoogleChromeExtension => some "CRX"
  | GoogleDraco => some "Draco"
  | GpsExchangeFormat => some "GPX"
  | GraphicsInterchangeFormat => some "GIF"
  | Gzip => some "GZ"
  | HighEfficiencyImageCoding => some "HEIC"
  | HighEfficiencyImageCodingSequence => some "HEICS"
  | HighEfficiencyImageFileFormat => some "HEIF"
  | HighEfficiencyImageFileFormatSequence => some "HEIFS"
  | HypertextMarkupLanguage => some "HTML"
  | Icalendar => some "ICS"
  | IccProfile => some "ICC"
  | Id3v2 => some "ID3"
  | ImpulseTrackerModule => some "IT"
  | IndesignMarkupLanguage => some "IDML"
  | InitialGraphicsExchangeSpecification => some "IGES"
  | InterQuakeExport => some "IQE"
  | InterQuakeModel => some "IQM"
  | IosAppStorePackage => some "IPA"
  | Iso9660 => some "ISO"
  | JavaArchive => some "JAR"
  | JavaKeystore => some "JKS"
  | JointPhotographicExpertsGroup => some "JPEG"
  | Jpeg2000Codestream => some "J2C"
  | Jpeg2000Part1 => some "JP2"
  | Jpeg2000Part2 => some "JPX"
  | Jpeg2000Part3 => some "MJ2"
  | Jpeg2000Part6 => some "JPM"
  | JpegExtendedRange => some "JXR"
  | JpegLs => some "JLS"
  | JpegNetworkGraphics => some "JNG"
  | JpegXl => some "JXL"
  | KeyholeMarkupLanguage => some "KML"
  | KeyholeMarkupLanguageZip => some "KMZ"
  | KhronosTexture => some "KTX"
  | KhronosTexture2 => some "KTX2"
  | Larc => some "LZS"
  | Latex => some "TeX"
  | LempelZivFiniteStateEntropy => some "LZFSE"
  | LempelZivMarkovChainAlgorithm => some "LZMA"
  | LinearExecutable => some "LE"
  | LlvmBitcode => some "BC"
  | LongRangeZip => some "LRZIP"
  | Lzip => some "LZ"
  | Lzop => some "LZO"
  | Magicavoxel => some "VOX"
  | MagickImageFileFormat => some "MIFF"
  | MaterialExchangeFormat => some "MXF"
  | MathematicalMarkupLanguage => some "MathML"
  | Matroska3dVideo => some "MK3D"
  | MatroskaAudio => some "MKA"
  | MatroskaSubtitles => some "MKS"
  | MatroskaVideo => some "MKV"
  | MayaAscii => some "MA"
  | MayaBinary => some "MB"
  | MegaDriveRom => some "MD"
  | MetaInformationEncapsulation => some "MIE"
  | MicrosoftAccess2007Database => some "ACCDB"
  | MicrosoftAccessDatabase => some "MDB"
  | MicrosoftCompiledHtmlHelp => some "CHM"
  | MicrosoftDigitalVideoRecording => some "DVR-MS"
  | MicrosoftDirectdrawSurface => some "DDS"
  | MicrosoftExcelSpreadsheet => some "XLS"
  | MicrosoftPowerpointPresentation => some "PPT"
  | MicrosoftProjectPlan => some "MPP"
  | MicrosoftPublisherDocument => some "PUB"
  | MicrosoftReader => some "LIT"
  | MicrosoftSoftwareInstaller => some "MSI"
  | MicrosoftVirtualHardDisk => some "VHD"
  | MicrosoftVirtualHardDisk2 => some "VHDX"
  | MicrosoftVisioDrawing => some "VSD"
  | MicrosoftVisualStudioExtension => some "VSIX"
  | MicrosoftVisualStudioSolution => some "SLN"
  | MicrosoftWordDocument => some "DOC"
  | MicrosoftWorks6Spreadsheet => some "XLR"
  | MicrosoftWorksDatabase => some "WDB"
  | MicrosoftWorksSpreadsheet => some "WKS"
  | MicrosoftWorksWordProcessor => some "WPS"
  | MicrosoftWrite => some "WRI"
  | Mobipocket => some "MOBI"
  | Model3dAscii => some "A3D"
  | Model3dBinary => some "M3D"
  | MonkeysAudio => some "APE"
  | MozillaArchive => some "MAR"
  | Mp3Url => some "M3U"
  | Mpeg12AudioLayer2 => some "MP2"
  | Mpeg12AudioLayer3 => some "MP3"
  | Mpeg12Video => some "MPG"
  | Mpeg2TransportStream => some "TS"
  | Mpeg4Part14 => some "MP4"
  | Mpeg4Part14Audio => some "MP4"
  | Mpeg4Part14Subtitles => some "MP4"
  | Mpeg4Part14Video => some "MP4"
  | MpegDashMpd => some "MPD"
  | MsDosBatch => some "Batch"
  | MsDosExecutable => some "EXE"
  | MultiLayerArchive => some "MLA"
  | MultipleImageNetworkGraphics => some "MNG"
  | Musepack => some "MPC"
  | MusicalInstrumentDigitalInterface => some "MIDI"
  | MusicxmlZip => some "MXL"
  | NeoGeoPocketColorRom => some "NGC"
  | NeoGeoPocketRom => some "NGP"
  | NewExecutable => some "NE"
  | NikonElectronicFile => some "NEF"
  | Nintendo64Rom => some "Z64"
  | NintendoDsRom => some "NDS"
  | NintendoEntertainmentSystemRom => some "NES"
  | NintendoSwitchExecutable => some "NSO"
  | NintendoSwitchPackage => some "NSP"
  | NintendoSwitchRom => some "XCI"
  | OfficeOpenXmlDocument => some "DOCX"
  | OfficeOpenXmlDrawing => some "VSDX"
  | OfficeOpenXmlPresentation => some "PPTX"
  | OfficeOpenXmlSpreadsheet => some "XLSX"
  | OggFlac => some "OGA"
  | OggMedia => some "OGM"
  | OggMultiplexedMedia => some "OGX"
  | OggOpus => some "Opus"
  | OggSpeex => some "Speex"
  | OggTheora => some "Theora"
  | OggVorbis => some "Vorbis"
  | OlympusRawFormat => some "ORF"
  | OpendocumentDatabase => some "ODB"
  | OpendocumentFormula => some "ODF"
  | OpendocumentFormulaTemplate => some "OTF"
  | OpendocumentGraphics => some "ODG"
  | OpendocumentGraphicsTemplate => some "OTG"
  | OpendocumentPresentation => some "ODP"
  | OpendocumentPresentationTemplate => some "OTP"
  | OpendocumentSpreadsheet => some "ODS"
  | OpendocumentSpreadsheetTemplate => some "OTS"
  | OpendocumentText => some "ODT"
  | OpendocumentTextMaster => some "ODM"
  | OpendocumentTextMasterTemplate => some "OTM"
  | OpendocumentTextTemplate => some "OTT"
  | Openexr => some "EXR"
  | Opennurbs => some "3DM"
  | Openraster => some "ORA"
  | Opentype => some "OTF"
  | Openxps => some "OXPS"
  | OptimizedDalvikExecutable => some "DEY"
  | PanasonicRaw => some "RW2"
  | PcapDump => some "PCAP"
  | PcapNextGenerationDump => some "PCAPNG"
  | PemCertificate => some "PEM"
  | PemCertificateSigningRequest => some "PEM"
  | PemPrivateKey => some "PEM"
  | PemPublicKey => some "PEM"
  | PersonalStorageTable => some "PST"
  | PgpMessage => some "PGP"
  | PgpPrivateKeyBlock => some "PGP"
  | PgpPublicKeyBlock => some "PGP"
  | PgpSignature => some "PGP"
  | PgpSignedMessage => some "PGP"
  | PictureExchange => some "PCX"
  | PlainText => some "TXT"
  | Pmarc => some "PMA"
  | PolygonAscii => some "PLY"
  | PolygonBinary => some "PLY"
  | PortableArbitraryMap => some "PAM"
  | PortableBitmap => some "PBM"
  | PortableDocumentFormat => some "PDF"
  | PortableExecutable => some "PE"
  | PortableFloatmap => some "PFM"
  | PortableGraymap => some "PGM"
  | PortableNetworkGraphics => some "PNG"
  | PortablePixmap => some "PPM"
  | Postscript => some "PS"
  | QemuCopyOnWrite => some "QCOW"
  | QualcommPurevoice => some "QCP"
  | QuiteOkAudio => some "QOA"
  | QuiteOkImage => some "QOI"
  | RadianceHdr => some "HDR"
  | Realaudio => some "RA"
  | ReallySimpleSyndication => some "RSS"
  | Realmedia => some "RM"
  | Realvideo => some "RV"
  | RedHatPackageManager => some "RPM"
  | RichTextFormat => some "RTF"
  | RoshalArchive => some "RAR"
  | Rzip => some "RZ"
  | ScalableVectorGraphics => some "SVG"
  | ScreamTracker3Module => some "S3M"
  | SegaMasterSystemRom => some "SMS"
  | Seqbox => some "SBX"
  | SevenZip => some "7Z"
  | Shapefile => some "SHP"
  | ShoutcastPlaylist => some "PLS"
  | SiliconGraphicsImage => some "SGI"
  | SiliconGraphicsMovie => some "SGI"
  | SimpleObjectAccessProtocol => some "SOAP"
  | Sketchup => some "SKP"
  | SmallWebFormat => some "SWF"
  | SolidworksAssembly => some "SLDASM"
  | SolidworksDrawing => some "SLDDRW"
  | SolidworksPart => some "SLDPRT"
  | SonyDsdStreamFile => some "DSF"
  | SonyMovie => some "MQV"
  | Soundfont2 => some "SF2"
  | SpaceclaimDocument => some "SCDOC"
  | StandardForTheExchangeOfProductModelData => some "STEP"
  | Starcalc => some "SDC"
  | Starchart => some "SDS"
  | Stardraw => some "SDA"
  | Starimpress => some "SDD"
  | Starmath => some "SMF"
  | Starwriter => some "SDW"
  | StereolithographyAscii => some "STL"
  | Stuffit => some "SIT"
  | StuffitX => some "SITX"
  | SubripText => some "SRT"
  | SunXmlCalc => some "SXC"
  | SunXmlCalcTemplate => some "STC"
  | SunXmlDraw => some "SXD"
  | SunXmlDrawTemplate => some "STD"
  | SunXmlImpress => some "SXI"
  | SunXmlImpressTemplate => some "STI"
  | SunXmlMath => some "SXM"
  | SunXmlWriter => some "SXW"
  | SunXmlWriterGlobal => some "SGW"
  | SunXmlWriterTemplate => some "STW"
  | TagImageFileFormat => some "TIFF"
  | TapeArchive => some "TAR"
  | ThirdGenerationPartnershipProject => some "3GPP"
  | ThirdGenerationPartnershipProject2 => some "3GPP2"
  | ThreeDimensionalManufacturingFormat => some "3MF"
  | ThreeDimensionalStudio => some "3DS"
  | ThreeDimensionalStudioMax => some "MAX"
  | TiledMapXml => some "TMX"
  | TiledTilesetXml => some "TSX"
  | TimedTextMarkupLanguage => some "TTML"
  | ToolCommandLanguageScript => some "Tcl Script"
  | TrainingCenterXml => some "TCX"
  | Truetype => some "TTF"
  | TruetypeCollection => some "TTC"
  | UltimateSoundtrackerModule => some "MOD"
  | UniformOfficeFormatPresentation => some "UOP"
  | UniformOfficeFormatSpreadsheet => some "UOS"
  | UniformOfficeFormatText => some "UOT"
  | Universal3d => some "U3D"
  | UniversalSceneDescriptionAscii => some "USDA"
  | UniversalSceneDescriptionBinary => some "USDC"
  | UniversalSceneDescriptionZip => some "USDZ"
  | UniversalSubtitleFormat => some "USF"
  | UnixArchiver => some "archiver"
  | UnixCompress => some "compress"
  | Vcalendar => some "VCS"
  | Vcard => some "VCF"
  | VirtualMachineDisk => some "VMDK"
  | VirtualRealityModelingLanguage => some "VRML"
  | VirtualboxVirtualDiskImage => some "VDI"
  | WaveformAudio => some "WAV"
  | Wavpack => some "WV"
  | WebApplicationArchive => some "WAR"
  | WebOpenFontFormat => some "WOFF"
  | WebOpenFontFormat2 => some "WOFF2"
  | WebVideoTextTracks => some "WebVTT"
  | WebassemblyBinary => some "Wasm"
  | WebassemblyText => some "WAT"
  | WindowsAnimatedCursor => some "ANI"
  | WindowsAppBundle => some "APPXBUNDLE"
  | WindowsAppPackage => some "APPX"
  | WindowsBitmap => some "BMP"
  | WindowsCursor => some "CUR"
  | WindowsIcon => some "ICO"
  | WindowsImagingFormat => some "WIM"
  | WindowsMediaAudio => some "WMA"
  | WindowsMediaPlaylist => some "WPL"
  | WindowsMediaVideo => some "WMV"
  | WindowsMetafile => some "WMF"
  | WindowsRecordedTvShow => some "WTV"
  | WindowsShortcut => some "LNK"
  | WordperfectDocument => some "WPD"
  | WordperfectGraphics => some "WPG"
  | WordperfectMacro => some "WPM"
  | WordperfectPresentations => some "SHW"
  | XPixmap => some "XPM"
  | Xbox360Executable => some "XEX"
  | XboxExecutable => some "XBE"
  | XmlLocalizationInterchangeFileFormat => some "XLIFF"
  | XmlShareablePlaylistFormat => some "XSPF"
  | Xpinstall => some "XPI"
  | Zstandard => some "zstd"
  | _ => none

/-- `FileFormat::media_type` (`src/macros.rs` 98-104). -/
def mediaType : FileFormat → String
  | Abiword => "application/x-abiword"
  | AbiwordTemplate => "application/x-abiword-template"
  | Ace => "application/x-ace-compressed"
  | ActionsMediaVideo => "video/x-amv"
  | Activemime => "application/x-mso"
  | AdaptableScalableTextureCompression => "image/x-astc"
  | AdaptiveMultiRate => "audio/amr"
  | AdditiveManufacturingFormat => "application/x-amf"
  | AdobeIllustratorArtwork => "application/vnd.adobe.illustrator"
  | AdobeIndesignDocument => "application/x-indesign"
  | AdobeIntegratedRuntime => "application/vnd.adobe.air-application-installer-package+zip"
  | AdobePhotoshopDocument => "image/vnd.adobe.photoshop"
  | AdvancedAudioCoding => "audio/aac"
  | AdvancedStreamRedirector => "video/x-ms-asx"
  | AdvancedSystemsFormat => "application/vnd.ms-asf"
  | AgeEncryption => "application/x-age-encryption"
  | Alz => "application/x-alz-compressed"
  | AmigaDiskFile => "application/x-amiga-disk-format"
  | AndroidAppBundle => "application/vnd.android.aab"
  | AndroidBinaryXml => "application/vnd.android.axml"
  | AndroidPackage => "application/vnd.android.package-archive"
  | AndroidResourceStorageContainer => "application/vnd.android.arsc"
  | AnimatedPortableNetworkGraphics => "image/apng"
  | ApacheArrowColumnar => "application/vnd.apache.arrow.file"
  | ApacheAvro => "application/vnd.apache.avro"
  | ApacheParquet => "application/vnd.apache.parquet"
  | Appimage => "application/x-appimage"
  | AppleDiskImage => "application/x-apple-diskimage"
  | AppleIconImage => "image/x-icns"
  | AppleItunesAudio => "audio/x-m4a"
  | AppleItunesAudiobook => "audio/mp4"
  | AppleItunesProtectedAudio => "audio/mp4"
  | AppleItunesVideo => "video/x-m4v"
  | AppleQuicktime => "video/quicktime"
  | ArbitraryBinaryData => "application/octet-stream"
  | ArchivedByRobertJung => "application/x-arj"
  | Atari7800Rom => "application/x-atari-7800-rom"
  | Atom => "application/atom+xml"
  | Au => "audio/basic"
  | AudioCodec3 => "audio/ac3"
  | AudioInterchangeFileFormat => "audio/x-aiff"
  | AudioVideoInterleave => "video/avi"
  | AudioVisualResearch => "audio/x-avr"
  | AutocadDrawing => "application/x-dwg"
  | Autodesk123d => "model/x-123dx"
  | AutodeskAlias => "model/x-wire"
  | AutodeskAnimator => "video/x-fli"
  | AutodeskAnimatorPro => "video/x-flc"
  | AutodeskInventorAssembly => "model/x-iam"
  | AutodeskInventorDrawing => "model/x-idw"
  | AutodeskInventorPart => "model/x-ipt"
  | AutodeskInventorPresentation => "model/x-ipn"
  | Av1ImageFileFormat => "image/avif"
  | Av1ImageFileFormatSequence => "image/avif-sequence"
  | BdavMpeg2TransportStream => "video/mp2t"
  | BetterPortableGraphics => "image/bpg"
  | Bittorrent => "application/x-bittorrent"
  | Blender => "application/x-blender"
  | BmfontAscii => "application/x-angelcode-bmfont"
  | BmfontBinary => "application/x-angelcode-bmfont"
  | BroadBandEbook => "application/x-lrf"
  | Bzip => "application/x-bzip"
  | Bzip2 => "application/x-bzip2"
  | Bzip3 => "application/x-bzip3"
  | Cabinet => "application/vnd.ms-cab-compressed"
  | CanonRaw => "image/x-canon-crw"
  | CanonRaw2 => "image/x-canon-cr2"
  | CanonRaw3 => "image/x-canon-cr3"
  | CdAudio => "application/x-cdf"
  | Cinema4d => "model/x-c4d"
  | Cineon => "image/cineon"
  | CircuitDiagramDocument => "application/vnd.circuitdiagram.document.main+xml"
  | ClojureScript => "text/x-clojure"
  | CollaborativeDesignActivity => "model/vnd.collada+xml"
  | Commodore64Cartridge => "application/x-commodore-64-cartridge"
  | Commodore64Program => "application/x-commodore-64-program"
  | CommonObjectFileFormat => "application/x-coff"
  | CompoundFileBinary => "application/x-cfb"
  | CorelPresentations => "application/x-corelpresentations"
  | CorelPresentations7 => "application/x-corelpresentations"
  | Cpio => "application/x-cpio"
  | CreativeVoice => "audio/x-voc"
  | DalvikExecutable => "application/vnd.android.dex"
  | DebianPackage => "application/vnd.debian.binary-package"
  | DerCertificate => "application/x-x509-ca-cert"
  | DesignWebFormat => "model/vnd.dwf"
  | DesignWebFormatXps => "model/vnd.dwfx+xps"
  | DigitalImagingAndCommunicationsInMedicine => "application/dicom"
  | DigitalPictureExchange => "image/x-dpx"
  | Djvu => "image/vnd.djvu"
  | DrawingExchangeFormatAscii => "application/x-dxf"
  | DrawingExchangeFormatBinary => "application/x-dxf"
  | Drawio => "application/vnd.jgraph.mxfile"
  | DynamicLinkLibrary => "application/vnd.microsoft.portable-executable"
  | EightBitSampledVoice => "audio/x-8svx"
  | ElectronicPublication => "application/epub+zip"
  | EmbeddedOpentype => "application/vnd.ms-fontobject"
  | Empty => "application/x-empty"
  | EncapsulatedPostscript => "application/eps"
  | EnhancedMetafile => "image/emf"
  | EnterpriseApplicationArchive => "application/java-archive"
  | ExecutableAndLinkableFormat => "application/x-executable"
  | ExperimentalComputingFacility => "image/x-xcf"
  | Extensible3d => "model/x3d+xml"
  | ExtensibleArchive => "application/x-xar"
  | ExtensibleBinaryMetaLanguage => "application/x-ebml"
  | ExtensibleMarkupLanguage => "text/xml"
  | ExtensibleStylesheetLanguageTransformations => "application/xslt+xml"
  | Farbfeld => "image/x-ff"
  | Fasttracker2ExtendedModule => "audio/x-xm"
  | Fictionbook => "application/x-fb2+xml"
  | FictionbookZip => "application/x-fbz"
  | FigletFont => "application/x-figlet"
  | FigmaDesign => "image/x-figma"
  | Filmbox => "application/vnd.autodesk.fbx"
  | FlashCs5Project => "application/vnd.adobe.fla"
  | FlashMp4Audio => "audio/mp4"
  | FlashMp4Audiobook => "audio/mp4"
  | FlashMp4ProtectedVideo => "video/mp4"
  | FlashMp4Video => "video/mp4"
  | FlashProject => "application/vnd.adobe.fla"
  | FlashVideo => "video/x-flv"
  | FlexibleAndInteroperableDataTransfer => "application/x-fit"
  | FlexibleImageTransportSystem => "application/fits"
  | FreeLosslessAudioCodec => "audio/flac"
  | FreeLosslessImageFormat => "image/flif"
  | FujifilmRaw => "image/x-fuji-raf"
  | Fusion360 => "model/x-f3d"
  | GameBoyAdvanceRom => "application/x-gba-rom"
  | GameBoyColorRom => "application/x-gameboy-color-rom"
  | GameBoyRom => "application/x-gameboy-rom"
  | GameGearRom => "application/x-gamegear-rom"
  | GeographyMarkupLanguage => "application/gml+xml"
  | GettextMachineObject => "application/x-gettext-translation"
  | GlTransmissionFormatBinary => "model/gltf-binary"
  | Glyphs => "font/x-glyphs"
  | GoogleChromeExtension => "application/x-google-chrome-extension"
  | GoogleDraco => "model/x-draco"
  | GpsExchangeFormat => "application/gpx+xml"
  | GraphicsInterchangeFormat => "image/gif"
  | Gzip => "application/gzip"
  | HighEfficiencyImageCoding => "image/heic"
  | HighEfficiencyImageCodingSequence => "image/heic-sequence"
  | HighEfficiencyImageFileFormat => "image/heif"
  | HighEfficiencyImageFileFormatSequence => "image/heif-sequence"
  | HypertextMarkupLanguage => "text/html"
  | Icalendar => "text/calendar"
  | IccProfile => "application/vnd.iccprofile"
  | Id3v2 => "application/x-id3v2"
  | ImpulseTrackerModule => "audio/x-it"
  | IndesignMarkupLanguage => "application/vnd.adobe.indesign-idml-package"
  | InitialGraphicsExchangeSpecification => "model/iges"
  | InterQuakeExport => "model/x-iqe"
  | InterQuakeModel => "model/x-iqm"
  | IosAppStorePackage => "application/x-ios-app"
  | Iso9660 => "application/x-iso9660-image"
  | JavaArchive => "application/java-archive"
  | JavaClass => "application/java-vm"
  | JavaKeystore => "application/x-java-keystore"
  | JointPhotographicExpertsGroup => "image/jpeg"
  | Jpeg2000Codestream => "image/x-jp2-codestream"
  | Jpeg2000Part1 => "image/jp2"
  | Jpeg2000Part2 => "image/jpx"
  | Jpeg2000Part3 => "video/mj2"
  | Jpeg2000Part6 => "image/jpm"
  | JpegExtendedRange => "image/jxr"
  | JpegLs => "image/jls"
  | JpegNetworkGraphics => "image/x-jng"
  | JpegXl => "image/jxl"
  | JsonFeed => "application/feed+json"
  | KeyholeMarkupLanguage => "application/vnd.google-earth.kml+xml"
  | KeyholeMarkupLanguageZip => "application/vnd.google-earth.kmz"
  | KhronosTexture => "image/ktx"
  | KhronosTexture2 => "image/ktx2"
  | Larc => "application/x-lzh-compressed"
  | Latex => "text/x-tex"
  | LempelZivFiniteStateEntropy => "application/x-lzfse"
  | LempelZivMarkovChainAlgorithm => "application/x-lzma"
  | Lha => "application/x-lzh-compressed"
  | LinearExecutable => "application/x-dosexec"
  | LlvmBitcode => "application/x-llvm"
  | LongRangeZip => "application/x-lrzip"
  | LuaBytecode => "application/x-lua-bytecode"
  | LuaScript => "text/x-lua"
  | Lz4 => "application/x-lz4"
  | Lzip => "application/x-lzip"
  | Lzop => "application/x-lzop"
  | MachO => "application/x-mach-binary"
  | MacosAlias => "application/x-apple-alias"
  | Magicavoxel => "model/x-vox"
  | MagickImageFileFormat => "image/x-miff"
  | MaterialExchangeFormat => "application/mxf"
  | MathematicalMarkupLanguage => "application/mathml+xml"
  | Matroska3dVideo => "video/matroska"
  | MatroskaAudio => "audio/matroska"
  | MatroskaSubtitles => "application/x-matroska"
  | MatroskaVideo => "video/matroska"
  | MayaAscii => "application/x-maya-ascii"
  | MayaBinary => "application/x-maya-binary"
  | MegaDriveRom => "application/x-genesis-rom"
  | MetaInformationEncapsulation => "application/x-mie"
  | MicrosoftAccess2007Database => "application/x-msaccess"
  | MicrosoftAccessDatabase => "application/x-msaccess"
  | MicrosoftCompiledHtmlHelp => "application/vnd.ms-htmlhelp"
  | MicrosoftDigitalVideoRecording => "video/x-ms-asf"
  | MicrosoftDirectdrawSurface => "image/vnd.ms-dds"
  | MicrosoftExcelSpreadsheet => "application/vnd.ms-excel"
  | MicrosoftPowerpointPresentation => "application/vnd.ms-powerpoint"
  | MicrosoftProjectPlan => "application/vnd.ms-project"
  | MicrosoftPublisherDocument => "application/vnd.ms-publisher"
  | MicrosoftReader => "application/x-ms-reader"
  | MicrosoftSoftwareInstaller => "application/x-msi"
  | MicrosoftVirtualHardDisk => "application/x-vhd"
  | MicrosoftVirtualHardDisk2 => "application/x-vhdx"
  | MicrosoftVisioDrawing => "application/vnd.visio"
  | MicrosoftVisualStudioExtension => "application/vsix"
  | MicrosoftVisualStudioSolution => "application/vnd.ms-developer"
  | MicrosoftWordDocument => "application/msword"
  | MicrosoftWorks6Spreadsheet => "application/vnd.ms-works"
  | MicrosoftWorksDatabase => "application/vnd.ms-works-db"
  | MicrosoftWorksSpreadsheet => "application/vnd.ms-works"
  | MicrosoftWorksWordProcessor => "application/vnd.ms-works"
  | MicrosoftWrite => "application/x-mswrite"
  | Mobipocket => "application/x-mobipocket-ebook"
  | Model3dAscii => "text/x-3d-model"
  | Model3dBinary => "model/x-3d-model"
  | MonkeysAudio => "audio/x-ape"
  | MozillaArchive => "application/x-mozilla-archive"
  | Mp3Url => "audio/x-mpegurl"
  | Mpeg12AudioLayer2 => "audio/mpeg"
  | Mpeg12AudioLayer3 => "audio/mpeg"
  | Mpeg12Video => "video/mpeg"
  | Mpeg2TransportStream => "video/mp2t"
  | Mpeg4Part14 => "application/mp4"
  | Mpeg4Part14Audio => "audio/mp4"
  | Mpeg4Part14Subtitles => "application/mp4"
  | Mpeg4Part14Video => "video/mp4"
  | MpegDashMpd => "application/dash+xml"
  | MsDosBatch => "text/x-msdos-batch"
  | MsDosExecutable => "application/x-dosexec"
  | Mtv => "video/x-mtv"
  | MultiLayerArchive => "application/x-mla"
  | MultipleImageNetworkGraphics => "image/x-mng"
  | Musepack => "audio/x-musepack"
  | MusicalInstrumentDigitalInterface => "audio/midi"
  | Musicxml => "application/vnd.recordare.musicxml+xml"
  | MusicxmlZip => "application/vnd.recordare.musicxml"
  | NeoGeoPocketColorRom => "application/x-neo-geo-pocket-rom"
  | NeoGeoPocketRom => "application/x-neo-geo-pocket-rom"
  | NewExecutable => "application/x-ms-ne-executable"
  | NikonElectronicFile => "image/x-nikon-nef"
  | Nintendo64Rom => "application/x-n64-rom"
  | NintendoDsRom => "application/x-nintendo-ds-rom"
  | NintendoEntertainmentSystemRom => "application/x-nintendo-nes-rom"
  | NintendoSwitchExecutable => "application/x-nintendo-switch-executable"
  | NintendoSwitchPackage => "application/x-nintendo-switch-package"
  | NintendoSwitchRom => "application/x-nintendo-switch-rom"
  | OfficeOpenXmlDocument => "application/vnd.openxmlformats-officedocument.wordprocessingml.document"
  | OfficeOpenXmlDrawing => "application/vnd.ms-visio.drawing.main+xml"
  | OfficeOpenXmlPresentation => "application/vnd.openxmlformats-officedocument.presentationml.presentation"
  | OfficeOpenXmlSpreadsheet => "application/vnd.openxmlformats-officedocument.spreadsheetml.sheet"
  | OggFlac => "audio/ogg"
  | OggMedia => "video/ogg"
  | OggMultiplexedMedia => "application/ogg"
  | OggOpus => "audio/opus"
  | OggSpeex => "audio/ogg"
  | OggTheora => "video/ogg"
  | OggVorbis => "audio/ogg"
  | OlympusRawFormat => "image/x-olympus-orf"
  | OpendocumentDatabase => "application/vnd.oasis.opendocument.database"
  | OpendocumentFormula => "application/vnd.oasis.opendocument.formula"
  | OpendocumentFormulaTemplate => "application/vnd.oasis.opendocument.formula-template"
  | OpendocumentGraphics => "application/vnd.oasis.opendocument.graphics"
  | OpendocumentGraphicsTemplate => "application/vnd.oasis.opendocument.graphics-template"
  | OpendocumentPresentation => "application/vnd.oasis.opendocument.presentation"
  | OpendocumentPresentationTemplate => "application/vnd.oasis.opendocument.presentation-template"
  | OpendocumentSpreadsheet => "application/vnd.oasis.opendocument.spreadsheet"
  | OpendocumentSpreadsheetTemplate => "application/vnd.oasis.opendocument.spreadsheet-template"
  | OpendocumentText => "application/vnd.oasis.opendocument.text"
  | OpendocumentTextMaster => "application/vnd.oasis.opendocument.text-master"
  | OpendocumentTextMasterTemplate => "application/vnd.oasis.opendocument.text-master-template"
  | OpendocumentTextTemplate => "application/vnd.oasis.opendocument.text-template"
  | Openexr => "image/x-exr"
  | Opennurbs => "model/x-3dm"
  | Openraster => "image/openraster"
  | Opentype => "font/otf"
  | Openxps => "application/oxps"
  | OptimizedDalvikExecutable => "application/vnd.android.dey"
  | PanasonicRaw => "image/x-panasonic-rw2"
  | PcapDump => "application/vnd.tcpdump.pcap"
  | PcapNextGenerationDump => "application/x-pcapng"
  | PemCertificate => "application/x-pem-file"
  | PemCertificateSigningRequest => "application/x-pem-file"
  | PemPrivateKey => "application/x-pem-file"
  | PemPublicKey => "application/x-pem-file"
  | PerlScript => "text/x-perl"
  | PersonalStorageTable => "application/vnd.ms-outlook"
  | PgpMessage => "application/pgp"
  | PgpPrivateKeyBlock => "application/pgp-keys"
  | PgpPublicKeyBlock => "application/pgp-keys"
  | PgpSignature => "application/pgp-signature"
  | PgpSignedMessage => "application/pgp"
  | PictureExchange => "image/x-pcx"
  | PlainText => "text/plain"
  | Pmarc => "application/x-lzh-compressed"
  | PolygonAscii => "model/x-ply-ascii"
  | PolygonBinary => "model/x-ply-binary"
  | PortableArbitraryMap => "image/x-portable-arbitrarymap"
  | PortableBitmap => "image/x-portable-bitmap"
  | PortableDocumentFormat => "application/pdf"
  | PortableExecutable => "application/vnd.microsoft.portable-executable"
  | PortableFloatmap => "image/x-pfm"
  | PortableGraymap => "image/x-portable-graymap"
  | PortableNetworkGraphics => "image/png"
  | PortablePixmap => "image/x-portable-pixmap"
  | Postscript => "application/postscript"
  | PythonScript => "text/x-script.python"
  | QemuCopyOnWrite => "application/x-qemu-disk"
  | QualcommPurevoice => "audio/qcelp"
  | QuiteOkAudio => "audio/x-qoa"
  | QuiteOkImage => "image/x-qoi"
  | RadianceHdr => "image/vnd.radiance"
  | Realaudio => "audio/x-pn-realaudio"
  | ReallySimpleSyndication => "application/rss+xml"
  | Realmedia => "application/vnd.rn-realmedia"
  | Realvideo => "video/x-pn-realvideo"
  | RedHatPackageManager => "application/x-rpm"
  | RichTextFormat => "application/rtf"
  | RoshalArchive => "application/vnd.rar"
  | RubyScript => "text/x-ruby"
  | Rzip => "application/x-rzip"
  | ScalableVectorGraphics => "image/svg+xml"
  | ScreamTracker3Module => "audio/x-s3m"
  | SegaMasterSystemRom => "application/x-sms-rom"
  | Seqbox => "application/x-sbx"
  | SevenZip => "application/x-7z-compressed"
  | Shapefile => "application/x-esri-shape"
  | ShellScript => "text/x-shellscript"
  | ShoutcastPlaylist => "audio/x-scpls"
  | SiliconGraphicsImage => "image/x-sgi"
  | SiliconGraphicsMovie => "video/x-sgi-movie"
  | SimpleObjectAccessProtocol => "application/soap+xml"
  | Sketch => "image/x-sketch"
  | Sketch43 => "image/x-sketch"
  | Sketchup => "application/vnd.sketchup.skp"
  | SmallWebFormat => "application/x-shockwave-flash"
  | Snappy => "application/x-snappy-framed"
  | SolidworksAssembly => "model/x-sldasm"
  | SolidworksDrawing => "model/x-slddrw"
  | SolidworksPart => "model/x-sldprt"
  | SonyDsdStreamFile => "audio/x-dsf"
  | SonyMovie => "video/quicktime"
  | Soundfont2 => "audio/x-soundfont"
  | SpaceclaimDocument => "model/x-scdoc"
  | Sqlite3 => "application/vnd.sqlite3"
  | Squashfs => "application/x-squashfs"
  | StandardForTheExchangeOfProductModelData => "model/step"
  | Starcalc => "application/vnd.stardivision.calc"
  | Starchart => "application/vnd.stardivision.chart"
  | Stardraw => "application/vnd.stardivision.draw"
  | Starimpress => "application/vnd.stardivision.impress"
  | Starmath => "application/vnd.stardivision.math"
  | Starwriter => "application/vnd.stardivision.writer"
  | StereolithographyAscii => "model/x-stl-ascii"
  | Stuffit => "application/x-stuffit"
  | StuffitX => "application/x-stuffitx"
  | SubripText => "application/x-subrip"
  | SunXmlCalc => "application/vnd.sun.xml.calc"
  | SunXmlCalcTemplate => "application/vnd.sun.xml.calc.template"
  | SunXmlDraw => "application/vnd.sun.xml.draw"
  | SunXmlDrawTemplate => "application/vnd.sun.xml.draw.template"
  | SunXmlImpress => "application/vnd.sun.xml.impress"
  | SunXmlImpressTemplate => "application/vnd.sun.xml.impress.template"
  | SunXmlMath => "application/vnd.sun.xml.math"
  | SunXmlWriter => "application/vnd.sun.xml.writer"
  | SunXmlWriterGlobal => "application/vnd.sun.xml.writer.global"
  | SunXmlWriterTemplate => "application/vnd.sun.xml.writer.template"
  | TagImageFileFormat => "image/tiff"
  | TapeArchive => "application/x-tar"
  | Tasty => "application/x-tasty"
  | ThirdGenerationPartnershipProject => "video/3gpp"
  | ThirdGenerationPartnershipProject2 => "video/3gpp2"
  | ThreeDimensionalManufacturingFormat => "application/vnd.ms-package.3dmanufacturing-3dmodel+xml"
  | ThreeDimensionalStudio => "application/x-3ds"
  | ThreeDimensionalStudioMax => "application/x-max"
  | TiledMapXml => "application/x-tmx+xml"
  | TiledTilesetXml => "application/x-tsx+xml"
  | TimedTextMarkupLanguage => "application/ttml+xml"
  | ToolCommandLanguageScript => "text/x-tcl"
  | TrainingCenterXml => "application/vnd.garmin.tcx+xml"
  | Truetype => "font/ttf"
  | TruetypeCollection => "font/collection"
  | UltimateSoundtrackerModule => "audio/x-mod"
  | UniformOfficeFormatPresentation => "application/vnd.uof.presentation"
  | UniformOfficeFormatSpreadsheet => "application/vnd.uof.spreadsheet"
  | UniformOfficeFormatText => "application/vnd.uof.text"
  | Universal3d => "model/u3d"
  | UniversalSceneDescriptionAscii => "model/x-usd"
  | UniversalSceneDescriptionBinary => "model/x-usd"
  | UniversalSceneDescriptionZip => "model/vnd.usdz+zip"
  | UniversalSubtitleFormat => "application/x-usf"
  | UnixArchiver => "application/x-archive"
  | UnixCompress => "application/x-compress"
  | Vcalendar => "text/calendar"
  | Vcard => "text/vcard"
  | VirtualMachineDisk => "application/x-vmdk"
  | VirtualRealityModelingLanguage => "model/vrml"
  | VirtualboxVirtualDiskImage => "application/x-virtualbox-vdi"
  | WaveformAudio => "audio/vnd.wave"
  | Wavpack => "audio/wavpack"
  | WebApplicationArchive => "application/java-archive"
  | WebOpenFontFormat => "font/woff"
  | WebOpenFontFormat2 => "font/woff2"
  | WebVideoTextTracks => "text/vtt"
  | WebassemblyBinary => "application/wasm"
  | WebassemblyText => "text/wasm"
  | Webm => "video/webm"
  | Webp => "image/webp"
  | WindowsAnimatedCursor => "application/x-navi-animation"
  | WindowsAppBundle => "application/vnd.ms-appx.bundle"
  | WindowsAppPackage => "application/vnd.ms-appx"
  | WindowsBitmap => "image/bmp"
  | WindowsCursor => "image/x-icon"
  | WindowsIcon => "image/x-icon"
  | WindowsImagingFormat => "application/x-ms-wim"
  | WindowsMediaAudio => "audio/x-ms-wma"
  | WindowsMediaPlaylist => "application/vnd.ms-wpl"
  | WindowsMediaVideo => "video/x-ms-wmv"
  | WindowsMetafile => "image/wmf"
  | WindowsRecordedTvShow => "video/x-wtv"
  | WindowsShortcut => "application/x-ms-shortcut"
  | WordperfectDocument => "application/vnd.wordperfect"
  | WordperfectGraphics => "application/vnd.wordperfect"
  | WordperfectMacro => "application/vnd.wordperfect"
  | WordperfectPresentations => "application/vnd.wordperfect"
  | XPixmap => "image/x-xpixmap"
  | Xap => "application/x-silverlight-app"
  | Xbox360Executable => "application/x-xbox360-executable"
  | XboxExecutable => "application/x-xbox-executable"
  | XmlLocalizationInterchangeFileFormat => "application/xliff+xml"
  | XmlShareablePlaylistFormat => "application/xspf+xml"
  | Xpinstall => "application/x-xpinstall"
  | Xz => "application/x-xz"
  | Zip => "application/zip"
  | Zoo => "application/x-zoo"
  | Zpaq => "application/x-zpaq"
  | Zstandard => "application/zstd"

/-- `FileFormat::extension` (`src/macros.rs` 120-126). -/
def extension : FileFormat → String
  | Abiword => "abw"
  | AbiwordTemplate => "awt"
  | Ace => "ace"
  | ActionsMediaVideo => "amv"
  | Activemime => "mso"
  | AdaptableScalableTextureCompression => "astc"
  | AdaptiveMultiRate => "amr"
  | AdditiveManufacturingFormat => "amf"
  | AdobeIllustratorArtwork => "ai"
  | AdobeIndesignDocument => "indd"
  | AdobeIntegratedRuntime => "air"
  | AdobePhotoshopDocument => "psd"
  | AdvancedAudioCoding => "aac"
  | AdvancedStreamRedirector => "asx"
  | AdvancedSystemsFormat => "asf"
  | AgeEncryption => "age"
  | Alz => "alz"
  | AmigaDiskFile => "adf"
  | AndroidAppBundle => "aab"
  | AndroidBinaryXml => "xml"
  | AndroidPackage => "apk"
  | AndroidResourceStorageContainer => "arsc"
  | AnimatedPortableNetworkGraphics => "apng"
  | ApacheArrowColumnar => "arrow"
  | ApacheAvro => "avro"
  | ApacheParquet => "parquet"
  | Appimage => "AppImage"
  | AppleDiskImage => "dmg"
  | AppleIconImage => "icns"
  | AppleItunesAudio => "m4a"
  | AppleItunesAudiobook => "m4b"
  | AppleItunesProtectedAudio => "m4p"
  | AppleItunesVideo => "m4v"
  | AppleQuicktime => "mov"
  | ArbitraryBinaryData => "bin"
  | ArchivedByRobertJung => "arj"
  | Atari7800Rom => "a78"
  | Atom => "atom"
  | Au => "au"
  | AudioCodec3 => "ac3"
  | AudioInterchangeFileFormat => "aiff"
  | AudioVideoInterleave => "avi"
  | AudioVisualResearch => "avr"
  | AutocadDrawing => "dwg"
  | Autodesk123d => "123dx"
  | AutodeskAlias => "wire"
  | AutodeskAnimator => "fli"
  | AutodeskAnimatorPro => "flc"
  | AutodeskInventorAssembly => "iam"
  | AutodeskInventorDrawing => "idw"
  | AutodeskInventorPart => "ipt"
  | AutodeskInventorPresentation => "ipn"
  | Av1ImageFileFormat => "avif"
  | Av1ImageFileFormatSequence => "avifs"
  | BdavMpeg2TransportStream => "m2ts"
  | BetterPortableGraphics => "bpg"
  | Bittorrent => "torrent"
  | Blender => "blend"
  | BmfontAscii => "fnt"
  | BmfontBinary => "fnt"
  | BroadBandEbook => "lrf"
  | Bzip => "bz"
  | Bzip2 => "bz2"
  | Bzip3 => "bz3"
  | Cabinet => "cab"
  | CanonRaw => "crw"
  | CanonRaw2 => "cr2"
  | CanonRaw3 => "cr3"
  | CdAudio => "cda"
  | Cinema4d => "c4d"
  | Cineon => "cin"
  | CircuitDiagramDocument => "cddx"
  | ClojureScript => "clj"
  | CollaborativeDesignActivity => "dae"
  | Commodore64Cartridge => "crt"
  | Commodore64Program => "prg"
  | CommonObjectFileFormat => "coff"
  | CompoundFileBinary => "cfb"
  | CorelPresentations => "shw"
  | CorelPresentations7 => "shw"
  | Cpio => "cpio"
  | CreativeVoice => "voc"
  | DalvikExecutable => "dex"
  | DebianPackage => "deb"
  | DerCertificate => "der"
  | DesignWebFormat => "dwf"
  | DesignWebFormatXps => "dwfx"
  | DigitalImagingAndCommunicationsInMedicine => "dcm"
  | DigitalPictureExchange => "dpx"
  | Djvu => "djvu"
  | DrawingExchangeFormatAscii => "dxf"
  | DrawingExchangeFormatBinary => "dxf"
  | Drawio => "drawio"
  | DynamicLinkLibrary => "dll"
  | EightBitSampledVoice => "8svx"
  | ElectronicPublication => "epub"
  | EmbeddedOpentype => "eot"
  | Empty => "empty"
  | EncapsulatedPostscript => "eps"
  | EnhancedMetafile => "emf"
  | EnterpriseApplicationArchive => "ear"
  | ExecutableAndLinkableFormat => "elf"
  | ExperimentalComputingFacility => "xcf"
  | Extensible3d => "x3d"
  | ExtensibleArchive => "xar"
  | ExtensibleBinaryMetaLanguage => "ebml"
  | ExtensibleMarkupLanguage => "xml"
  | ExtensibleStylesheetLanguageTransformations => "xsl"
  | Farbfeld => "ff"
  | Fasttracker2ExtendedModule => "xm"
  | Fictionbook => "fb2"
  | FictionbookZip => "fbz"
  | FigletFont => "flf"
  | FigmaDesign => "fig"
  | Filmbox => "fbx"
  | FlashCs5Project => "fla"
  | FlashMp4Audio => "f4a"
  | FlashMp4Audiobook => "f4b"
  | FlashMp4ProtectedVideo => "f4p"
  | FlashMp4Video => "f4v"
  | FlashProject => "fla"
  | FlashVideo => "flv"
  | FlexibleAndInteroperableDataTransfer => "fit"
  | FlexibleImageTransportSystem => "fits"
  | FreeLosslessAudioCodec => "flac"
  | FreeLosslessImageFormat => "flif"
  | FujifilmRaw => "raf"
  | Fusion360 => "f3d"
  | GameBoyAdvanceRom => "gba"
  | GameBoyColorRom => "gbc"
  | GameBoyRom => "gb"
  | GameGearRom => "gg"
  | GeographyMarkupLanguage => "gml"
  | GettextMachineObject => "mo"
  | GlTransmissionFormatBinary => "glb"
  | Glyphs => "glyphs"
  | GoogleChromeExtension => "crx"
  | GoogleDraco => "drc"
  | GpsExchangeFormat => "gpx"
  | GraphicsInterchangeFormat => "gif"
  | Gzip => "gz"
  | HighEfficiencyImageCoding => "heic"
  | HighEfficiencyImageCodingSequence => "heics"
  | HighEfficiencyImageFileFormat => "heif"
  | HighEfficiencyImageFileFormatSequence => "heifs"
  | HypertextMarkupLanguage => "html"
  | Icalendar => "ics"
  | IccProfile => "icc"
  | Id3v2 => "id3"
  | ImpulseTrackerModule => "it"
  | IndesignMarkupLanguage => "idml"
  | InitialGraphicsExchangeSpecification => "iges"
  | InterQuakeExport => "iqe"
  | InterQuakeModel => "iqm"
  | IosAppStorePackage => "ipa"
  | Iso9660 => "iso"
  | JavaArchive => "jar"
  | JavaClass => "class"
  | JavaKeystore => "jks"
  | JointPhotographicExpertsGroup => "jpg"
  | Jpeg2000Codestream => "j2c"
  | Jpeg2000Part1 => "jp2"
  | Jpeg2000Part2 => "jpx"
  | Jpeg2000Part3 => "mj2"
  | Jpeg2000Part6 => "jpm"
  | JpegExtendedRange => "jxr"
  | JpegLs => "jls"
  | JpegNetworkGraphics => "jng"
  | JpegXl => "jxl"
  | JsonFeed => "json"
  | KeyholeMarkupLanguage => "kml"
  | KeyholeMarkupLanguageZip => "kmz"
  | KhronosTexture => "ktx"
  | KhronosTexture2 => "ktx2"
  | Larc => "lzs"
  | Latex => "tex"
  | LempelZivFiniteStateEntropy => "lzfse"
  | LempelZivMarkovChainAlgorithm => "lzma"
  | Lha => "lzh"
  | LinearExecutable => "exe"
  | LlvmBitcode => "bc"
  | LongRangeZip => "lrz"
  | LuaBytecode => "luac"
  | LuaScript => "lua"
  | Lz4 => "lz4"
  | Lzip => "lz"
  | Lzop => "lzo"
  | MachO => "mach"
  | MacosAlias => "alias"
  | Magicavoxel => "vox"
  | MagickImageFileFormat => "miff"
  | MaterialExchangeFormat => "mxf"
  | MathematicalMarkupLanguage => "mathml"
  | Matroska3dVideo => "mk3d"
  | MatroskaAudio => "mka"
  | MatroskaSubtitles => "mks"
  | MatroskaVideo => "mkv"
  | MayaAscii => "ma"
  | MayaBinary => "mb"
  | MegaDriveRom => "md"
  | MetaInformationEncapsulation => "mie"
  | MicrosoftAccess2007Database => "accdb"
  | MicrosoftAccessDatabase => "mdb"
  | MicrosoftCompiledHtmlHelp => "chm"
  | MicrosoftDigitalVideoRecording => "dvr-ms"
  | MicrosoftDirectdrawSurface => "dds"
  | MicrosoftExcelSpreadsheet => "xls"
  | MicrosoftPowerpointPresentation => "ppt"
  | MicrosoftProjectPlan => "mpp"
  | MicrosoftPublisherDocument => "pub"
  | MicrosoftReader => "lit"
  | MicrosoftSoftwareInstaller => "msi"
  | MicrosoftVirtualHardDisk => "vhd"
  | MicrosoftVirtualHardDisk2 => "vhdx"
  | MicrosoftVisioDrawing => "vsd"
  | MicrosoftVisualStudioExtension => "vsix"
  | MicrosoftVisualStudioSolution => "sln"
  | MicrosoftWordDocument => "doc"
  | MicrosoftWorks6Spreadsheet => "xlr"
  | MicrosoftWorksDatabase => "wdb"
  | MicrosoftWorksSpreadsheet => "wks"
  | MicrosoftWorksWordProcessor => "wps"
  | MicrosoftWrite => "wri"
  | Mobipocket => "mobi"
  | Model3dAscii => "a3d"
  | Model3dBinary => "m3d"
  | MonkeysAudio => "ape"
  | MozillaArchive => "mar"
  | Mp3Url => "m3u"
  | Mpeg12AudioLayer2 => "mp2"
  | Mpeg12AudioLayer3 => "mp3"
  | Mpeg12Video => "mpg"
  | Mpeg2TransportStream => "ts"
  | Mpeg4Part14 => "mp4"
  | Mpeg4Part14Audio => "mp4"
  | Mpeg4Part14Subtitles => "mp4"
  | Mpeg4Part14Video => "mp4"
  | MpegDashMpd => "mpd"
  | MsDosBatch => "bat"
  | MsDosExecutable => "exe"
  | Mtv => "mtv"
  | MultiLayerArchive => "mla"
  | MultipleImageNetworkGraphics => "mng"
  | Musepack => "mpc"
  | MusicalInstrumentDigitalInterface => "mid"
  | Musicxml => "musicxml"
  | MusicxmlZip => "mxl"
  | NeoGeoPocketColorRom => "ngc"
  | NeoGeoPocketRom => "ngp"
  | NewExecutable => "exe"
  | NikonElectronicFile => "nef"
  | Nintendo64Rom => "z64"
  | NintendoDsRom => "nds"
  | NintendoEntertainmentSystemRom => "nes"
  | NintendoSwitchExecutable => "nso"
  | NintendoSwitchPackage => "nsp"
  | NintendoSwitchRom => "xci"
  | OfficeOpenXmlDocument => "docx"
  | OfficeOpenXmlDrawing => "vsdx"
  | OfficeOpenXmlPresentation => "pptx"
  | OfficeOpenXmlSpreadsheet => "xlsx"
  | OggFlac => "oga"
  | OggMedia => "ogm"
  | OggMultiplexedMedia => "ogx"
  | OggOpus => "opus"
  | OggSpeex => "spx"
  | OggTheora => "ogv"
  | OggVorbis => "ogg"
  | OlympusRawFormat => "orf"
  | OpendocumentDatabase => "odb"
  | OpendocumentFormula => "odf"
  | OpendocumentFormulaTemplate => "otf"
  | OpendocumentGraphics => "odg"
  | OpendocumentGraphicsTemplate => "otg"
  | OpendocumentPresentation => "odp"
  | OpendocumentPresentationTemplate => "otp"
  | OpendocumentSpreadsheet => "ods"
  | OpendocumentSpreadsheetTemplate => "ots"
  | OpendocumentText => "odt"
  | OpendocumentTextMaster => "odm"
  | OpendocumentTextMasterTemplate => "otm"
  | OpendocumentTextTemplate => "ott"
  | Openexr => "exr"
  | Opennurbs => "3dm"
  | Openraster => "ora"
  | Opentype => "otf"
  | Openxps => "xps"
  | OptimizedDalvikExecutable => "dey"
  | PanasonicRaw => "rw2"
  | PcapDump => "pcap"
  | PcapNextGenerationDump => "pcapng"
  | PemCertificate => "crt"
  | PemCertificateSigningRequest => "csr"
  | PemPrivateKey => "key"
  | PemPublicKey => "pub"
  | PerlScript => "pl"
  | PersonalStorageTable => "pst"
  | PgpMessage => "asc"
  | PgpPrivateKeyBlock => "asc"
  | PgpPublicKeyBlock => "asc"
  | PgpSignature => "asc"
  | PgpSignedMessage => "asc"
  | PictureExchange => "pcx"
  | PlainText => "txt"
  | Pmarc => "pma"
  | PolygonAscii => "ply"
  | PolygonBinary => "ply"
  | PortableArbitraryMap => "pam"
  | PortableBitmap => "pbm"
  | PortableDocumentFormat => "pdf"
  | PortableExecutable => "exe"
  | PortableFloatmap => "pfm"
  | PortableGraymap => "pgm"
  | PortableNetworkGraphics => "png"
  | PortablePixmap => "ppm"
  | Postscript => "ps"
  | PythonScript => "py"
  | QemuCopyOnWrite => "qcow"
  | QualcommPurevoice => "qcp"
  | QuiteOkAudio => "qoa"
  | QuiteOkImage => "qoi"
  | RadianceHdr => "hdr"
  | Realaudio => "ra"
  | ReallySimpleSyndication => "rss"
  | Realmedia => "rm"
  | Realvideo => "rv"
  | RedHatPackageManager => "rpm"
  | RichTextFormat => "rtf"
  | RoshalArchive => "rar"
  | RubyScript => "rb"
  | Rzip => "rz"
  | ScalableVectorGraphics => "svg"
  | ScreamTracker3Module => "s3m"
  | SegaMasterSystemRom => "sms"
  | Seqbox => "sbx"
  | SevenZip => "7z"
  | Shapefile => "shp"
  | ShellScript => "sh"
  | ShoutcastPlaylist => "pls"
  | SiliconGraphicsImage => "sgi"
  | SiliconGraphicsMovie => "sgi"
  | SimpleObjectAccessProtocol => "soap"
  | Sketch => "sketch"
  | Sketch43 => "sketch"
  | Sketchup => "skp"
  | SmallWebFormat => "swf"
  | Snappy => "sz"
  | SolidworksAssembly => "sldasm"
  | SolidworksDrawing => "slddrw"
  | SolidworksPart => "sldprt"
  | SonyDsdStreamFile => "dsf"
  | SonyMovie => "mqv"
  | Soundfont2 => "sf2"
  | SpaceclaimDocument => "scdoc"
  | Sqlite3 => "sqlite"
  | Squashfs => "sqsh"
  | StandardForTheExchangeOfProductModelData => "step"
  | Starcalc => "sdc"
  | Starchart => "sds"
  | Stardraw => "sda"
  | Starimpress => "sdd"
  | Starmath => "smf"
  | Starwriter => "sdw"
  | StereolithographyAscii => "stl"
  | Stuffit => "sit"
  | StuffitX => "sitx"
  | SubripText => "srt"
  | SunXmlCalc => "sxc"
  | SunXmlCalcTemplate => "stc"
  | SunXmlDraw => "sxd"
  | SunXmlDrawTemplate => "std"
  | SunXmlImpress => "sxi"
  | SunXmlImpressTemplate => "sti"
  | SunXmlMath => "sxm"
  | SunXmlWriter => "sxw"
  | SunXmlWriterGlobal => "sgw"
  | SunXmlWriterTemplate => "stw"
  | TagImageFileFormat => "tiff"
  | TapeArchive => "tar"
  | Tasty => "tasty"
  | ThirdGenerationPartnershipProject => "3gp"
  | ThirdGenerationPartnershipProject2 => "3g2"
  | ThreeDimensionalManufacturingFormat => "3mf"
  | ThreeDimensionalStudio => "3ds"
  | ThreeDimensionalStudioMax => "max"
  | TiledMapXml => "tmx"
  | TiledTilesetXml => "tsx"
  | TimedTextMarkupLanguage => "ttml"
  | ToolCommandLanguageScript => "tcl"
  | TrainingCenterXml => "tcx"
  | Truetype => "ttf"
  | TruetypeCollection => "ttc"
  | UltimateSoundtrackerModule => "mod"
  | UniformOfficeFormatPresentation => "uop"
  | UniformOfficeFormatSpreadsheet => "uos"
  | UniformOfficeFormatText => "uot"
  | Universal3d => "u3d"
  | UniversalSceneDescriptionAscii => "usda"
  | UniversalSceneDescriptionBinary => "usdc"
  | UniversalSceneDescriptionZip => "usdz"
  | UniversalSubtitleFormat => "usf"
  | UnixArchiver => "a"
  | UnixCompress => "Z"
  | Vcalendar => "vcs"
  | Vcard => "vcf"
  | VirtualMachineDisk => "vmdk"
  | VirtualRealityModelingLanguage => "wrl"
  | VirtualboxVirtualDiskImage => "vdi"
  | WaveformAudio => "wav"
  | Wavpack => "wv"
  | WebApplicationArchive => "war"
  | WebOpenFontFormat => "woff"
  | WebOpenFontFormat2 => "woff2"
  | WebVideoTextTracks => "vtt"
  | WebassemblyBinary => "wasm"
  | WebassemblyText => "wat"
  | Webm => "webm"
  | Webp => "webp"
  | WindowsAnimatedCursor => "ani"
  | WindowsAppBundle => "appxbundle"
  | WindowsAppPackage => "appx"
  | WindowsBitmap => "bmp"
  | WindowsCursor => "cur"
  | WindowsIcon => "ico"
  | WindowsImagingFormat => "wim"
  | WindowsMediaAudio => "wma"
  | WindowsMediaPlaylist => "wpl"
  | WindowsMediaVideo => "wmv"
  | WindowsMetafile => "wmf"
  | WindowsRecordedTvShow => "wtv"
  | WindowsShortcut => "lnk"
  | WordperfectDocument => "wpd"
  | WordperfectGraphics => "wpg"
  | WordperfectMacro => "wpm"
  | WordperfectPresentations => "shw"
  | XPixmap => "xpm"
  | Xap => "xap"
  | Xbox360Executable => "xex"
  | XboxExecutable => "xbe"
  | XmlLocalizationInterchangeFileFormat => "xlf"
  | XmlShareablePlaylistFormat => "xspf"
  | Xpinstall => "xpi"
  | Xz => "xz"
  | Zip => "zip"
  | Zoo => "zoo"
  | Zpaq => "zpaq"
  | Zstandard => "zst"

/-- `FileFormat::kind` (`src/macros.rs` 140-146). -/
def kind : FileFormat → Kind
  | Abiword => .Document
  | AbiwordTemplate => .Document
  | Ace => .Archive
  | ActionsMediaVideo => .Video
  | Activemime => .Other
  | AdaptableScalableTextureCompression => .Image
  | AdaptiveMultiRate => .Audio
  | AdditiveManufacturingFormat => .Model
  | AdobeIllustratorArtwork => .Image
  | AdobeIndesignDocument => .Document
  | AdobeIntegratedRuntime => .Package
  | AdobePhotoshopDocument => .Image
  | AdvancedAudioCoding => .Audio
  | AdvancedStreamRedirector => .Playlist
  | AdvancedSystemsFormat => .Other
  | AgeEncryption => .Other
  | Alz => .Archive
  | AmigaDiskFile => .Disk
  | AndroidAppBundle => .Package
  | AndroidBinaryXml => .Metadata
  | AndroidPackage => .Package
  | AndroidResourceStorageContainer => .Other
  | AnimatedPortableNetworkGraphics => .Image
  | ApacheArrowColumnar => .Other
  | ApacheAvro => .Other
  | ApacheParquet => .Other
  | Appimage => .Package
  | AppleDiskImage => .Disk
  | AppleIconImage => .Image
  | AppleItunesAudio => .Audio
  | AppleItunesAudiobook => .Audio
  | AppleItunesProtectedAudio => .Audio
  | AppleItunesVideo => .Video
  | AppleQuicktime => .Video
  | ArbitraryBinaryData => .Other
  | ArchivedByRobertJung => .Archive
  | Atari7800Rom => .Rom
  | Atom => .Other
  | Au => .Audio
  | AudioCodec3 => .Audio
  | AudioInterchangeFileFormat => .Audio
  | AudioVideoInterleave => .Video
  | AudioVisualResearch => .Audio
  | AutocadDrawing => .Model
  | Autodesk123d => .Model
  | AutodeskAlias => .Model
  | AutodeskAnimator => .Video
  | AutodeskAnimatorPro => .Video
  | AutodeskInventorAssembly => .Model
  | AutodeskInventorDrawing => .Model
  | AutodeskInventorPart => .Model
  | AutodeskInventorPresentation => .Model
  | Av1ImageFileFormat => .Image
  | Av1ImageFileFormatSequence => .Image
  | BdavMpeg2TransportStream => .Video
  | BetterPortableGraphics => .Image
  | Bittorrent => .Metadata
  | Blender => .Model
  | BmfontAscii => .Font
  | BmfontBinary => .Font
  | BroadBandEbook => .Ebook
  | Bzip => .Compressed
  | Bzip2 => .Compressed
  | Bzip3 => .Compressed
  | Cabinet => .Archive
  | CanonRaw => .Image
  | CanonRaw2 => .Image
  | CanonRaw3 => .Image
  | CdAudio => .Metadata
  | Cinema4d => .Model
  | Cineon => .Image
  | CircuitDiagramDocument => .Diagram
  | ClojureScript => .Other
  | CollaborativeDesignActivity => .Model
  | Commodore64Cartridge => .Rom
  | Commodore64Program => .Executable
  | CommonObjectFileFormat => .Executable
  | CompoundFileBinary => .Other
  | CorelPresentations => .Presentation
  | CorelPresentations7 => .Presentation
  | Cpio => .Archive
  | CreativeVoice => .Audio
  | DalvikExecutable => .Executable
  | DebianPackage => .Package
  | DerCertificate => .Other
  | DesignWebFormat => .Model
  | DesignWebFormatXps => .Model
  | DigitalImagingAndCommunicationsInMedicine => .Other
  | DigitalPictureExchange => .Image
  | Djvu => .Document
  | DrawingExchangeFormatAscii => .Model
  | DrawingExchangeFormatBinary => .Model
  | Drawio => .Diagram
  | DynamicLinkLibrary => .Executable
  | EightBitSampledVoice => .Audio
  | ElectronicPublication => .Ebook
  | EmbeddedOpentype => .Font
  | Empty => .Other
  | EncapsulatedPostscript => .Image
  | EnhancedMetafile => .Image
  | EnterpriseApplicationArchive => .Package
  | ExecutableAndLinkableFormat => .Executable
  | ExperimentalComputingFacility => .Image
  | Extensible3d => .Model
  | ExtensibleArchive => .Archive
  | ExtensibleBinaryMetaLanguage => .Other
  | ExtensibleMarkupLanguage => .Other
  | ExtensibleStylesheetLanguageTransformations => .Other
  | Farbfeld => .Image
  | Fasttracker2ExtendedModule => .Audio
  | Fictionbook => .Ebook
  | FictionbookZip => .Ebook
  | FigletFont => .Font
  | FigmaDesign => .Image
  | Filmbox => .Model
  | FlashCs5Project => .Other
  | FlashMp4Audio => .Audio
  | FlashMp4Audiobook => .Audio
  | FlashMp4ProtectedVideo => .Video
  | FlashMp4Video => .Video
  | FlashProject => .Other
  | FlashVideo => .Video
  | FlexibleAndInteroperableDataTransfer => .Geospatial
  | FlexibleImageTransportSystem => .Other
  | FreeLosslessAudioCodec => .Audio
  | FreeLosslessImageFormat => .Image
  | FujifilmRaw => .Image
  | Fusion360 => .Model
  | GameBoyAdvanceRom => .Rom
  | GameBoyColorRom => .Rom
  | GameBoyRom => .Rom
  | GameGearRom => .Rom
  | GeographyMarkupLanguage => .Geospatial
  | GettextMachineObject => .Other
  | GlTransmissionFormatBinary => .Model
  | Glyphs => .Font
  | GoogleChromeExtension => .Package
  | GoogleDraco => .Model
  | GpsExchangeFormat => .Geospatial
  | GraphicsInterchangeFormat => .Image
  | Gzip => .Compressed
  | HighEfficiencyImageCoding => .Image
  | HighEfficiencyImageCodingSequence => .Image
  | HighEfficiencyImageFileFormat => .Image
  | HighEfficiencyImageFileFormatSequence => .Image
  | HypertextMarkupLanguage => .Other
  | Icalendar => .Other
  | IccProfile => .Other
  | Id3v2 => .Metadata
  | ImpulseTrackerModule => .Audio
  | IndesignMarkupLanguage => .Document
  | InitialGraphicsExchangeSpecification => .Model
  | InterQuakeExport => .Model
  | InterQuakeModel => .Model
  | IosAppStorePackage => .Package
  | Iso9660 => .Disk
  | JavaArchive => .Package
  | JavaClass => .Executable
  | JavaKeystore => .Other
  | JointPhotographicExpertsGroup => .Image
  | Jpeg2000Codestream => .Image
  | Jpeg2000Part1 => .Image
  | Jpeg2000Part2 => .Image
  | Jpeg2000Part3 => .Video
  | Jpeg2000Part6 => .Image
  | JpegExtendedRange => .Image
  | JpegLs => .Image
  | JpegNetworkGraphics => .Image
  | JpegXl => .Image
  | JsonFeed => .Other
  | KeyholeMarkupLanguage => .Geospatial
  | KeyholeMarkupLanguageZip => .Geospatial
  | KhronosTexture => .Image
  | KhronosTexture2 => .Image
  | Larc => .Archive
  | Latex => .Document
  | LempelZivFiniteStateEntropy => .Compressed
  | LempelZivMarkovChainAlgorithm => .Compressed
  | Lha => .Archive
  | LinearExecutable => .Executable
  | LlvmBitcode => .Executable
  | LongRangeZip => .Compressed
  | LuaBytecode => .Executable
  | LuaScript => .Other
  | Lz4 => .Compressed
  | Lzip => .Compressed
  | Lzop => .Compressed
  | MachO => .Executable
  | MacosAlias => .Metadata
  | Magicavoxel => .Model
  | MagickImageFileFormat => .Image
  | MaterialExchangeFormat => .Video
  | MathematicalMarkupLanguage => .Formula
  | Matroska3dVideo => .Video
  | MatroskaAudio => .Audio
  | MatroskaSubtitles => .Subtitle
  | MatroskaVideo => .Video
  | MayaAscii => .Model
  | MayaBinary => .Model
  | MegaDriveRom => .Rom
  | MetaInformationEncapsulation => .Metadata
  | MicrosoftAccess2007Database => .Database
  | MicrosoftAccessDatabase => .Database
  | MicrosoftCompiledHtmlHelp => .Other
  | MicrosoftDigitalVideoRecording => .Video
  | MicrosoftDirectdrawSurface => .Image
  | MicrosoftExcelSpreadsheet => .Spreadsheet
  | MicrosoftPowerpointPresentation => .Presentation
  | MicrosoftProjectPlan => .Other
  | MicrosoftPublisherDocument => .Document
  | MicrosoftReader => .Ebook
  | MicrosoftSoftwareInstaller => .Package
  | MicrosoftVirtualHardDisk => .Disk
  | MicrosoftVirtualHardDisk2 => .Disk
  | MicrosoftVisioDrawing => .Diagram
  | MicrosoftVisualStudioExtension => .Package
  | MicrosoftVisualStudioSolution => .Other
  | MicrosoftWordDocument => .Document
  | MicrosoftWorks6Spreadsheet => .Spreadsheet
  | MicrosoftWorksDatabase => .Database
  | MicrosoftWorksSpreadsheet => .Spreadsheet
  | MicrosoftWorksWordProcessor => .Document
  | MicrosoftWrite => .Document
  | Mobipocket => .Ebook
  | Model3dAscii => .Model
  | Model3dBinary => .Model
  | MonkeysAudio => .Audio
  | MozillaArchive => .Archive
  | Mp3Url => .Playlist
  | Mpeg12AudioLayer2 => .Audio
  | Mpeg12AudioLayer3 => .Audio
  | Mpeg12Video => .Video
  | Mpeg2TransportStream => .Video
  | Mpeg4Part14 => .Other
  | Mpeg4Part14Audio => .Audio
  | Mpeg4Part14Subtitles => .Subtitle
  | Mpeg4Part14Video => .Video
  | MpegDashMpd => .Playlist
  | MsDosBatch => .Other
  | MsDosExecutable => .Executable
  | Mtv => .Video
  | MultiLayerArchive => .Archive
  | MultipleImageNetworkGraphics => .Image
  | Musepack => .Audio
  | MusicalInstrumentDigitalInterface => .Audio
  | Musicxml => .Other
  | MusicxmlZip => .Other
  | NeoGeoPocketColorRom => .Rom
  | NeoGeoPocketRom => .Rom
  | NewExecutable => .Executable
  | NikonElectronicFile => .Image
  | Nintendo64Rom => .Rom
  | NintendoDsRom => .Rom
  | NintendoEntertainmentSystemRom => .Rom
  | NintendoSwitchExecutable => .Executable
  | NintendoSwitchPackage => .Package
  | NintendoSwitchRom => .Rom
  | OfficeOpenXmlDocument => .Document
  | OfficeOpenXmlDrawing => .Diagram
  | OfficeOpenXmlPresentation => .Presentation
  | OfficeOpenXmlSpreadsheet => .Spreadsheet
  | OggFlac => .Audio
  | OggMedia => .Video
  | OggMultiplexedMedia => .Other
  | OggOpus => .Audio
  | OggSpeex => .Audio
  | OggTheora => .Video
  | OggVorbis => .Audio
  | OlympusRawFormat => .Image
  | OpendocumentDatabase => .Database
  | OpendocumentFormula => .Formula
  | OpendocumentFormulaTemplate => .Formula
  | OpendocumentGraphics => .Image
  | OpendocumentGraphicsTemplate => .Image
  | OpendocumentPresentation => .Presentation
  | OpendocumentPresentationTemplate => .Presentation
  | OpendocumentSpreadsheet => .Spreadsheet
  | OpendocumentSpreadsheetTemplate => .Spreadsheet
  | OpendocumentText => .Document
  | OpendocumentTextMaster => .Document
  | OpendocumentTextMasterTemplate => .Document
  | OpendocumentTextTemplate => .Document
  | Openexr => .Image
  | Opennurbs => .Model
  | Openraster => .Image
  | Opentype => .Font
  | Openxps => .Document
  | OptimizedDalvikExecutable => .Executable
  | PanasonicRaw => .Image
  | PcapDump => .Other
  | PcapNextGenerationDump => .Other
  | PemCertificate => .Other
  | PemCertificateSigningRequest => .Other
  | PemPrivateKey => .Other
  | PemPublicKey => .Other
  | PerlScript => .Other
  | PersonalStorageTable => .Other
  | PgpMessage => .Other
  | PgpPrivateKeyBlock => .Other
  | PgpPublicKeyBlock => .Other
  | PgpSignature => .Other
  | PgpSignedMessage => .Other
  | PictureExchange => .Image
  | PlainText => .Other
  | Pmarc => .Archive
  | PolygonAscii => .Model
  | PolygonBinary => .Model
  | PortableArbitraryMap => .Image
  | PortableBitmap => .Image
  | PortableDocumentFormat => .Document
  | PortableExecutable => .Executable
  | PortableFloatmap => .Image
  | PortableGraymap => .Image
  | PortableNetworkGraphics => .Image
  | PortablePixmap => .Image
  | Postscript => .Document
  | PythonScript => .Other
  | QemuCopyOnWrite => .Disk
  | QualcommPurevoice => .Audio
  | QuiteOkAudio => .Audio
  | QuiteOkImage => .Image
  | RadianceHdr => .Image
  | Realaudio => .Audio
  | ReallySimpleSyndication => .Other
  | Realmedia => .Other
  | Realvideo => .Video
  | RedHatPackageManager => .Package
  | RichTextFormat => .Document
  | RoshalArchive => .Archive
  | RubyScript => .Other
  | Rzip => .Compressed
  | ScalableVectorGraphics => .Image
  | ScreamTracker3Module => .Audio
  | SegaMasterSystemRom => .Rom
  | Seqbox => .Archive
  | SevenZip => .Archive
  | Shapefile => .Geospatial
  | ShellScript => .Other
  | ShoutcastPlaylist => .Playlist
  | SiliconGraphicsImage => .Image
  | SiliconGraphicsMovie => .Video
  | SimpleObjectAccessProtocol => .Other
  | Sketch => .Image
  | Sketch43 => .Image
  | Sketchup => .Model
  | SmallWebFormat => .Other
  | Snappy => .Compressed
  | SolidworksAssembly => .Model
  | SolidworksDrawing => .Model
  | SolidworksPart => .Model
  | SonyDsdStreamFile => .Audio
  | SonyMovie => .Video
  | Soundfont2 => .Audio
  | SpaceclaimDocument => .Model
  | Sqlite3 => .Database
  | Squashfs => .Archive
  | StandardForTheExchangeOfProductModelData => .Model
  | Starcalc => .Spreadsheet
  | Starchart => .Diagram
  | Stardraw => .Image
  | Starimpress => .Presentation
  | Starmath => .Formula
  | Starwriter => .Document
  | StereolithographyAscii => .Model
  | Stuffit => .Archive
  | StuffitX => .Archive
  | SubripText => .Subtitle
  | SunXmlCalc => .Spreadsheet
  | SunXmlCalcTemplate => .Spreadsheet
  | SunXmlDraw => .Image
  | SunXmlDrawTemplate => .Image
  | SunXmlImpress => .Presentation
  | SunXmlImpressTemplate => .Presentation
  | SunXmlMath => .Formula
  | SunXmlWriter => .Document
  | SunXmlWriterGlobal => .Document
  | SunXmlWriterTemplate => .Document
  | TagImageFileFormat => .Image
  | TapeArchive => .Archive
  | Tasty => .Metadata
  | ThirdGenerationPartnershipProject => .Video
  | ThirdGenerationPartnershipProject2 => .Video
  | ThreeDimensionalManufacturingFormat => .Model
  | ThreeDimensionalStudio => .Model
  | ThreeDimensionalStudioMax => .Model
  | TiledMapXml => .Other
  | TiledTilesetXml => .Other
  | TimedTextMarkupLanguage => .Subtitle
  | ToolCommandLanguageScript => .Other
  | TrainingCenterXml => .Geospatial
  | Truetype => .Font
  | TruetypeCollection => .Font
  | UltimateSoundtrackerModule => .Audio
  | UniformOfficeFormatPresentation => .Presentation
  | UniformOfficeFormatSpreadsheet => .Spreadsheet
  | UniformOfficeFormatText => .Document
  | Universal3d => .Model
  | UniversalSceneDescriptionAscii => .Model
  | UniversalSceneDescriptionBinary => .Model
  | UniversalSceneDescriptionZip => .Model
  | UniversalSubtitleFormat => .Subtitle
  | UnixArchiver => .Archive
  | UnixCompress => .Compressed
  | Vcalendar => .Other
  | Vcard => .Other
  | VirtualMachineDisk => .Disk
  | VirtualRealityModelingLanguage => .Model
  | VirtualboxVirtualDiskImage => .Disk
  | WaveformAudio => .Audio
  | Wavpack => .Audio
  | WebApplicationArchive => .Package
  | WebOpenFontFormat => .Font
  | WebOpenFontFormat2 => .Font
  | WebVideoTextTracks => .Subtitle
  | WebassemblyBinary => .Executable
  | WebassemblyText => .Other
  | Webm => .Video
  | Webp => .Image
  | WindowsAnimatedCursor => .Image
  | WindowsAppBundle => .Package
  | WindowsAppPackage => .Package
  | WindowsBitmap => .Image
  | WindowsCursor => .Image
  | WindowsIcon => .Image
  | WindowsImagingFormat => .Archive
  | WindowsMediaAudio => .Audio
  | WindowsMediaPlaylist => .Playlist
  | WindowsMediaVideo => .Video
  | WindowsMetafile => .Image
  | WindowsRecordedTvShow => .Video
  | WindowsShortcut => .Metadata
  | WordperfectDocument => .Document
  | WordperfectGraphics => .Image
  | WordperfectMacro => .Other
  | WordperfectPresentations => .Presentation
  | XPixmap => .Image
  | Xap => .Package
  | Xbox360Executable => .Executable
  | XboxExecutable => .Executable
  | XmlLocalizationInterchangeFileFormat => .Other
  | XmlShareablePlaylistFormat => .Playlist
  | Xpinstall => .Package
  | Xz => .Compressed
  | Zip => .Archive
  | Zoo => .Archive
  | Zpaq => .Archive
  | Zstandard => .Compressed

/-- `impl Default for FileFormat` (`src/lib.rs` 309-316). -/
def default : FileFormat := ArbitraryBinaryData

/-- `impl Display for FileFormat` (`src/lib.rs` 318-323). -/
def display (f : FileFormat) : String := f.name

/-- All variants in declaration order (not in the source, but the list of `src/formats.rs` 1-3094; used to state that a table covers the
whole enum, see `mem_all`). -/
def all : List FileFormat := [
  Abiword, AbiwordTemplate, Ace, ActionsMediaVideo, Activemime, AdaptableScalableTextureCompression,
  AdaptiveMultiRate, AdditiveManufacturingFormat, AdobeIllustratorArtwork, AdobeIndesignDocument, AdobeIntegratedRuntime, AdobePhotoshopDocument,
  AdvancedAudioCoding, AdvancedStreamRedirector, AdvancedSystemsFormat, AgeEncryption, Alz, AmigaDiskFile,
  AndroidAppBundle, AndroidBinaryXml, AndroidPackage, AndroidResourceStorageContainer, AnimatedPortableNetworkGraphics, ApacheArrowColumnar,
  ApacheAvro, ApacheParquet, Appimage, AppleDiskImage, AppleIconImage, AppleItunesAudio,
  AppleItunesAudiobook, AppleItunesProtectedAudio, AppleItunesVideo, AppleQuicktime, ArbitraryBinaryData, ArchivedByRobertJung,
  Atari7800Rom, Atom, Au, AudioCodec3, AudioInterchangeFileFormat, AudioVideoInterleave,
  AudioVisualResearch, AutocadDrawing, Autodesk123d, AutodeskAlias, AutodeskAnimator, AutodeskAnimatorPro,
  AutodeskInventorAssembly, AutodeskInventorDrawing, AutodeskInventorPart, AutodeskInventorPresentation, Av1ImageFileFormat, Av1ImageFileFormatSequence,
  BdavMpeg2TransportStream, BetterPortableGraphics, Bittorrent, Blender, BmfontAscii, BmfontBinary,
  BroadBandEbook, Bzip, Bzip2, Bzip3, Cabinet, CanonRaw,
  CanonRaw2, CanonRaw3, CdAudio, Cinema4d, Cineon, CircuitDiagramDocument,
  ClojureScript, CollaborativeDesignActivity, Commodore64Cartridge, Commodore64Program, CommonObjectFileFormat, CompoundFileBinary,
  CorelPresentations, CorelPresentations7, Cpio, CreativeVoice, DalvikExecutable, DebianPackage,
  DerCertificate, DesignWebFormat, DesignWebFormatXps, DigitalImagingAndCommunicationsInMedicine, DigitalPictureExchange, Djvu,
  DrawingExchangeFormatAscii, DrawingExchangeFormatBinary, Drawio, DynamicLinkLibrary, EightBitSampledVoice, ElectronicPublication,
  EmbeddedOpentype, Empty, EncapsulatedPostscript, EnhancedMetafile, EnterpriseApplicationArchive, ExecutableAndLinkableFormat,
  ExperimentalComputingFacility, Extensible3d, ExtensibleArchive, ExtensibleBinaryMetaLanguage, ExtensibleMarkupLanguage, ExtensibleStylesheetLanguageTransformations,
  Farbfeld, Fasttracker2ExtendedModule, Fictionbook, FictionbookZip, FigletFont, FigmaDesign,
  Filmbox, FlashCs5Project, FlashMp4Audio, FlashMp4Audiobook, FlashMp4ProtectedVideo, FlashMp4Video,
  FlashProject, FlashVideo, FlexibleAndInteroperableDataTransfer, FlexibleImageTransportSystem, FreeLosslessAudioCodec, FreeLosslessImageFormat,
  FujifilmRaw, Fusion360, GameBoyAdvanceRom, GameBoyColorRom, GameBoyRom, GameGearRom,
  GeographyMarkupLanguage, GettextMachineObject, GlTransmissionFormatBinary, Glyphs, GoogleChromeExtension, GoogleDraco,
  GpsExchangeFormat, GraphicsInterchangeFormat, Gzip, HighEfficiencyImageCoding, HighEfficiencyImageCodingSequence, HighEfficiencyImageFileFormat,
  HighEfficiencyImageFileFormatSequence, HypertextMarkupLanguage, Icalendar, IccProfile, Id3v2, ImpulseTrackerModule,
  IndesignMarkupLanguage, InitialGraphicsExchangeSpecification, InterQuakeExport, InterQuakeModel, IosAppStorePackage, Iso9660,
  JavaArchive, JavaClass, JavaKeystore, JointPhotographicExpertsGroup, Jpeg2000Codestream, Jpeg2000Part1,
  Jpeg2000Part2, Jpeg2000Part3, Jpeg2000Part6, JpegExtendedRange, JpegLs, JpegNetworkGraphics,
  JpegXl, JsonFeed, KeyholeMarkupLanguage, KeyholeMarkupLanguageZip, KhronosTexture, KhronosTexture2,
  Larc, Latex, LempelZivFiniteStateEntropy, LempelZivMarkovChainAlgorithm, Lha, LinearExecutable,
  LlvmBitcode, LongRangeZip, LuaBytecode, LuaScript, Lz4, Lzip,
  Lzop, MachO, MacosAlias, Magicavoxel, MagickImageFileFormat, MaterialExchangeFormat,
  MathematicalMarkupLanguage, Matroska3dVideo, MatroskaAudio, MatroskaSubtitles, MatroskaVideo, MayaAscii,
  MayaBinary, MegaDriveRom, MetaInformationEncapsulation, MicrosoftAccess2007Database, MicrosoftAccessDatabase, MicrosoftCompiledHtmlHelp,
  MicrosoftDigitalVideoRecording, MicrosoftDirectdrawSurface, MicrosoftExcelSpreadsheet, MicrosoftPowerpointPresentation, MicrosoftProjectPlan, MicrosoftPublisherDocument,
  MicrosoftReader, MicrosoftSoftwareInstaller, MicrosoftVirtualHardDisk, MicrosoftVirtualHardDisk2, MicrosoftVisioDrawing, MicrosoftVisualStudioExtension,
  MicrosoftVisualStudioSolution, MicrosoftWordDocument, MicrosoftWorks6Spreadsheet, MicrosoftWorksDatabase, MicrosoftWorksSpreadsheet, MicrosoftWorksWordProcessor,
  MicrosoftWrite, Mobipocket, Model3dAscii, Model3dBinary, MonkeysAudio, MozillaArchive,
  Mp3Url, Mpeg12AudioLayer2, Mpeg12AudioLayer3, Mpeg12Video, Mpeg2TransportStream, Mpeg4Part14,
  Mpeg4Part14Audio, Mpeg4Part14Subtitles, Mpeg4Part14Video, MpegDashMpd, MsDosBatch, MsDosExecutable,
  Mtv, MultiLayerArchive, MultipleImageNetworkGraphics, Musepack, MusicalInstrumentDigitalInterface, Musicxml,
  MusicxmlZip, NeoGeoPocketColorRom, NeoGeoPocketRom, NewExecutable, NikonElectronicFile, Nintendo64Rom,
  NintendoDsRom, NintendoEntertainmentSystemRom, NintendoSwitchExecutable, NintendoSwitchPackage, NintendoSwitchRom, OfficeOpenXmlDocument,
  OfficeOpenXmlDrawing, OfficeOpenXmlPresentation, OfficeOpenXmlSpreadsheet, OggFlac, OggMedia, OggMultiplexedMedia,
  OggOpus, OggSpeex, OggTheora, OggVorbis, OlympusRawFormat, OpendocumentDatabase,
  OpendocumentFormula, OpendocumentFormulaTemplate, OpendocumentGraphics, OpendocumentGraphicsTemplate, OpendocumentPresentation, OpendocumentPresentationTemplate,
  OpendocumentSpreadsheet, OpendocumentSpreadsheetTemplate, OpendocumentText, OpendocumentTextMaster, OpendocumentTextMasterTemplate, OpendocumentTextTemplate,
  Openexr, Opennurbs, Openraster, Opentype, Openxps, OptimizedDalvikExecutable,
  PanasonicRaw, PcapDump, PcapNextGenerationDump, PemCertificate, PemCertificateSigningRequest, PemPrivateKey,
  PemPublicKey, PerlScript, PersonalStorageTable, PgpMessage, PgpPrivateKeyBlock, PgpPublicKeyBlock,
  PgpSignature, PgpSignedMessage, PictureExchange, PlainText, Pmarc, PolygonAscii,
  PolygonBinary, PortableArbitraryMap, PortableBitmap, PortableDocumentFormat, PortableExecutable, PortableFloatmap,
  PortableGraymap, PortableNetworkGraphics, PortablePixmap, Postscript, PythonScript, QemuCopyOnWrite,
  QualcommPurevoice, QuiteOkAudio, QuiteOkImage, RadianceHdr, Realaudio, ReallySimpleSyndication,
  Realmedia, Realvideo, RedHatPackageManager, RichTextFormat, RoshalArchive, RubyScript,
  Rzip, ScalableVectorGraphics, ScreamTracker3Module, SegaMasterSystemRom, Seqbox, SevenZip,
  Shapefile, ShellScript, ShoutcastPlaylist, SiliconGraphicsImage, SiliconGraphicsMovie, SimpleObjectAccessProtocol,
  Sketch, Sketch43, Sketchup, SmallWebFormat, Snappy, SolidworksAssembly,
  SolidworksDrawing, SolidworksPart, SonyDsdStreamFile, SonyMovie, Soundfont2, SpaceclaimDocument,
  Sqlite3, Squashfs, StandardForTheExchangeOfProductModelData, Starcalc, Starchart, Stardraw,
  Starimpress, Starmath, Starwriter, StereolithographyAscii, Stuffit, StuffitX,
  SubripText, SunXmlCalc, SunXmlCalcTemplate, SunXmlDraw, SunXmlDrawTemplate, SunXmlImpress,
  SunXmlImpressTemplate, SunXmlMath, SunXmlWriter, SunXmlWriterGlobal, SunXmlWriterTemplate, TagImageFileFormat,
  TapeArchive, Tasty, ThirdGenerationPartnershipProject, ThirdGenerationPartnershipProject2, ThreeDimensionalManufacturingFormat, ThreeDimensionalStudio,
  ThreeDimensionalStudioMax, TiledMapXml, TiledTilesetXml, TimedTextMarkupLanguage, ToolCommandLanguageScript, TrainingCenterXml,
  Truetype, TruetypeCollection, UltimateSoundtrackerModule, UniformOfficeFormatPresentation, UniformOfficeFormatSpreadsheet, UniformOfficeFormatText,
  Universal3d, UniversalSceneDescriptionAscii, UniversalSceneDescriptionBinary, UniversalSceneDescriptionZip, UniversalSubtitleFormat, UnixArchiver,
  UnixCompress, Vcalendar, Vcard, VirtualMachineDisk, VirtualRealityModelingLanguage, VirtualboxVirtualDiskImage,
  WaveformAudio, Wavpack, WebApplicationArchive, WebOpenFontFormat, WebOpenFontFormat2, WebVideoTextTracks,
  WebassemblyBinary, WebassemblyText, Webm, Webp, WindowsAnimatedCursor, WindowsAppBundle,
  WindowsAppPackage, WindowsBitmap, WindowsCursor, WindowsIcon, WindowsImagingFormat, WindowsMediaAudio,
  WindowsMediaPlaylist, WindowsMediaVideo, WindowsMetafile, WindowsRecordedTvShow, WindowsShortcut, WordperfectDocument,
  WordperfectGraphics, WordperfectMacro, WordperfectPresentations, XPixmap, Xap, Xbox360Executable,
  XboxExecutable, XmlLocalizationInterchangeFileFormat, XmlShareablePlaylistFormat, Xpinstall, Xz, Zip,
  Zoo, Zpaq, Zstandard]

end FileFormat

end FF
