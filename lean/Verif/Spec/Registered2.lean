import Verif.Spec.Registered
/-!
# More media types and extensions

Registered at IANA or in common use (the shared MIME database of freedesktop.org, the `mime.types` of
Apache); written from the list of formats that `Spec.Registered` does not cover. And the sample files of the repository,
generated by `tools/gensamples.py` from `tests/*.rs`: each test reads one file and names its format.
-/

namespace FF.Spec
open FileFormat

/-- Format, media type, extension. -/
def registered2 : List (FileFormat × String × String) := [
  (Abiword, "application/x-abiword", "abw"),
  (AdobeIllustratorArtwork, "application/vnd.adobe.illustrator", "ai"),
  (AdobeIndesignDocument, "application/x-indesign", "indd"),
  (AdobeIntegratedRuntime, "application/vnd.adobe.air-application-installer-package+zip", "air"),
  (AdvancedStreamRedirector, "video/x-ms-asx", "asx"),
  (Alz, "application/x-alz-compressed", "alz"),
  (AppleIconImage, "image/x-icns", "icns"),
  (AppleItunesAudio, "audio/x-m4a", "m4a"),
  (AppleItunesAudiobook, "audio/mp4", "m4b"),
  (AppleItunesProtectedAudio, "audio/mp4", "m4p"),
  (AppleItunesVideo, "video/x-m4v", "m4v"),
  (ArchivedByRobertJung, "application/x-arj", "arj"),
  (AudioInterchangeFileFormat, "audio/x-aiff", "aiff"),
  (AutodeskAnimator, "video/x-fli", "fli"),
  (AutodeskAnimatorPro, "video/x-flc", "flc"),
  (Appimage, "application/x-appimage", "AppImage"),
  (BdavMpeg2TransportStream, "video/mp2t", "m2ts"),
  (BetterPortableGraphics, "image/bpg", "bpg"),
  (Bzip, "application/x-bzip", "bz"),
  (Bzip3, "application/x-bzip3", "bz3"),
  (CanonRaw, "image/x-canon-crw", "crw"),
  (CanonRaw2, "image/x-canon-cr2", "cr2"),
  (CanonRaw3, "image/x-canon-cr3", "cr3"),
  (ClojureScript, "text/x-clojure", "clj"),
  (CollaborativeDesignActivity, "model/vnd.collada+xml", "dae"),
  (DigitalPictureExchange, "image/x-dpx", "dpx"),
  (DynamicLinkLibrary, "application/vnd.microsoft.portable-executable", "dll"),
  (EnterpriseApplicationArchive, "application/java-archive", "ear"),
  (WebApplicationArchive, "application/java-archive", "war"),
  (Extensible3d, "model/x3d+xml", "x3d"),
  (ExtensibleArchive, "application/x-xar", "xar"),
  (Fasttracker2ExtendedModule, "audio/x-xm", "xm"),
  (FlashMp4Audio, "audio/mp4", "f4a"),
  (FlashMp4Audiobook, "audio/mp4", "f4b"),
  (FlashMp4ProtectedVideo, "video/mp4", "f4p"),
  (FlashMp4Video, "video/mp4", "f4v"),
  (FreeLosslessImageFormat, "image/flif", "flif"),
  (FujifilmRaw, "image/x-fuji-raf", "raf"),
  (GameBoyAdvanceRom, "application/x-gba-rom", "gba"),
  (GameBoyColorRom, "application/x-gameboy-color-rom", "gbc"),
  (GameBoyRom, "application/x-gameboy-rom", "gb"),
  (GameGearRom, "application/x-gamegear-rom", "gg"),
  (MegaDriveRom, "application/x-genesis-rom", "md"),
  (Nintendo64Rom, "application/x-n64-rom", "z64"),
  (NintendoDsRom, "application/x-nintendo-ds-rom", "nds"),
  (SegaMasterSystemRom, "application/x-sms-rom", "sms"),
  (ImpulseTrackerModule, "audio/x-it", "it"),
  (IndesignMarkupLanguage, "application/vnd.adobe.indesign-idml-package", "idml"),
  (InitialGraphicsExchangeSpecification, "model/iges", "iges"),
  (IosAppStorePackage, "application/x-ios-app", "ipa"),
  (JavaKeystore, "application/x-java-keystore", "jks"),
  (Jpeg2000Codestream, "image/x-jp2-codestream", "j2c"),
  (JpegNetworkGraphics, "image/x-jng", "jng"),
  (MultipleImageNetworkGraphics, "image/x-mng", "mng"),
  (Latex, "text/x-tex", "tex"),
  (LongRangeZip, "application/x-lrzip", "lrz"),
  (MathematicalMarkupLanguage, "application/mathml+xml", "mathml"),
  (Matroska3dVideo, "video/matroska", "mk3d"),
  (MatroskaSubtitles, "application/x-matroska", "mks"),
  (MicrosoftAccess2007Database, "application/x-msaccess", "accdb"),
  (MicrosoftPublisherDocument, "application/vnd.ms-publisher", "pub"),
  (MicrosoftReader, "application/x-ms-reader", "lit"),
  (MicrosoftWorksSpreadsheet, "application/vnd.ms-works", "wks"),
  (MicrosoftWorksWordProcessor, "application/vnd.ms-works", "wps"),
  (MicrosoftWrite, "application/x-mswrite", "wri"),
  (MonkeysAudio, "audio/x-ape", "ape"),
  (Mpeg12AudioLayer2, "audio/mpeg", "mp2"),
  (Mpeg4Part14, "application/mp4", "mp4"),
  (Mp3Url, "audio/x-mpegurl", "m3u"),
  (MsDosExecutable, "application/x-dosexec", "exe"),
  (Musepack, "audio/x-musepack", "mpc"),
  (NikonElectronicFile, "image/x-nikon-nef", "nef"),
  (OggMedia, "video/ogg", "ogm"),
  (OggOpus, "audio/opus", "opus"),
  (OlympusRawFormat, "image/x-olympus-orf", "orf"),
  (OpendocumentTextMasterTemplate, "application/vnd.oasis.opendocument.text-master-template", "otm"),
  (PanasonicRaw, "image/x-panasonic-rw2", "rw2"),
  (PemCertificate, "application/x-pem-file", "crt"),
  (PersonalStorageTable, "application/vnd.ms-outlook", "pst"),
  (PgpPrivateKeyBlock, "application/pgp-keys", "asc"),
  (PgpSignature, "application/pgp-signature", "asc"),
  (PictureExchange, "image/x-pcx", "pcx"),
  (PythonScript, "text/x-script.python", "py"),
  (QualcommPurevoice, "audio/qcelp", "qcp"),
  (Realaudio, "audio/x-pn-realaudio", "ra"),
  (Rzip, "application/x-rzip", "rz"),
  (ScreamTracker3Module, "audio/x-s3m", "s3m"),
  (ShoutcastPlaylist, "audio/x-scpls", "pls"),
  (SiliconGraphicsImage, "image/x-sgi", "sgi"),
  (Sketchup, "application/vnd.sketchup.skp", "skp"),
  (SmallWebFormat, "application/x-shockwave-flash", "swf"),
  (Snappy, "application/x-snappy-framed", "sz"),
  (SonyMovie, "video/quicktime", "mqv"),
  (Starcalc, "application/vnd.stardivision.calc", "sdc"),
  (Stardraw, "application/vnd.stardivision.draw", "sda"),
  (Starimpress, "application/vnd.stardivision.impress", "sdd"),
  (Starmath, "application/vnd.stardivision.math", "smf"),
  (Starwriter, "application/vnd.stardivision.writer", "sdw"),
  (Starchart, "application/vnd.stardivision.chart", "sds"),
  (Stuffit, "application/x-stuffit", "sit"),
  (StuffitX, "application/x-stuffitx", "sitx"),
  (SubripText, "application/x-subrip", "srt"),
  (SunXmlCalcTemplate, "application/vnd.sun.xml.calc.template", "stc"),
  (SunXmlDrawTemplate, "application/vnd.sun.xml.draw.template", "std"),
  (SunXmlImpressTemplate, "application/vnd.sun.xml.impress.template", "sti"),
  (SunXmlWriterTemplate, "application/vnd.sun.xml.writer.template", "stw"),
  (ThreeDimensionalStudio, "application/x-3ds", "3ds"),
  (ToolCommandLanguageScript, "text/x-tcl", "tcl"),
  (TrainingCenterXml, "application/vnd.garmin.tcx+xml", "tcx"),
  (UltimateSoundtrackerModule, "audio/x-mod", "mod"),
  (UnixArchiver, "application/x-archive", "a"),
  (UnixCompress, "application/x-compress", "Z"),
  (Vcalendar, "text/calendar", "vcs"),
  (VirtualMachineDisk, "application/x-vmdk", "vmdk"),
  (VirtualboxVirtualDiskImage, "application/x-virtualbox-vdi", "vdi"),
  (Wavpack, "audio/wavpack", "wv"),
  (WindowsAnimatedCursor, "application/x-navi-animation", "ani"),
  (WindowsAppBundle, "application/vnd.ms-appx.bundle", "appxbundle"),
  (WindowsAppPackage, "application/vnd.ms-appx", "appx"),
  (WindowsCursor, "image/x-icon", "cur"),
  (WindowsImagingFormat, "application/x-ms-wim", "wim"),
  (WindowsMediaPlaylist, "application/vnd.ms-wpl", "wpl"),
  (WordperfectDocument, "application/vnd.wordperfect", "wpd"),
  (XPixmap, "image/x-xpixmap", "xpm"),
  (Xap, "application/x-silverlight-app", "xap"),
  (Zpaq, "application/x-zpaq", "zpaq"),
  (QemuCopyOnWrite, "application/x-qemu-disk", "qcow"),
  (PcapNextGenerationDump, "application/x-pcapng", "pcapng"),
  (Larc, "application/x-lzh-compressed", "lzs"),
  (AndroidAppBundle, "application/vnd.android.aab", "aab"),
  (ApacheAvro, "application/vnd.apache.avro", "avro"),
  (Fictionbook, "application/x-fb2+xml", "fb2"),
  (CorelPresentations, "application/x-corelpresentations", "shw"),
  (CreativeVoice, "audio/x-voc", "voc"),
  (DesignWebFormatXps, "model/vnd.dwfx+xps", "dwfx"),
  (EightBitSampledVoice, "audio/x-8svx", "8svx"),
  (Realvideo, "video/x-pn-realvideo", "rv"),
  (Squashfs, "application/x-squashfs", "sqsh"),
  (WindowsRecordedTvShow, "video/x-wtv", "wtv"),
  (PortableArbitraryMap, "image/x-portable-arbitrarymap", "pam"),
  (Shapefile, "application/x-esri-shape", "shp"),
  (FileFormat.Empty, "application/x-empty", "empty"),
  (ActionsMediaVideo, "video/x-amv", "amv"),
  (Activemime, "application/x-mso", "mso"),
  (AdditiveManufacturingFormat, "application/x-amf", "amf"),
  (AmigaDiskFile, "application/x-amiga-disk-format", "adf"),
  (Atari7800Rom, "application/x-atari-7800-rom", "a78"),
  (Av1ImageFileFormatSequence, "image/avif-sequence", "avifs"),
  (Drawio, "application/vnd.jgraph.mxfile", "drawio"),
  (LuaBytecode, "application/x-lua-bytecode", "luac"),
  (MagickImageFileFormat, "image/x-miff", "miff"),
  (MicrosoftDigitalVideoRecording, "video/x-ms-asf", "dvr-ms"),
  (MicrosoftWorks6Spreadsheet, "application/vnd.ms-works", "xlr"),
  (NeoGeoPocketRom, "application/x-neo-geo-pocket-rom", "ngp"),
  (OfficeOpenXmlDrawing, "application/vnd.ms-visio.drawing.main+xml", "vsdx"),
  (PemCertificateSigningRequest, "application/x-pem-file", "csr"),
  (PemPrivateKey, "application/x-pem-file", "key"),
  (PemPublicKey, "application/x-pem-file", "pub"),
  (SonyDsdStreamFile, "audio/x-dsf", "dsf"),
  (UniformOfficeFormatPresentation, "application/vnd.uof.presentation", "uop"),
  (UniformOfficeFormatSpreadsheet, "application/vnd.uof.spreadsheet", "uos"),
  (UniformOfficeFormatText, "application/vnd.uof.text", "uot")]

/-- Format, directory and extension of a sample file of the test suite (`tests/*.rs`). -/
def sampleFiles : List (FileFormat × String × String) := [
  (Ace, "archive", "ace"),
  (Alz, "archive", "alz"),
  (ArchivedByRobertJung, "archive", "arj"),
  (Cabinet, "archive", "cab"),
  (Cpio, "archive", "cpio"),
  (ExtensibleArchive, "archive", "xar"),
  (Larc, "archive", "lzs"),
  (Lha, "archive", "lzh"),
  (MozillaArchive, "archive", "mar"),
  (MultiLayerArchive, "archive", "mla"),
  (Pmarc, "archive", "pma"),
  (RoshalArchive, "archive", "rar"),
  (Seqbox, "archive", "sbx"),
  (SevenZip, "archive", "7z"),
  (Squashfs, "archive", "sqsh"),
  (Stuffit, "archive", "sit"),
  (StuffitX, "archive", "sitx"),
  (TapeArchive, "archive", "tar"),
  (UnixArchiver, "archive", "a"),
  (WindowsImagingFormat, "archive", "wim"),
  (Zip, "archive", "zip"),
  (Zoo, "archive", "zoo"),
  (Zpaq, "archive", "zpaq"),
  (AdaptiveMultiRate, "audio", "amr"),
  (AdvancedAudioCoding, "audio", "aac"),
  (AppleItunesAudio, "audio", "m4a"),
  (AppleItunesAudiobook, "audio", "m4b"),
  (AppleItunesProtectedAudio, "audio", "m4p"),
  (Au, "audio", "au"),
  (AudioCodec3, "audio", "ac3"),
  (AudioInterchangeFileFormat, "audio", "aiff"),
  (AudioVisualResearch, "audio", "avr"),
  (CreativeVoice, "audio", "voc"),
  (EightBitSampledVoice, "audio", "8svx"),
  (Fasttracker2ExtendedModule, "audio", "xm"),
  (FlashMp4Audio, "audio", "f4a"),
  (FlashMp4Audiobook, "audio", "f4b"),
  (FreeLosslessAudioCodec, "audio", "flac"),
  (ImpulseTrackerModule, "audio", "it"),
  (MatroskaAudio, "audio", "mka"),
  (MonkeysAudio, "audio", "ape"),
  (Mpeg12AudioLayer2, "audio", "mp2"),
  (Mpeg12AudioLayer3, "audio", "mp3"),
  (Mpeg4Part14Audio, "audio", "mp4"),
  (Musepack, "audio", "mpc"),
  (MusicalInstrumentDigitalInterface, "audio", "mid"),
  (OggFlac, "audio", "oga"),
  (OggOpus, "audio", "opus"),
  (OggSpeex, "audio", "spx"),
  (OggVorbis, "audio", "ogg"),
  (QualcommPurevoice, "audio", "qcp"),
  (QuiteOkAudio, "audio", "qoa"),
  (Realaudio, "audio", "ra"),
  (ScreamTracker3Module, "audio", "s3m"),
  (SonyDsdStreamFile, "audio", "dsf"),
  (Soundfont2, "audio", "sf2"),
  (UltimateSoundtrackerModule, "audio", "mod"),
  (WaveformAudio, "audio", "wav"),
  (Wavpack, "audio", "wv"),
  (WindowsMediaAudio, "audio", "wma"),
  (Bzip, "compressed", "bz"),
  (Bzip2, "compressed", "bz2"),
  (Bzip3, "compressed", "bz3"),
  (Gzip, "compressed", "gz"),
  (LempelZivFiniteStateEntropy, "compressed", "lzfse"),
  (LempelZivMarkovChainAlgorithm, "compressed", "lzma"),
  (LongRangeZip, "compressed", "lrz"),
  (Lz4, "compressed", "lz4"),
  (Lzip, "compressed", "lz"),
  (Lzop, "compressed", "lzo"),
  (Rzip, "compressed", "rz"),
  (Snappy, "compressed", "sz"),
  (UnixCompress, "compressed", "Z"),
  (Xz, "compressed", "xz"),
  (Zstandard, "compressed", "zst"),
  (MicrosoftAccess2007Database, "database", "accdb"),
  (MicrosoftAccessDatabase, "database", "mdb"),
  (MicrosoftWorksDatabase, "database", "wdb"),
  (OpendocumentDatabase, "database", "odb"),
  (Sqlite3, "database", "sqlite"),
  (CircuitDiagramDocument, "diagram", "cddx"),
  (Drawio, "diagram", "drawio"),
  (MicrosoftVisioDrawing, "diagram", "vsd"),
  (OfficeOpenXmlDrawing, "diagram", "vsdx"),
  (Starchart, "diagram", "sds"),
  (AmigaDiskFile, "disk", "adf"),
  (AppleDiskImage, "disk", "dmg"),
  (Iso9660, "disk", "iso"),
  (MicrosoftVirtualHardDisk, "disk", "vhd"),
  (MicrosoftVirtualHardDisk2, "disk", "vhdx"),
  (QemuCopyOnWrite, "disk", "qcow"),
  (VirtualMachineDisk, "disk", "vmdk"),
  (VirtualboxVirtualDiskImage, "disk", "vdi"),
  (Abiword, "document", "abw"),
  (AbiwordTemplate, "document", "awt"),
  (AdobeIndesignDocument, "document", "indd"),
  (Djvu, "document", "djvu"),
  (IndesignMarkupLanguage, "document", "idml"),
  (Latex, "document", "tex"),
  (MicrosoftPublisherDocument, "document", "pub"),
  (MicrosoftWordDocument, "document", "doc"),
  (MicrosoftWorksWordProcessor, "document", "wps"),
  (MicrosoftWrite, "document", "wri"),
  (OfficeOpenXmlDocument, "document", "docx"),
  (OpendocumentText, "document", "odt"),
  (OpendocumentTextMaster, "document", "odm"),
  (OpendocumentTextMasterTemplate, "document", "otm"),
  (OpendocumentTextTemplate, "document", "ott"),
  (Openxps, "document", "xps"),
  (PortableDocumentFormat, "document", "pdf"),
  (Postscript, "document", "ps"),
  (RichTextFormat, "document", "rtf"),
  (Starwriter, "document", "sdw"),
  (SunXmlWriter, "document", "sxw"),
  (SunXmlWriterGlobal, "document", "sgw"),
  (SunXmlWriterTemplate, "document", "stw"),
  (UniformOfficeFormatText, "document", "uot"),
  (WordperfectDocument, "document", "wpd"),
  (BroadBandEbook, "ebook", "lrf"),
  (ElectronicPublication, "ebook", "epub"),
  (Fictionbook, "ebook", "fb2"),
  (FictionbookZip, "ebook", "fbz"),
  (MicrosoftReader, "ebook", "lit"),
  (Mobipocket, "ebook", "mobi"),
  (Commodore64Program, "executable", "prg"),
  (CommonObjectFileFormat, "executable", "coff"),
  (DalvikExecutable, "executable", "dex"),
  (DynamicLinkLibrary, "executable", "dll"),
  (ExecutableAndLinkableFormat, "executable", "elf"),
  (JavaClass, "executable", "class"),
  (LinearExecutable, "executable", "exe"),
  (LlvmBitcode, "executable", "bc"),
  (LuaBytecode, "executable", "luac"),
  (MachO, "executable", "mach"),
  (MsDosExecutable, "executable", "exe"),
  (NewExecutable, "executable", "exe"),
  (NintendoSwitchExecutable, "executable", "nso"),
  (OptimizedDalvikExecutable, "executable", "dey"),
  (PortableExecutable, "executable", "exe"),
  (WebassemblyBinary, "executable", "wasm"),
  (Xbox360Executable, "executable", "xex"),
  (XboxExecutable, "executable", "xbe"),
  (BmfontAscii, "font", "fnt"),
  (BmfontBinary, "font", "fnt"),
  (EmbeddedOpentype, "font", "eot"),
  (FigletFont, "font", "flf"),
  (Glyphs, "font", "glyphs"),
  (Opentype, "font", "otf"),
  (Truetype, "font", "ttf"),
  (TruetypeCollection, "font", "ttc"),
  (WebOpenFontFormat, "font", "woff"),
  (WebOpenFontFormat2, "font", "woff2"),
  (MathematicalMarkupLanguage, "formula", "mathml"),
  (OpendocumentFormula, "formula", "odf"),
  (OpendocumentFormulaTemplate, "formula", "otf"),
  (Starmath, "formula", "smf"),
  (SunXmlMath, "formula", "sxm"),
  (FlexibleAndInteroperableDataTransfer, "geospatial", "fit"),
  (GeographyMarkupLanguage, "geospatial", "gml"),
  (GpsExchangeFormat, "geospatial", "gpx"),
  (KeyholeMarkupLanguage, "geospatial", "kml"),
  (KeyholeMarkupLanguageZip, "geospatial", "kmz"),
  (Shapefile, "geospatial", "shp"),
  (TrainingCenterXml, "geospatial", "tcx"),
  (AdaptableScalableTextureCompression, "image", "astc"),
  (AdobeIllustratorArtwork, "image", "ai"),
  (AdobePhotoshopDocument, "image", "psd"),
  (AnimatedPortableNetworkGraphics, "image", "apng"),
  (AppleIconImage, "image", "icns"),
  (Av1ImageFileFormat, "image", "avif"),
  (Av1ImageFileFormatSequence, "image", "avifs"),
  (BetterPortableGraphics, "image", "bpg"),
  (CanonRaw, "image", "crw"),
  (CanonRaw2, "image", "cr2"),
  (CanonRaw3, "image", "cr3"),
  (Cineon, "image", "cin"),
  (DigitalPictureExchange, "image", "dpx"),
  (EncapsulatedPostscript, "image", "eps"),
  (EnhancedMetafile, "image", "emf"),
  (ExperimentalComputingFacility, "image", "xcf"),
  (Farbfeld, "image", "ff"),
  (FigmaDesign, "image", "fig"),
  (FreeLosslessImageFormat, "image", "flif"),
  (FujifilmRaw, "image", "raf"),
  (GraphicsInterchangeFormat, "image", "gif"),
  (HighEfficiencyImageCoding, "image", "heic"),
  (HighEfficiencyImageCodingSequence, "image", "heics"),
  (HighEfficiencyImageFileFormat, "image", "heif"),
  (HighEfficiencyImageFileFormatSequence, "image", "heifs"),
  (JointPhotographicExpertsGroup, "image", "jpg"),
  (Jpeg2000Codestream, "image", "j2c"),
  (Jpeg2000Part1, "image", "jp2"),
  (Jpeg2000Part2, "image", "jpx"),
  (Jpeg2000Part6, "image", "jpm"),
  (JpegExtendedRange, "image", "jxr"),
  (JpegLs, "image", "jls"),
  (JpegNetworkGraphics, "image", "jng"),
  (JpegXl, "image", "jxl"),
  (KhronosTexture, "image", "ktx"),
  (KhronosTexture2, "image", "ktx2"),
  (MagickImageFileFormat, "image", "miff"),
  (MicrosoftDirectdrawSurface, "image", "dds"),
  (MultipleImageNetworkGraphics, "image", "mng"),
  (NikonElectronicFile, "image", "nef"),
  (OlympusRawFormat, "image", "orf"),
  (OpendocumentGraphics, "image", "odg"),
  (OpendocumentGraphicsTemplate, "image", "otg"),
  (Openexr, "image", "exr"),
  (Openraster, "image", "ora"),
  (PanasonicRaw, "image", "rw2"),
  (PictureExchange, "image", "pcx"),
  (PortableArbitraryMap, "image", "pam"),
  (PortableBitmap, "image", "pbm"),
  (PortableFloatmap, "image", "pfm"),
  (PortableGraymap, "image", "pgm"),
  (PortableNetworkGraphics, "image", "png"),
  (PortablePixmap, "image", "ppm"),
  (QuiteOkImage, "image", "qoi"),
  (RadianceHdr, "image", "hdr"),
  (ScalableVectorGraphics, "image", "svg"),
  (SiliconGraphicsImage, "image", "sgi"),
  (Sketch, "image", "sketch"),
  (Sketch43, "image", "sketch"),
  (Stardraw, "image", "sda"),
  (SunXmlDraw, "image", "sxd"),
  (SunXmlDrawTemplate, "image", "std"),
  (TagImageFileFormat, "image", "tiff"),
  (Webp, "image", "webp"),
  (WindowsAnimatedCursor, "image", "ani"),
  (WindowsBitmap, "image", "bmp"),
  (WindowsCursor, "image", "cur"),
  (WindowsIcon, "image", "ico"),
  (WindowsMetafile, "image", "wmf"),
  (WordperfectGraphics, "image", "wpg"),
  (XPixmap, "image", "xpm"),
  (AndroidBinaryXml, "metadata", "xml"),
  (Bittorrent, "metadata", "torrent"),
  (CdAudio, "metadata", "cda"),
  (Id3v2, "metadata", "id3"),
  (MacosAlias, "metadata", "alias"),
  (MetaInformationEncapsulation, "metadata", "mie"),
  (Tasty, "metadata", "tasty"),
  (WindowsShortcut, "metadata", "lnk"),
  (AdditiveManufacturingFormat, "model", "amf"),
  (AutocadDrawing, "model", "dwg"),
  (Autodesk123d, "model", "123dx"),
  (AutodeskAlias, "model", "wire"),
  (AutodeskInventorAssembly, "model", "iam"),
  (AutodeskInventorDrawing, "model", "idw"),
  (AutodeskInventorPart, "model", "ipt"),
  (AutodeskInventorPresentation, "model", "ipn"),
  (Blender, "model", "blend"),
  (Cinema4d, "model", "c4d"),
  (CollaborativeDesignActivity, "model", "dae"),
  (DesignWebFormat, "model", "dwf"),
  (DesignWebFormatXps, "model", "dwfx"),
  (DrawingExchangeFormatAscii, "model", "dxf"),
  (DrawingExchangeFormatBinary, "model", "dxf"),
  (Extensible3d, "model", "x3d"),
  (Filmbox, "model", "fbx"),
  (Fusion360, "model", "f3d"),
  (GlTransmissionFormatBinary, "model", "glb"),
  (GoogleDraco, "model", "drc"),
  (InitialGraphicsExchangeSpecification, "model", "iges"),
  (InterQuakeExport, "model", "iqe"),
  (InterQuakeModel, "model", "iqm"),
  (Magicavoxel, "model", "vox"),
  (MayaAscii, "model", "ma"),
  (MayaBinary, "model", "mb"),
  (Model3dAscii, "model", "a3d"),
  (Model3dBinary, "model", "m3d"),
  (Opennurbs, "model", "3dm"),
  (PolygonAscii, "model", "ply"),
  (PolygonBinary, "model", "ply"),
  (Sketchup, "model", "skp"),
  (SolidworksAssembly, "model", "sldasm"),
  (SolidworksDrawing, "model", "slddrw"),
  (SolidworksPart, "model", "sldprt"),
  (SpaceclaimDocument, "model", "scdoc"),
  (StandardForTheExchangeOfProductModelData, "model", "step"),
  (StereolithographyAscii, "model", "stl"),
  (ThreeDimensionalManufacturingFormat, "model", "3mf"),
  (ThreeDimensionalStudio, "model", "3ds"),
  (ThreeDimensionalStudioMax, "model", "max"),
  (Universal3d, "model", "u3d"),
  (UniversalSceneDescriptionAscii, "model", "usda"),
  (UniversalSceneDescriptionBinary, "model", "usdc"),
  (UniversalSceneDescriptionZip, "model", "usdz"),
  (VirtualRealityModelingLanguage, "model", "wrl"),
  (Activemime, "other", "mso"),
  (AdvancedSystemsFormat, "other", "asf"),
  (AgeEncryption, "other", "age"),
  (AndroidResourceStorageContainer, "other", "arsc"),
  (ApacheArrowColumnar, "other", "arrow"),
  (ApacheAvro, "other", "avro"),
  (ApacheParquet, "other", "parquet"),
  (ArbitraryBinaryData, "other", "bin"),
  (Atom, "other", "atom"),
  (ClojureScript, "other", "clj"),
  (CompoundFileBinary, "other", "cfb"),
  (DerCertificate, "other", "der"),
  (DigitalImagingAndCommunicationsInMedicine, "other", "dcm"),
  (Empty, "other", "empty"),
  (ExtensibleBinaryMetaLanguage, "other", "ebml"),
  (ExtensibleMarkupLanguage, "other", "xml"),
  (ExtensibleStylesheetLanguageTransformations, "other", "xsl"),
  (FlashCs5Project, "other", "fla"),
  (FlashProject, "other", "fla"),
  (FlexibleImageTransportSystem, "other", "fits"),
  (GettextMachineObject, "other", "mo"),
  (HypertextMarkupLanguage, "other", "html"),
  (Icalendar, "other", "ics"),
  (IccProfile, "other", "icc"),
  (JavaKeystore, "other", "jks"),
  (JsonFeed, "other", "json"),
  (LuaScript, "other", "lua"),
  (MicrosoftCompiledHtmlHelp, "other", "chm"),
  (MicrosoftProjectPlan, "other", "mpp"),
  (MicrosoftVisualStudioSolution, "other", "sln"),
  (Mpeg4Part14, "other", "mp4"),
  (MsDosBatch, "other", "bat"),
  (Musicxml, "other", "musicxml"),
  (MusicxmlZip, "other", "mxl"),
  (OggMultiplexedMedia, "other", "ogx"),
  (PcapDump, "other", "pcap"),
  (PcapNextGenerationDump, "other", "pcapng"),
  (PemCertificate, "other", "crt"),
  (PemCertificateSigningRequest, "other", "csr"),
  (PemPrivateKey, "other", "key"),
  (PemPublicKey, "other", "pub"),
  (PerlScript, "other", "pl"),
  (PersonalStorageTable, "other", "pst"),
  (PgpMessage, "other", "asc"),
  (PgpPrivateKeyBlock, "other", "asc"),
  (PgpPublicKeyBlock, "other", "asc"),
  (PgpSignature, "other", "asc"),
  (PgpSignedMessage, "other", "asc"),
  (PlainText, "other", "txt"),
  (PythonScript, "other", "py"),
  (ReallySimpleSyndication, "other", "rss"),
  (Realmedia, "other", "rm"),
  (RubyScript, "other", "rb"),
  (ShellScript, "other", "sh"),
  (SimpleObjectAccessProtocol, "other", "soap"),
  (SmallWebFormat, "other", "swf"),
  (TiledMapXml, "other", "tmx"),
  (TiledTilesetXml, "other", "tsx"),
  (ToolCommandLanguageScript, "other", "tcl"),
  (Vcalendar, "other", "vcs"),
  (Vcard, "other", "vcf"),
  (WebassemblyText, "other", "wat"),
  (WordperfectMacro, "other", "wpm"),
  (XmlLocalizationInterchangeFileFormat, "other", "xlf"),
  (AdobeIntegratedRuntime, "package", "air"),
  (AndroidAppBundle, "package", "aab"),
  (AndroidPackage, "package", "apk"),
  (Appimage, "package", "AppImage"),
  (DebianPackage, "package", "deb"),
  (EnterpriseApplicationArchive, "package", "ear"),
  (GoogleChromeExtension, "package", "crx"),
  (IosAppStorePackage, "package", "ipa"),
  (JavaArchive, "package", "jar"),
  (MicrosoftSoftwareInstaller, "package", "msi"),
  (MicrosoftVisualStudioExtension, "package", "vsix"),
  (NintendoSwitchPackage, "package", "nsp"),
  (RedHatPackageManager, "package", "rpm"),
  (WebApplicationArchive, "package", "war"),
  (WindowsAppBundle, "package", "appxbundle"),
  (WindowsAppPackage, "package", "appx"),
  (Xap, "package", "xap"),
  (Xpinstall, "package", "xpi"),
  (AdvancedStreamRedirector, "playlist", "asx"),
  (Mp3Url, "playlist", "m3u"),
  (MpegDashMpd, "playlist", "mpd"),
  (ShoutcastPlaylist, "playlist", "pls"),
  (WindowsMediaPlaylist, "playlist", "wpl"),
  (XmlShareablePlaylistFormat, "playlist", "xspf"),
  (CorelPresentations, "presentation", "shw"),
  (CorelPresentations7, "presentation", "shw"),
  (MicrosoftPowerpointPresentation, "presentation", "ppt"),
  (OfficeOpenXmlPresentation, "presentation", "pptx"),
  (OpendocumentPresentation, "presentation", "odp"),
  (OpendocumentPresentationTemplate, "presentation", "otp"),
  (Starimpress, "presentation", "sdd"),
  (SunXmlImpress, "presentation", "sxi"),
  (SunXmlImpressTemplate, "presentation", "sti"),
  (UniformOfficeFormatPresentation, "presentation", "uop"),
  (WordperfectPresentations, "presentation", "shw"),
  (Atari7800Rom, "rom", "a78"),
  (Commodore64Cartridge, "rom", "crt"),
  (GameBoyAdvanceRom, "rom", "gba"),
  (GameBoyColorRom, "rom", "gbc"),
  (GameBoyRom, "rom", "gb"),
  (GameGearRom, "rom", "gg"),
  (MegaDriveRom, "rom", "md"),
  (NeoGeoPocketColorRom, "rom", "ngc"),
  (NeoGeoPocketRom, "rom", "ngp"),
  (Nintendo64Rom, "rom", "z64"),
  (NintendoDsRom, "rom", "nds"),
  (NintendoEntertainmentSystemRom, "rom", "nes"),
  (NintendoSwitchRom, "rom", "xci"),
  (SegaMasterSystemRom, "rom", "sms"),
  (MicrosoftExcelSpreadsheet, "spreadsheet", "xls"),
  (MicrosoftWorks6Spreadsheet, "spreadsheet", "xlr"),
  (MicrosoftWorksSpreadsheet, "spreadsheet", "wks"),
  (OfficeOpenXmlSpreadsheet, "spreadsheet", "xlsx"),
  (OpendocumentSpreadsheet, "spreadsheet", "ods"),
  (OpendocumentSpreadsheetTemplate, "spreadsheet", "ots"),
  (Starcalc, "spreadsheet", "sdc"),
  (SunXmlCalc, "spreadsheet", "sxc"),
  (SunXmlCalcTemplate, "spreadsheet", "stc"),
  (UniformOfficeFormatSpreadsheet, "spreadsheet", "uos"),
  (MatroskaSubtitles, "subtitle", "mks"),
  (Mpeg4Part14Subtitles, "subtitle", "mp4"),
  (SubripText, "subtitle", "srt"),
  (TimedTextMarkupLanguage, "subtitle", "ttml"),
  (UniversalSubtitleFormat, "subtitle", "usf"),
  (WebVideoTextTracks, "subtitle", "vtt"),
  (ActionsMediaVideo, "video", "amv"),
  (AppleItunesVideo, "video", "m4v"),
  (AppleQuicktime, "video", "mov"),
  (AudioVideoInterleave, "video", "avi"),
  (AutodeskAnimator, "video", "fli"),
  (AutodeskAnimatorPro, "video", "flc"),
  (BdavMpeg2TransportStream, "video", "m2ts"),
  (FlashMp4ProtectedVideo, "video", "f4p"),
  (FlashMp4Video, "video", "f4v"),
  (FlashVideo, "video", "flv"),
  (Jpeg2000Part3, "video", "mj2"),
  (MaterialExchangeFormat, "video", "mxf"),
  (Matroska3dVideo, "video", "mk3d"),
  (MatroskaVideo, "video", "mkv"),
  (MicrosoftDigitalVideoRecording, "video", "dvr-ms"),
  (Mpeg12Video, "video", "mpg"),
  (Mpeg2TransportStream, "video", "ts"),
  (Mpeg4Part14Video, "video", "mp4"),
  (Mtv, "video", "mtv"),
  (OggMedia, "video", "ogm"),
  (OggTheora, "video", "ogv"),
  (Realvideo, "video", "rv"),
  (SiliconGraphicsMovie, "video", "sgi"),
  (SonyMovie, "video", "mqv"),
  (ThirdGenerationPartnershipProject, "video", "3gp"),
  (ThirdGenerationPartnershipProject2, "video", "3g2"),
  (Webm, "video", "webm"),
  (WindowsMediaVideo, "video", "wmv"),
  (WindowsRecordedTvShow, "video", "wtv")]

/-- The directory with the sample files of a kind (`fixtures/`). -/
def kindDirectory : Kind → String
  | .Archive => "archive"
  | .Audio => "audio"
  | .Compressed => "compressed"
  | .Database => "database"
  | .Diagram => "diagram"
  | .Disk => "disk"
  | .Document => "document"
  | .Ebook => "ebook"
  | .Executable => "executable"
  | .Font => "font"
  | .Formula => "formula"
  | .Geospatial => "geospatial"
  | .Image => "image"
  | .Metadata => "metadata"
  | .Model => "model"
  | .Other => "other"
  | .Package => "package"
  | .Playlist => "playlist"
  | .Presentation => "presentation"
  | .Rom => "rom"
  | .Spreadsheet => "spreadsheet"
  | .Subtitle => "subtitle"
  | .Video => "video"

end FF.Spec
