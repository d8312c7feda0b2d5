import Verif.Spec.Basic
/-!
# Media types and file name extensions

Written from the IANA registry and common usage, not from the source of the crate.
-/

namespace FF.Spec
open FileFormat

/-- Format, media type, extension. -/
def registered : List (FileFormat × String × String) := [
  (PortableNetworkGraphics, "image/png", "png"),
  (AnimatedPortableNetworkGraphics, "image/apng", "apng"),
  (GraphicsInterchangeFormat, "image/gif", "gif"),
  (JointPhotographicExpertsGroup, "image/jpeg", "jpg"),
  (WindowsBitmap, "image/bmp", "bmp"),
  (TagImageFileFormat, "image/tiff", "tiff"),
  (Webp, "image/webp", "webp"),
  (ScalableVectorGraphics, "image/svg+xml", "svg"),
  (WindowsIcon, "image/x-icon", "ico"),
  (Av1ImageFileFormat, "image/avif", "avif"),
  (HighEfficiencyImageCoding, "image/heic", "heic"),
  (HighEfficiencyImageCodingSequence, "image/heic-sequence", "heics"),
  (HighEfficiencyImageFileFormat, "image/heif", "heif"),
  (HighEfficiencyImageFileFormatSequence, "image/heif-sequence", "heifs"),
  (Jpeg2000Part1, "image/jp2", "jp2"),
  (Jpeg2000Part2, "image/jpx", "jpx"),
  (Jpeg2000Part6, "image/jpm", "jpm"),
  (Jpeg2000Part3, "video/mj2", "mj2"),
  (JpegExtendedRange, "image/jxr", "jxr"),
  (JpegLs, "image/jls", "jls"),
  (JpegXl, "image/jxl", "jxl"),
  (KhronosTexture, "image/ktx", "ktx"),
  (KhronosTexture2, "image/ktx2", "ktx2"),
  (AdobePhotoshopDocument, "image/vnd.adobe.photoshop", "psd"),
  (EnhancedMetafile, "image/emf", "emf"),
  (WindowsMetafile, "image/wmf", "wmf"),
  (RadianceHdr, "image/vnd.radiance", "hdr"),
  (FlexibleImageTransportSystem, "application/fits", "fits"),
  (Djvu, "image/vnd.djvu", "djvu"),
  (PortableBitmap, "image/x-portable-bitmap", "pbm"),
  (PortableGraymap, "image/x-portable-graymap", "pgm"),
  (PortablePixmap, "image/x-portable-pixmap", "ppm"),
  (WaveformAudio, "audio/vnd.wave", "wav"),
  (FreeLosslessAudioCodec, "audio/flac", "flac"),
  (Mpeg12AudioLayer3, "audio/mpeg", "mp3"),
  (AdvancedAudioCoding, "audio/aac", "aac"),
  (MusicalInstrumentDigitalInterface, "audio/midi", "mid"),
  (Au, "audio/basic", "au"),
  (AdaptiveMultiRate, "audio/amr", "amr"),
  (AudioCodec3, "audio/ac3", "ac3"),
  (OggVorbis, "audio/ogg", "ogg"),
  (OggFlac, "audio/ogg", "oga"),
  (OggSpeex, "audio/ogg", "spx"),
  (OggTheora, "video/ogg", "ogv"),
  (OggMultiplexedMedia, "application/ogg", "ogx"),
  (Mpeg4Part14Video, "video/mp4", "mp4"),
  (Mpeg4Part14Audio, "audio/mp4", "mp4"),
  (Mpeg4Part14Subtitles, "application/mp4", "mp4"),
  (AppleQuicktime, "video/quicktime", "mov"),
  (AudioVideoInterleave, "video/avi", "avi"),
  (MatroskaVideo, "video/matroska", "mkv"),
  (MatroskaAudio, "audio/matroska", "mka"),
  (Webm, "video/webm", "webm"),
  (FlashVideo, "video/x-flv", "flv"),
  (WindowsMediaVideo, "video/x-ms-wmv", "wmv"),
  (WindowsMediaAudio, "audio/x-ms-wma", "wma"),
  (AdvancedSystemsFormat, "application/vnd.ms-asf", "asf"),
  (Mpeg12Video, "video/mpeg", "mpg"),
  (Mpeg2TransportStream, "video/mp2t", "ts"),
  (ThirdGenerationPartnershipProject, "video/3gpp", "3gp"),
  (ThirdGenerationPartnershipProject2, "video/3gpp2", "3g2"),
  (MaterialExchangeFormat, "application/mxf", "mxf"),
  (Realmedia, "application/vnd.rn-realmedia", "rm"),
  (Zip, "application/zip", "zip"),
  (Gzip, "application/gzip", "gz"),
  (Bzip2, "application/x-bzip2", "bz2"),
  (Xz, "application/x-xz", "xz"),
  (Zstandard, "application/zstd", "zst"),
  (Lz4, "application/x-lz4", "lz4"),
  (SevenZip, "application/x-7z-compressed", "7z"),
  (RoshalArchive, "application/vnd.rar", "rar"),
  (TapeArchive, "application/x-tar", "tar"),
  (Cabinet, "application/vnd.ms-cab-compressed", "cab"),
  (Cpio, "application/x-cpio", "cpio"),
  (DebianPackage, "application/vnd.debian.binary-package", "deb"),
  (RedHatPackageManager, "application/x-rpm", "rpm"),
  (AndroidPackage, "application/vnd.android.package-archive", "apk"),
  (JavaArchive, "application/java-archive", "jar"),
  (GoogleChromeExtension, "application/x-google-chrome-extension", "crx"),
  (Iso9660, "application/x-iso9660-image", "iso"),
  (AppleDiskImage, "application/x-apple-diskimage", "dmg"),
  (PortableDocumentFormat, "application/pdf", "pdf"),
  (Postscript, "application/postscript", "ps"),
  (RichTextFormat, "application/rtf", "rtf"),
  (HypertextMarkupLanguage, "text/html", "html"),
  (ExtensibleMarkupLanguage, "text/xml", "xml"),
  (PlainText, "text/plain", "txt"),
  (ArbitraryBinaryData, "application/octet-stream", "bin"),
  (ElectronicPublication, "application/epub+zip", "epub"),
  (OpendocumentText, "application/vnd.oasis.opendocument.text", "odt"),
  (OpendocumentTextTemplate, "application/vnd.oasis.opendocument.text-template", "ott"),
  (OpendocumentTextMaster, "application/vnd.oasis.opendocument.text-master", "odm"),
  (OpendocumentSpreadsheet, "application/vnd.oasis.opendocument.spreadsheet", "ods"),
  (OpendocumentSpreadsheetTemplate, "application/vnd.oasis.opendocument.spreadsheet-template", "ots"),
  (OpendocumentPresentation, "application/vnd.oasis.opendocument.presentation", "odp"),
  (OpendocumentPresentationTemplate, "application/vnd.oasis.opendocument.presentation-template", "otp"),
  (OpendocumentGraphics, "application/vnd.oasis.opendocument.graphics", "odg"),
  (OpendocumentGraphicsTemplate, "application/vnd.oasis.opendocument.graphics-template", "otg"),
  (OpendocumentFormula, "application/vnd.oasis.opendocument.formula", "odf"),
  (OpendocumentFormulaTemplate, "application/vnd.oasis.opendocument.formula-template", "otf"),
  (OpendocumentDatabase, "application/vnd.oasis.opendocument.database", "odb"),
  (OfficeOpenXmlDocument, "application/vnd.openxmlformats-officedocument.wordprocessingml.document", "docx"),
  (OfficeOpenXmlSpreadsheet, "application/vnd.openxmlformats-officedocument.spreadsheetml.sheet", "xlsx"),
  (OfficeOpenXmlPresentation, "application/vnd.openxmlformats-officedocument.presentationml.presentation", "pptx"),
  (MicrosoftWordDocument, "application/msword", "doc"),
  (MicrosoftExcelSpreadsheet, "application/vnd.ms-excel", "xls"),
  (MicrosoftPowerpointPresentation, "application/vnd.ms-powerpoint", "ppt"),
  (MicrosoftVisioDrawing, "application/vnd.visio", "vsd"),
  (MicrosoftProjectPlan, "application/vnd.ms-project", "mpp"),
  (MicrosoftCompiledHtmlHelp, "application/vnd.ms-htmlhelp", "chm"),
  (SunXmlWriter, "application/vnd.sun.xml.writer", "sxw"),
  (SunXmlCalc, "application/vnd.sun.xml.calc", "sxc"),
  (SunXmlImpress, "application/vnd.sun.xml.impress", "sxi"),
  (SunXmlDraw, "application/vnd.sun.xml.draw", "sxd"),
  (SunXmlMath, "application/vnd.sun.xml.math", "sxm"),
  (Sqlite3, "application/vnd.sqlite3", "sqlite"),
  (WebassemblyBinary, "application/wasm", "wasm"),
  (ExecutableAndLinkableFormat, "application/x-executable", "elf"),
  (PortableExecutable, "application/vnd.microsoft.portable-executable", "exe"),
  (JavaClass, "application/java-vm", "class"),
  (Truetype, "font/ttf", "ttf"),
  (Opentype, "font/otf", "otf"),
  (TruetypeCollection, "font/collection", "ttc"),
  (WebOpenFontFormat, "font/woff", "woff"),
  (WebOpenFontFormat2, "font/woff2", "woff2"),
  (EmbeddedOpentype, "application/vnd.ms-fontobject", "eot"),
  (GlTransmissionFormatBinary, "model/gltf-binary", "glb"),
  (StandardForTheExchangeOfProductModelData, "model/step", "step"),
  (VirtualRealityModelingLanguage, "model/vrml", "wrl"),
  (UniversalSceneDescriptionZip, "model/vnd.usdz+zip", "usdz"),
  (Universal3d, "model/u3d", "u3d"),
  (Atom, "application/atom+xml", "atom"),
  (ReallySimpleSyndication, "application/rss+xml", "rss"),
  (GpsExchangeFormat, "application/gpx+xml", "gpx"),
  (GeographyMarkupLanguage, "application/gml+xml", "gml"),
  (KeyholeMarkupLanguage, "application/vnd.google-earth.kml+xml", "kml"),
  (KeyholeMarkupLanguageZip, "application/vnd.google-earth.kmz", "kmz"),
  (TimedTextMarkupLanguage, "application/ttml+xml", "ttml"),
  (MpegDashMpd, "application/dash+xml", "mpd"),
  (SimpleObjectAccessProtocol, "application/soap+xml", "soap"),
  (ExtensibleStylesheetLanguageTransformations, "application/xslt+xml", "xsl"),
  (XmlLocalizationInterchangeFileFormat, "application/xliff+xml", "xlf"),
  (XmlShareablePlaylistFormat, "application/xspf+xml", "xspf"),
  (JsonFeed, "application/feed+json", "json"),
  (Musicxml, "application/vnd.recordare.musicxml+xml", "musicxml"),
  (MusicxmlZip, "application/vnd.recordare.musicxml", "mxl"),
  (Vcard, "text/vcard", "vcf"),
  (Icalendar, "text/calendar", "ics"),
  (WebVideoTextTracks, "text/vtt", "vtt"),
  (Bittorrent, "application/x-bittorrent", "torrent"),
  (PcapDump, "application/vnd.tcpdump.pcap", "pcap"),
  (PgpPublicKeyBlock, "application/pgp-keys", "asc"),
  (DigitalImagingAndCommunicationsInMedicine, "application/dicom", "dcm"),
  (IccProfile, "application/vnd.iccprofile", "icc"),
  (Mobipocket, "application/x-mobipocket-ebook", "mobi"),
  (ShellScript, "text/x-shellscript", "sh"),
  (PerlScript, "text/x-perl", "pl"),
  (RubyScript, "text/x-ruby", "rb"),
  (LuaScript, "text/x-lua", "lua"),
  (ApacheParquet, "application/vnd.apache.parquet", "parquet"),
  (ApacheArrowColumnar, "application/vnd.apache.arrow.file", "arrow"),
  (WindowsShortcut, "application/x-ms-shortcut", "lnk"),
  (DesignWebFormat, "model/vnd.dwf", "dwf"),
  (MicrosoftAccessDatabase, "application/x-msaccess", "mdb"),
  (MicrosoftSoftwareInstaller, "application/x-msi", "msi"),
  (GettextMachineObject, "application/x-gettext-translation", "mo"),
  (Xpinstall, "application/x-xpinstall", "xpi"),
  (Openraster, "image/openraster", "ora"),
  (Blender, "application/x-blender", "blend"),
  (ExperimentalComputingFacility, "image/x-xcf", "xcf"),
  (Openexr, "image/x-exr", "exr"),
  (MicrosoftDirectdrawSurface, "image/vnd.ms-dds", "dds"),
  (QuiteOkImage, "image/x-qoi", "qoi"),
  (DerCertificate, "application/x-x509-ca-cert", "der"),
  (Lzip, "application/x-lzip", "lz"),
  (Lzop, "application/x-lzop", "lzo"),
  (Lha, "application/x-lzh-compressed", "lzh"),
  (Ace, "application/x-ace-compressed", "ace"),
  (Zoo, "application/x-zoo", "zoo"),
  (LempelZivMarkovChainAlgorithm, "application/x-lzma", "lzma")]

/-- The kinds that go with a top-level media type (`application` and `text` go with all). -/
def topLevel (mediaType : String) (k : Kind) : Prop :=
  ("image/".toList <+: mediaType.toList → k = .Image ∨ k = .Document) ∧
  ("audio/".toList <+: mediaType.toList → k = .Audio ∨ k = .Playlist) ∧
  ("video/".toList <+: mediaType.toList → k = .Video ∨ k = .Playlist) ∧
  ("font/".toList <+: mediaType.toList → k = .Font) ∧
  ("model/".toList <+: mediaType.toList → k = .Model)

end FF.Spec
