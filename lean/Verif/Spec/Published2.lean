import Verif.Spec.Published
/-!
# More published magic numbers, in families

Written from the public descriptions of the formats, as in `Spec.Published`.
-/

namespace FF.Spec
open FileFormat

/-- The UTF-8 byte order mark. -/
def mark : Bytes := b!"\xef\xbb\xbf"

/-- What an XML document of each vocabulary begins with when it has no XML declaration. -/
def xmlBeginnings : List (FileFormat × Bytes) := [
  (Abiword, b!"<abiword template=\"false\""),
  (AbiwordTemplate, b!"<abiword template=\"true\""),
  (AdditiveManufacturingFormat, b!"<amf"),
  (AdvancedStreamRedirector, b!"<ASX"),
  (AdvancedStreamRedirector, b!"<asx"),
  (Atom, b!"<feed"),
  (CollaborativeDesignActivity, b!"<COLLADA"),
  (CollaborativeDesignActivity, b!"<collada"),
  (Drawio, b!"<mxfile"),
  (Extensible3d, b!"<X3D"),
  (Extensible3d, b!"<x3d"),
  (Extensible3d, b!"<!DOCTYPE X3D PUBLIC"),
  (ExtensibleMarkupLanguage, b!"<?xml"),
  (ExtensibleStylesheetLanguageTransformations, b!"<xsl"),
  (Fictionbook, b!"<FictionBook"),
  (GeographyMarkupLanguage, b!"<gml"),
  (GpsExchangeFormat, b!"<gpx"),
  (HypertextMarkupLanguage, b!"<!DOCTYPE HTML"),
  (HypertextMarkupLanguage, b!"<!DOCTYPE html"),
  (HypertextMarkupLanguage, b!"<!doctype HTML"),
  (HypertextMarkupLanguage, b!"<!doctype html"),
  (KeyholeMarkupLanguage, b!"<kml"),
  (MathematicalMarkupLanguage, b!"<math"),
  (MathematicalMarkupLanguage, b!"<!DOCTYPE math PUBLIC"),
  (MpegDashMpd, b!"<MPD"),
  (Musicxml, b!"<score-partwise"),
  (ReallySimpleSyndication, b!"<rss"),
  (ScalableVectorGraphics, b!"<SVG"),
  (ScalableVectorGraphics, b!"<svg"),
  (SimpleObjectAccessProtocol, b!"<soap"),
  (TiledMapXml, b!"<map"),
  (TiledTilesetXml, b!"<tileset"),
  (TimedTextMarkupLanguage, b!"<tt xmlns=\"http://www.w3.org/ns/ttml\""),
  (TrainingCenterXml, b!"<TrainingCenterDatabase"),
  (UniversalSubtitleFormat, b!"<USFSubtitles"),
  (XmlLocalizationInterchangeFileFormat, b!"<xliff"),
  (XmlShareablePlaylistFormat, b!"<playlist")]

/-- XML documents, with and without a byte order mark. -/
def publishedXml : List Published :=
  xmlBeginnings.map (fun x => (x.1, [(0, x.2)])) ++ xmlBeginnings.map (fun x => (x.1, [(0, mark ++ x.2)]))

/-- Interpreters named in the first line of a script. -/
def shebangs : List (FileFormat × List Bytes) := [
  (ClojureScript, [b!"/usr/local/bin/clojure", b!"/usr/bin/env clojure", b!"/usr/local/bin/clj", b!"/usr/bin/clojure",
    b!"/usr/bin/env clj", b!"/usr/bin/clj"]),
  (LuaScript, [b!"/usr/local/bin/lua", b!"/usr/bin/env lua", b!"/usr/bin/lua"]),
  (PerlScript, [b!"/usr/bin/env perl", b!"/usr/bin/perl"]),
  (PythonScript, [b!"/usr/local/bin/python", b!"/usr/bin/env python", b!"/usr/bin/python"]),
  (RubyScript, [b!"/usr/local/bin/ruby", b!"/usr/bin/env ruby", b!"/usr/bin/ruby"]),
  (ShellScript, [b!"/bin/sh", b!"/bin/bash", b!"/bin/tcsh", b!"/bin/ash", b!"/bin/csh", b!"/bin/ksh", b!"/bin/zsh",
    b!"/usr/bin/bash", b!"/usr/bin/fish", b!"/usr/bin/tcsh", b!"/usr/bin/zsh",
    b!"/usr/local/bin/bash", b!"/usr/local/bin/fish", b!"/usr/local/bin/tcsh", b!"/usr/local/bin/ash",
    b!"/usr/local/bin/zsh", b!"/usr/local/bash", b!"/usr/local/tcsh",
    b!"/usr/bin/env bash", b!"/usr/bin/env fish", b!"/usr/bin/env zsh"]),
  (ToolCommandLanguageScript, [b!"/usr/local/bin/tclsh", b!"/usr/local/bin/wish", b!"/usr/local/bin/tcl",
    b!"/usr/bin/env tclsh", b!"/usr/bin/env wish", b!"/usr/bin/env tcl", b!"/usr/bin/tclsh", b!"/usr/bin/wish",
    b!"/usr/bin/tcl"])]

def publishedScripts : List Published :=
  shebangs.flatMap fun x => x.2.map fun path => (x.1, [(0, b!"#!" ++ path)])

/-- Major brands of ISO base media files (registered at mp4ra.org). -/
def brands : List (FileFormat × List Bytes) := [
  (HighEfficiencyImageCodingSequence, [b!"hevc", b!"hevx"]),
  (HighEfficiencyImageFileFormat, [b!"mif1", b!"heim", b!"heis"]),
  (HighEfficiencyImageFileFormatSequence, [b!"msf1", b!"hevm", b!"hevs", b!"avcs"]),
  (Mpeg4Part14, [b!"ARRI", b!"MSNV", b!"NDAS", b!"NDSC", b!"NDSH", b!"NDSM", b!"NDSP", b!"NDSS", b!"NDXC", b!"NDXH",
    b!"NDXM", b!"NDXP", b!"NDXS", b!"XAVC", b!"iso3", b!"iso4", b!"iso5", b!"iso6", b!"mmp4", b!"mobi", b!"mp21",
    b!"mp41", b!"mp4v", b!"mp71"]),
  (ThirdGenerationPartnershipProject2, [b!"KDDI", b!"3g2a", b!"3g2b", b!"3g2c"]),
  (ThirdGenerationPartnershipProject, [b!"3ge6", b!"3ge7", b!"3ge9", b!"3gf9", b!"3gg6", b!"3gg9", b!"3gh9", b!"3gm9",
    b!"3gp4", b!"3gp5", b!"3gp6", b!"3gp7", b!"3gp8", b!"3gp9", b!"3gr6", b!"3gr9", b!"3gs6", b!"3gs9", b!"3gt8",
    b!"3gt9"]),
  (FlashMp4Audiobook, [b!"F4B "]),
  (FlashMp4ProtectedVideo, [b!"F4P "]),
  (SonyMovie, [b!"mqt "])]

def publishedBrands : List Published :=
  brands.flatMap fun x => x.2.map fun b => (x.1, [(4, b!"ftyp" ++ b)])

/-- Netpbm images: the magic number and one white space character (blank, tab, CR or LF). -/
def publishedNetpbm : List Published :=
  [(PortableBitmap, b!"P1"), (PortableGraymap, b!"P2"), (PortablePixmap, b!"P3"), (PortableBitmap, b!"P4"),
   (PortableGraymap, b!"P5"), (PortablePixmap, b!"P6"), (PortableFloatmap, b!"PF"), (PortableFloatmap, b!"Pf"),
   (PortableArbitraryMap, b!"P7")].flatMap fun x => [b!" ", b!"\t", b!"\r", b!"\n"].map fun w => (x.1, [(0, x.2 ++ w)])

/-- Archives of the LHA family: the compression method between dashes. -/
def publishedMethods : List Published :=
  [(Lha, b!"lh0"), (Lha, b!"lh1"), (Lha, b!"lh2"), (Lha, b!"lh3"), (Lha, b!"lh4"), (Lha, b!"lh5"), (Lha, b!"lh6"),
   (Lha, b!"lh7"), (Lha, b!"lh8"), (Lha, b!"lhd"), (Larc, b!"lz2"), (Larc, b!"lz3"), (Larc, b!"lz4"), (Larc, b!"lz5"),
   (Larc, b!"lz7"), (Larc, b!"lz8"), (Larc, b!"lzs"), (Pmarc, b!"pc1"), (Pmarc, b!"pm0"), (Pmarc, b!"pm1"),
   (Pmarc, b!"pm2"), (Pmarc, b!"pms")].map fun x => (x.1, [(2, b!"-" ++ x.2 ++ b!"-")])

/-- PEM keys. -/
def publishedPem : List Published :=
  [(PemPrivateKey, b!"ENCRYPTED PRIVATE"), (PemPrivateKey, b!"ECDSA PRIVATE"), (PemPrivateKey, b!"DSA PRIVATE"),
   (PemPrivateKey, b!"RSA PRIVATE"), (PemPrivateKey, b!"EC PRIVATE"), (PemPublicKey, b!"ECDSA PUBLIC"),
   (PemPublicKey, b!"DSA PUBLIC"), (PemPublicKey, b!"RSA PUBLIC"), (PemPublicKey, b!"EC PUBLIC")].map
    fun x => (x.1, [(0, b!"-----BEGIN " ++ x.2 ++ b!" KEY-----")])

/-- PC Paintbrush: version 0, 2, 3, 4 or 5, plain or run-length encoded; the byte at 64 is reserved. -/
def publishedPcx : List Published :=
  [0, 2, 3, 4, 5].flatMap fun (v : UInt8) => [0, 1].map fun (e : UInt8) => (PictureExchange, [(0, [10, v, e]), (64, [0])])

/-- Text formats with either line ending. -/
def publishedLines : List Published :=
  [b!"\n", b!"\r\n", b!"\r"].flatMap fun nl => [
    (PolygonBinary, [(0, b!"ply" ++ nl ++ b!"format binary_little_endian")]),
    (PolygonBinary, [(0, b!"ply" ++ nl ++ b!"format binary_big_endian")]),
    (PolygonAscii, [(0, b!"ply" ++ nl ++ b!"format ascii")]),
    (Vcalendar, [(0, b!"BEGIN:VCALENDAR" ++ nl ++ b!"VERSION:1.0")]),
    (ShoutcastPlaylist, [(0, b!"[playlist]" ++ nl)]),
    (Glyphs, [(0, b!"{" ++ nl ++ b!".appVersion = \"")]),
    (InitialGraphicsExchangeSpecification, [(72, b!"S      1" ++ nl)]),
    (InitialGraphicsExchangeSpecification, [(72, b!"S0000001" ++ nl)]),
    (JsonFeed, [(0, b!"{" ++ nl ++ b!"  \"version\": \"https://jsonfeed.org/version/")]),
    (JsonFeed, [(0, b!"{" ++ nl ++ b!"    \"version\": \"https://jsonfeed.org/version/")]),
    (JsonFeed, [(0, b!"{" ++ nl ++ b!"\t\"version\": \"https://jsonfeed.org/version/")])]

/-- Sega 8-bit ROMs: "TMR SEGA" at 7FF0, region and size in the last byte of the header. Regions 3 and 4
are Master System, 5 to 7 Game Gear; sizes 32K, 64K, 128K, 256K and 512K. -/
def publishedSega : List Published :=
  [0xc, 0xe, 0xf, 0, 1].flatMap fun (size : UInt8) =>
    [(SegaMasterSystemRom, [(32752, b!"TMR SEGA"), (32767, [0x30 + size])]),
     (SegaMasterSystemRom, [(32752, b!"TMR SEGA"), (32767, [0x40 + size])]),
     (GameGearRom, [(32752, b!"TMR SEGA"), (32767, [0x50 + size])]),
     (GameGearRom, [(32752, b!"TMR SEGA"), (32767, [0x60 + size])]),
     (GameGearRom, [(32752, b!"TMR SEGA"), (32767, [0x70 + size])])]

/-- Other magic numbers. -/
def publishedOther : List Published := [
  (MicrosoftVisualStudioSolution, [(0, b!"\xef\xbb\xbf\r\nMicrosoft Visual Studio Solution File, Format Version ")]),
  (MicrosoftVisualStudioSolution, [(0, b!"\xef\xbb\xbf\nMicrosoft Visual Studio Solution File, Format Version ")]),
  (MicrosoftVisualStudioSolution, [(0, b!"Microsoft Visual Studio Solution File, Format Version ")]),
  (JsonFeed, [(0, b!"{\"version\":\"https://jsonfeed.org/version/")]),
  (MicrosoftReader, [(0, b!"ITOLITLS\x01\x00\x00\x00(\x00\x00\x00"),
    (24, b!"\xc1\x07\x90\nv@\xd3\x11\x87\x89\x00\x00\xf8\x10WT")]),
  (NeoGeoPocketColorRom, [(0, b!" LICENSED BY SNK CORPORATION"), (35, b!"\x10")]),
  (NeoGeoPocketColorRom, [(0, b!"COPYRIGHT BY SNK CORPORATION"), (35, b!"\x10")]),
  (NeoGeoPocketRom, [(0, b!" LICENSED BY SNK CORPORATION"), (35, b!"\x00")]),
  (NeoGeoPocketRom, [(0, b!"COPYRIGHT BY SNK CORPORATION"), (35, b!"\x00")]),
  (InterQuakeExport, [(0, b!"# Inter-Quake Export")]),
  (AutodeskAlias, [(0, b!"\x8fStudioPacketFile")]),
  (EncapsulatedPostscript, [(0, b!"\xc5\xd0\xd3\xc6")]),
  (Stuffit, [(0, b!"SIT!"), (10, b!"rLau")]),
  (Stuffit, [(0, b!"StuffIt (c)1997"), (82, b!"\x05")]),
  (VirtualRealityModelingLanguage, [(0, b!"#VRML V1.0 ascii")]),
  (WindowsRecordedTvShow, [(0, b!"\xb7\xd8\x00 7I\xda\x11\xa6N\x00\x07\xe9^\xad\x8d")]),
  (Latex, [(0, b!"\\documentstyle")]),
  (MagickImageFileFormat, [(0, b!"id=ImageMagick")]),
  (WordperfectGraphics, [(0, b!"\xffWPC\x10\x00\x00\x00\x01\x16\x01\x00"), (14, b!"\x00\x00")]),
  (Activemime, [(0, b!"ActiveMime\x00\x00")]),
  (Djvu, [(0, b!"AT&TFORM"), (12, b!"DJVI")]),
  (Djvu, [(0, b!"AT&TFORM"), (12, b!"THUM")]),
  (DrawingExchangeFormatAscii, [(0, b!"  0\r\nSECTION")]),
  (DrawingExchangeFormatAscii, [(0, b!"  0\nSECTION")]),
  (BmfontAscii, [(0, b!"info face=")]),
  (BmfontBinary, [(0, b!"BMF\x03")]),
  (MicrosoftWorksDatabase, [(0, b!" T\x02\x00\x00\x00\x05T\x02\x00")]),
  (MicrosoftWorksSpreadsheet, [(0, b!"\xff\x00\x02\x00\x04\x04\x05T\x02\x00")]),
  (GameBoyColorRom, [(260, b!"\xce\xedff\xcc\r\x00\x0b"), (323, b!"\x80")]),
  (GameBoyColorRom, [(260, b!"\xce\xedff\xcc\r\x00\x0b"), (323, b!"\xc0")]),
  (MsDosBatch, [(0, b!"@ECHO OFF")]),
  (SubripText, [(0, b!"1\r\n00:")]),
  (SubripText, [(0, b!"1\n00:")]),
  (SubripText, [(0, b!"\xef\xbb\xbf1\r\n00:")]),
  (SubripText, [(0, b!"\xef\xbb\xbf1\n00:")]),
  (WebVideoTextTracks, [(0, b!"\xef\xbb\xbfWEBVTT")]),
  (ActionsMediaVideo, [(0, b!"RIFF"), (8, b!"AMV ")]),
  (BroadBandEbook, [(0, b!"L\x00R\x00F\x00\x00\x00")]),
  (MayaBinary, [(0, b!"FOR8"), (16, b!"MAYA")]),
  (Nintendo64Rom, [(0, b!"7\x80@\x12\x00\x00\x0f\x00")]),
  (Nintendo64Rom, [(0, b!"@\x127\x80\x0f\x00\x00\x00")]),
  (Nintendo64Rom, [(0, b!"\x12@\x807\x00\x0f\x00\x00")]),
  (NintendoDsRom, [(192, b!"$\xff\xaeQi\x9a\xa2!")]),
  (NintendoDsRom, [(192, b!"\xc8`O\xe2\x01p\x8f\xe2")]),
  (NintendoSwitchRom, [(256, b!"HEAD"), (269, b!"\xe0")]),
  (NintendoSwitchRom, [(256, b!"HEAD"), (269, b!"\xe1")]),
  (NintendoSwitchRom, [(256, b!"HEAD"), (269, b!"\xe2")]),
  (NintendoSwitchRom, [(256, b!"HEAD"), (269, b!"\xf0")]),
  (NintendoSwitchRom, [(256, b!"HEAD"), (269, b!"\xf8")]),
  (NintendoSwitchRom, [(256, b!"HEAD"), (269, b!"\xfa")]),
  (WindowsImagingFormat, [(0, b!"WLPWM\x00\x00\x00")]),
  (Cinema4d, [(1, b!"C4DC4D6")]),
  (MetaInformationEncapsulation, [(0, b!"~\x10\x04"), (4, b!"0MIE")]),
  (MetaInformationEncapsulation, [(0, b!"~\x18\x04"), (4, b!"0MIE")]),
  (Model3dAscii, [(0, b!"3dmodel")]),
  (Model3dBinary, [(0, b!"3DMO")]),
  (AppleQuicktime, [(4, b!"free")]),
  (AppleQuicktime, [(4, b!"mdat")]),
  (AppleQuicktime, [(4, b!"moov")]),
  (AppleQuicktime, [(4, b!"skip")]),
  (AppleQuicktime, [(4, b!"wide")]),
  (DesignWebFormat, [(0, b!"(DWF V")]),
  (MicrosoftWrite, [(0, b!"2\xbe\x00\x00\x00\xab")]),
  (StereolithographyAscii, [(0, b!"solid ")]),
  (FigletFont, [(0, b!"flf2a")]),
  (VirtualMachineDisk, [(0, b!"COWD\x01")]),
  (VirtualMachineDisk, [(0, b!"KDMV\x02")]),
  (VirtualMachineDisk, [(0, b!"KDMV\x03")]),
  (AdaptableScalableTextureCompression, [(0, b!"\x13\xab\xa1\\")]),
  (AmigaDiskFile, [(0, b!"DOS\x00")]),
  (AmigaDiskFile, [(0, b!"DOS\x01")]),
  (AmigaDiskFile, [(0, b!"DOS\x02")]),
  (AmigaDiskFile, [(0, b!"DOS\x03")]),
  (AmigaDiskFile, [(0, b!"DOS\x04")]),
  (AmigaDiskFile, [(0, b!"DOS\x05")]),
  (AndroidBinaryXml, [(0, b!"\x03\x00\x08\x00")]),
  (AndroidResourceStorageContainer, [(0, b!"\x02\x00\x0c\x00")]),
  (AutocadDrawing, [(0, b!"AC1.")]),
  (AutocadDrawing, [(0, b!"AC2.")]),
  (AutocadDrawing, [(0, b!"MC0.")]),
  (Cabinet, [(0, b!"ISc(")]),
  (Cpio, [(0, b!"070701")]),
  (Cpio, [(0, b!"070702")]),
  (Cpio, [(0, b!"070707")]),
  (Cpio, [(0, b!"\xc7q")]),
  (Cpio, [(0, b!"q\xc7")]),
  (LempelZivFiniteStateEntropy, [(0, b!"bvx-")]),
  (LempelZivFiniteStateEntropy, [(0, b!"bvx1")]),
  (LempelZivFiniteStateEntropy, [(0, b!"bvxn")]),
  (MozillaArchive, [(0, b!"MAR1")]),
  (Realaudio, [(0, b!".ra\xfd")]),
  (TagImageFileFormat, [(0, b!"II+\x00")]),
  (TagImageFileFormat, [(0, b!"MM\x00+")]),
  (WindowsMetafile, [(0, b!"\x01\x00\t\x00")]),
  (WindowsMetafile, [(0, b!"\x02\x00\t\x00")]),
  (Xbox360Executable, [(0, b!"XEX1")]),
  (Zpaq, [(0, b!"zPQ")]),
  (Iso9660, [(34817, b!"CD001")]),
  (Iso9660, [(36865, b!"CD001")]),
  (CommonObjectFileFormat, [(0, b!"\x00\x02")]),
  (CommonObjectFileFormat, [(0, b!"L\x01")]),
  (Mpeg12AudioLayer2, [(0, b!"\xff\xf4")]),
  (Mpeg12AudioLayer2, [(0, b!"\xff\xf5")]),
  (Mpeg12AudioLayer2, [(0, b!"\xff\xfc")]),
  (Mpeg12AudioLayer2, [(0, b!"\xff\xfd")]),
  (Mpeg12AudioLayer3, [(0, b!"\xff\xe2")]),
  (Mpeg12AudioLayer3, [(0, b!"\xff\xe3")]),
  (Mpeg12AudioLayer3, [(0, b!"\xff\xf2")]),
  (Mpeg12AudioLayer3, [(0, b!"\xff\xf3")]),
  (Mpeg12AudioLayer3, [(0, b!"\xff\xfa")]),
  (Mpeg12AudioLayer3, [(0, b!"\xff\xfb")]),
  (MsDosExecutable, [(0, b!"ZM")]),
  (EmbeddedOpentype, [(8, b!"\x00\x00\x01\x00"), (34, b!"LP")]),
  (EmbeddedOpentype, [(8, b!"\x02\x00\x02\x00"), (34, b!"LP")]),
  -- the load address of BASIC programs, and the token of `SYS` in the first line
  (Commodore64Program, [(0, b!"\x01\x08"), (6, b!"\x9e")]),
  -- the main chunk, the version chunk of ten bytes, the editor chunk
  (ThreeDimensionalStudio, [(0, b!"MM"), (6, b!"\x02\x00\n\x00\x00\x00"), (16, b!"==")]),
  (MicrosoftWorksWordProcessor, [(0, b!"\x01\xfe"), (112, b!"\x01\x00")]),
  -- the directory of a raw image has 28 entries, of which NewSubfileType is the first
  (NikonElectronicFile, [(0, b!"II*\x00\x08\x00\x00\x00\x1c\x00\xfe\x00")]),
  -- the file types of WordPerfect: macro
  (WordperfectMacro, [(0, b!"\xffWPC"), (8, b!"\x01\x01")]),
  (MayaBinary, [(0, b!"FOR4"), (8, b!"MAYA")]),
  (MayaBinary, [(0, b!"FOR8"), (16, b!"Maya")]),
  (StuffitX, [(0, b!"StuffIt?")])]

/-- A universal binary with `n` architectures, `n` < 19 (a larger number is the version of a Java class). -/
def publishedFat : List Published :=
  [1, 2, 3, 4, 5, 6, 7, 8, 9, 10, 11, 12, 13, 14, 15, 16, 17, 18].map fun (n : UInt8) =>
    (MachO, [(0, b!"\xca\xfe\xba\xbe"), (4, [0, 0, 0, n])])

/-- All families. -/
def publishedMore : List Published :=
  publishedXml ++ publishedScripts ++ publishedBrands ++ publishedNetpbm ++ publishedMethods ++ publishedPem ++
    publishedPcx ++ publishedLines ++ publishedSega ++ publishedOther ++ publishedFat

/-- Published magic numbers that the table does not have. -/
def publishedMissed : List Published := [
  -- the cookie of a virtual hard disk (the table has `connectix`)
  (MicrosoftVirtualHardDisk, [(0, b!"conectix")]),
  -- ISO/IEC 23008-12: AVC images have the brand `avci` (the table has `avic`)
  (HighEfficiencyImageFileFormat, [(4, b!"ftypavci")]),
  -- ISO/IEC 14496-12: later versions of the base media file format
  (Mpeg4Part14, [(4, b!"ftypiso7")]),
  (Mpeg4Part14, [(4, b!"ftypiso8")]),
  (Mpeg4Part14, [(4, b!"ftypiso9")]),
  -- AmigaOS 3.2: file systems with long names
  (AmigaDiskFile, [(0, b!"DOS\x06")]),
  (AmigaDiskFile, [(0, b!"DOS\x07")]),
  -- the other root element of MusicXML
  (Musicxml, [(0, b!"<score-timewise")]),
  -- HTML without a document type declaration, and with one in another case
  (HypertextMarkupLanguage, [(0, b!"<html>")]),
  (HypertextMarkupLanguage, [(0, b!"<!Doctype html>")]),
  -- shells and interpreters at other usual places
  (ShellScript, [(0, b!"#!/usr/bin/env sh")]),
  (ShellScript, [(0, b!"#!/usr/bin/sh")]),
  (ShellScript, [(0, b!"#!/bin/dash")]),
  (PerlScript, [(0, b!"#!/usr/local/bin/perl")]),
  -- a blank after the two characters
  (ShellScript, [(0, b!"#! /bin/sh")]),
  -- SubRip text with a byte order mark or none, and an hour other than 00
  (SubripText, [(0, b!"1\n01:")]),
  -- the same directory of a raw image in big-endian order (the table has `MM` with little-endian entries)
  (NikonElectronicFile, [(0, b!"MM\x00*\x00\x00\x00\x08\x00\x1c\x00\xfe")]),
  -- the other two byte orders and versions of Olympus raw images
  (OlympusRawFormat, [(0, b!"IIRS\x08\x00\x00\x00")]),
  (OlympusRawFormat, [(0, b!"MMOR\x00\x00\x00\x08")]),
  -- APPNOTE 8.5.3: split and spanned archives
  (Zip, [(0, b!"PK\x07\x08")]),
  -- ISO/IEC 13818-7: ADTS frames with a checksum
  (AdvancedAudioCoding, [(0, b!"\xff\xf0")]),
  (AdvancedAudioCoding, [(0, b!"\xff\xf8")]),
  -- captures with time stamps in nanoseconds
  (PcapDump, [(0, b!"\xa1\xb2<M")]),
  (PcapDump, [(0, b!"M<\xb2\xa1")]),
  -- `mach-o/fat.h`: universal binaries with 64-bit offsets
  (MachO, [(0, b!"\xca\xfe\xba\xbf")]),
  -- TrueType fonts of Apple
  (Truetype, [(0, b!"true\x00")]),
  -- the other program type of Radiance pictures
  (RadianceHdr, [(0, b!"#?RGBE\n")]),
  -- big-endian file systems
  (Squashfs, [(0, b!"sqsh")]),
  -- legacy frames
  (Lz4, [(0, b!"\x02!L\x18")]),
  -- other trackers, and other numbers of channels
  (UltimateSoundtrackerModule, [(1080, b!"M!K!")]),
  (UltimateSoundtrackerModule, [(1080, b!"FLT4")]),
  (UltimateSoundtrackerModule, [(1080, b!"6CHN")]),
  (UltimateSoundtrackerModule, [(1080, b!"8CHN")])]

/-- All published magic numbers. -/
def allPublished : List Published := published ++ publishedMore ++ publishedMissed

/-- A content with the bytes of a magic number, and zeros between them. -/
def sample (k : Published) : Bytes :=
  k.2.foldl (fun b p => b ++ List.replicate (p.1 - b.length) 0 ++ p.2) []

/-- Formats that are reported for less than a published magic number: because the table only compares a part
of it, or because none is known. -/
def looselyRecognised : List FileFormat := [
  Abiword, AbiwordTemplate, AgeEncryption, AppleDiskImage, AppleItunesAudio, AppleItunesAudiobook,
  AppleItunesProtectedAudio, AppleItunesVideo, AppleQuicktime, AutocadDrawing, CanonRaw2, CanonRaw3,
  CorelPresentations, Cpio, DalvikExecutable, EmbeddedOpentype, EncapsulatedPostscript,
  ExperimentalComputingFacility, Fasttracker2ExtendedModule, FlashMp4Audio, FlashMp4Audiobook,
  FlashMp4ProtectedVideo, FlashMp4Video, FujifilmRaw, HighEfficiencyImageFileFormat, Jpeg2000Part1,
  Jpeg2000Part2, Jpeg2000Part3, Jpeg2000Part6, MachO, MicrosoftVirtualHardDisk,
  MicrosoftWorksSpreadsheet, NeoGeoPocketRom, NikonElectronicFile, OggSpeex,
  Postscript, SonyMovie, Stuffit, ThirdGenerationPartnershipProject, ThreeDimensionalStudio,
  TruetypeCollection, UnixArchiver, VirtualMachineDisk, WindowsBitmap, WordperfectDocument, 
  WordperfectPresentations, Zoo]

end FF.Spec
