KD='/-- The directory with the sample files of a kind (`fixtures/`). -/\ndef kindDirectory : Kind → String\n  | .Archive => "archive"\n  | .Audio => "audio"\n  | .Compressed => "compressed"\n  | .Database => "database"\n  | .Diagram => "diagram"\n  | .Disk => "disk"\n  | .Document => "document"\n  | .Ebook => "ebook"\n  | .Executable => "executable"\n  | .Font => "font"\n  | .Formula => "formula"\n  | .Geospatial => "geospatial"\n  | .Image => "image"\n  | .Metadata => "metadata"\n  | .Model => "model"\n  | .Other => "other"\n  | .Package => "package"\n  | .Playlist => "playlist"\n  | .Presentation => "presentation"\n  | .Rom => "rom"\n  | .Spreadsheet => "spreadsheet"\n  | .Subtitle => "subtitle"\n  | .Video => "video"\n\n'
L="""Abiword application/x-abiword abw; AdobeIllustratorArtwork application/vnd.adobe.illustrator ai; AdobeIndesignDocument application/x-indesign indd; AdobeIntegratedRuntime application/vnd.adobe.air-application-installer-package+zip air; AdvancedStreamRedirector video/x-ms-asx asx; Alz application/x-alz-compressed alz; AppleIconImage image/x-icns icns; AppleItunesAudio audio/x-m4a m4a; AppleItunesAudiobook audio/mp4 m4b; AppleItunesProtectedAudio audio/mp4 m4p; AppleItunesVideo video/x-m4v m4v; ArchivedByRobertJung application/x-arj arj; AudioInterchangeFileFormat audio/x-aiff aiff; AutodeskAnimator video/x-fli fli; AutodeskAnimatorPro video/x-flc flc; Appimage application/x-appimage AppImage; BdavMpeg2TransportStream video/mp2t m2ts; BetterPortableGraphics image/bpg bpg; Bzip application/x-bzip bz; Bzip3 application/x-bzip3 bz3; CanonRaw image/x-canon-crw crw; CanonRaw2 image/x-canon-cr2 cr2; CanonRaw3 image/x-canon-cr3 cr3; ClojureScript text/x-clojure clj; CollaborativeDesignActivity model/vnd.collada+xml dae; DigitalPictureExchange image/x-dpx dpx; DynamicLinkLibrary application/vnd.microsoft.portable-executable dll; EnterpriseApplicationArchive application/java-archive ear; WebApplicationArchive application/java-archive war; Extensible3d model/x3d+xml x3d; ExtensibleArchive application/x-xar xar; Fasttracker2ExtendedModule audio/x-xm xm; FlashMp4Audio audio/mp4 f4a; FlashMp4Audiobook audio/mp4 f4b; FlashMp4ProtectedVideo video/mp4 f4p; FlashMp4Video video/mp4 f4v; FreeLosslessImageFormat image/flif flif; FujifilmRaw image/x-fuji-raf raf; GameBoyAdvanceRom application/x-gba-rom gba; GameBoyColorRom application/x-gameboy-color-rom gbc; GameBoyRom application/x-gameboy-rom gb; GameGearRom application/x-gamegear-rom gg; MegaDriveRom application/x-genesis-rom md; Nintendo64Rom application/x-n64-rom z64; NintendoDsRom application/x-nintendo-ds-rom nds; SegaMasterSystemRom application/x-sms-rom sms; ImpulseTrackerModule audio/x-it it; IndesignMarkupLanguage application/vnd.adobe.indesign-idml-package idml; InitialGraphicsExchangeSpecification model/iges iges; IosAppStorePackage application/x-ios-app ipa; JavaKeystore application/x-java-keystore jks; Jpeg2000Codestream image/x-jp2-codestream j2c; JpegNetworkGraphics image/x-jng jng; MultipleImageNetworkGraphics image/x-mng mng; Latex text/x-tex tex; LongRangeZip application/x-lrzip lrz; MathematicalMarkupLanguage application/mathml+xml mathml; Matroska3dVideo video/matroska mk3d; MatroskaSubtitles application/x-matroska mks; MicrosoftAccess2007Database application/x-msaccess accdb; MicrosoftPublisherDocument application/vnd.ms-publisher pub; MicrosoftReader application/x-ms-reader lit; MicrosoftWorksSpreadsheet application/vnd.ms-works wks; MicrosoftWorksWordProcessor application/vnd.ms-works wps; MicrosoftWrite application/x-mswrite wri; MonkeysAudio audio/x-ape ape; Mpeg12AudioLayer2 audio/mpeg mp2; Mpeg4Part14 application/mp4 mp4; Mp3Url audio/x-mpegurl m3u; MsDosExecutable application/x-dosexec exe; Musepack audio/x-musepack mpc; NikonElectronicFile image/x-nikon-nef nef; OggMedia video/ogg ogm; OggOpus audio/opus opus; OlympusRawFormat image/x-olympus-orf orf; OpendocumentTextMasterTemplate application/vnd.oasis.opendocument.text-master-template otm; PanasonicRaw image/x-panasonic-rw2 rw2; PemCertificate application/x-pem-file crt; PersonalStorageTable application/vnd.ms-outlook pst; PgpPrivateKeyBlock application/pgp-keys asc; PgpSignature application/pgp-signature asc; PictureExchange image/x-pcx pcx; PythonScript text/x-script.python py; QualcommPurevoice audio/qcelp qcp; Realaudio audio/x-pn-realaudio ra; Rzip application/x-rzip rz; ScreamTracker3Module audio/x-s3m s3m; ShoutcastPlaylist audio/x-scpls pls; SiliconGraphicsImage image/x-sgi sgi; Sketchup application/vnd.sketchup.skp skp; SmallWebFormat application/x-shockwave-flash swf; Snappy application/x-snappy-framed sz; SonyMovie video/quicktime mqv; Starcalc application/vnd.stardivision.calc sdc; Stardraw application/vnd.stardivision.draw sda; Starimpress application/vnd.stardivision.impress sdd; Starmath application/vnd.stardivision.math smf; Starwriter application/vnd.stardivision.writer sdw; Starchart application/vnd.stardivision.chart sds; Stuffit application/x-stuffit sit; StuffitX application/x-stuffitx sitx; SubripText application/x-subrip srt; SunXmlCalcTemplate application/vnd.sun.xml.calc.template stc; SunXmlDrawTemplate application/vnd.sun.xml.draw.template std; SunXmlImpressTemplate application/vnd.sun.xml.impress.template sti; SunXmlWriterTemplate application/vnd.sun.xml.writer.template stw; ThreeDimensionalStudio application/x-3ds 3ds; ToolCommandLanguageScript text/x-tcl tcl; TrainingCenterXml application/vnd.garmin.tcx+xml tcx; UltimateSoundtrackerModule audio/x-mod mod; UnixArchiver application/x-archive a; UnixCompress application/x-compress Z; Vcalendar text/calendar vcs; VirtualMachineDisk application/x-vmdk vmdk; VirtualboxVirtualDiskImage application/x-virtualbox-vdi vdi; Wavpack audio/wavpack wv; WindowsAnimatedCursor application/x-navi-animation ani; WindowsAppBundle application/vnd.ms-appx.bundle appxbundle; WindowsAppPackage application/vnd.ms-appx appx; WindowsCursor image/x-icon cur; WindowsImagingFormat application/x-ms-wim wim; WindowsMediaPlaylist application/vnd.ms-wpl wpl; WordperfectDocument application/vnd.wordperfect wpd; XPixmap image/x-xpixmap xpm; Xap application/x-silverlight-app xap; Zpaq application/x-zpaq zpaq; QemuCopyOnWrite application/x-qemu-disk qcow; PcapNextGenerationDump application/x-pcapng pcapng; Larc application/x-lzh-compressed lzs; AndroidAppBundle application/vnd.android.aab aab; ApacheAvro application/vnd.apache.avro avro; Fictionbook application/x-fb2+xml fb2; CorelPresentations application/x-corelpresentations shw; CreativeVoice audio/x-voc voc; DesignWebFormatXps model/vnd.dwfx+xps dwfx; EightBitSampledVoice audio/x-8svx 8svx; Realvideo video/x-pn-realvideo rv; Squashfs application/x-squashfs sqsh; WindowsRecordedTvShow video/x-wtv wtv; PortableArbitraryMap image/x-portable-arbitrarymap pam; Shapefile application/x-esri-shape shp; Empty application/x-empty empty"""
ents=[x.split() for x in L.split('; ')]
out='''import Verif.Spec.Registered
/-!
# More media types and extensions

Registered at IANA or in common use (the shared MIME database of freedesktop.org, the `mime.types` of
Apache); written from the list of formats that `Spec.Registered` does not cover. And the sample files of the repository,
generated by `tools/gensamples.py` from `tests/*.rs`: each test reads one file and names its format.
-/

namespace FF.Spec
open FileFormat

/-- Format, media type, extension. -/
def registered2 : List (FileFormat × String × String) := [
'''+',\n'.join(f'  ({a}, "{b}", "{c}")' for a,b,c in ents)+']\n\n'
import re,glob
S=[]
for t in sorted(glob.glob('/repo/tests/*.rs')):
    s=open(t).read()
    for m in re.finditer(r'from_file\("([^"]+)"\)[^;]*;\s*assert_eq!\(fmt, FileFormat::(\w+)\)',s):
        p,f=m.groups(); parts=p.split('/')
        S.append((f,parts[1],parts[-1].split('.',1)[1]))
S=list(dict.fromkeys(S))
out+='/-- Format, directory and extension of a sample file of the test suite (`tests/*.rs`). -/\n'
out+='def sampleFiles : List (FileFormat × String × String) := [\n'+',\n'.join(f'  ({a}, "{b}", "{c}")' for a,b,c in S)+']\n\n'+KD+'end FF.Spec\n'
open('/verif/lean/Verif/Spec/Registered2.lean','w').write(out)
print(len(ents),len(S))
