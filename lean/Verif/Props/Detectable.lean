import Verif.Props.Window
import Verif.Props.Realmedia
import Verif.Props.Exe
import Verif.Props.Cfb
import Verif.Props.Id3
import Verif.Props.Mp4
import Verif.Props.Ebml
import Verif.Props.Asf
import Verif.Props.Zip
/-!
# C17: every documented format is detectable

One input per documented format. The kernel runs the model of the reader on each of them.
-/

namespace FF.Props
open FF Spec FileFormat

/-- A movie with one track of the given kind. -/
def mp4With (kind : Bytes) : Bytes :=
  Mp4Box.encodeAll [.other false b!"ftyp" b!"isom\x00\x00\x02\x00isomiso2",
    .container false b!"moov" [.container false b!"trak" [.container false b!"mdia"
      [.handler false (List.replicate 8 0) kind b!"............Snd"]]]]

/-- A RealMedia file with one stream of the given type. -/
def rmWith (mime : Bytes) : Bytes :=
  rmFile (b!".RMF\x00\x00\x00\x12" ++ List.replicate 6 0) 2
    [.mediaProperties (List.replicate 32 1) b!"stream" mime [1, 2, 3]] [0]

/-- An ASF file with one stream of the given kind. -/
def asfWith (kind : Guid) : Bytes := asfFile asfHead 1 [1, 2] [.stream kind.bytes b!"more about it"] []

/-- An executable whose extended header at byte 64 is `header`. -/
def exeWith (header : Bytes) : Bytes := b!"MZ" ++ List.replicate 58 0 ++ b!"\x40\x00\x00\x00" ++ header

/-- A compound file whose second and third directory entries have the given names. -/
def cfbWith (name2 name3 : Bytes) : Bytes :=
  (sampleCfb (List.replicate 16 0)).take 640 ++ (name2 ++ List.replicate 128 0).take 128 ++
    (name3 ++ List.replicate 64 0).take 64

/-- One input per documented format. -/
def witnesses : Feature → List (FileFormat × Bytes)
  | .asf => [(MicrosoftDigitalVideoRecording, asfFile asfHead 3 [1, 2] (sampleAsf b!"DVR File Version") []),
      (WindowsMediaAudio, asfWith asfAudioMedia), (WindowsMediaVideo, asfWith asfVideoMedia)]
  | .cfb => clsids.map (fun r => (r.2, sampleCfb r.1.bytes)) ++
      [(MicrosoftWorksWordProcessor, cfbWith (utf16 b!"MatOST") []),
       (MicrosoftWorks6Spreadsheet, cfbWith [] (utf16 b!"WksSSWorkBook"))]
  | .ebml => [(Matroska3dVideo, (sampleEbml b!"matroska" b!"V_VP9" 1).flatMap EbmlElement.encode),
      (MatroskaAudio, (sampleEbml b!"matroska" b!"A_VORBIS" 0).flatMap EbmlElement.encode),
      (MatroskaSubtitles, (sampleEbml b!"matroska" b!"S_TEXT/UTF8" 0).flatMap EbmlElement.encode),
      (MatroskaVideo, (sampleEbml b!"matroska" b!"V_VP9" 0).flatMap EbmlElement.encode),
      (Webm, (sampleEbml b!"webm" b!"V_VP9" 0).flatMap EbmlElement.encode)]
  | .exe => [(DynamicLinkLibrary, exeWith (b!"PE\x00\x00" ++ List.replicate 18 7 ++ b!"\x02\x21\x0b")),
      (PortableExecutable, exeWith (b!"PE\x00\x00" ++ List.replicate 18 7 ++ b!"\x02\x01\x0b")),
      (LinearExecutable, exeWith b!"LE......"), (NewExecutable, exeWith b!"NE......")]
  | .id3v2 => [(FreeLosslessAudioCodec, sampleTags.flatMap Id3Tag.encode ++ b!"fLaC.........."),
      (Mpeg12AudioLayer3, sampleTags.flatMap Id3Tag.encode ++ b!"\xff\xfb\x90\x00..........")]
  | .mp4 => [(Mpeg4Part14Audio, mp4With b!"soun"), (Mpeg4Part14Subtitles, mp4With b!"sbtl"),
      (Mpeg4Part14Video, mp4With b!"vide")]
  | .pdf => [(AdobeIllustratorArtwork, b!"%PDF-1.4 ..AIPrivateData..")]
  | .rm => [(Realaudio, rmWith b!"audio/x-pn-realaudio"), (Realvideo, rmWith b!"video/x-pn-realvideo")]
  | .sqlite3 => [(Sketch, b!"SQLite format 3\x00" ++ List.replicate 84 0 ++ b!"com.bohemiancoding.sketch3")]
  | .txt => [(PlainText, b!"text\n")]
  | .xml => xmlMarkers.map (fun r => (r.1, b!"<?xml ?>" ++ (r.2.head?.getD []).flatten))
  | .zip => zipExactNames.map (fun r => (r.2, sampleZip r.1 b!"data")) ++
      zipDirectories.map (fun r => (r.2, sampleZip (r.1 ++ b!"file") b!"data")) ++
      zipMediaTypes.map (fun r => (r.2, sampleZip b!"mimetype" r.1)) ++
      [(FictionbookZip, sampleZip b!"book.fb2" b!"data"), (IosAppStorePackage, sampleZip b!"Payload/x.app/Info" b!"data"),
       (Openxps, sampleZip b!"Documents/1/Pages/1.fpage" b!"data"),
       (ThreeDimensionalManufacturingFormat, sampleZip b!"3D/3dmodel.model" b!"data"),
       (UniversalSceneDescriptionZip, sampleZip b!"model.usdc" b!"data"),
       (JavaArchive, sampleZip b!"META-INF/MANIFEST.MF" b!"data")]

/-- The witness is recognised as the base format and refined to `f` by the reader. -/
def detects (g : Feature) (w : FileFormat × Bytes) : Bool :=
  decide (w.2.length < 2 ^ 63) && decide (fromSignature w.2 = some g.base) &&
    decide (val (run w.2 (2 ^ 64 - 1) (readerOf Cfg.release g).2 0) = .ok w.1) &&
    decide (val (run w.2 (2 ^ 64 - 1) (readerOf Cfg.debug g).2 0) = .ok w.1)

theorem asf_detects : (witnesses .asf).all (detects .asf) = true := by decide +kernel
theorem cfb_detects : (witnesses .cfb).all (detects .cfb) = true := by decide +kernel
theorem ebml_detects : (witnesses .ebml).all (detects .ebml) = true := by decide +kernel
theorem exe_detects : (witnesses .exe).all (detects .exe) = true := by decide +kernel
theorem id3v2_detects : (witnesses .id3v2).all (detects .id3v2) = true := by decide +kernel
theorem mp4_detects : (witnesses .mp4).all (detects .mp4) = true := by decide +kernel
theorem pdf_detects : (witnesses .pdf).all (detects .pdf) = true := by decide +kernel
theorem rm_detects : (witnesses .rm).all (detects .rm) = true := by decide +kernel
theorem sqlite3_detects : (witnesses .sqlite3).all (detects .sqlite3) = true := by decide +kernel
theorem xml_detects : (witnesses .xml).all (detects .xml) = true := by decide +kernel

-- In pieces, to keep the kernel's memory small.
theorem zip_detects1 : ((witnesses .zip).take 20).all (detects .zip) = true := by decide +kernel
theorem zip_detects2 : (((witnesses .zip).drop 20).take 20).all (detects .zip) = true := by decide +kernel
theorem zip_detects3 : (((witnesses .zip).drop 20).drop 20).all (detects .zip) = true := by decide +kernel

theorem zip_detects : (witnesses .zip).all (detects .zip) = true := by
  rw [← List.take_append_drop 20 (witnesses .zip), List.all_append,
    ← List.take_append_drop 20 ((witnesses .zip).drop 20), List.all_append, zip_detects1, zip_detects2, zip_detects3]
  rfl


theorem witness_of_family (g : Feature) (f : FileFormat) (h : f ∈ g.family) : f ∈ (witnesses g).map (·.1) := by
  have : ∀ f ∈ g.family, f ∈ (witnesses g).map (·.1) := by cases g <;> decide +kernel
  exact this f h

/-- C17. For every format that the documentation lists under a reader feature, there is an input that is
reported as this format in every build that enables the feature, and as the feature's base format (for
`reader-txt`: the default) in every build that does not. -/
theorem C17_detectable (g : Feature) (f : FileFormat) (hf : f ∈ g.family) :
    ∃ b, IsSlice b ∧ ∀ (cfg : Cfg) (ft : Features),
      fromBytes cfg ft b = .ok (if g.enabled ft then f else g.base) := by
  by_cases hg : g ∈ Feature.structured
  · have hall : (witnesses g).all (detects g) = true := by
      cases g
      · exact asf_detects
      · exact cfb_detects
      · exact ebml_detects
      · exact exe_detects
      · exact id3v2_detects
      · exact mp4_detects
      · exact pdf_detects
      · exact rm_detects
      · exact sqlite3_detects
      · exact absurd hg (by decide)
      · exact xml_detects
      · exact zip_detects
    obtain ⟨w, hw, rfl⟩ := List.mem_map.mp (witness_of_family g f hf)
    have hd := List.all_eq_true.mp hall w hw
    simp only [detects, Bool.and_eq_true, decide_eq_true_eq] at hd
    obtain ⟨⟨⟨hl, hs⟩, hr⟩, hdb⟩ := hd
    have hrec : Recognised w.2 g.base := recognised_of_signature (by omega) hs
    refine ⟨w.2, hl, fun cfg ft => ?_⟩
    cases he : g.enabled ft with
    | false => exact recognised_disabled cfg ft w.2 hl g hg he hrec
    | true =>
      refine recognised_verdict cfg ft w.2 hl g hg he hrec w.1 ?_
      rcases cfg with ⟨_ | _⟩
      · exact hr
      · exact hdb
  · obtain rfl : g = .txt := by cases g <;> first | rfl | exact absurd (by decide) hg
    obtain rfl : f = PlainText := List.mem_singleton.mp hf
    refine ⟨b!"text\n", by unfold IsSlice; decide, fun cfg ft => ?_⟩
    have hs : fromSignature (b!"text\n") = none := by decide +kernel
    rw [fromBytes_ideal _ _ _ (by decide)]
    unfold ideal idealGeneric
    rw [if_neg (by decide), fromSignature_take _ _ (Nat.le_refl _), hs]
    simp only
    cases he : ft.txt with
    | false => simp only [Feature.enabled, he]; rfl
    | true => simp only [Feature.enabled, he]; decide +kernel

-- Two of the 135 cases.
example : OpendocumentText ∈ Feature.zip.family ∧ (OpendocumentText, sampleZip b!"mimetype"
    b!"application/vnd.oasis.opendocument.text") ∈ witnesses .zip := by decide +kernel
example : MicrosoftWorks6Spreadsheet ∈ Feature.cfb.family := by decide

end FF.Props
