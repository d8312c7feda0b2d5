import Verif.Proofs.Append
import Verif.Props.Window
import Verif.Props.Zip
import Verif.Props.Mp4
import Verif.Props.Ebml
/-!
# C49: trailing data
-/

namespace FF.Props
open FF FileFormat Spec

/-- C49 as one would wish it: data appended to a file does not take a verdict back that a reader has refined, as
long as the file is still recognised by the same magic. -/
def C49_statement : Prop :=
  ∀ (cfg : Cfg) (ft : Features) (g : Feature), g ∈ Feature.structured → g.enabled ft = true →
    ∀ (b t : Bytes), IsSlice (b ++ t) → Recognised b g.base → Recognised (b ++ t) g.base →
      ∀ f ∈ g.family, fromBytes cfg ft b = .ok f → fromBytes cfg ft (b ++ t) = .ok f

/-- An MP4 file with a sound track. -/
def soundFile : Bytes := [0, 0, 0, 12] ++ b!"ftypisom" ++ [0, 0, 0, 20] ++ b!"hdlr" ++ [0, 0, 0, 0, 0, 0, 0, 0] ++ b!"soun"

/-- One byte behind the last box, and the file is no longer recognised. -/
theorem C49_mp4_loses : Recognised soundFile Mpeg4Part14 ∧ Recognised (soundFile ++ [0]) Mpeg4Part14 ∧
    fromBytes Cfg.release { mp4 := true } soundFile = .ok Mpeg4Part14Audio ∧
    fromBytes Cfg.release { mp4 := true } (soundFile ++ [0]) = .ok ArbitraryBinaryData := by
  unfold Recognised; decide +kernel

/-- A Matroska file with one codec, no cluster. -/
def codecFile : Bytes := [0x1A, 0x45, 0xDF, 0xA3, 0x80, 0x42, 0x82, 0x88] ++ b!"matroska" ++ [0x86, 0x85] ++ b!"A_MP3"

/-- The same for EBML. -/
theorem C49_ebml_loses : Recognised codecFile ExtensibleBinaryMetaLanguage ∧
    Recognised (codecFile ++ [0]) ExtensibleBinaryMetaLanguage ∧
    fromBytes Cfg.release { ebml := true } codecFile = .ok MatroskaAudio ∧
    fromBytes Cfg.release { ebml := true } (codecFile ++ [0]) = .ok ArbitraryBinaryData := by
  unfold Recognised; decide +kernel

/-- XML: a marker that is listed earlier takes over. -/
theorem C49_xml_changes : Recognised (b!"<?xml version=\"1.0\"?><svg></svg>") ExtensibleMarkupLanguage ∧
    Recognised (b!"<?xml version=\"1.0\"?><svg></svg>" ++ b!"<!-- <rss -->") ExtensibleMarkupLanguage ∧
    fromBytes Cfg.release { xml := true } (b!"<?xml version=\"1.0\"?><svg></svg>") = .ok ScalableVectorGraphics ∧
    fromBytes Cfg.release { xml := true } (b!"<?xml version=\"1.0\"?><svg></svg>" ++ b!"<!-- <rss -->") =
      .ok ReallySimpleSyndication := by
  unfold Recognised; decide +kernel

/-- ZIP: appended end records take over. -/
theorem C49_zip_changes : Recognised (sampleZip b!"word/document.xml" b!"text") Zip ∧
    Recognised (sampleZip b!"word/document.xml" b!"text" ++ (b!"PK\x05\x06" ++ List.replicate 18 0)) Zip ∧
    fromBytes Cfg.release { zip := true } (sampleZip b!"word/document.xml" b!"text") = .ok OfficeOpenXmlDocument ∧
    fromBytes Cfg.release { zip := true } (sampleZip b!"word/document.xml" b!"text" ++ (b!"PK\x05\x06" ++ List.replicate 18 0)) =
      .ok Zip := by
  unfold Recognised; decide +kernel

/-- C49 does not hold. -/
theorem C49_fails : ¬ C49_statement := by
  intro h
  obtain ⟨h1, h2, h3, h4⟩ := C49_mp4_loses
  have := h Cfg.release { mp4 := true } .mp4 (by decide) rfl soundFile [0] (by decide) h1 h2 Mpeg4Part14Audio (by decide) h3
  rw [h4] at this
  cases this

theorem occursWithin_append {pat : Bytes} {lo hi : Nat} {d : Bytes} (t : Bytes) (h : OccursWithin pat lo hi d) :
    OccursWithin pat lo hi (d ++ t) := by
  obtain ⟨pre, suf, hd, h1, h2⟩ := h
  exact ⟨pre, suf ++ t, by rw [hd]; simp only [List.append_assoc], h1, h2⟩

theorem orDefault_longer {ft : Features} {b t : Bytes} {m : Nat} {f : FileFormat} {p : Prog FileFormat}
    (hlong : val (run b m p 0) = .ok f → val (run (b ++ t) m p 0) = .ok f)
    (hf : f ≠ ArbitraryBinaryData ∧ f ≠ PlainText)
    (h : orDefault (val (run b m p 0)) (idealGeneric ft b m) = .ok f) :
    orDefault (val (run (b ++ t) m p 0)) (idealGeneric ft (b ++ t) m) = .ok f := by
  have hv : val (run b m p 0) = .ok f := by
    cases hx : val (run b m p 0) with
    | ok g => rw [hx] at h; exact h
    | error e =>
      rw [hx] at h
      cases e with
      | err e =>
        rw [orDefault_err] at h
        rcases idealGeneric_cases ft b m with ⟨_, _, hg⟩ | ⟨_, hg⟩
        · rw [hg] at h; cases h; exact absurd rfl hf.2
        · rw [hg] at h; cases h; exact absurd rfl hf.1
      | panic => cases h
      | diverge => cases h
  rw [hlong hv]
  rfl

/-- C49, the part that holds, for every verdict of the reader: ASF, compound files, ID3v2 and RealMedia. Data
appended to such a file never changes a verdict other than the fallback one. -/
theorem C49_any_verdict_partial (cfg : Cfg) (ft : Features) (g : Feature) (hg : g ∈ [Feature.asf, .cfb, .id3v2, .rm])
    (he : g.enabled ft = true) (b t : Bytes) (hb : IsSlice (b ++ t)) (hr : Recognised b g.base)
    (hr' : Recognised (b ++ t) g.base) (f : FileFormat) (h1 : f ≠ ArbitraryBinaryData) (h2 : f ≠ PlainText)
    (h : fromBytes cfg ft b = .ok f) : fromBytes cfg ft (b ++ t) = .ok f := by
  have hb' : (b ++ t).length < 2 ^ 63 := hb
  have hlb : b.length ≤ (b ++ t).length := by rw [List.length_append]; omega
  have hs : g ∈ Feature.structured := by revert hg; cases g <;> decide
  rw [fromBytes_reader cfg ft b (by omega) g hs he (signature_of_recognised (by omega) hs hr)] at h
  rw [fromBytes_reader cfg ft (b ++ t) (by omega) g hs he (signature_of_recognised (by omega) hs hr')]
  refine orDefault_longer ?_ ⟨h1, h2⟩ h
  have hloc : Local (readerOf cfg g).2 := by
    revert hg
    cases g <;> intro hg <;> first
      | exact local_asfReader cfg
      | exact local_cfbReader
      | exact local_id3v2Reader cfg
      | exact local_rmReader
      | exact absurd hg (by decide)
  intro hv
  cases hx : run b (2 ^ 64 - 1) (readerOf cfg g).2 0 with
  | error e => rw [hx] at hv; cases hv
  | ok r => rw [hloc.run_longer hx]; rw [hx] at hv; exact hv

theorem exe_ne : ∀ f ∈ Feature.exe.family, f ≠ MsDosExecutable := by decide

/-- C49, the part that holds, for the refined verdicts: also executables, PDF and SQLite. -/
theorem C49_refined_partial (cfg : Cfg) (ft : Features) (g : Feature)
    (hg : g ∈ [Feature.asf, .cfb, .exe, .id3v2, .pdf, .rm, .sqlite3]) (he : g.enabled ft = true) (b t : Bytes)
    (hb : IsSlice (b ++ t)) (hr : Recognised b g.base) (hr' : Recognised (b ++ t) g.base) (f : FileFormat)
    (hf : f ∈ g.family) (h : fromBytes cfg ft b = .ok f) : fromBytes cfg ft (b ++ t) = .ok f := by
  have hb' : (b ++ t).length < 2 ^ 63 := hb
  have hlb : b.length ≤ (b ++ t).length := by rw [List.length_append]; omega
  have hbs : IsSlice b := by show b.length < 2 ^ 63; omega
  have hs : g ∈ Feature.structured := by revert hg; cases g <;> decide
  obtain ⟨_, h1, h2⟩ := family_special g hs f (List.mem_cons_of_mem _ hf)
  by_cases hg4 : g ∈ [Feature.asf, .cfb, .id3v2, .rm]
  · exact C49_any_verdict_partial cfg ft g hg4 he b t hb hr hr' f h1 h2 h
  · have hg3 : g = .exe ∨ g = .pdf ∨ g = .sqlite3 := by
      revert hg hg4; cases g <;> decide
    rcases hg3 with rfl | rfl | rfl
    · rw [fromBytes_reader cfg ft b (by omega) .exe hs he (signature_of_recognised (by omega) hs hr)] at h
      rw [fromBytes_reader cfg ft (b ++ t) (by omega) .exe hs he (signature_of_recognised (by omega) hs hr')]
      exact orDefault_longer (exe_longer (by omega) (exe_ne f hf)) ⟨h1, h2⟩ h
    · have hfa : f = AdobeIllustratorArtwork := List.mem_singleton.mp hf
      subst hfa
      obtain ⟨_, hno⟩ := C21_artwork cfg ft b hbs he hr
      refine (C21_artwork cfg ft (b ++ t) hb he hr').1 (occursWithin_append t (Classical.byContradiction fun hc => ?_))
      rw [hno hc] at h
      cases h
    · have hfa : f = Sketch := List.mem_singleton.mp hf
      subst hfa
      obtain ⟨_, hno⟩ := C20_sketch cfg ft b hbs he hr
      refine (C20_sketch cfg ft (b ++ t) hb he hr').1 (occursWithin_append t (Classical.byContradiction fun hc => ?_))
      rw [hno hc] at h
      cases h

/-- C49 for EBML: appended data does not matter behind a cluster, an element that settles the format, or 256 elements. -/
theorem C49_ebml_partial (cfg : Cfg) (ft : Features) (es : List EbmlElement) (rest t : Bytes) (hv : ∀ e ∈ es, e.Valid)
    (hr : 256 ≤ es.length ∨ ∃ e ∈ es, e.Stops) (hs : IsSlice ((es.flatMap EbmlElement.encode ++ rest) ++ t)) (he : ft.ebml = true)
    (hrec : Recognised (es.flatMap EbmlElement.encode ++ rest) ExtensibleBinaryMetaLanguage)
    (hrec' : Recognised ((es.flatMap EbmlElement.encode ++ rest) ++ t) ExtensibleBinaryMetaLanguage) :
    fromBytes cfg ft ((es.flatMap EbmlElement.encode ++ rest) ++ t) = fromBytes cfg ft (es.flatMap EbmlElement.encode ++ rest) := by
  have hs' : ((es.flatMap EbmlElement.encode ++ rest) ++ t).length < 2 ^ 63 := hs
  have hs1 : (es.flatMap EbmlElement.encode ++ rest).length < 2 ^ 63 := by rw [List.length_append] at hs'; omega
  have hr' : ∀ r, 256 ≤ es.length ∨ EbmlTail r ∨ ∃ e ∈ es, e.Stops := fun r => hr.imp id .inr
  rw [recognised_verdict cfg ft _ hs1 .ebml (by decide) he hrec _ (ebmlReader_run es rest hv hs1 (hr' _) 0)]
  rw [List.append_assoc] at hs hs' hrec' ⊢
  exact recognised_verdict cfg ft _ hs .ebml (by decide) he hrec' _ (ebmlReader_run es (rest ++ t) hv hs' (hr' _) 0)

/-- C49 for MP4: appended data does not matter behind 256 boxes, or if the last box has size 0 (up to the end). -/
theorem C49_mp4_partial (cfg : Cfg) (ft : Features) (boxes : List Mp4Box) (rest t : Bytes)
    (hb : ∀ b ∈ Mp4Box.visitAll boxes, b.WellFormed ∧ b.NarrowOrContainer)
    (hr : 256 ≤ (Mp4Box.visitAll boxes).length ∨ ∃ type body, type.length = 4 ∧ type ∉ mp4Containers ∧ type ≠ b!"hdlr" ∧
      rest = [0, 0, 0, 0] ++ (type ++ body))
    (hs : IsSlice ((Mp4Box.encodeAll boxes ++ rest) ++ t)) (he : ft.mp4 = true)
    (hrec : Recognised (Mp4Box.encodeAll boxes ++ rest) Mpeg4Part14)
    (hrec' : Recognised ((Mp4Box.encodeAll boxes ++ rest) ++ t) Mpeg4Part14) :
    fromBytes cfg ft ((Mp4Box.encodeAll boxes ++ rest) ++ t) = fromBytes cfg ft (Mp4Box.encodeAll boxes ++ rest) := by
  have hs' : ((Mp4Box.encodeAll boxes ++ rest) ++ t).length < 2 ^ 63 := hs
  have hs1 : (Mp4Box.encodeAll boxes ++ rest).length < 2 ^ 63 := by rw [List.length_append] at hs'; omega
  rw [mp4_verdict cfg ft boxes rest hb ?_ hs1 he hrec]
  · rw [List.append_assoc] at hs hrec' ⊢
    refine mp4_verdict cfg ft boxes (rest ++ t) hb (hr.imp id ?_) hs he hrec'
    rintro ⟨type, body, h1, h2, h3, rfl⟩
    rw [List.append_assoc, List.append_assoc]
    exact .toEnd type (body ++ t) h1 h2 h3
  · refine hr.imp id ?_
    rintro ⟨type, body, h1, h2, h3, rfl⟩
    exact .toEnd type body h1 h2 h3

/-- C49 for XML: what is appended behind the first 8197 bytes does not matter. -/
theorem C49_xml_partial (cfg : Cfg) (ft : Features) (b t : Bytes) (hb : IsSlice (b ++ t)) (hlen : 8197 ≤ b.length)
    (hr : Recognised b ExtensibleMarkupLanguage) (hr' : Recognised (b ++ t) ExtensibleMarkupLanguage) :
    fromBytes cfg ft (b ++ t) = fromBytes cfg ft b := by
  have hb' : (b ++ t).length < 2 ^ 63 := hb
  have hlb : b.length ≤ (b ++ t).length := by rw [List.length_append]; omega
  exact C39_xml cfg ft _ _ hb (by show b.length < 2 ^ 63; omega) hr' hr (List.take_append_of_le_length hlen)

/-- C49 for ZIP: appended data does not change a verdict other than the fallback one, as long as the file still ends
with the same end records: at most 65535 bytes of comment and appended data, without the magic of an end record. -/
theorem C49_zip_partial (cfg : Cfg) (ft : Features) (he : ft.zip = true) (b t : Bytes) (hb : IsSlice (b ++ t))
    (hr : Recognised b Zip) (hr' : Recognised (b ++ t) Zip) (count offset : Nat) (h0 : ZipEnd b count offset)
    (h0' : ZipEnd (b ++ t) count offset) (f : FileFormat) (h1 : f ≠ ArbitraryBinaryData) (h2 : f ≠ PlainText)
    (h : fromBytes cfg ft b = .ok f) : fromBytes cfg ft (b ++ t) = .ok f := by
  have hb' : (b ++ t).length < 2 ^ 63 := hb
  have hlb : b.length ≤ (b ++ t).length := by rw [List.length_append]; omega
  have hs : Feature.zip ∈ Feature.structured := by decide
  rw [fromBytes_reader cfg ft b (by omega) .zip hs he (signature_of_recognised (by omega) hs hr)] at h
  rw [fromBytes_reader cfg ft (b ++ t) (by omega) .zip hs he (signature_of_recognised (by omega) hs hr')]
  refine orDefault_longer ?_ ⟨h1, h2⟩ h
  let k : Nat × Nat → Prog FileFormat := fun dir => do
    let _ ← Prog.sk (.start dir.2)
    zipEntries (min zipEntryLimit dir.1) Zip
  obtain ⟨q1, e1⟩ := zipEnd_run cfg b count offset h0 (2 ^ 64 - 1) (by omega) (by omega) 0 k
  obtain ⟨q2, e2⟩ := zipEnd_run cfg (b ++ t) count offset h0' (2 ^ 64 - 1) (by omega) (by omega) 0 k
  have hk : Local (zipEntries (min zipEntryLimit count) Zip) := local_zipEntries _ _
  intro hv
  have e1' : run b (2 ^ 64 - 1) (readerOf cfg .zip).2 0 = run b (2 ^ 64 - 1) (k (count, offset)) q1 := e1
  have e2' : run (b ++ t) (2 ^ 64 - 1) (readerOf cfg .zip).2 0 = run (b ++ t) (2 ^ 64 - 1) (k (count, offset)) q2 := e2
  rw [e1'] at hv
  rw [e2']
  by_cases ho : offset ≤ 2 ^ 64 - 1
  · have hv' : val (run b (2 ^ 64 - 1) (zipEntries (min zipEntryLimit count) Zip) offset) = .ok f := by
      have := hv
      simp only [k] at this
      rw [run_bind, run_sk_start _ _ ho, andThen_ok] at this
      exact this
    show val (run (b ++ t) (2 ^ 64 - 1) (Prog.sk (.start offset) >>= fun _ => zipEntries (min zipEntryLimit count) Zip) q2) = _
    rw [run_bind, run_sk_start _ _ ho, andThen_ok]
    cases hx : run b (2 ^ 64 - 1) (zipEntries (min zipEntryLimit count) Zip) offset with
    | error e => rw [hx] at hv'; cases hv'
    | ok r => rw [hk.run_longer hx]; rw [hx] at hv'; exact hv'
  · exfalso
    cases h0 with
    | classic => omega
    | zip64 => omega

-- Non-vacuity: a document with bytes behind its end record.
example : ZipEnd (sampleZip b!"word/document.xml" b!"text") 1 (sampleLocal b!"word/document.xml" b!"text").length ∧
    ZipEnd (sampleZip b!"word/document.xml" b!"text" ++ b!"junk") 1 (sampleLocal b!"word/document.xml" b!"text").length ∧
    Recognised (sampleZip b!"word/document.xml" b!"text") Zip ∧
    Recognised (sampleZip b!"word/document.xml" b!"text" ++ b!"junk") Zip ∧
    fromBytes Cfg.release { zip := true } (sampleZip b!"word/document.xml" b!"text") = .ok OfficeOpenXmlDocument := by
  refine ⟨?_, ?_, ?_⟩
  · exact ZipEnd.classic (sampleLocal b!"word/document.xml" b!"text" ++ (sampleEntry b!"word/document.xml" 4 0).encode)
      (List.replicate 6 0) (List.replicate 4 0) (leBytes 2 7 ++ b!"archive") 1 _ (by decide) (by decide +kernel) rfl rfl
      (by decide) (by decide +kernel) (noLocator _ (by decide +kernel))
  · exact ZipEnd.classic (sampleLocal b!"word/document.xml" b!"text" ++ (sampleEntry b!"word/document.xml" 4 0).encode)
      (List.replicate 6 0) (List.replicate 4 0) (leBytes 2 7 ++ b!"archivejunk") 1 _ (by decide) (by decide +kernel) rfl rfl
      (by decide) (by decide +kernel) (noLocator _ (by decide +kernel))
  · unfold Recognised; decide +kernel

-- Non-vacuity: an executable with an overlay, a tagged FLAC file with anything behind it.
example : Recognised (b!"ID3\x04\x00\x00\x00\x00\x00\x00fLaC\x00\x00\x00\x00\x00\x00") Id3v2 ∧
    fromBytes Cfg.release { id3v2 := true } (b!"ID3\x04\x00\x00\x00\x00\x00\x00fLaC\x00\x00\x00\x00\x00\x00") =
      .ok FreeLosslessAudioCodec := by unfold Recognised; decide +kernel
example : Recognised (b!"ID3\x04\x00\x00\x00\x00\x00\x00fLaC\x00\x00\x00\x00\x00\x00" ++ b!"TAG...") Id3v2 := by
  unfold Recognised; decide +kernel
-- The base verdict of an executable may be refined by appended data.
example : fromBytes Cfg.release { exe := true } (b!"MZ" ++ List.replicate 58 0 ++ [64, 0, 0, 0]) = .ok MsDosExecutable ∧
    fromBytes Cfg.release { exe := true } (b!"MZ" ++ List.replicate 58 0 ++ [64, 0, 0, 0] ++ b!"NE...") = .ok NewExecutable := by
  decide +kernel

end FF.Props
