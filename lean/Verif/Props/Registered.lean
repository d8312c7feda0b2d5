import Verif.Spec.Registered3
import Verif.Props.Meta
/-!
# C48: media types and extensions
-/

namespace FF.Props
open FF FileFormat Spec

set_option maxRecDepth 100000

theorem registered_ok : ((registered ++ registered2).all fun r => r.1.mediaType == r.2.1 && r.1.extension == r.2.2) = true := by
  decide +kernel

/-- C48: media type and extension are those of the three lists. -/
def C48_statement : Prop :=
  ∀ (f : FileFormat) (m e : String), (f, m, e) ∈ registered ++ registered2 ++ registered3 → f.mediaType = m ∧ f.extension = e

/-- C48 does not hold: a master document of OpenOffice.org 1 gets the extension sgw instead of sxg, for one. -/
theorem C48_fails : ¬ C48_statement := by
  intro h
  have := h SunXmlWriterGlobal "application/vnd.sun.xml.writer.global" "sxg" (List.mem_append_right _ (by decide +kernel))
  revert this; decide +kernel

/-- C48, the part that holds: the formats of the first two lists (342) have the registered media type, or the one in common use, and
the usual extension. -/
theorem C48_registered_partial (f : FileFormat) (m e : String) (h : (f, m, e) ∈ registered ++ registered2) :
    f.mediaType = m ∧ f.extension = e := by
  have := List.all_eq_true.mp registered_ok _ h
  rw [Bool.and_eq_true] at this
  exact ⟨eq_of_beq this.1, eq_of_beq this.2⟩

theorem registered3_off : (registered3.all fun r => r.1.mediaType != r.2.1 || r.1.extension != r.2.2) = true := by
  decide +kernel

/-- C48. The eight formats of the third list really deviate, all of them. -/
theorem C48_deviations (f : FileFormat) (m e : String) (h : (f, m, e) ∈ registered3) : f.mediaType ≠ m ∨ f.extension ≠ e := by
  have := List.all_eq_true.mp registered3_off _ h
  rw [Bool.or_eq_true] at this
  exact this.imp (fun h => bne_iff_ne.mp h) (fun h => bne_iff_ne.mp h)

theorem samples_ok : (sampleFiles.all fun r => kindDirectory r.1.kind == r.2.1 && r.1.extension == r.2.2) = true := by
  decide +kernel

theorem samples_full : mask (sampleFiles.map fun r => r.1) + 1 = 1 <<< 447 := by decide +kernel

/-- C48. Every format has a sample file in the test suite; it has the extension of the format and lies in the
directory of its kind. -/
theorem C48_sample_files (f : FileFormat) : (∃ dir ext, (f, dir, ext) ∈ sampleFiles) ∧
    ∀ dir ext, (f, dir, ext) ∈ sampleFiles → kindDirectory f.kind = dir ∧ f.extension = ext := by
  constructor
  · obtain ⟨⟨g, d, e⟩, hr, rfl⟩ := List.mem_map.mp (mem_of_full samples_full f)
    exact ⟨d, e, hr⟩
  · intro d e h
    have := List.all_eq_true.mp samples_ok _ h
    rw [Bool.and_eq_true] at this
    exact ⟨eq_of_beq this.1, eq_of_beq this.2⟩

/-- The bytes of a string. -/
def bytesOf (s : String) : List UInt8 := s.toByteArray.data.toList

theorem bytes_prefix {p m : String} (h : p.toList <+: m.toList) : bytesOf p <+: bytesOf m := by
  obtain ⟨r, hr⟩ := h
  refine ⟨r.utf8Encode.data.toList, ?_⟩
  have h1 : m.toByteArray = p.toByteArray ++ r.utf8Encode := by
    rw [← String.ofList_toList (s := m), ← hr, String.toByteArray_ofList, List.utf8Encode_append]
    rw [← String.toByteArray_ofList (l := p.toList), String.ofList_toList]
  unfold bytesOf
  rw [h1, ByteArray.data_append, Array.toList_append]

/-- The same test on bytes. -/
def topOk (m : List UInt8) (k : Kind) : Bool :=
  (!((bytesOf "image/").isPrefixOf m) || k == .Image || k == .Document) &&
  ((!((bytesOf "audio/").isPrefixOf m) || k == .Audio || k == .Playlist) &&
  ((!((bytesOf "video/").isPrefixOf m) || k == .Video || k == .Playlist) &&
  ((!((bytesOf "font/").isPrefixOf m) || k == .Font) &&
  (!((bytesOf "model/").isPrefixOf m) || k == .Model))))

theorem topOk_sound {m : String} {k : Kind} (h : topOk (bytesOf m) k = true) : topLevel m k := by
  simp only [topOk, Bool.and_eq_true, Bool.or_eq_true, Bool.not_eq_true', beq_iff_eq, or_assoc] at h
  have no : ∀ {p : String}, (bytesOf p).isPrefixOf (bytesOf m) = false → ¬ p.toList <+: m.toList := fun hf hp => by
    rw [List.isPrefixOf_iff_prefix.mpr (bytes_prefix hp)] at hf
    cases hf
  obtain ⟨h1, h2, h3, h4, h5⟩ := h
  refine ⟨fun hp => ?_, fun hp => ?_, fun hp => ?_, fun hp => ?_, fun hp => ?_⟩
  · exact h1.resolve_left fun hf => no hf hp
  · exact h2.resolve_left fun hf => no hf hp
  · exact h3.resolve_left fun hf => no hf hp
  · exact h4.resolve_left fun hf => no hf hp
  · exact h5.resolve_left fun hf => no hf hp

theorem top_ok : (FileFormat.all.all fun f => topOk (bytesOf f.mediaType) f.kind) = true := by decide +kernel

/-- C48. `kind` and the top-level type of `media_type` never contradict each other. -/
theorem C48_top_level (f : FileFormat) : topLevel f.mediaType f.kind := topOk_sound (List.all_eq_true.mp top_ok f (mem_all f))

/-- C48. What is reported as audio has an audio media type. -/
theorem C48_audio (f : FileFormat) (h : f.kind = .Audio) : "audio/".toList <+: f.mediaType.toList := by
  have : ∀ f ∈ FileFormat.all, (!(f.kind == Kind.Audio) || "audio/".toList.isPrefixOf f.mediaType.toList) = true := by decide +kernel
  have := this f (mem_all f)
  rw [h] at this
  simpa using this

example : (Openxps, "application/oxps", "oxps") ∈ registered3 ∧ Openxps.extension = "xps" := by decide +kernel
example : (JointPhotographicExpertsGroup, "image/jpeg", "jpg") ∈ registered := by decide +kernel
-- The one image media type that is not an image.
example : Djvu.mediaType = "image/vnd.djvu" ∧ Djvu.kind = .Document := by decide +kernel

end FF.Props
