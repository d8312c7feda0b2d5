import Verif.Proofs.Ebml
/-!
# EBML files: Matroska and WebM (C30)
-/

namespace FF.Props
open FF Spec FileFormat

/-- The verdict that the elements `seen` call for. -/
def EbmlExpected (r : Except Fail FileFormat) (seen : List EbmlElement) : Prop :=
  (∀ pre e post f, seen = pre ++ e :: post → (∀ x ∈ pre, ∀ g, ¬ x.Settles g) → e.Settles f → r = .ok f) ∧
  ((∀ x ∈ seen, ∀ g, ¬ x.Settles g) →
    ((∃ e ∈ seen, e.Codec b!"V_") → r = .ok MatroskaVideo) ∧
    ((∃ e ∈ seen, e.Codec b!"A_") → (∀ e ∈ seen, ¬ e.Codec b!"V_") → r = .ok MatroskaAudio) ∧
    ((∃ e ∈ seen, e.Codec b!"S_") → (∀ e ∈ seen, ¬ e.Codec b!"V_" ∧ ¬ e.Codec b!"A_") → r = .ok MatroskaSubtitles) ∧
    ((∀ e ∈ seen, ¬ e.Codec b!"V_" ∧ ¬ e.Codec b!"A_" ∧ ¬ e.Codec b!"S_") → r = .ok ExtensibleBinaryMetaLanguage))

theorem ebmlExpected_eval (es : List EbmlElement) :
    EbmlExpected (.ok (ebmlEval es Tracks.none)) (es.takeWhile fun e => !e.isCluster) := by
  refine ⟨fun pre e post f hs hpre he => ?_, fun hs => ?_⟩
  · have hsplit : es = pre ++ e :: (post ++ es.dropWhile fun e => !e.isCluster) := by
      have h := List.takeWhile_append_dropWhile (p := fun e : EbmlElement => !e.isCluster) (l := es)
      rw [hs, List.append_assoc, List.cons_append] at h
      exact h.symm
    have hno : ∀ x ∈ pre, x.isCluster = false := by
      intro x hx
      have hm : x ∈ es.takeWhile fun e => !e.isCluster := by rw [hs]; simp [hx]
      have := List.all_takeWhile (p := fun e : EbmlElement => !e.isCluster) (l := es)
      rw [List.all_eq_true] at this
      simpa using this x hm
    rw [hsplit, ebmlEval_settled pre e _ f (fun x hx => ⟨hno x hx, hpre x hx⟩) he]
  · obtain ⟨t, h0, hv, ha, hsub⟩ := ebmlEval_tracks es hs Tracks.none
    have e1 : Tracks.none.video = false := rfl
    have e2 : Tracks.none.audio = false := rfl
    have e3 : Tracks.none.subtitle = false := rfl
    rw [e1, Bool.false_eq_true, false_or] at hv
    rw [e2, Bool.false_eq_true, false_or] at ha
    rw [e3, Bool.false_eq_true, false_or] at hsub
    rw [h0]
    unfold ebmlVerdict
    refine ⟨fun h => ?_, fun h h1 => ?_, fun h h1 => ?_, fun h => ?_⟩
    · rw [if_pos (hv.mpr h)]
    · rw [if_neg (fun hc => by obtain ⟨b, hb, hh⟩ := hv.mp hc; exact h1 b hb hh), if_pos (ha.mpr h)]
    · rw [if_neg (fun hc => by obtain ⟨b, hb, hh⟩ := hv.mp hc; exact (h1 b hb).1 hh),
        if_neg (fun hc => by obtain ⟨b, hb, hh⟩ := ha.mp hc; exact (h1 b hb).2 hh), if_pos (hsub.mpr h)]
    · rw [if_neg (fun hc => by obtain ⟨b, hb, hh⟩ := hv.mp hc; exact (h b hb).1 hh),
        if_neg (fun hc => by obtain ⟨b, hb, hh⟩ := ha.mp hc; exact (h b hb).2.1 hh),
        if_neg (fun hc => by obtain ⟨b, hb, hh⟩ := hsub.mp hc; exact (h b hb).2.2 hh)]

/-- C30. With `reader-ebml`, for every sequence of elements, with every encoding of their IDs and sizes,
the first 256 of them up to the first cluster decide: the first DocType other than `matroska...` or
non-zero StereoMode among them; if there is none, the codecs, video before audio before subtitles;
whatever all other elements contain. What follows a cluster, such a DocType or StereoMode, or 256 elements does not
matter; and the last element may be cut off. -/
theorem C30_elements (cfg : Cfg) (ft : Features) (es : List EbmlElement) (rest : Bytes)
    (hv : ∀ e ∈ es, e.Valid)
    (hr : 256 ≤ es.length ∨ EbmlTail rest ∨ ∃ e ∈ es, e.Stops)
    (hs : IsSlice (es.flatMap EbmlElement.encode ++ rest)) (he : ft.ebml = true)
    (hrec : Recognised (es.flatMap EbmlElement.encode ++ rest) ExtensibleBinaryMetaLanguage) :
    EbmlExpected (fromBytes cfg ft (es.flatMap EbmlElement.encode ++ rest)) (ebmlSeen es) := by
  have hs' : (es.flatMap EbmlElement.encode ++ rest).length < 2 ^ 63 := hs
  rw [recognised_verdict cfg ft _ hs .ebml (by decide) he hrec _
    (ebmlReader_run es rest hv hs' hr 0)]
  exact ebmlExpected_eval _

/-- A Matroska file: header with DocType, a segment with one audio track, a cluster. The sizes of the
containers are written in eight bytes. -/
def sampleEbml (docType codec : Bytes) (stereo : UInt8) : List EbmlElement :=
  [.container 4 0x1A45DFA3 8 19, .other 2 0x4286 1 [1], .docType 2 docType, .container 4 0x18538067 8 1000,
   .other 4 0x1549A966 4 b!"some information", .container 4 0x1654AE6B 8 100, .container 1 0xAE 8 90,
   .other 1 0xD7 1 [1], .codecId 3 codec, .container 1 0xE0 1 20, .stereoMode 1 stereo, .cluster 8 500]

theorem sampleEbml_valid (docType codec : Bytes) (stereo : UInt8) (h1 : docType.length < 100) (h2 : codec.length < 100) :
    ∀ e ∈ sampleEbml docType codec stereo, e.Valid := by
  intro e he
  simp only [sampleEbml, List.mem_cons, List.not_mem_nil, or_false] at he
  rcases he with rfl | rfl | rfl | rfl | rfl | rfl | rfl | rfl | rfl | rfl | rfl | rfl
  · exact ⟨by decide, by decide⟩
  · exact ⟨by decide, by decide, by decide⟩
  · exact ⟨by decide, by decide, by simp only [Nat.reduceMul, Nat.reducePow]; omega⟩
  · exact ⟨by decide, by decide⟩
  · exact ⟨by decide, by decide, by decide⟩
  · exact ⟨by decide, by decide⟩
  · exact ⟨by decide, by decide⟩
  · exact ⟨by decide, by decide, by decide⟩
  · exact ⟨by decide, by decide, by simp only [Nat.reduceMul, Nat.reducePow]; omega⟩
  · exact ⟨by decide, by decide⟩
  · exact ⟨by decide, by decide, by decide⟩
  · exact ⟨by decide, by decide, by decide⟩

-- Non-vacuity.
example : EbmlTail ([0xEC, 0x88] ++ b!"void") := .cut 1 0xEC 1 8 b!"void" (by decide) (by decide) (by decide) (by decide)
example : EbmlElement.Stops (.docType 1 b!"webm") := .inr ⟨_, .webm 1 _ ⟨[], rfl⟩⟩
example : Recognised ((sampleEbml b!"matroska" b!"A_VORBIS" 0).flatMap EbmlElement.encode ++ b!"frames") ExtensibleBinaryMetaLanguage ∧
    fromBytes Cfg.release { ebml := true } ((sampleEbml b!"matroska" b!"A_VORBIS" 0).flatMap EbmlElement.encode ++ b!"frames") =
      .ok MatroskaAudio := by
  unfold Recognised; decide +kernel
example : fromBytes Cfg.release { ebml := true } ((sampleEbml b!"webm" b!"V_VP9" 0).flatMap EbmlElement.encode) = .ok Webm ∧
    fromBytes Cfg.release { ebml := true } ((sampleEbml b!"matroska" b!"V_VP9" 1).flatMap EbmlElement.encode) = .ok Matroska3dVideo := by
  decide +kernel
example : ∃ e ∈ ebmlSeen (sampleEbml b!"matroska" b!"A_VORBIS" 0), e.Codec b!"A_" :=
  ⟨.codecId 3 b!"A_VORBIS", by simp [ebmlSeen, sampleEbml, EbmlElement.isCluster, List.takeWhile_cons],
    ⟨b!"VORBIS", rfl⟩⟩

/-- The reader does not skip the rest of a StereoMode that is written in two bytes: the second byte is
taken for an ID. The file below consists of well-formed elements, the last of which is a video codec; its
StereoMode is `00 00`, so it should be a Matroska video, but it is reported as binary data, because a zero
byte is no ID. -/
theorem C30_wide_stereoMode :
    ∃ file : Bytes, Recognised file ExtensibleBinaryMetaLanguage ∧
      file = [.container 4 0x1A45DFA3 1 11, .docType 1 b!"matroska", .container 4 0x18538067 1 100].flatMap EbmlElement.encode ++
        (beBytes 2 0x53B8 ++ vint 1 2 ++ [0, 0]) ++ (EbmlElement.codecId 1 b!"V_VP9").encode ∧
      fromBytes Cfg.release { ebml := true } file = .ok ArbitraryBinaryData := by
  refine ⟨_, ?_, rfl, ?_⟩
  · unfold Recognised; decide +kernel
  · decide +kernel

end FF.Props
