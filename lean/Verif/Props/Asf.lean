import Verif.Proofs.Asf
/-!
# ASF files (C31)
-/

namespace FF.Props
open FF Spec FileFormat

/-- The verdict that the objects call for. -/
def AsfExpected (r : Except Fail FileFormat) (os : List AsfObject) : Prop :=
  ((∃ o ∈ os, o.Dvr) → r = .ok MicrosoftDigitalVideoRecording) ∧
  ((∀ o ∈ os, ¬ o.Dvr) →
    ((∃ o ∈ os, o.StreamOf asfVideoMedia) → r = .ok WindowsMediaVideo) ∧
    ((∃ o ∈ os, o.StreamOf asfAudioMedia) → (∀ o ∈ os, ¬ o.StreamOf asfVideoMedia) → r = .ok WindowsMediaAudio) ∧
    ((∀ o ∈ os, ¬ o.StreamOf asfVideoMedia ∧ ¬ o.StreamOf asfAudioMedia) → r = .ok AdvancedSystemsFormat))

/-- C31. With `reader-asf`, for every ASF file the first 256 header objects decide: a TV recording if one of
the first 32 content descriptors of some object is named `DVR File Version...`; otherwise video if there
is a video stream, else audio if there is an audio stream, else plain ASF; whatever else the objects
contain and whatever follows them. -/
theorem C31_header_objects (cfg : Cfg) (ft : Features) (head : Bytes) (count : Nat) (reserved : Bytes)
    (os : List AsfObject) (rest : Bytes) (hh : head.length = 24) (hn : count < 2 ^ 32) (hres : reserved.length = 2)
    (hk : os.length = min 256 count) (hv : ∀ o ∈ os, o.Valid) (hs : IsSlice (asfFile head count reserved os rest))
    (he : ft.asf = true) (hrec : Recognised (asfFile head count reserved os rest) AdvancedSystemsFormat) :
    AsfExpected (fromBytes cfg ft (asfFile head count reserved os rest)) os := by
  have hs' : (asfFile head count reserved os rest).length < 2 ^ 63 := hs
  have key := fun f h => recognised_verdict cfg ft _ hs .asf (by decide) he hrec f h
  obtain ⟨h1, h2⟩ := asfReader_run cfg (2 ^ 64 - 1) head count reserved os rest hh hn hres hk hv hs' (by omega) 0
  refine ⟨fun h => key _ (h1 h), fun h => ?_⟩
  obtain ⟨a, v, hr, ha, hvd⟩ := h2 h
  rw [key _ hr]
  unfold asfVerdict
  refine ⟨fun h => ?_, fun h h' => ?_, fun h => ?_⟩
  · rw [if_pos (hvd.mpr h)]
  · rw [if_neg (fun hc => by obtain ⟨o, ho, hh⟩ := hvd.mp hc; exact h' o ho hh), if_pos (ha.mpr h)]
  · rw [if_neg (fun hc => by obtain ⟨o, ho, hh⟩ := hvd.mp hc; exact (h o ho).1 hh),
      if_neg (fun hc => by obtain ⟨o, ho, hh⟩ := ha.mp hc; exact (h o ho).2 hh)]

/-- Three header objects: some properties, content descriptors, an audio stream. -/
def sampleAsf (name : Bytes) : List AsfObject :=
  [.other (List.replicate 16 7) b!"properties",
   .content [⟨utf16le b!"WM/Genre", [0, 0], utf16le b!"Jazz"⟩, ⟨utf16le name, [3, 0], [1, 0, 0, 0]⟩] b!"padding",
   .stream asfAudioMedia.bytes b!"more about it"]

/-- The GUID of the ASF header, and its size. -/
def asfHead : Bytes := b!"\x30\x26\xb2\x75\x8e\x66\xcf\x11\xa6\xd9\x00\xaa\x00\x62\xce\x6c\x00\x01\x00\x00\x00\x00\x00\x00"

theorem sampleAsf_valid (name : Bytes) (h : name.length < 1000) : ∀ o ∈ sampleAsf name, o.Valid := by
  intro o ho
  simp only [sampleAsf, List.mem_cons, List.not_mem_nil, or_false] at ho
  rcases ho with rfl | rfl | rfl
  · exact ⟨by decide, by decide, by decide⟩
  · refine ⟨by simp, ?_⟩
    intro d hd
    simp only [List.mem_cons, List.not_mem_nil, or_false] at hd
    rcases hd with rfl | rfl
    · exact ⟨by decide, by decide, by decide⟩
    · have : ∀ s : Bytes, (utf16le s).length = 2 * s.length := by
        intro s; induction s with
        | nil => rfl
        | cons a s ih => simp only [utf16le, List.flatMap_cons, List.length_append] at ih ⊢; simp [ih]; omega
      refine ⟨by rw [this]; omega, rfl, by simp⟩
  · exact length_guid _

-- Non-vacuity.
example : asfHead.length = 24 ∧ (sampleAsf b!"Year").length = min 256 3 ∧
    Recognised (asfFile asfHead 3 [1, 2] (sampleAsf b!"Year") b!"packets") AdvancedSystemsFormat ∧
    fromBytes Cfg.release { asf := true } (asfFile asfHead 3 [1, 2] (sampleAsf b!"Year") b!"packets") = .ok WindowsMediaAudio ∧
    fromBytes Cfg.release { asf := true } (asfFile asfHead 3 [1, 2] (sampleAsf b!"DVR File Version") b!"packets") =
      .ok MicrosoftDigitalVideoRecording := by
  unfold Recognised; decide +kernel
example : ∃ o ∈ sampleAsf b!"DVR File Version", o.Dvr :=
  ⟨.content [⟨utf16le b!"WM/Genre", [0, 0], utf16le b!"Jazz"⟩, ⟨utf16le b!"DVR File Version", [3, 0], [1, 0, 0, 0]⟩] b!"padding",
    by simp [sampleAsf], ⟨utf16le b!"DVR File Version", [3, 0], [1, 0, 0, 0]⟩, by simp, ⟨[], rfl⟩⟩
example : ∃ o ∈ sampleAsf b!"Year", o.StreamOf asfAudioMedia :=
  ⟨.stream asfAudioMedia.bytes b!"more about it", by simp [sampleAsf], rfl⟩

end FF.Props
