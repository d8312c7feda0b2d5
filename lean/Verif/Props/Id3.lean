import Verif.Proofs.Id3
import Verif.Proofs.Offsets
/-!
# ID3v2 tags (C33, C34)
-/

namespace FF.Props
open FF Spec FileFormat

/-- What follows the tags decides. -/
def Id3Verdict (cfg : Cfg) (ft : Features) (file audio : Bytes) : Prop :=
  (b!"fLaC" <+: audio → fromBytes cfg ft file = .ok FreeLosslessAudioCodec) ∧
  (StartsLayer3 audio → fromBytes cfg ft file = .ok Mpeg12AudioLayer3) ∧
  (¬ b!"fLaC" <+: audio → ¬ StartsLayer3 audio → fromBytes cfg ft file = .ok Id3v2)

theorem id3_verdict (cfg : Cfg) (ft : Features) (tags : List (Id3Tag × Bytes))
    (ht : ∀ x ∈ tags, x.1.Valid ∧ x.2.length = Id3Tag.gap x.1) (audio : Bytes)
    (hr : 10 ≤ audio.length) (hn : ¬ b!"ID3" <+: audio)
    (hb : IsSlice (tags.flatMap (fun x => x.1.encode ++ x.2) ++ audio)) (he : ft.id3v2 = true)
    (hrec : Recognised (tags.flatMap (fun x => x.1.encode ++ x.2) ++ audio) Id3v2) :
    Id3Verdict cfg ft (tags.flatMap (fun x => x.1.encode ++ x.2) ++ audio) audio := by
  classical
  have hb' : (tags.flatMap (fun x => x.1.encode ++ x.2) ++ audio).length < 2 ^ 63 := hb
  have hrun := id3v2Reader_run cfg (2 ^ 64 - 1) tags ht audio hr hn hb' (by omega)
  have hv := recognised_verdict cfg ft _ hb .id3v2 (by decide) he hrec _ hrun
  refine ⟨fun h => ?_, fun h => ?_, fun h1 h2 => ?_⟩
  · rw [hv, if_pos h]
  · rw [hv, if_neg, if_pos h]
    rintro ⟨r, hr⟩
    obtain ⟨b, rest, h1, _⟩ := h
    rw [h1] at hr
    cases hr
  · rw [hv, if_neg h1, if_neg h2]

/-- C33. With `reader-id3v2`, any number of ID3v2 tags without extended header, of any sizes and with or
without footer, are skipped: the verdict is FLAC if the data after them starts with `fLaC`, MP3 if it
starts with an MPEG layer III frame, and `Id3v2` otherwise. -/
theorem C33_stacked_tags (cfg : Cfg) (ft : Features) (tags : List Id3Tag)
    (ht : ∀ t ∈ tags, t.Valid ∧ t.hasExtended = false) (audio : Bytes)
    (hr : 10 ≤ audio.length) (hn : ¬ b!"ID3" <+: audio) (hb : IsSlice (tags.flatMap Id3Tag.encode ++ audio))
    (he : ft.id3v2 = true) (hrec : Recognised (tags.flatMap Id3Tag.encode ++ audio) Id3v2) :
    Id3Verdict cfg ft (tags.flatMap Id3Tag.encode ++ audio) audio := by
  have hmap : (tags.map fun t => (t, ([] : Bytes))).flatMap (fun x => x.1.encode ++ x.2) = tags.flatMap Id3Tag.encode := by
    rw [List.flatMap_map]; simp
  have := id3_verdict cfg ft (tags.map fun t => (t, [])) (by
    intro x hx
    obtain ⟨t, h1, rfl⟩ := List.mem_map.mp hx
    refine ⟨(ht t h1).1, ?_⟩
    rw [Id3Tag.gap, (ht t h1).2]
    rfl) audio hr hn (by rw [hmap]; exact hb) he (by rw [hmap]; exact hrec)
  rw [hmap] at this
  exact this

/-- With less than 10 bytes behind the tags, none included, there is no verdict but the fallback. -/
theorem C33_short_audio (cfg : Cfg) (ft : Features) (tags : List Id3Tag)
    (ht : ∀ t ∈ tags, t.Valid ∧ t.hasExtended = false) (audio : Bytes) (hr : audio.length < 10)
    (hb : IsSlice (tags.flatMap Id3Tag.encode ++ audio))
    (he : ft.id3v2 = true) (hrec : Recognised (tags.flatMap Id3Tag.encode ++ audio) Id3v2) :
    ∃ f, fromBytes cfg ft (tags.flatMap Id3Tag.encode ++ audio) = .ok f ∧
      Generic ft (tags.flatMap Id3Tag.encode ++ audio) f := by
  have hb' : (tags.flatMap Id3Tag.encode ++ audio).length < 2 ^ 63 := hb
  have hmap : (tags.map fun t => (t, ([] : Bytes))).flatMap (fun x => x.1.encode ++ x.2) = tags.flatMap Id3Tag.encode := by
    rw [List.flatMap_map]; simp
  have := id3v2Reader_short cfg (2 ^ 64 - 1) (tags.map fun t => (t, [])) (by
    intro x hx
    obtain ⟨t, h1, rfl⟩ := List.mem_map.mp hx
    refine ⟨(ht t h1).1, ?_⟩
    rw [Id3Tag.gap, (ht t h1).2]
    rfl) audio hr (by rw [hmap]; exact hb') (by rw [hmap]; omega)
  rw [hmap] at this
  exact recognised_error cfg ft _ hb .id3v2 (by decide) he hrec _ this

/-- In particular a file that consists of tags only is not reported as ID3v2. -/
theorem C33_tags_only (cfg : Cfg) (ft : Features) (tags : List Id3Tag)
    (ht : ∀ t ∈ tags, t.Valid ∧ t.hasExtended = false) (hb : IsSlice (tags.flatMap Id3Tag.encode))
    (he : ft.id3v2 = true) (hrec : Recognised (tags.flatMap Id3Tag.encode) Id3v2) :
    fromBytes cfg ft (tags.flatMap Id3Tag.encode) = .ok PlainText ∨
      fromBytes cfg ft (tags.flatMap Id3Tag.encode) = .ok ArbitraryBinaryData := by
  obtain ⟨f, h1, h2⟩ := C33_short_audio cfg ft tags ht [] (by decide) (by rwa [List.append_nil]) he (by rwa [List.append_nil])
  rw [List.append_nil] at h1 h2
  rcases h2 with ⟨_, _, rfl⟩ | ⟨_, rfl⟩
  · exact .inl h1
  · exact .inr h1

/-- Two tags, the second with a footer. -/
def sampleTags : List Id3Tag :=
  [⟨3, 0, 0, [], List.replicate 200 0x55, []⟩,
   ⟨4, 0, 0x10, [], b!"TIT2", b!"3DI\x04\x00\x10\x00\x00\x00\x04"⟩]

-- Non-vacuity.
example : (∀ t ∈ sampleTags, t.Valid ∧ t.hasExtended = false) ∧
    ¬ b!"ID3" <+: b!"\xff\xfb\x90\x00.........." ∧
    Recognised (sampleTags.flatMap Id3Tag.encode ++ b!"\xff\xfb\x90\x00..........") Id3v2 := by
  unfold Recognised; decide +kernel
example : StartsLayer3 b!"\xff\xfb\x90\x00.........." := ⟨0xfb, _, rfl, by unfold IsLayer3; decide⟩
example : fromBytes Cfg.release { id3v2 := true } (sampleTags.flatMap Id3Tag.encode ++ b!"\xff\xfb\x90\x00..........") =
    .ok Mpeg12AudioLayer3 := by decide +kernel

example : Recognised (sampleTags.flatMap Id3Tag.encode) Id3v2 ∧
    fromBytes Cfg.release { id3v2 := true } (sampleTags.flatMap Id3Tag.encode) = .ok ArbitraryBinaryData := by
  unfold Recognised; decide +kernel

/-! ## C34 -/

/-- C34, the full statement: C33 for tags with or without extended header. -/
def C34_statement : Prop :=
  ∀ (cfg : Cfg) (ft : Features) (tags : List Id3Tag) (audio : Bytes), (∀ t ∈ tags, t.Valid) → 10 ≤ audio.length →
    ¬ b!"ID3" <+: audio → IsSlice (tags.flatMap Id3Tag.encode ++ audio) → ft.id3v2 = true →
    Recognised (tags.flatMap Id3Tag.encode ++ audio) Id3v2 →
    Id3Verdict cfg ft (tags.flatMap Id3Tag.encode ++ audio) audio

/-- A version 2.4 tag with an extended header of 6 bytes. -/
def extendedTag : Id3Tag := ⟨4, 0, 0x40, [0, 0, 0, 6, 1, 0], b!"TIT2", []⟩

/-- C34 is violated: the size of the extended header is counted twice, so the reader looks for the audio
data too far on. A FLAC file behind such a tag is not recognised. -/
theorem C34_fails : ¬ C34_statement := by
  intro h
  have := (h Cfg.release { id3v2 := true } [extendedTag] (b!"fLaC" ++ List.replicate 34 0) (by decide) (by decide)
    (by decide) (by decide) rfl (by unfold Recognised; decide +kernel)).1 ⟨List.replicate 34 0, rfl⟩
  have h2 : fromBytes Cfg.release { id3v2 := true } ([extendedTag].flatMap Id3Tag.encode ++ (b!"fLaC" ++ List.replicate 34 0)) =
      .ok Id3v2 := by decide +kernel
  rw [h2] at this
  cases this

/-- C34, as far as it holds: exactly what is skipped. Behind every tag with an extended header the
reader also skips as many bytes as the four size bytes at the start of that header say (big-endian), and
what comes then decides; for tags without extended header nothing more is skipped. -/
theorem C34_extended_header_partial (cfg : Cfg) (ft : Features) (tags : List (Id3Tag × Bytes))
    (ht : ∀ x ∈ tags, x.1.Valid ∧
      x.2.length = if x.1.hasExtended = true then beNat (x.1.extended.take 4) else 0) (audio : Bytes)
    (hr : 10 ≤ audio.length) (hn : ¬ b!"ID3" <+: audio)
    (hb : IsSlice (tags.flatMap (fun x => x.1.encode ++ x.2) ++ audio)) (he : ft.id3v2 = true)
    (hrec : Recognised (tags.flatMap (fun x => x.1.encode ++ x.2) ++ audio) Id3v2) :
    Id3Verdict cfg ft (tags.flatMap (fun x => x.1.encode ++ x.2) ++ audio) audio :=
  id3_verdict cfg ft tags ht audio hr hn hb he hrec

-- Non-vacuity: 6 bytes behind the tag are skipped.
example : extendedTag.Valid ∧ (b!"......").length = beNat (extendedTag.extended.take 4) ∧
    fromBytes Cfg.release { id3v2 := true } ([(extendedTag, b!"......")].flatMap (fun x => x.1.encode ++ x.2) ++
      b!"fLaC..........") = .ok FreeLosslessAudioCodec := by decide +kernel

end FF.Props
