import Verif.Props.Trailing
import Verif.Props.Family
import Verif.Props.Mp4
/-!
# C50: files that are cut off
-/

namespace FF.Props
open FF FileFormat Spec

/-- C50 as one would wish it: if both a file and its beginning are recognised by the same magic, the beginning is
reported as the whole file is, as the basic format or by a fallback verdict, but never as another format. -/
def C50_statement : Prop :=
  ∀ (cfg : Cfg) (ft : Features) (g : Feature), g ∈ Feature.structured →
    ∀ (b t : Bytes), IsSlice (b ++ t) → Recognised b g.base → Recognised (b ++ t) g.base →
      ∀ f f', fromBytes cfg ft b = .ok f → fromBytes cfg ft (b ++ t) = .ok f' →
        f = f' ∨ f = g.base ∨ f = ArbitraryBinaryData ∨ f = PlainText

/-- C50 does not hold: a film that is cut off between its audio and its video track is an audio file. -/
theorem C50_fails : ¬ C50_statement := by
  intro h
  have := h Cfg.release { mp4 := true } .mp4 (by decide) soundFile
    ([0, 0, 0, 20] ++ b!"hdlr" ++ [0, 0, 0, 0, 0, 0, 0, 0] ++ b!"vide") (by decide) (by unfold Recognised; decide +kernel)
    (by unfold Recognised; decide +kernel) Mpeg4Part14Audio Mpeg4Part14Video (by decide +kernel) (by decide +kernel)
  revert this
  decide

/-- C50, the part that holds: ASF, compound files, executables, ID3v2, PDF, RealMedia, SQLite. -/
theorem C50_cut_off_partial (cfg : Cfg) (ft : Features) (g : Feature)
    (hg : g ∈ [Feature.asf, .cfb, .exe, .id3v2, .pdf, .rm, .sqlite3]) (b t : Bytes)
    (hb : IsSlice (b ++ t)) (hr : Recognised b g.base) (hr' : Recognised (b ++ t) g.base) (f f' : FileFormat)
    (h : fromBytes cfg ft b = .ok f) (h' : fromBytes cfg ft (b ++ t) = .ok f') :
    f = f' ∨ f = g.base ∨ f = ArbitraryBinaryData ∨ f = PlainText := by
  have hb' : (b ++ t).length < 2 ^ 63 := hb
  have hlb : b.length ≤ (b ++ t).length := by rw [List.length_append]; omega
  have hbs : IsSlice b := by show b.length < 2 ^ 63; omega
  have hs : g ∈ Feature.structured := by revert hg; cases g <;> decide
  cases he : g.enabled ft with
  | false =>
    rw [recognised_disabled cfg ft b hbs g hs he hr] at h
    cases h
    exact .inr (.inl rfl)
  | true =>
    rcases C19_degrades cfg ft b hbs g hs he hr f h with hf | hf | hf
    · exact .inr (.inl hf)
    · have := C49_refined_partial cfg ft g hg he b t hb hr hr' f hf h
      rw [this] at h'
      cases h'
      exact .inl rfl
    · rcases hf with ⟨_, _, hf⟩ | ⟨_, hf⟩
      · exact .inr (.inr (.inr hf))
      · exact .inr (.inr (.inl hf))

/-- For ASF, compound files, ID3v2 and RealMedia also the basic format is reported only if the whole file is
reported as such: the verdict on the beginning is the one on the whole file or a fallback. -/
theorem C50_same_or_fallback_partial (cfg : Cfg) (ft : Features) (g : Feature)
    (hg : g ∈ [Feature.asf, .cfb, .id3v2, .rm]) (b t : Bytes)
    (hb : IsSlice (b ++ t)) (hr : Recognised b g.base) (hr' : Recognised (b ++ t) g.base) (f f' : FileFormat)
    (h : fromBytes cfg ft b = .ok f) (h' : fromBytes cfg ft (b ++ t) = .ok f') :
    f = f' ∨ f = ArbitraryBinaryData ∨ f = PlainText := by
  have hb' : (b ++ t).length < 2 ^ 63 := hb
  have hlb : b.length ≤ (b ++ t).length := by rw [List.length_append]; omega
  have hbs : IsSlice b := by show b.length < 2 ^ 63; omega
  have hs : g ∈ Feature.structured := by revert hg; cases g <;> decide
  cases he : g.enabled ft with
  | false =>
    rw [recognised_disabled cfg ft b hbs g hs he hr] at h
    rw [recognised_disabled cfg ft (b ++ t) hb g hs he hr'] at h'
    rw [h] at h'
    cases h'
    exact .inl rfl
  | true =>
    by_cases h1 : f = ArbitraryBinaryData
    · exact .inr (.inl h1)
    · by_cases h2 : f = PlainText
      · exact .inr (.inr h2)
      · rw [C49_any_verdict_partial cfg ft g hg he b t hb hr hr' f h1 h2 h] at h'
        cases h'
        exact .inl rfl

/-- C50 for MP4: a file that is cut off within the contents of its last box keeps its verdict. -/
theorem C50_mp4_partial (cfg : Cfg) (ft : Features) (boxes : List Mp4Box) (type body missing : Bytes)
    (hb : ∀ b ∈ Mp4Box.visitAll boxes, b.WellFormed ∧ b.NarrowOrContainer)
    (hw : (Mp4Box.other false type (body ++ missing)).WellFormed)
    (hs : IsSlice (Mp4Box.encodeAll boxes ++ (beBytes 4 (8 + (body ++ missing).length) ++ (type ++ (body ++ missing)))))
    (he : ft.mp4 = true)
    (hrec : Recognised (Mp4Box.encodeAll boxes ++ (beBytes 4 (8 + (body ++ missing).length) ++ (type ++ body))) Mpeg4Part14)
    (hrec' : Recognised (Mp4Box.encodeAll boxes ++ (beBytes 4 (8 + (body ++ missing).length) ++ (type ++ (body ++ missing))))
      Mpeg4Part14) :
    fromBytes cfg ft (Mp4Box.encodeAll boxes ++ (beBytes 4 (8 + (body ++ missing).length) ++ (type ++ body))) =
      fromBytes cfg ft (Mp4Box.encodeAll boxes ++ (beBytes 4 (8 + (body ++ missing).length) ++ (type ++ (body ++ missing)))) := by
  obtain ⟨ht, hc, hh, hl⟩ := hw
  have hs1 : (Mp4Box.encodeAll boxes ++ (beBytes 4 (8 + (body ++ missing).length) ++ (type ++ (body ++ missing)))).length <
    2 ^ 63 := hs
  have hs2 : IsSlice (Mp4Box.encodeAll boxes ++ (beBytes 4 (8 + (body ++ missing).length) ++ (type ++ body))) := by
    show (_ : Bytes).length < 2 ^ 63
    simp only [List.length_append, length_beBytes] at hs1 ⊢
    omega
  rw [mp4_verdict cfg ft boxes _ hb (.inr ?_) hs2 he hrec, mp4_verdict cfg ft boxes _ hb (.inr ?_) hs he hrec']
  · exact .cut _ type _ ht hc hh (hl rfl) (Nat.le_refl _)
  · exact .cut _ type _ ht hc hh (hl rfl) (by rw [List.length_append]; omega)

-- Non-vacuity: a tagged FLAC file that is cut off behind the marker, and one that is cut off before it.
example : Recognised (b!"ID3\x04\x00\x00\x00\x00\x00\x00fLaC\x00\x00\x00\x00\x00\x00") Id3v2 ∧
    Recognised (b!"ID3\x04\x00\x00\x00\x00\x00\x00fLaC\x00\x00\x00\x00\x00\x00" ++ b!"the rest") Id3v2 ∧
    Recognised (b!"ID3\x04\x00\x00\x00\x00\x00\x00fL") Id3v2 ∧
    fromBytes Cfg.release { id3v2 := true } (b!"ID3\x04\x00\x00\x00\x00\x00\x00fLaC\x00\x00\x00\x00\x00\x00") =
      .ok FreeLosslessAudioCodec ∧
    fromBytes Cfg.release { id3v2 := true } (b!"ID3\x04\x00\x00\x00\x00\x00\x00fL") = .ok ArbitraryBinaryData := by
  unfold Recognised; decide +kernel
example : (Mp4Box.other false b!"mdat" (b!"frame" ++ b!"frame")).WellFormed ∧
    Recognised (Mp4Box.encodeAll (sampleMp4 false false) ++ (beBytes 4 18 ++ (b!"mdat" ++ b!"frame"))) Mpeg4Part14 ∧
    fromBytes Cfg.release { mp4 := true } (Mp4Box.encodeAll (sampleMp4 false false) ++ (beBytes 4 18 ++ (b!"mdat" ++ b!"frame"))) =
      .ok Mpeg4Part14Audio :=
  ⟨⟨rfl, by decide, by decide, by decide⟩, by unfold Recognised; decide +kernel, by decide +kernel⟩

end FF.Props
