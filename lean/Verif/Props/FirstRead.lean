import Verif.Props.Stream
import Verif.Props.Family
import Verif.Props.Signature
/-!
# C12, C14: what the first read decides
-/

namespace FF.Props
open FF FileFormat Spec

/-- The signature verdict determines the result of the table search. -/
theorem recognised_signature {b b' : Bytes} (hb : b.length < 2 ^ 64) (hb' : b'.length < 2 ^ 64) {f : FileFormat}
    (h : Recognised b f) (h' : Recognised b' f) :
    (b.length = 0 ↔ b'.length = 0) ∧ fromSignature b = fromSignature b' := by
  have hnil : fromSignature [] = none := by decide +kernel
  have key : ∀ {x : Bytes}, x.length < 2 ^ 64 → Recognised x f →
      (x.length = 0 ↔ f = FileFormat.Empty) ∧
      fromSignature x = if f = FileFormat.Empty ∨ f = ArbitraryBinaryData then none else some f := by
    intro x hx hr
    have hr2 := hr
    unfold Recognised at hr2
    rw [fromBytes_none _ _ hx] at hr2
    by_cases h0 : x.length = 0
    · have : x = [] := List.eq_nil_of_length_eq_zero h0
      subst this
      rw [if_pos h0] at hr2
      cases hr2
      exact ⟨⟨fun _ => rfl, fun _ => rfl⟩, by rw [hnil, if_pos (Or.inl rfl)]⟩
    · rw [if_neg h0] at hr2
      have hf : (fromSignature x).getD ArbitraryBinaryData = f := by cases hr2; rfl
      have hm : ∀ g, fromSignature x = some g → g ≠ FileFormat.Empty ∧ g ≠ ArbitraryBinaryData := by
        intro g hg
        obtain ⟨e, he, rfl, _⟩ := fromSignature_some hg
        have hall : (signatureTable.all fun e => !(Nat.beq e.format.ctorIdx ArbitraryBinaryData.ctorIdx) &&
          !(Nat.beq e.format.ctorIdx FileFormat.Empty.ctorIdx)) = true := by decide +kernel
        have := List.all_eq_true.mp hall e he
        constructor
        · intro h; rw [h] at this; exact absurd this (by decide)
        · intro h; rw [h] at this; exact absurd this (by decide)
      cases hs : fromSignature x with
      | none =>
        rw [hs, Option.getD_none] at hf
        subst hf
        refine ⟨⟨fun h => absurd h h0, fun h => ?_⟩, ?_⟩
        · exact absurd h (by decide)
        · rw [if_pos (Or.inr rfl)]
      | some g =>
        rw [hs] at hf
        simp only [Option.getD_some] at hf
        subst hf
        obtain ⟨h1, h2⟩ := hm g hs
        refine ⟨⟨fun h => absurd h h0, fun h => absurd h h1⟩, ?_⟩
        rw [if_neg]
        rintro (h | h)
        · exact h1 h
        · exact h2 h
  obtain ⟨h1, h2⟩ := key hb h
  obtain ⟨h3, h4⟩ := key hb' h'
  exact ⟨h1.trans h3.symm, h2.trans h4.symm⟩

theorem read_length {s : Src} (hs : s.WF) (hl : IsSlice s.data) {n : Nat} {buf : Bytes} (hr : (s.read n).1 = .ok buf) :
    buf.length < 2 ^ 64 := by
  have hl' : s.data.length < 2 ^ 63 := hl
  obtain ⟨_, _, h⟩ := Src.read_spec s n hs
  rcases h with ⟨k, h1, _, h2, _⟩ | ⟨e, h2, _⟩
  · rw [h2] at hr; cases hr; rw [length_slice]; omega
  · rw [h2] at hr; cases hr

/-- C12, C14. On every stream that does not fail, at any position: if the first read delivers bytes that are
recognised as the whole content is, then the verdict is the one on the whole content, however short that read
was and however the later ones are cut and interrupted (if a reader that makes plain `read` calls takes part:
if the later ones are full). -/
theorem firstRead_same (cfg : Cfg) (ft : Features) (s : Src) (hs : s.WF) (hl : IsSlice s.data)
    (hm : s.maxPos = 2 ^ 64 - 1) (hb : s.Benign) (buf : Bytes) (hr : (s.read 36870).1 = .ok buf)
    (f : FileFormat) (hf : Recognised buf f) (hf' : Recognised s.data f)
    (hc : ∀ g ∈ [Feature.pdf, .sqlite3, .xml], g.enabled ft = true → f = g.base → (s.read 36870).2.Calm) :
    (fromReader cfg ft s).1 = fromBytes cfg ft s.data := by
  have hl' : s.data.length < 2 ^ 63 := hl
  have hlen := read_length hs hl hr
  obtain ⟨h0, hsig⟩ := recognised_signature hlen (by omega) hf hf'
  rw [fromBytes_ideal _ _ _ (by omega), fromReader_eq2]
  obtain ⟨hle, hwf, _⟩ := Src.read_spec s 36870 hs
  cases hx : s.read 36870 with
  | mk r s' =>
    rw [hx] at hle hwf hr hc
    simp only at hle hwf hr hc
    subst hr
    simp only
    have hd : s'.data = s.data := hle.data
    have hmm : s'.maxPos = s.maxPos := hle.maxPos
    rw [← hm, ← hmm, ← hd]
    have hbare : BareRead ft s'.data → s'.Calm := by
      rintro ⟨g, hg, hbr, he, hgs⟩
      refine hc g (by revert hbr; cases g <;> decide) he ?_
      rw [hd, fromSignature_take _ _ (Nat.le_refl _)] at hgs
      have h2 := fromSignature_of_none (cfg := Cfg.release) (by omega : s.data.length < 2 ^ 64) hf'
      have h3 := recognised_of_signature (by omega : s.data.length < 2 ^ 64) hgs
      unfold Recognised at h3 hf'
      rw [h3] at hf'
      cases hf'
      rfl
    rw [← afterRead_ideal cfg ft s' hwf (hb.mono hle) hbare]
    unfold afterRead
    rw [hd] at *
    have hz : (s.data.take bufferSize).length = 0 ↔ s.data.length = 0 := by
      rw [List.length_take]; simp only [bufferSize]; omega
    rw [fromSignature_take _ _ (Nat.le_refl _), ← hsig]
    by_cases hzero : buf.length = 0
    · rw [if_pos hzero, if_pos (hz.mpr (h0.mp hzero))]
    · rw [if_neg hzero, if_neg (fun h => hzero (h0.mpr (hz.mp h)))]

/-- C12 with readers, the part that holds: a short first read does no harm if the bytes it delivers are recognised
as the whole content is. -/
theorem C12_same_signature_partial (cfg : Cfg) (ft : Features) (s : Src) (hs : s.WF) (hl : IsSlice s.data)
    (hm : s.maxPos = 2 ^ 64 - 1) (hb : s.Benign) (buf : Bytes) (hr : (s.read 36870).1 = .ok buf)
    (f : FileFormat) (hf : Recognised buf f) (hf' : Recognised s.data f)
    (hbare : ∀ g ∈ [Feature.pdf, .sqlite3, .xml], g.enabled ft = true → f ≠ g.base) :
    (fromReader cfg ft s).1 = fromBytes cfg ft s.data :=
  firstRead_same cfg ft s hs hl hm hb buf hr f hf hf' fun g hg he h => absurd h (hbare g hg he)

/-- C12 where no reader takes part: whatever the features, the schedule and the position, the verdict is the one on
the bytes that the first read delivers. -/
theorem C12_no_reader_partial (cfg : Cfg) (ft : Features) (s : Src) (hs : s.WF) (hl : IsSlice s.data)
    (buf : Bytes) (hr : (s.read 36870).1 = .ok buf) (f : FileFormat) (hf : Recognised buf f)
    (hno : ∀ g ∈ Feature.structured, g.enabled ft = true → f ≠ g.base) (ht : ft.txt = true → f ≠ ArbitraryBinaryData) :
    (fromReader cfg ft s).1 = .ok f := by
  have hlen := read_length hs hl hr
  have hf2 := hf
  unfold Recognised at hf2
  rw [fromBytes_none _ _ hlen] at hf2
  rw [fromReader_eq2]
  cases hx : s.read 36870 with
  | mk r s' =>
    rw [hx] at hr
    simp only at hr
    subst hr
    simp only [afterRead]
    by_cases h0 : buf.length = 0
    · rw [if_pos h0] at hf2 ⊢
      exact hf2
    · rw [if_neg h0] at hf2 ⊢
      cases hsig : fromSignature buf with
      | none =>
        rw [hsig] at hf2
        simp only [Option.getD_none] at hf2
        cases hf2
        simp only [fromGenericReader]
        cases htx : ft.txt with
        | true => exact absurd rfl (ht htx)
        | false => rfl
      | some fmt =>
        rw [hsig] at hf2
        simp only [Option.getD_some] at hf2
        cases hf2
        simp only
        rcases fmtReader_cases cfg ft f with hn | ⟨g, hg, he, hgb, _⟩
        · simp only [fromFmtReader, hn]
        · exact absurd hgb (hno g hg he)

/-- C14 with readers, the part that holds: they look at the stream from its start, so the verdict is the one on
the whole content if what follows the current position is recognised as the whole content is. -/
theorem C14_same_signature_partial (cfg : Cfg) (ft : Features) (s : Src) (hs : s.WF) (hl : IsSlice s.data)
    (hm : s.maxPos = 2 ^ 64 - 1) (hc : s.Calm) (f : FileFormat) (hf : Recognised (s.data.drop s.pos) f)
    (hf' : Recognised s.data f) : (fromReader cfg ft s).1 = fromBytes cfg ft s.data := by
  have hl' : s.data.length < 2 ^ 63 := hl
  obtain ⟨hle, _, _⟩ := Src.read_spec s 36870 hs
  refine firstRead_same cfg ft s hs hl hm hc.benign _ (Src.read_calm s 36870 hc).1 f ?_ hf' fun _ _ _ _ => hc.mono hle
  have hw : slice s.data s.pos 36870 = (s.data.drop s.pos).take 36870 := rfl
  rw [hw]
  unfold Recognised at hf ⊢
  rw [← C07_window _ _ (by
    show (s.data.drop s.pos).length < 2 ^ 63
    rw [List.length_drop]; omega)]
  exact hf

-- Non-vacuity. The first read delivers five bytes of an ID3v2 tag; the FLAC file behind it is found.
example : Recognised (b!"ID3\x04\x00") Id3v2 ∧
    Recognised (b!"ID3\x04\x00\x00\x00\x00\x00\x00fLaC\x00\x00\x00\x00\x00\x00\x00") Id3v2 ∧
    (fromReader Cfg.release { id3v2 := true }
      { cursor (b!"ID3\x04\x00\x00\x00\x00\x00\x00fLaC\x00\x00\x00\x00\x00\x00\x00") with revs := [.short 4, .short 0] }).1 =
      .ok FreeLosslessAudioCodec := by unfold Recognised; decide +kernel
-- The stream is at the second of two ID3v2 tags; the verdict is the one on the whole content.
example : (fromReader Cfg.release { id3v2 := true }
      { cursor (b!"ID3\x04\x00\x00\x00\x00\x00\x00ID3\x04\x00\x00\x00\x00\x00\x00fLaC\x00\x00\x00\x00\x00\x00\x00") with pos := 10 }).1 =
      .ok FreeLosslessAudioCodec := by decide +kernel
-- No reader takes part: a PNG signature delivered by a short read.
example : (fromReader Cfg.release Features.all
      { cursor (b!"\x89PNG\r\n\x1a\n\x00\x00") with revs := [.short 7, .error (.other 5)] }).1 = .ok PortableNetworkGraphics := by
  decide +kernel

end FF.Props
