import Verif.Proofs.Profile
import Verif.Model.Claim
/-!
# Debug and release builds on any `Read + Seek`
-/

namespace FF
open FileFormat Spec

variable {σ : Type} (D : Device σ)

/-- On every device: the first program panics, or both end in the same way and leave the device in the same state. -/
theorem Agrees.execD {α : Type} {p q : Prog α} (h : Agrees p q) (s : DRd σ) :
    (FF.execD D p s).1 = .error .panic ∨ FF.execD D p s = FF.execD D q s := by
  induction h generalizing s with
  | panic q => exact .inl rfl
  | refl p => exact .inr rfl
  | readExact n _ ih =>
    unfold FF.execD
    rcases s.readExact D n with ⟨r, s'⟩
    cases r with
    | ok bs => exact ih bs s'
    | error f => exact .inr rfl
  | read n _ ih =>
    unfold FF.execD
    rcases s.read D n with ⟨r, s'⟩
    cases r with
    | ok bs => exact ih bs s'
    | error f => exact .inr rfl
  | seek t _ ih =>
    unfold FF.execD
    rcases s.seek D t with ⟨r, s'⟩
    cases r with
    | ok bs => exact ih bs s'
    | error f => exact .inr rfl
  | tell _ ih =>
    unfold FF.execD
    rcases s.tell D with ⟨r, s'⟩
    cases r with
    | ok bs => exact ih bs s'
    | error f => exact .inr rfl
  | readUntil l _ ih =>
    unfold FF.execD
    rcases s.readUntil D l with ⟨r, s'⟩
    cases r with
    | ok bs => exact ih bs s'
    | error f => exact .inr rfl

theorem Agrees.execOnD {α : Type} {p q : Prog α} (h : Agrees p q) (b : Bool) (st : σ) :
    (FF.execOnD D b p st).1 = .error .panic ∨ FF.execOnD D b p st = FF.execOnD D b q st := by
  unfold FF.execOnD
  rcases h.execD D { st := st, buffered := b, buf := [] } with h | h
  · exact .inl h
  · exact .inr (by rw [h])

theorem fromFmtReaderD_profile (ft : Features) (fmt : FileFormat) (st : σ) :
    (fromFmtReaderD D Cfg.debug ft fmt st).1 = .error .panic ∨
      fromFmtReaderD D Cfg.debug ft fmt st = fromFmtReaderD D Cfg.release ft fmt st := by
  unfold fromFmtReaderD
  by_cases h : ∃ g ∈ Feature.structured, fmt = g.base
  · obtain ⟨g, hg, rfl⟩ := h
    rw [fmtReader_base _ _ _ hg, fmtReader_base _ _ _ hg]
    by_cases he : g.enabled ft = true
    · rw [if_pos he, if_pos he]
      obtain ⟨h1, h2⟩ := agrees_readerOf g
      simp only
      rw [h1]
      exact h2.execOnD D _ _
    · rw [if_neg he, if_neg he]
      exact .inr rfl
  · have hn : ∀ cfg, fmtReader cfg ft fmt = none := fun cfg => by
      rcases fmtReader_cases cfg ft fmt with h' | ⟨f, hf, _, h', _⟩
      · exact h'
      · exact absurd ⟨f, hf, h'⟩ h
    rw [hn, hn]
    exact .inr rfl

theorem fromDevice_profile (ft : Features) (st : σ) :
    (fromDevice D Cfg.debug ft st).1 = .error .panic ∨ fromDevice D Cfg.debug ft st = fromDevice D Cfg.release ft st := by
  unfold fromDevice
  rcases D.read st bufferSize with ⟨r, s'⟩
  cases r with
  | error e => exact .inr rfl
  | ok buf =>
    simp only
    by_cases h : buf.length = 0
    · rw [if_pos h, if_pos h]
      exact .inr rfl
    · rw [if_neg h, if_neg h]
      cases fromSignature buf with
      | none => exact .inr rfl
      | some fmt =>
        simp only
        rcases fromFmtReaderD_profile D ft fmt s' with h | h
        · left
          rcases hx : fromFmtReaderD D Cfg.debug ft fmt s' with ⟨r, s''⟩
          rw [hx] at h
          cases h
          rfl
        · right; rw [h]

/-- On every device: the first program panics, or both end in the same way and leave the device in the same state. -/
theorem Agrees.execC {α : Type} {p q : Prog α} (h : Agrees p q) (s : DRd σ) :
    (FF.execC D p s).1 = .error .panic ∨ FF.execC D p s = FF.execC D q s := by
  induction h generalizing s with
  | panic q => exact .inl rfl
  | refl p => exact .inr rfl
  | readExact n _ ih =>
    unfold FF.execC
    rcases s.claimExact D n with ⟨r, s'⟩
    cases r with
    | ok bs => exact ih bs s'
    | error f => exact .inr rfl
  | read n _ ih =>
    unfold FF.execC
    rcases s.claimRead D n with ⟨r, s'⟩
    cases r with
    | ok bs => exact ih bs s'
    | error f => exact .inr rfl
  | seek t _ ih =>
    unfold FF.execC
    rcases s.seek D t with ⟨r, s'⟩
    cases r with
    | ok bs => exact ih bs s'
    | error f => exact .inr rfl
  | tell _ ih =>
    unfold FF.execC
    rcases s.tell D with ⟨r, s'⟩
    cases r with
    | ok bs => exact ih bs s'
    | error f => exact .inr rfl
  | readUntil l _ ih =>
    unfold FF.execC
    rcases s.claimUntil D l with ⟨r, s'⟩
    cases r with
    | ok bs => exact ih bs s'
    | error f => exact .inr rfl

theorem Agrees.execOnC {α : Type} {p q : Prog α} (h : Agrees p q) (b : Bool) (st : σ) :
    (FF.execOnC D b p st).1 = .error .panic ∨ FF.execOnC D b p st = FF.execOnC D b q st := by
  unfold FF.execOnC
  rcases h.execC D { st := st, buffered := b, buf := [] } with h | h
  · exact .inl h
  · exact .inr (by rw [h])

theorem fromFmtReaderC_profile (ft : Features) (fmt : FileFormat) (st : σ) :
    (fromFmtReaderC D Cfg.debug ft fmt st).1 = .error .panic ∨
      fromFmtReaderC D Cfg.debug ft fmt st = fromFmtReaderC D Cfg.release ft fmt st := by
  unfold fromFmtReaderC
  by_cases h : ∃ g ∈ Feature.structured, fmt = g.base
  · obtain ⟨g, hg, rfl⟩ := h
    rw [fmtReader_base _ _ _ hg, fmtReader_base _ _ _ hg]
    by_cases he : g.enabled ft = true
    · rw [if_pos he, if_pos he]
      obtain ⟨h1, h2⟩ := agrees_readerOf g
      simp only
      rw [h1]
      exact h2.execOnC D _ _
    · rw [if_neg he, if_neg he]
      exact .inr rfl
  · have hn : ∀ cfg, fmtReader cfg ft fmt = none := fun cfg => by
      rcases fmtReader_cases cfg ft fmt with h' | ⟨f, hf, _, h', _⟩
      · exact h'
      · exact absurd ⟨f, hf, h'⟩ h
    rw [hn, hn]
    exact .inr rfl

theorem fromClaims_profile (ft : Features) (st : σ) :
    (fromClaims D Cfg.debug ft st).1 = .error .panic ∨ fromClaims D Cfg.debug ft st = fromClaims D Cfg.release ft st := by
  unfold fromClaims
  rcases claimRead D st bufferSize with ⟨r, s'⟩
  cases r with
  | error e => exact .inr rfl
  | ok buf =>
    simp only
    by_cases h : buf.length = 0
    · rw [if_pos h, if_pos h]
      exact .inr rfl
    · rw [if_neg h, if_neg h]
      cases fromSignature buf with
      | none => exact .inr rfl
      | some fmt =>
        simp only
        rcases fromFmtReaderC_profile D ft fmt s' with h | h
        · left
          rcases hx : fromFmtReaderC D Cfg.debug ft fmt s' with ⟨r, s''⟩
          rw [hx] at h
          cases h
          rfl
        · right; rw [h]

end FF
