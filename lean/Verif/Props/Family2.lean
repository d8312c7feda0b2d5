import Verif.Props.Device
/-!
# Reader features on any `Read + Seek` (C15)
-/

namespace FF.Props
open FF Spec FileFormat

variable {σ : Type} {D : Device σ}

theorem firstDevice_length (hL : D.Lawful) {st st' : σ} {buf : Bytes} (h : D.read st bufferSize = (.ok buf, st')) :
    buf.length < 2 ^ 64 := by
  have h' : buf.length ≤ 36870 := hL.read_le _ _ _ _ h
  omega

/-- C15 on every implementation of `Read + Seek`, whatever it does: at most two of the switches matter, `reader-txt` and the
one whose base format the bytes of the first read are recognised as. However the others are set, the outcome is the same,
and the implementation is left in the same state. -/
theorem C15_two_switches_device (hL : D.Lawful) (cfg : Cfg) (ft ft' : Features) (st : σ)
    (h : ∀ buf, (D.read st 36870).1 = .ok buf → AgreeOn buf ft ft') :
    fromDevice D cfg ft st = fromDevice D cfg ft' st := by
  have h' : ∀ buf, (D.read st bufferSize).1 = .ok buf → AgreeOn buf ft ft' := h
  unfold fromDevice
  cases hx : D.read st bufferSize with
  | mk r s' =>
    rw [hx] at h'
    cases r with
    | error e => rfl
    | ok buf =>
      have hbuf := firstDevice_length hL hx
      have hag := h' buf rfl
      have hgen : fromGenericReaderD D ft = fromGenericReaderD D ft' := by
        funext s
        simp only [fromGenericReaderD, hag.2]
      simp only [hgen]
      cases hsig : fromSignature buf with
      | none => rfl
      | some fmt =>
        simp only [fromFmtReaderD]
        rw [fmtReader_agree (cfg := cfg) hbuf hag hsig]

/-- C15 on every implementation: switching a feature changes nothing unless the first read delivers bytes recognised as
its base format. -/
theorem C15_own_base_only_device (hL : D.Lawful) (cfg : Cfg) (g : Feature) (hg : g ∈ Feature.structured)
    (ft ft' : Features) (h : SameExcept g ft ft') (st : σ)
    (hr : ∀ buf, (D.read st 36870).1 = .ok buf → ¬ Recognised buf g.base) :
    fromDevice D cfg ft st = fromDevice D cfg ft' st := by
  refine C15_two_switches_device hL cfg ft ft' st fun buf hb => ⟨fun k _ hrk => ?_, same_txt hg h⟩
  refine h k ?_
  rintro rfl
  exact hr buf hb hrk

/-- C15 on every implementation, whatever it does: `reader-txt` only turns `ArbitraryBinaryData` into `PlainText`. (The state
the implementation is left in may differ: text is looked for only with the feature.) -/
theorem C15_txt_only_from_default_device (hL : D.Lawful) (cfg : Cfg) (ft ft' : Features) (h : SameExcept .txt ft ft')
    (hoff : ft.txt = false) (st : σ) :
    (fromDevice D cfg ft st).1 = (fromDevice D cfg ft' st).1 ∨
    ((fromDevice D cfg ft st).1 = .ok ArbitraryBinaryData ∧ (fromDevice D cfg ft' st).1 = .ok PlainText) := by
  have hgen : ∀ s, (fromGenericReaderD D ft s).1 = (fromGenericReaderD D ft' s).1 ∨
      ((fromGenericReaderD D ft s).1 = .ok ArbitraryBinaryData ∧ (fromGenericReaderD D ft' s).1 = .ok PlainText) := by
    intro s
    have h1 : (fromGenericReaderD D ft s).1 = .ok ArbitraryBinaryData := by
      unfold fromGenericReaderD
      rw [hoff]
      rfl
    rcases fromGenericReaderD_spec hL ft' s with h2 | ⟨_, h2⟩
    · exact .inl (h1.trans h2.symm)
    · exact .inr ⟨h1, h2⟩
  unfold fromDevice
  rcases D.read st bufferSize with ⟨r, s'⟩
  cases r with
  | error e => exact .inl rfl
  | ok buf =>
    simp only
    split
    · exact .inl rfl
    · split
      · rename_i fmt _
        have hf : fromFmtReaderD D cfg ft fmt s' = fromFmtReaderD D cfg ft' fmt s' := by
          unfold fromFmtReaderD
          rw [fmtReader_same h (fun hc => absurd hc (by decide))]
        rw [hf]
        rcases fromFmtReaderD D cfg ft' fmt s' with ⟨r, s''⟩
        cases r with
        | ok f => exact .inl rfl
        | error f =>
          cases f with
          | err e => exact hgen s''
          | panic => exact .inl rfl
          | diverge => exact .inl rfl
      · exact hgen s'

/-- Without a base format in the first read, a file that changes while it is examined is judged alike with all features
and with `reader-txt` alone. -/
example (contents : Nat → Bytes) (ft : Features) (h0 : contents 0 = b!"\x89PNG\r\n\x1a\n\x00\x00\x00\rIHDR")
    (limit : Nat) :
    fromDevice (changing contents limit) Cfg.release ft (0, 0) =
      fromDevice (changing contents limit) Cfg.release { txt := ft.txt } (0, 0) := by
  refine C15_two_switches_device (changing_lawful contents limit) _ _ _ _ fun buf hb => ⟨fun g hg hrg => ?_, rfl⟩
  have hb' : (Except.ok (slice (contents 0) 0 36870) : Except ErrKind Bytes) = .ok buf := hb
  have hb'' : buf = b!"\x89PNG\r\n\x1a\n\x00\x00\x00\rIHDR" := by
    rw [h0] at hb'
    injection hb' with hb'
    rw [← hb']
    decide +kernel
  subst hb''
  have h1 : Recognised (b!"\x89PNG\r\n\x1a\n\x00\x00\x00\rIHDR") PortableNetworkGraphics := by
    unfold Recognised
    decide +kernel
  unfold Recognised at h1 hrg
  rw [h1] at hrg
  injection hrg with hrg
  exact absurd hrg ((by decide : ∀ k ∈ Feature.structured, PortableNetworkGraphics ≠ k.base) g hg)

/-- Where `reader-txt` does make a difference. -/
example : (fromDevice srcDevice Cfg.release {} (cursor b!"hello\n")).1 = .ok ArbitraryBinaryData ∧
    (fromDevice srcDevice Cfg.release { txt := true } (cursor b!"hello\n")).1 = .ok PlainText := by
  decide +kernel

end FF.Props
