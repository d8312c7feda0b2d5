import Verif.Proofs.Cases
/-!
# C01, C02: totality
-/

namespace FF.Props
open FF FileFormat Spec

theorem returns_of_notCrash {α : Type} {r : Except Fail α} (h : NotCrash r) : Returns r := by
  rcases r with (e | _ | _) | a
  · exact Or.inr ⟨e, rfl⟩
  · cases h
  · cases h
  · exact Or.inl ⟨a, rfl⟩

/-- C01. In release builds `from_bytes` returns a format for every byte string. -/
theorem C01_from_bytes_total (ft : Features) (b : Bytes) (hb : IsSlice b) :
    ∃ f, fromBytes Cfg.release ft b = .ok f := by
  have hb' : b.length < 2 ^ 63 := hb
  have h := fromReader_notCrash Cfg.release ft (cursor b) (cursor_wf b (by omega)) hb (Or.inl rfl)
  rw [fromReader_cursor _ _ _ (by omega)] at h
  rw [fromBytes_ideal _ _ _ (by omega)]
  rcases returns_of_notCrash h with h | ⟨e, h⟩
  · exact h
  · exact absurd h (ideal_not_err _ _ _ _ _)

/-- C01 on streams. In release builds `from_reader` returns on every stream: whatever its position,
content, seek range and the short counts, interruptions and failures of its calls. -/
theorem C01_from_reader_total (ft : Features) (s : Src) (hs : s.WF) (hb : IsSlice s.data) :
    Returns (fromReader Cfg.release ft s).1 :=
  returns_of_notCrash (fromReader_notCrash _ _ _ hs hb (Or.inl rfl))

/-- C01 on files. -/
theorem C01_from_file_total {Path : Type} (ft : Features) (fs : FileSystem Path) (p : Path)
    (hs : ∀ s, fs p = .ok s → s.WF ∧ IsSlice s.data) :
    Returns (fromFile Cfg.release ft fs p) := by
  unfold fromFile
  cases h : fs p with
  | error e => exact Or.inr ⟨e, rfl⟩
  | ok s => exact C01_from_reader_total ft s (hs s h).1 (hs s h).2

/-- A stream that cuts short, interrupts and then fails. -/
def roughStream : Src where
  data := b!"ID3\x04\x00\x00\x00\x00\x00\x00fLaC\x00\x00\x00\x00\x00\x00\x00"
  pos := 0
  maxPos := 100
  revs := [.full, .short 2, .error .interrupted, .error (.other 5)]
  sevs := []

-- Non-vacuity: on that stream the caller still gets a format.
example : roughStream.WF ∧ IsSlice roughStream.data := ⟨⟨by decide, by decide⟩, by decide⟩
example : (fromReader Cfg.release Features.all roughStream).1 = .ok ArbitraryBinaryData := by
  decide +kernel

/-! ## C02 -/

/-- C02 as one would wish it. -/
def C02_statement : Prop :=
  ∀ (ft : Features) (b : Bytes), IsSlice b → fromBytes Cfg.debug ft b ≠ .error .panic

/-- An ASF header with one object of declared size 2^63 (`size as i64 - 24`). -/
def asfOverflow : Bytes :=
  b!"\x30\x26\xB2\x75\x8E\x66\xCF\x11\xA6\xD9\x00\xAA\x00\x62\xCE\x6C" ++ List.replicate 8 0 ++
    [1, 0, 0, 0] ++ [0, 0] ++ List.replicate 16 0 ++ [0, 0, 0, 0, 0, 0, 0, 0x80]

/-- An MP4 file whose second box has a 64-bit size of 2^63 (`size as i64 - 8`). -/
def mp4Overflow : Bytes :=
  [0, 0, 0, 12] ++ b!"ftypisom" ++ [0, 0, 0, 1] ++ b!"free" ++ [0x80, 0, 0, 0, 0, 0, 0, 0]

/-- A ZIP64 archive whose locator points 32 bytes below 2^64 (`eocd64_offset + 32`). -/
def zipOverflow : Bytes :=
  b!"PK\x03\x04" ++ b!"PK\x06\x07" ++ [0, 0, 0, 0] ++ [0xFF, 0xFF, 0xFF, 0xFF, 0xFF, 0xFF, 0xFF, 0xFF] ++
    [0, 0, 0, 0] ++ b!"PK\x05\x06" ++ List.replicate 18 0

theorem C02_asf_panics : fromBytes Cfg.debug { asf := true } asfOverflow = .error .panic := by
  decide +kernel
theorem C02_mp4_panics : fromBytes Cfg.debug { mp4 := true } mp4Overflow = .error .panic := by
  decide +kernel
theorem C02_zip_panics : fromBytes Cfg.debug { zip := true } zipOverflow = .error .panic := by
  decide +kernel

/-- C02 does not hold of the code: three readers overflow on size fields chosen by the input. -/
theorem C02_fails : ¬ C02_statement := fun h =>
  h { asf := true } asfOverflow (by decide) C02_asf_panics

/-- C02, the part that holds: in checked builds `from_bytes` returns a format for every input whose
signature verdict is not ASF, MP4 or ZIP with the corresponding reader enabled. -/
theorem C02_no_panic_partial (ft : Features) (b : Bytes) (hb : IsSlice b)
    (h : ∀ f ∈ [Feature.asf, .mp4, .zip], f.enabled ft = true → ¬ Recognised b f.base) :
    ∃ f, fromBytes Cfg.debug ft b = .ok f := by
  have hb' : b.length < 2 ^ 63 := hb
  have h := fromReader_notCrash Cfg.debug ft (cursor b) (cursor_wf b (by omega)) hb (Or.inr ?_)
  · rw [fromReader_cursor _ _ _ (by omega)] at h
    rw [fromBytes_ideal _ _ _ (by omega)]
    rcases returns_of_notCrash h with h | ⟨e, h⟩
    · exact h
    · exact absurd h (ideal_not_err _ _ _ _ _)
  · intro buf s' hr f hf he hs
    rw [cursor_read] at hr
    cases hr
    rw [fromSignature_take b _ (Nat.le_refl _)] at hs
    cases hu : f.unchecked with
    | false => rfl
    | true =>
      exfalso
      have hmem : f ∈ [Feature.asf, .mp4, .zip] := by
        revert hu; cases f <;> decide
      refine h f hmem he ?_
      unfold Recognised
      rw [fromBytes_none _ _ (by omega), hs]
      have hl : b.length ≠ 0 := by
        intro h0
        have : b = [] := List.eq_nil_of_length_eq_zero h0
        subst this
        have hn : fromSignature [] = none := by decide +kernel
        rw [hn] at hs; cases hs
      rw [if_neg hl]; rfl

-- Non-vacuity: an ID3v2 file meets the hypothesis with every feature enabled.
example : ∀ f ∈ [Feature.asf, .mp4, .zip], f.enabled Features.all = true →
    ¬ Recognised (b!"ID3\x04\x00\x00\x00\x00\x00\x00fLaC") f.base := by
  unfold Recognised; decide +kernel

end FF.Props
