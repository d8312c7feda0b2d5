import Verif.Spec.Pipe
import Verif.Props.Device
/-!
# C80: inputs that cannot seek
-/

namespace FF.Props
open FF FileFormat Spec

variable {σ : Type} {D : Device σ}

/-- A program whose first operation is a seek from the start or the end. -/
def SeeksFirst {α : Type} : Prog α → Prop
  | .seek (.start _) _ => True
  | .seek (.fromEnd _) _ => True
  | _ => False

theorem reader_seeks_first (cfg : Cfg) (g : Feature) : SeeksFirst (readerOf cfg g).2 := by
  cases g <;> trivial

theorem seeks_first_fails {α : Type} (hU : Unseekable D) {p : Prog α} (hp : SeeksFirst p) (b : Bool)
    (st : σ) : ∃ e st', execOnD D b p st = (.error (.err e), st') ∧ OnlySeeks D st st' := by
  cases p with
  | seek q k =>
    obtain ⟨e, st', h⟩ := hU st q
    refine ⟨e, st', ?_, ?_⟩
    · cases q with
      | start n => cases b <;> simp [execOnD, execD, DRd.seek, h]
      | fromEnd n => cases b <;> simp [execOnD, execD, DRd.seek, h]
      | current n => exact absurd hp (by simp [SeeksFirst])
    · refine .step st q ?_
      rw [h]
      exact .refl _
  | _ => exact absurd hp (by simp [SeeksFirst])

theorem _root_.FF.Spec.OnlySeeks.trans {a b c : σ} (h : OnlySeeks D a b) (k : OnlySeeks D b c) : OnlySeeks D a c := by
  induction h with
  | refl => exact k
  | step st p _ ih => exact .step st p (ih k)

theorem generic_unseekable (hU : Unseekable D) (ft : Features) (st : σ) :
    ∃ st', fromGenericReaderD D ft st = (.ok ArbitraryBinaryData, st') ∧ OnlySeeks D st st' := by
  unfold fromGenericReaderD
  by_cases ht : ft.txt = true
  · obtain ⟨e, st', h, hs⟩ := seeks_first_fails hU (reader_seeks_first Cfg.release .txt) true st
    have h' : execOnD D true txtReader st = (.error (.err e), st') := h
    refine ⟨st', ?_, hs⟩
    rw [if_pos ht, h']
    rfl
  · exact ⟨st, by rw [if_neg ht]; rfl, .refl _⟩

theorem arbitrary_not_base : ∀ g ∈ Feature.structured, ArbitraryBinaryData ≠ g.base := by decide

theorem empty_not_base : ∀ g ∈ Feature.structured, FileFormat.Empty ≠ g.base := by decide

/-- C80, exactly: on an input that cannot seek, whose first read gives `buf`, detection ends with a
verdict in every build: the signature verdict of `buf`, except that it is `ArbitraryBinaryData` when
a reader is enabled for the signature verdict. After the first read nothing is consumed. -/
theorem C80_verdict (hU : Unseekable D) (cfg : Cfg) (ft : Features) (st : σ) {buf : Bytes} {st1 : σ}
    (hr : D.read st 36870 = (.ok buf, st1)) (hl : buf.length ≤ 36870) :
    ∃ f st', fromDevice D cfg ft st = (.ok f, st') ∧ PipeVerdict ft buf f ∧ OnlySeeks D st1 st' := by
  have hb : bufferSize = 36870 := rfl
  have hlen : buf.length < 2 ^ 64 := by omega
  unfold fromDevice
  rw [hb, hr]
  simp only
  by_cases h0 : buf.length = 0
  · rw [if_pos h0]
    refine ⟨_, _, rfl, .signature ?_ ?_, .refl _⟩
    · show fromBytes _ _ _ = _
      rw [fromBytes_none _ _ hlen, if_pos h0]
    · intro g hg _; exact empty_not_base g hg
  · rw [if_neg h0]
    cases hs : fromSignature buf with
    | none =>
      obtain ⟨st', h, hk⟩ := generic_unseekable hU ft st1
      refine ⟨_, _, h, .signature ?_ ?_, hk⟩
      · show fromBytes _ _ _ = _
        rw [fromBytes_none _ _ hlen, if_neg h0, hs]
        rfl
      · intro g hg _; exact arbitrary_not_base g hg
    | some fmt =>
      simp only [fromFmtReaderD]
      rcases fmtReader_cases cfg ft fmt with h | ⟨g, hg, he, rfl, h⟩
      · rw [h]
        refine ⟨_, _, rfl, .signature (recognised_of_signature hlen hs) ?_, .refl _⟩
        rintro g hg he rfl
        rw [fmtReader_base _ _ _ hg, if_pos he] at h
        cases h
      · rw [h]
        obtain ⟨e, st2, h2, hk2⟩ := seeks_first_fails hU (reader_seeks_first cfg g) (readerOf cfg g).1 st1
        obtain ⟨st3, h3, hk3⟩ := generic_unseekable hU ft st2
        refine ⟨ArbitraryBinaryData, st3, ?_, .spoilt g hg he (recognised_of_signature hlen hs),
          hk2.trans hk3⟩
        simp only [h2, h3]

/-- C80, the full statement: on an input that cannot seek, detection reports the format whose magic
the first read delivers. -/
def C80_statement : Prop :=
  ∀ (σ : Type) (D : Device σ), Unseekable D → ∀ (cfg : Cfg) (ft : Features) (st st1 : σ) (buf : Bytes)
    (f : FileFormat), D.read st 36870 = (.ok buf, st1) → buf.length ≤ 36870 → Recognised buf f →
    (fromDevice D cfg ft st).1 = .ok f

theorem pipe_unseekable : Unseekable pipe := fun st _ => ⟨.other 29, st, rfl⟩

/-- C80 fails: a ZIP archive that comes through a pipe is arbitrary binary data for a build with
`reader-zip`, and a ZIP archive for a build without. -/
theorem C80_fails : ¬ C80_statement := by
  intro h
  have h1 := h (List Bytes) pipe pipe_unseekable Cfg.release Features.all
    [b!"PK\x03\x04\x14\x00\x00\x00"] [] (b!"PK\x03\x04\x14\x00\x00\x00") Zip rfl (by decide)
    (by show fromBytes _ _ _ = _; decide +kernel)
  revert h1
  decide +kernel

/-- C80, what holds: builds without a reader for the format of the magic report it, in particular
all builds without readers. -/
theorem C80_signature_partial (hU : Unseekable D) (cfg : Cfg) (ft : Features) (st : σ) {buf : Bytes}
    {st1 : σ} {f : FileFormat} (hr : D.read st 36870 = (.ok buf, st1)) (hl : buf.length ≤ 36870)
    (hf : Recognised buf f) (hn : ∀ g ∈ Feature.structured, g.enabled ft = true → f ≠ g.base) :
    (fromDevice D cfg ft st).1 = .ok f := by
  obtain ⟨f', st', h1, h2, _⟩ := C80_verdict hU cfg ft st hr hl
  rw [h1]
  cases h2 with
  | signature hf' _ => unfold Recognised at hf hf'; rw [hf] at hf'; rw [Except.ok.inj hf']
  | spoilt g hg he hf' =>
    unfold Recognised at hf hf'
    rw [hf] at hf'
    exact absurd (Except.ok.inj hf') (hn g hg he)

/-- C80, the loss: enabling the reader of a format turns every input of it that cannot seek into
arbitrary binary data. -/
theorem C80_spoilt (hU : Unseekable D) (cfg : Cfg) (ft : Features) (st : σ) {buf : Bytes}
    {st1 : σ} {g : Feature} (hg : g ∈ Feature.structured) (he : g.enabled ft = true)
    (hr : D.read st 36870 = (.ok buf, st1)) (hl : buf.length ≤ 36870) (hf : Recognised buf g.base) :
    (fromDevice D cfg ft st).1 = .ok ArbitraryBinaryData := by
  obtain ⟨f', st', h1, h2, _⟩ := C80_verdict hU cfg ft st hr hl
  rw [h1]
  cases h2 with
  | signature hf' hn =>
    unfold Recognised at hf hf'
    rw [hf] at hf'
    exact absurd (Except.ok.inj hf').symm (hn g hg he)
  | spoilt => rfl

/-- Text that comes through a pipe is never recognised: `reader-txt` has no effect there. -/
theorem C80_no_text (hU : Unseekable D) (cfg : Cfg) (ft : Features) (st : σ) {buf : Bytes}
    {st1 : σ} (hr : D.read st 36870 = (.ok buf, st1)) (hl : buf.length ≤ 36870) :
    (fromDevice D cfg ft st).1 = (fromDevice D cfg { ft with txt := false } st).1 := by
  obtain ⟨f, st', h1, h2, _⟩ := C80_verdict hU cfg ft st hr hl
  have hen : ∀ g ∈ Feature.structured, g.enabled { ft with txt := false } = g.enabled ft := by
    intro g hg
    cases g <;> first | rfl | (exact absurd hg (by decide))
  rw [h1]
  cases h2 with
  | signature hf hn =>
    exact (C80_signature_partial hU cfg { ft with txt := false } st hr hl hf
      (fun g hg he => hn g hg (by rw [← hen g hg]; exact he))).symm
  | spoilt g hg he hf =>
    exact (C80_spoilt hU cfg { ft with txt := false } st hg (by rw [hen g hg]; exact he) hr hl hf).symm

/-- A PNG header through a pipe, in two chunks, with all readers enabled. -/
example : (fromDevice pipe Cfg.release Features.all
    [b!"\x89PNG\x0d\x0a\x1a\x0a", [0, 0, 0, 13]]).1 = .ok PortableNetworkGraphics :=
  C80_signature_partial pipe_unseekable _ _ _ (buf := b!"\x89PNG\x0d\x0a\x1a\x0a") rfl (by decide)
    (by show fromBytes _ _ _ = _; decide +kernel) (by decide +kernel)

/-- A PDF through a pipe, with and without its reader. -/
example : (fromDevice pipe Cfg.release Features.all [b!"%PDF-1.7"]).1 = .ok ArbitraryBinaryData :=
  C80_spoilt pipe_unseekable _ _ _ (g := .pdf) (by decide) rfl (buf := b!"%PDF-1.7") rfl (by decide)
    (by show fromBytes _ _ _ = _; decide +kernel)

example : (fromDevice pipe Cfg.release Features.none [b!"%PDF-1.7"]).1 = .ok PortableDocumentFormat := by
  decide +kernel

/-- What the first read took is gone: the second chunk is what the pipe has left. -/
example : ∃ f, fromDevice pipe Cfg.release Features.all [b!"%PDF-1.7", [1, 2]] = (.ok f, [[1, 2]]) :=
  ⟨ArbitraryBinaryData, rfl⟩

end FF.Props
