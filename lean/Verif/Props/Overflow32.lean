import Verif.Proofs.Panics32
import Verif.Props.Verdict32
import Verif.Props.Overflow
/-!
# C77: builds with overflow checks on targets with 32-bit pointers
-/

namespace FF.Props
open FF FileFormat Spec

/-! ## The two profiles -/

theorem fmtReader32_profile (ft : Features) (fmt : FileFormat) :
    (Target32.fmtReader Cfg.debug ft fmt = none ∧ Target32.fmtReader Cfg.release ft fmt = none) ∨
    ∃ b x y, Target32.fmtReader Cfg.debug ft fmt = some (b, x) ∧ Target32.fmtReader Cfg.release ft fmt = some (b, y) ∧ Agrees x y := by
  by_cases hE : fmt = ExtensibleBinaryMetaLanguage
  · subst hE
    cases h : ft.ebml
    · left; simp [Target32.fmtReader, h]
    · right; exact ⟨true, Target32.ebmlReader, Target32.ebmlReader, by simp [Target32.fmtReader, h], by simp [Target32.fmtReader, h], .refl _⟩
  by_cases hZ : fmt = Zip
  · subst hZ
    cases h : ft.zip
    · left; simp [Target32.fmtReader, h]
    · right
      exact ⟨true, Target32.zipReader Cfg.debug, Target32.zipReader Cfg.release, by simp [Target32.fmtReader, h],
        by simp [Target32.fmtReader, h], Target32.agrees_zipReader⟩
  rw [fmtReader32_other Cfg.debug ft (fun h => hE h.2) (fun h => hZ h.2), fmtReader32_other Cfg.release ft (fun h => hE h.2) (fun h => hZ h.2)]
  by_cases h : ∃ g ∈ Feature.structured, fmt = g.base
  · obtain ⟨g, hg, rfl⟩ := h
    rw [fmtReader_base _ _ _ hg, fmtReader_base _ _ _ hg]
    by_cases he : g.enabled ft = true
    · right
      obtain ⟨h1, h2⟩ := agrees_readerOf g
      refine ⟨(readerOf Cfg.release g).1, (readerOf Cfg.debug g).2, (readerOf Cfg.release g).2, ?_, if_pos he, h2⟩
      rw [if_pos he, ← h1]
    · left; exact ⟨if_neg he, if_neg he⟩
  · left
    have hn : ∀ cfg, fmtReader cfg ft fmt = none := fun cfg => by
      rcases fmtReader_cases cfg ft fmt with h' | ⟨f, hf, _, h', _⟩
      · exact h'
      · exact absurd ⟨f, hf, h'⟩ h
    exact ⟨hn _, hn _⟩

/-- C77. On every stream, with any failures, and whatever its content: the build with overflow checks panics, or does what the
build without them does. -/
theorem C77_profile (ft : Features) (s : Src) :
    (Target32.fromReader Cfg.debug ft s).1 = .error .panic ∨
      Target32.fromReader Cfg.debug ft s = Target32.fromReader Cfg.release ft s := by
  unfold Target32.fromReader
  rcases s.read bufferSize with ⟨r, s'⟩
  cases r with
  | error e => exact .inr rfl
  | ok buf =>
    simp only
    unfold Target32.afterRead
    by_cases h : buf.length = 0
    · rw [if_pos h]
      exact .inr (if_pos h).symm
    · rw [if_neg h, if_neg h]
      cases fromSignature buf with
      | none => exact .inr rfl
      | some fmt =>
        simp only [Target32.fromFmtReader]
        rcases fmtReader32_profile ft fmt with ⟨h1, h2⟩ | ⟨b, x, y, h1, h2, ha⟩
        · rw [h1, h2]; exact .inr rfl
        · rw [h1, h2]
          simp only
          rcases ha.execOn b s' with h | h
          · left
            rcases hx : execOn b x s' with ⟨r, s''⟩
            rw [hx] at h
            cases h
            rfl
          · right; rw [h]

/-! ## When it panics -/

/-- A magic number that calls for one of the two readers. -/
theorem wide_signature {w : Bytes} {g : Feature} (hg : Wide g) (hsay : SignatureSays w g.base) : fromSignature w = some g.base := by
  cases hf : fromSignature w with
  | some f => rw [(signatureSays_some hf _).mp hsay]
  | none =>
    exfalso
    by_cases h0 : w = []
    · rw [h0, signatureSays_empty] at hsay
      exact base_ne_empty _ hsay
    · have := (signatureSays_none h0 hf _).mp hsay
      exact absurd this (by rcases hg with rfl | rfl <;> decide)

theorem zip_signature {w : Bytes} (h : fromSignature w = some Zip) (g : Feature) (hs : SignatureSays w g.base) : g = .zip := by
  have hbase : g.base = Zip := (signatureSays_some h _).mp hs
  by_cases ht : g = .txt
  · subst ht; exact absurd hbase (by decide)
  · exact base_injective g (structured_of_ne g ht) .zip (by decide) hbase

theorem afterRead32_zip (ft : Features) (w : Bytes) (s : Src) (hs : s.WF) (hl : IsSlice s.data) (hb : s.Benign)
    (he : ft.zip = true) (hsig : fromSignature w = some Zip) :
    (Target32.afterRead Cfg.debug ft w s).1 = .error .panic ↔ ZipOverflow32 s.data ∨ ZipTooLarge s.data s.maxPos := by
  have hl' : s.data.length < 2 ^ 63 := hl
  have hne : ¬ w.length = 0 := by
    intro h
    rw [List.eq_nil_of_length_eq_zero h] at hsig
    exact absurd hsig (by decide +kernel)
  rw [← Target32.zipReader_panics s.data s.maxPos hs.len hl', ← val_panics]
  have hall := Target32.zipReader_all (b := true) Cfg.debug
  obtain ⟨hle, hwf, _⟩ := execOn_le true (Target32.zipReader Cfg.debug) s hs (hall.untilBuffered OpEx.until)
  have hex := (execOn_exact true (Target32.zipReader Cfg.debug) s hs (hall.exact fun _ h => h.1)
    (Or.inr ⟨_, _, rfl⟩)).resolve_right fun h => h.1 hb
  have hf : Target32.fmtReader Cfg.debug ft Zip = some (true, Target32.zipReader Cfg.debug) := by
    simp [Target32.fmtReader, he]
  unfold Target32.afterRead
  rw [if_neg hne, hsig]
  simp only [Target32.fromFmtReader, hf]
  rw [← hex]
  generalize execOn true (Target32.zipReader Cfg.debug) s = r at hle hwf
  obtain ⟨r, s'⟩ := r
  simp only at hle hwf ⊢
  rcases r with (e | _ | _) | a
  · simp only
    refine ⟨fun h => ?_, fun h => nomatch h⟩
    have := fromGenericReader_notCrash ft s' hwf (by rw [hle.data]; exact hl)
    rw [h] at this
    cases this
  · exact Iff.rfl
  · exact Iff.rfl
  · exact Iff.rfl

theorem overflowOn32_other {ft : Features} {w b : Bytes} {top : Nat} (h : ¬ (ft.zip = true ∧ SignatureSays w Zip)) :
    OverflowOn32 ft w b top ↔ OverflowOn ft w b top := by
  have hg : ∀ g : Feature, g.enabled ft = true → SignatureSays w g.base → g ≠ .zip := by
    rintro g he hs rfl
    exact h ⟨he, hs⟩
  have hr : ∀ g : Feature, g ≠ .zip → (ReaderOverflows32 b top g ↔ ReaderOverflows b top g) := by
    intro g hne
    cases g <;> first | exact Iff.rfl | exact absurd rfl hne
  constructor
  · rintro ⟨g, he, hs, ho⟩; exact ⟨g, he, hs, (hr g (hg g he hs)).mp ho⟩
  · rintro ⟨g, he, hs, ho⟩; exact ⟨g, he, hs, (hr g (hg g he hs)).mpr ho⟩

/-- C77. On any stream whose calls do not fail, from any position, however its reads are cut, whatever its length: a build with
overflow checks panics exactly if the walk of a reader comes to a result that does not fit into 64 bits, or the archive has
a stored `mimetype` entry that is too large. -/
theorem C77_from_reader (ft : Features) (s : Src) (hs : s.WF) (hl : IsSlice s.data) (hq : s.NoFail) :
    (Target32.fromReader Cfg.debug ft s).1 = .error .panic ↔
      OverflowOn32 ft (firstWindow s) s.data s.maxPos ∨ PanicOn32 ft (firstWindow s) s.data s.maxPos := by
  obtain ⟨hw, hrev⟩ := first_window s hq
  obtain ⟨hle, hwf, hlen⟩ := Src.read_spec s 36870 hs
  by_cases hz : ft.zip = true ∧ SignatureSays (firstWindow s) Zip
  · obtain ⟨he, hsay⟩ := hz
    have hsig : fromSignature (firstWindow s) = some Zip := wide_signature (g := .zip) (Or.inr rfl) hsay
    have e : Target32.fromReader Cfg.debug ft s = Target32.afterRead Cfg.debug ft (firstWindow s) (s.read 36870).2 := by
      show (match s.read 36870 with
        | (.error e, src) => (.error (.err e), src)
        | (.ok buf, src) => Target32.afterRead Cfg.debug ft buf src : Except Fail FileFormat × Src) = _
      revert hw
      cases s.read 36870 with
      | mk r s' => intro hw; have hw : r = _ := hw; subst hw; rfl
    rw [e, afterRead32_zip ft _ _ hwf (by rw [hle.data]; exact hl) (hq.mono hle).benign he hsig, hle.data, hle.maxPos]
    refine or_congr ⟨fun h => ⟨.zip, he, hsay, h⟩, ?_⟩ ⟨fun h => ⟨he, hsay, h⟩, fun h => h.2.2⟩
    rintro ⟨g, _, hg, ho⟩
    obtain rfl := zip_signature hsig g hg
    exact ho
  · have hnp : ¬ PanicOn32 ft (firstWindow s) s.data s.maxPos := fun h => hz ⟨h.1, h.2.1⟩
    rw [or_iff_left hnp, overflowOn32_other hz]
    by_cases hE : ft.ebml = true ∧ SignatureSays (firstWindow s) ExtensibleBinaryMetaLanguage
    · -- EBML: no panic on either side
      obtain ⟨he, hsay⟩ := hE
      have hsig : fromSignature (firstWindow s) = some ExtensibleBinaryMetaLanguage :=
        wide_signature (g := .ebml) (Or.inl rfl) hsay
      have hno : ¬ OverflowOn ft (firstWindow s) s.data s.maxPos := by
        rintro ⟨g, _, hg, ho⟩
        have hbase : g.base = ExtensibleBinaryMetaLanguage := (signatureSays_some hsig _).mp hg
        have hu := unchecked_of_overflows ho
        have := base_injective g (structured_of_unchecked hu) .ebml (by decide) hbase
        subst this
        exact ho
      refine ⟨fun h => ?_, fun h => absurd h hno⟩
      exfalso
      have hfm : ∀ cfg, Target32.fmtReader cfg ft ExtensibleBinaryMetaLanguage = some (true, Target32.ebmlReader) := fun cfg => by
        simp [Target32.fmtReader, he]
      have hsame : Target32.fromReader Cfg.debug ft s = Target32.fromReader Cfg.release ft s := by
        unfold Target32.fromReader
        rw [show bufferSize = 36870 from rfl]
        revert hw
        cases s.read 36870 with
        | mk r s' =>
          intro hw
          have hw : r = _ := hw
          subst hw
          simp only [Target32.afterRead, hsig, Target32.fromFmtReader, hfm]
      rw [hsame] at h
      exact hnp ((C76_from_reader ft s hs hl hq).2.1.mp h)
    · have hn : ∀ g : Feature, Wide g → g.enabled ft = true → ¬ SignatureSays (firstWindow s) g.base := by
        rintro g (rfl | rfl) he hsay
        · exact hE ⟨he, hsay⟩
        · exact hz ⟨he, hsay⟩
      have hrec : ∀ g : Feature, Wide g → g.enabled ft = true → ¬ Recognised (firstWindow s) g.base := by
        intro g hg he hr
        have hgs : g ∈ Feature.structured := by rcases hg with rfl | rfl <;> decide
        have hlt : (firstWindow s).length < 2 ^ 64 := by
          unfold firstWindow
          rw [List.length_take, List.length_drop]
          have : s.data.length < 2 ^ 63 := hl
          omega
        exact hn g hg he ((signatureSays_some (signature_of_recognised hlt hgs hr) _).mpr rfl)
      have e := C52_other_formats Cfg.debug ft s (fun buf hbuf => by
        rw [hw] at hbuf
        injection hbuf with hbuf
        subst hbuf
        exact ⟨fun h => hrec .ebml (Or.inl rfl) h, fun h => hrec .zip (Or.inr rfl) h⟩) hs
      rw [e]
      exact C74_from_reader ft s hs hl hq

/-- C77. What it reports, on the same streams: the verdict of C76, unless a result does not fit. -/
theorem C77_verdict (ft : Features) (s : Src) (hs : s.WF) (hl : IsSlice s.data) (hq : s.NoFail) (f : FileFormat) :
    (Target32.fromReader Cfg.debug ft s).1 = .ok f ↔
      ¬ OverflowOn32 ft (firstWindow s) s.data s.maxPos ∧ VerdictOn32 ft (firstWindow s) s.data s.maxPos (laterReads s) f := by
  have hp := C77_from_reader ft s hs hl hq
  obtain ⟨h1, h2, h3⟩ := C76_from_reader ft s hs hl hq
  rw [← h1 f]
  rcases C77_profile ft s with h | h
  · rw [h]
    refine ⟨(fun h' => nomatch h'), ?_⟩
    rintro ⟨hno, hok⟩
    rcases hp.mp h with ho | ho
    · exact absurd ho hno
    · rw [h2.mpr ho] at hok; cases hok
  · rw [h] at hp ⊢
    refine ⟨fun h' => ⟨fun ho => ?_, h'⟩, fun h' => h'.2⟩
    rw [hp.mpr (Or.inl ho)] at h'
    cases h'

theorem overflowOn32_take (ft : Features) (b : Bytes) (top : Nat) :
    OverflowOn32 ft (b.take 36870) b top ↔ OverflowOn32 ft b b top := by
  unfold OverflowOn32
  simp only [signatureSays_take]

/-- C77 for `from_bytes`, whose argument has fewer than 2^31 bytes on these targets. -/
theorem C77_from_bytes (ft : Features) (b : Bytes) (hb : b.length < 2 ^ 31) :
    Target32.fromBytes Cfg.debug ft b = .error .panic ↔ OverflowOn32 ft b b (2 ^ 64 - 1) ∨ PanicOn32 ft b b (2 ^ 64 - 1) := by
  have hsl : IsSlice b := show b.length < 2 ^ 63 by omega
  have hq : (cursor b).NoFail := ⟨(fun _ h => nomatch h), (fun _ h => nomatch h)⟩
  have h := C77_from_reader ft (cursor b) (cursor_wf b (by omega)) hsl hq
  rw [show firstWindow (cursor b) = b.take 36870 from rfl, show (cursor b).data = b from rfl,
    show (cursor b).maxPos = 2 ^ 64 - 1 from rfl, overflowOn32_take] at h
  have hp : PanicOn32 ft (b.take 36870) b (2 ^ 64 - 1) ↔ PanicOn32 ft b b (2 ^ 64 - 1) := by
    unfold PanicOn32; rw [signatureSays_take]
  rw [hp] at h
  rw [← h]
  unfold Target32.fromBytes
  rcases (Target32.fromReader Cfg.debug ft (cursor b)).1 with (e | _ | _) | a
  · exact ⟨(fun h => nomatch h), (fun h => nomatch h)⟩
  · exact Iff.rfl
  · exact Iff.rfl
  · exact ⟨(fun h => nomatch h), (fun h => nomatch h)⟩

/-- C77 for `from_bytes`: the verdicts. -/
theorem C77_bytes_verdict (ft : Features) (b : Bytes) (hb : b.length < 2 ^ 31) (f : FileFormat) :
    Target32.fromBytes Cfg.debug ft b = .ok f ↔
      ¬ OverflowOn32 ft b b (2 ^ 64 - 1) ∧ VerdictOn32 ft b b (2 ^ 64 - 1) Reads.full f := by
  have hp := C77_from_bytes ft b hb
  obtain ⟨h1, h2, h3⟩ := C76_from_bytes ft b hb
  rw [← h1 f]
  have hprof : Target32.fromBytes Cfg.debug ft b = .error .panic ∨
      Target32.fromBytes Cfg.debug ft b = Target32.fromBytes Cfg.release ft b := by
    unfold Target32.fromBytes
    rcases C77_profile ft (cursor b) with h | h
    · rw [h]; exact Or.inl rfl
    · rw [h]; exact Or.inr rfl
  rcases hprof with h | h
  · rw [h]
    refine ⟨(fun h' => nomatch h'), ?_⟩
    rintro ⟨hno, hok⟩
    rcases hp.mp h with ho | ho
    · exact absurd ho hno
    · rw [h2.mpr ho] at hok; cases hok
  · rw [h] at hp ⊢
    refine ⟨fun h' => ⟨fun ho => ?_, h'⟩, fun h' => h'.2⟩
    rw [hp.mpr (Or.inl ho)] at h'
    cases h'

/-- C77 for `from_file`, on files of any length. -/
theorem C77_from_file {Path : Type} (ft : Features) (fs : FileSystem Path) (p : Path) (s : Src) (hfs : fs p = .ok s)
    (hs : s.WF) (hl : IsSlice s.data) (hq : s.NoFail) :
    (Target32.fromFile Cfg.debug ft fs p = .error .panic ↔
      OverflowOn32 ft (firstWindow s) s.data s.maxPos ∨ PanicOn32 ft (firstWindow s) s.data s.maxPos) ∧
    (∀ f, Target32.fromFile Cfg.debug ft fs p = .ok f ↔
      ¬ OverflowOn32 ft (firstWindow s) s.data s.maxPos ∧ VerdictOn32 ft (firstWindow s) s.data s.maxPos (laterReads s) f) := by
  unfold Target32.fromFile
  rw [hfs]
  exact ⟨C77_from_reader ft s hs hl hq, C77_verdict ft s hs hl hq⟩

/-! ## Non-vacuity -/

-- Three overflows, one for each reader that computes with what it reads, and the entry that is too large.
example : OverflowOn32 { zip := true } zipOverflow zipOverflow (2 ^ 64 - 1) ∧ ¬ PanicOn32 { zip := true } zipOverflow zipOverflow (2 ^ 64 - 1) := by
  have hn : ¬ PanicOn32 { zip := true } zipOverflow zipOverflow (2 ^ 64 - 1) := fun h =>
    absurd ((C76_from_bytes _ _ (by decide +kernel)).2.1.mpr h) (by decide +kernel)
  exact ⟨((C77_from_bytes { zip := true } zipOverflow (by decide +kernel)).mp (by decide +kernel)).resolve_right hn, hn⟩
example : OverflowOn32 { asf := true } asfOverflow asfOverflow (2 ^ 64 - 1) :=
  ((C77_from_bytes { asf := true } asfOverflow (by decide +kernel)).mp (by decide +kernel)).resolve_right fun h => nomatch h.1
example : OverflowOn32 { mp4 := true } mp4Overflow mp4Overflow (2 ^ 64 - 1) :=
  ((C77_from_bytes { mp4 := true } mp4Overflow (by decide +kernel)).mp (by decide +kernel)).resolve_right fun h => nomatch h.1
example : Target32.fromBytes Cfg.debug { zip := true } (mimetypeOfSize (2 ^ 31)) = .error .panic :=
  (C77_from_bytes _ _ (by decide +kernel)).mpr
    (Or.inr ((C76_from_bytes _ _ (by decide +kernel)).2.1.mp (C52_zip_panics Cfg.release).2.1))
-- And a verdict.
example : Target32.fromBytes Cfg.debug { ebml := true } (docTypeOfSize (2 ^ 32)) = .ok ExtensibleBinaryMetaLanguage := by decide +kernel

end FF.Props
