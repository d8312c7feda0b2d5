import Verif.Spec.Walk32
import Verif.Proofs.Walk32
import Verif.Props.Verdict
import Verif.Props.Target32
/-!
# C76: the complete specification of the verdict on targets with 32-bit pointers
-/

namespace FF.Props
open FF FileFormat Spec

/-- The two formats whose readers depend on the width of a pointer. -/
def Wide (g : Feature) : Prop := g = .ebml ∨ g = .zip

theorem readerSays32_other {g : Feature} (h : ¬ Wide g) (b : Bytes) (top : Nat) (rd : Reads) :
    ReaderSays32 b top rd g = ReaderSays b top rd g := by
  cases g <;> first | rfl | exact absurd (Or.inl rfl) h | exact absurd (Or.inr rfl) h

/-- The reader of the format, on 32-bit targets. -/
def readerOf32 (g : Feature) : Bool × Prog FileFormat :=
  match g with
  | .ebml => (true, Target32.ebmlReader)
  | .zip => (true, Target32.zipReader Cfg.release)
  | g => readerOf Cfg.release g

/-- What the two readers do on a stream that does not fail. -/
theorem wide_reader (s : Src) (hs : s.WF) (hb : s.Benign) (g : Feature) (hg : Wide g) :
    (execOn (readerOf32 g).1 (readerOf32 g).2 s).1 = val (run s.data s.maxPos (readerOf32 g).2 0) ∧
    s.Le (execOn (readerOf32 g).1 (readerOf32 g).2 s).2 ∧ (execOn (readerOf32 g).1 (readerOf32 g).2 s).2.WF := by
  rcases hg with rfl | rfl
  · obtain ⟨h1, h2, _⟩ := execOn_le true Target32.ebmlReader s hs (Target32.ebmlReader_all.untilBuffered OpEx.until)
    refine ⟨?_, h1, h2⟩
    exact (execOn_exact true Target32.ebmlReader s hs (Target32.ebmlReader_all.exact fun _ h => h.1)
      (Or.inr ⟨_, _, rfl⟩)).resolve_right fun h => h.1 hb
  · obtain ⟨h1, h2, _⟩ := execOn_le true (Target32.zipReader Cfg.release) s hs
      ((Target32.zipReader_all Cfg.release).untilBuffered OpEx.until)
    refine ⟨?_, h1, h2⟩
    exact (execOn_exact true (Target32.zipReader Cfg.release) s hs ((Target32.zipReader_all Cfg.release).exact fun _ h => h.1)
      (Or.inr ⟨_, _, rfl⟩)).resolve_right fun h => h.1 hb

/-- What they find. -/
theorem wide_says (d : Bytes) (m : Nat) (hm : d.length ≤ m) (hd : d.length < 2 ^ 63) (rd : Reads) (g : Feature) (hg : Wide g)
    (f : FileFormat) : Ends d m (readerOf32 g).2 0 f ↔ ReaderSays32 d m rd g f := by
  rcases hg with rfl | rfl
  · exact Target32.ebmlReader_walk32 d m hm f
  · exact Target32.zipReader_walk32 d m hm hd f

/-- When they panic. -/
theorem wide_panics (d : Bytes) (m : Nat) (hm : d.length ≤ m) (hd : d.length < 2 ^ 63) (g : Feature) (hg : Wide g) :
    Panics d m (readerOf32 g).2 0 ↔ g = .zip ∧ ZipTooLarge d m := by
  rcases hg with rfl | rfl
  · refine ⟨fun h => absurd h ?_, fun h => nomatch h.1⟩
    exact panics_noCrash (noCrash_run _ (Target32.ebmlReader_all.noCrash fun _ h => h) d m 0)
  · exact (Target32.zipReader_aborts d m hm hd).trans (and_iff_right rfl).symm

/-- They end: no divergence. -/
theorem wide_ends (d : Bytes) (m : Nat) (g : Feature) (hg : Wide g) : run d m (readerOf32 g).2 0 ≠ .error .diverge := by
  have key : ∀ {n k : Nat} {Q : FileFormat → Prop} (x : Prog FileFormat), All (OpEx true n) Target32.IsErrP Q x k →
      ∀ p, run d m x p ≠ .error .diverge := by
    intro n k Q x
    induction x generalizing k with
    | pure a => intro _ p h; cases h
    | fail e =>
      intro he p h
      rcases he with ⟨e, rfl⟩ | rfl <;> cases h
    | readExact n c ih =>
      intro h p
      unfold run
      split
      · rename_i hn
        by_cases h0 : n = 0
        · exact ih _ (h.2.2 _ (by subst h0; simp [slice])) _
        · exact ih _ (h.2.2 _ (length_slice_eq _ _ _ (by omega))) _
      · intro h; cases h
    | read n c ih =>
      intro h p
      exact ih _ (h.2.2 _ (by simp only [slice, List.length_take]; omega)) _
    | seek s c ih =>
      intro h p
      unfold run
      split
      · exact ih _ (h.2.2 _) _
      · intro h; cases h
    | tell c ih => intro h p; exact ih _ (h.2.2 _) _
    | readUntil n c ih =>
      intro h p
      refine ih _ (h.2.2 _ ?_) _
      refine Nat.le_trans (length_uptoNewline_le _) ?_
      simp only [slice, List.length_take]; omega
  rcases hg with rfl | rfl
  · exact key _ (Target32.ebmlReader_all.mono (fun _ => id) (fun _ h => Or.inl h) (fun _ => id) (Nat.le_refl _)) 0
  · exact key _ (Target32.zipReader_all Cfg.release) 0

theorem wide_fmtReader (ft : Features) (g : Feature) (hg : Wide g) (he : g.enabled ft = true) :
    Target32.fmtReader Cfg.release ft g.base = some (readerOf32 g) := by
  rcases hg with rfl | rfl
  · have : ft.ebml = true := he
    simp [Target32.fmtReader, Feature.base, readerOf32, this]
  · have : ft.zip = true := he
    simp [Target32.fmtReader, Feature.base, readerOf32, this]

/-- What follows the first read, where a reader that depends on the width of a pointer is run. -/
theorem afterRead32_wide (ft : Features) (w : Bytes) (s : Src) (hs : s.WF) (hl : IsSlice s.data) (hb : s.Benign) (rd : Reads)
    (g : Feature) (hg : Wide g) (he : g.enabled ft = true) (hsig : fromSignature w = some g.base) :
    (∀ f, (Target32.afterRead Cfg.release ft w s).1 = .ok f ↔ VerdictOn32 ft w s.data s.maxPos rd f) ∧
    ((Target32.afterRead Cfg.release ft w s).1 = .error .panic ↔ PanicOn32 ft w s.data s.maxPos) ∧
    ((∃ f, (Target32.afterRead Cfg.release ft w s).1 = .ok f) ∨ (Target32.afterRead Cfg.release ft w s).1 = .error .panic) := by
  have hl' : s.data.length < 2 ^ 63 := hl
  have hgs : g ∈ Feature.structured := by rcases hg with rfl | rfl <;> decide
  have hne : ¬ w.length = 0 := by
    intro h
    rw [List.eq_nil_of_length_eq_zero h] at hsig
    exact absurd hsig (by rcases hg with rfl | rfl <;> decide +kernel)
  have hsays := signatureSays_some hsig
  have hsay : SignatureSays w g.base := (hsays _).mpr rfl
  have hsame : ∀ g' : Feature, SignatureSays w g'.base → g' = g := by
    intro g' hs
    have hbase := (hsays _).mp hs
    by_cases ht : g' = .txt
    · subst ht
      rw [← hbase] at hsig
      exact absurd hsig (no_magic_default w)
    · exact base_injective g' (structured_of_ne g' ht) g hgs hbase
  have hpan : PanicOn32 ft w s.data s.maxPos ↔ g = .zip ∧ ZipTooLarge s.data s.maxPos := by
    constructor
    · rintro ⟨_, h1, h2⟩; exact ⟨(hsame .zip h1).symm, h2⟩
    · rintro ⟨rfl, h⟩; exact ⟨he, hsay, h⟩
  have hpw := wide_panics s.data s.maxPos hs.len hl' g hg
  have hsw := wide_says s.data s.maxPos hs.len hl' rd g hg
  have hew := wide_ends s.data s.maxPos g hg
  obtain ⟨hex, hle, hwf⟩ := wide_reader s hs hb g hg
  unfold Target32.afterRead
  rw [if_neg hne, hsig]
  simp only [Target32.fromFmtReader, wide_fmtReader ft g hg he]
  generalize execOn (readerOf32 g).1 (readerOf32 g).2 s = r at hex hle hwf
  obtain ⟨r, s'⟩ := r
  simp only at hex hle hwf
  rw [hpan, ← hpw]
  unfold Panics
  cases hrun : run s.data s.maxPos (readerOf32 g).2 0 with
  | ok v =>
    obtain ⟨y, q⟩ := v
    rw [hrun] at hex
    have hex : r = .ok y := hex
    subst hex
    simp only
    have hy : ReaderSays32 s.data s.maxPos rd g y := (hsw y).mp ⟨q, hrun⟩
    refine ⟨fun f => ⟨?_, ?_⟩, ⟨(fun h => nomatch h), (fun h => nomatch h)⟩, Or.inl ⟨y, rfl⟩⟩
    · intro h
      injection h with h
      subst h
      exact .reader he hsay hy
    · intro h
      cases h with
      | signature hs hn => exact absurd ((hsays _).mp hs).symm (hn g he)
      | reader _ hs h =>
        obtain rfl := hsame _ hs
        obtain ⟨q', h⟩ := (hsw _).mpr h
        rw [hrun] at h
        injection h with h
        injection h with h
        rw [h]
      | text _ hs hn =>
        obtain rfl := hsame _ hs
        exact absurd hy (hn _)
      | default _ hs hn =>
        obtain rfl := hsame _ hs
        exact absurd hy (hn _)
  | error x =>
    rw [hrun] at hex
    have hex : r = .error x := hex
    subst hex
    have hno : ∀ x, ¬ ReaderSays32 s.data s.maxPos rd g x := by
      intro y h
      obtain ⟨q, h⟩ := (hsw y).mpr h
      rw [hrun] at h
      cases h
    cases x with
    | diverge => exact absurd hrun hew
    | panic =>
      dsimp only
      have hp : PanicOn32 ft w s.data s.maxPos := hpan.mpr (hpw.mp hrun)
      refine ⟨fun f => ⟨(fun h => nomatch h), fun h => ?_⟩, ⟨fun _ => rfl, fun _ => rfl⟩, Or.inr rfl⟩
      cases h with
      | signature hs hn => exact absurd ((hsays _).mp hs).symm (hn g he)
      | reader _ hs h =>
        obtain rfl := hsame _ hs
        exact absurd h (hno _)
      | text _ _ _ h => exact absurd hp h
      | default _ _ _ h => exact absurd hp h
    | err e =>
      have hp : ¬ PanicOn32 ft w s.data s.maxPos := by
        rw [hpan, ← hpw]
        unfold Panics
        rw [hrun]
        intro h; cases h
      have hd : s'.data = s.data := hle.data
      have hm : s'.maxPos = s.maxPos := hle.maxPos
      simp only
      rw [fromGenericReader_ideal ft s' hwf (hb.mono hle), hd, hm]
      have hgen := generic_says ft s.data s.maxPos rd
      have hcs : ∃ f, idealGeneric ft s.data s.maxPos = .ok f := by
        rcases idealGeneric_cases ft s.data s.maxPos with ⟨_, _, h⟩ | ⟨_, h⟩
        · exact ⟨_, h⟩
        · exact ⟨_, h⟩
      refine ⟨fun f => ?_, ⟨?_, (fun h => nomatch h)⟩, Or.inl hcs⟩
      · rw [hgen]
        constructor
        · rintro (⟨ht, h⟩ | ⟨hn, rfl⟩)
          · exact .text he hsay hno hp ht h
          · exact .default he hsay hno hp hn
        · intro h
          cases h with
          | signature hs hn => exact absurd ((hsays _).mp hs).symm (hn g he)
          | reader _ hs h =>
            obtain rfl := hsame _ hs
            exact absurd h (hno _)
          | text _ _ _ _ ht h => exact Or.inl ⟨ht, h⟩
          | default _ _ _ _ ht => exact Or.inr ⟨ht, rfl⟩
      · obtain ⟨f, hf⟩ := hcs
        rw [hf]
        intro h; cases h

/-- Without such a reader, the verdict is the one of 64-bit targets. -/
theorem verdictOn32_same (ft : Features) (w b : Bytes) (top : Nat) (rd : Reads)
    (hn : ∀ g, Wide g → g.enabled ft = true → ¬ SignatureSays w g.base) (f : FileFormat) :
    (VerdictOn32 ft w b top rd f ↔ VerdictOn ft w b top rd f) ∧ ¬ PanicOn32 ft w b top := by
  have hp : ¬ PanicOn32 ft w b top := fun h => hn .zip (Or.inr rfl) h.1 h.2.1
  have hsame : ∀ g : Feature, g.enabled ft = true → SignatureSays w g.base → ReaderSays32 b top rd g = ReaderSays b top rd g :=
    fun g he hs => readerSays32_other (fun h => hn g h he hs) b top rd
  have htxt : ReaderSays32 b top rd .txt = ReaderSays b top rd .txt := rfl
  refine ⟨⟨fun h => ?_, fun h => ?_⟩, hp⟩
  · cases h with
    | signature hs hn => exact .signature hs hn
    | reader he hs h => exact .reader he hs (hsame _ he hs ▸ h)
    | text he hs hn _ ht h => exact .text he hs (hsame _ he hs ▸ hn) ht h
    | default he hs hn _ ht => exact .default he hs (hsame _ he hs ▸ hn) ht
  · cases h with
    | signature hs hn => exact .signature hs hn
    | reader he hs h => exact .reader he hs (hsame _ he hs ▸ h)
    | text he hs hn ht h => exact .text he hs (hsame _ he hs ▸ hn) hp ht h
    | default he hs hn ht => exact .default he hs (hsame _ he hs ▸ hn) hp ht

/-- C76. On 32-bit targets, on any stream whose calls do not fail, from any position, however its reads are cut, whatever its
length: `from_reader` returns a verdict exactly if the specification has it, panics exactly if the content is an archive
with a stored `mimetype` entry that is too large, and does nothing else. -/
theorem C76_from_reader (ft : Features) (s : Src) (hs : s.WF) (hl : IsSlice s.data) (hq : s.NoFail) :
    (∀ f, (Target32.fromReader Cfg.release ft s).1 = .ok f ↔ VerdictOn32 ft (firstWindow s) s.data s.maxPos (laterReads s) f) ∧
    ((Target32.fromReader Cfg.release ft s).1 = .error .panic ↔ PanicOn32 ft (firstWindow s) s.data s.maxPos) ∧
    ((∃ f, (Target32.fromReader Cfg.release ft s).1 = .ok f) ∨ (Target32.fromReader Cfg.release ft s).1 = .error .panic) := by
  obtain ⟨hw, hrev⟩ := first_window s hq
  obtain ⟨hle, hwf, hlen⟩ := Src.read_spec s 36870 hs
  by_cases hc : ∃ g, Wide g ∧ g.enabled ft = true ∧ SignatureSays (firstWindow s) g.base
  · obtain ⟨g, hg, he, hsay⟩ := hc
    have hsig : fromSignature (firstWindow s) = some g.base := by
      cases hf : fromSignature (firstWindow s) with
      | some f =>
        rw [(signatureSays_some hf _).mp hsay]
      | none =>
        exfalso
        by_cases h0 : firstWindow s = []
        · rw [h0, signatureSays_empty] at hsay
          exact base_ne_empty _ hsay
        · have := (signatureSays_none h0 hf _).mp hsay
          exact absurd this (by rcases hg with rfl | rfl <;> decide)
    have e : Target32.fromReader Cfg.release ft s = Target32.afterRead Cfg.release ft (firstWindow s) (s.read 36870).2 := by
      show (match s.read 36870 with
        | (.error e, src) => (.error (.err e), src)
        | (.ok buf, src) => Target32.afterRead Cfg.release ft buf src : Except Fail FileFormat × Src) = _
      revert hw
      cases s.read 36870 with
      | mk r s' => intro hw; have hw : r = _ := hw; subst hw; rfl
    rw [e]
    have h := afterRead32_wide ft (firstWindow s) (s.read 36870).2 hwf (by rw [hle.data]; exact hl) (hq.mono hle).benign
      (laterReads s) g hg he hsig
    rw [hle.data, hle.maxPos] at h
    exact h
  · have hn : ∀ g, Wide g → g.enabled ft = true → ¬ SignatureSays (firstWindow s) g.base :=
      fun g hg he hs => hc ⟨g, hg, he, hs⟩
    have hrec : ∀ g : Feature, Wide g → g.enabled ft = true → ¬ Recognised (firstWindow s) g.base := by
      intro g hg he hr
      have hgs : g ∈ Feature.structured := by rcases hg with rfl | rfl <;> decide
      have hlt : (firstWindow s).length < 2 ^ 64 := by
        unfold firstWindow
        rw [List.length_take, List.length_drop]
        have : s.data.length < 2 ^ 63 := hl
        omega
      exact hn g hg he ((signatureSays_some (signature_of_recognised hlt hgs hr) _).mpr rfl)
    have e := C52_other_formats Cfg.release ft s (fun buf hbuf => by
      rw [hw] at hbuf
      injection hbuf with hbuf
      subst hbuf
      exact ⟨fun h => hrec .ebml (Or.inl rfl) h, fun h => hrec .zip (Or.inr rfl) h⟩) hs
    rw [e]
    have hsame := verdictOn32_same ft (firstWindow s) s.data s.maxPos (laterReads s) hn
    obtain ⟨f, hf, _⟩ := C73_exactly_one ft s hs hl hq
    refine ⟨fun f => (C73_from_reader ft s hs hl hq f).trans (hsame f).1.symm, ⟨?_, fun h => absurd h (hsame f).2⟩, Or.inl ⟨f, hf⟩⟩
    rw [hf]
    intro h; cases h

/-- C76. `from_bytes`, whose argument has fewer than 2^31 bytes on these targets. -/
theorem C76_from_bytes (ft : Features) (b : Bytes) (hb : b.length < 2 ^ 31) :
    (∀ f, Target32.fromBytes Cfg.release ft b = .ok f ↔ VerdictOn32 ft b b (2 ^ 64 - 1) Reads.full f) ∧
    (Target32.fromBytes Cfg.release ft b = .error .panic ↔ PanicOn32 ft b b (2 ^ 64 - 1)) ∧
    ((∃ f, Target32.fromBytes Cfg.release ft b = .ok f) ∨ Target32.fromBytes Cfg.release ft b = .error .panic) := by
  have hsl : IsSlice b := show b.length < 2 ^ 63 by omega
  have hq : (cursor b).NoFail := ⟨(fun _ h => nomatch h), (fun _ h => nomatch h)⟩
  obtain ⟨h1, h2, h3⟩ := C76_from_reader ft (cursor b) (cursor_wf b (by omega)) hsl hq
  have hfull : laterReads (cursor b) = Reads.full := rfl
  have hw : firstWindow (cursor b) = b.take 36870 := rfl
  rw [hw, hfull] at h1
  rw [hw] at h2
  have hwin : ∀ f, VerdictOn32 ft (b.take 36870) b (2 ^ 64 - 1) Reads.full f ↔ VerdictOn32 ft b b (2 ^ 64 - 1) Reads.full f := by
    intro f
    have hp : PanicOn32 ft (b.take 36870) b (2 ^ 64 - 1) ↔ PanicOn32 ft b b (2 ^ 64 - 1) := by
      unfold PanicOn32; rw [signatureSays_take]
    constructor
    · intro h
      cases h with
      | signature hs hn => exact .signature ((signatureSays_take b _).mp hs) hn
      | reader he hs h => exact .reader he ((signatureSays_take b _).mp hs) h
      | text he hs hn hp' ht h => exact .text he ((signatureSays_take b _).mp hs) hn (mt hp.mpr hp') ht h
      | default he hs hn hp' ht => exact .default he ((signatureSays_take b _).mp hs) hn (mt hp.mpr hp') ht
    · intro h
      cases h with
      | signature hs hn => exact .signature ((signatureSays_take b _).mpr hs) hn
      | reader he hs h => exact .reader he ((signatureSays_take b _).mpr hs) h
      | text he hs hn hp' ht h => exact .text he ((signatureSays_take b _).mpr hs) hn (mt hp.mp hp') ht h
      | default he hs hn hp' ht => exact .default he ((signatureSays_take b _).mpr hs) hn (mt hp.mp hp') ht
  have hp : PanicOn32 ft (b.take 36870) b (2 ^ 64 - 1) ↔ PanicOn32 ft b b (2 ^ 64 - 1) := by
    unfold PanicOn32; rw [signatureSays_take]
  have hcase : (∃ f, (Target32.fromReader Cfg.release ft (cursor b)).1 = .ok f ∧ Target32.fromBytes Cfg.release ft b = .ok f) ∨
      ((Target32.fromReader Cfg.release ft (cursor b)).1 = .error .panic ∧ Target32.fromBytes Cfg.release ft b = .error .panic) := by
    rcases h3 with ⟨f, h⟩ | h
    · left
      refine ⟨f, h, ?_⟩
      unfold Target32.fromBytes
      rw [h]
    · right
      refine ⟨h, ?_⟩
      unfold Target32.fromBytes
      rw [h]
  rcases hcase with ⟨f, hf, hf'⟩ | ⟨hf, hf'⟩
  · rw [hf'] at *
    rw [hf] at h1 h2
    refine ⟨fun g => (h1 g).trans (hwin g), ?_, Or.inl ⟨f, rfl⟩⟩
    exact ⟨(fun h => nomatch h), (fun h => nomatch h2.mpr (hp.mpr h))⟩
  · rw [hf'] at *
    rw [hf] at h1 h2
    exact ⟨fun g => ⟨(fun h => nomatch h), (fun h => nomatch (h1 g).mpr ((hwin g).mpr h))⟩, h2.trans hp, Or.inr rfl⟩

/-- C76. `from_file`, on files of any length. -/
theorem C76_from_file {Path : Type} (ft : Features) (fs : FileSystem Path) (p : Path) (s : Src) (hfs : fs p = .ok s)
    (hs : s.WF) (hl : IsSlice s.data) (hq : s.NoFail) :
    (∀ f, Target32.fromFile Cfg.release ft fs p = .ok f ↔ VerdictOn32 ft (firstWindow s) s.data s.maxPos (laterReads s) f) ∧
    (Target32.fromFile Cfg.release ft fs p = .error .panic ↔ PanicOn32 ft (firstWindow s) s.data s.maxPos) := by
  unfold Target32.fromFile
  rw [hfs]
  obtain ⟨h1, h2, _⟩ := C76_from_reader ft s hs hl hq
  exact ⟨h1, h2⟩

/-! ## Non-vacuity -/

-- A stored `mimetype` entry of 2^31 bytes, in 114 bytes: a panic. The same with a compressed one: none.
example : PanicOn32 { zip := true } (mimetypeOfSize (2 ^ 31)) (mimetypeOfSize (2 ^ 31)) (2 ^ 64 - 1) :=
  (C76_from_bytes _ _ (by decide +kernel)).2.1.mp (C52_zip_panics Cfg.release).2.1
example : ZipAborts (mimetypeOfSize (2 ^ 31)) 1000 1 38 := by
  refine .here (next := 92) ⟨by decide +kernel, ?_, by decide +kernel, by decide +kernel⟩ (by decide +kernel) (by decide +kernel) rfl
    (by decide +kernel) (by decide +kernel)
  exact (magicAt_iff _ _ _).mpr (by decide +kernel)
-- A DocType of 2^32 bytes is read as an empty one, and the archive of 2^32 entries as an empty one.
example : VerdictOn32 { ebml := true } (docTypeOfSize (2 ^ 32)) (docTypeOfSize (2 ^ 32)) (2 ^ 64 - 1) Reads.full
    ExtensibleBinaryMetaLanguage :=
  ((C76_from_bytes _ _ (by decide +kernel)).1 _).mp C52_ebml_differs.1
example : EbmlWalk32 (docTypeOfSize (2 ^ 32)) 1000 256 0 [] ExtensibleBinaryMetaLanguage :=
  (Target32.ebmlReader_walk32 _ 1000 (by decide +kernel) _).mp (val_ends.mp (by decide +kernel))
example : ¬ EbmlWalk (docTypeOfSize (2 ^ 32)) 1000 256 0 [] ExtensibleBinaryMetaLanguage := fun h =>
  absurd (val_ends.mpr ((ebmlReader_walk _ 1000 (by decide +kernel) _).mpr h)) (by decide +kernel)
example : VerdictOn32 { zip := true } (zip64OfCount (2 ^ 32)) (zip64OfCount (2 ^ 32)) (2 ^ 64 - 1) Reads.full Zip :=
  ((C76_from_bytes _ _ (by decide +kernel)).1 _).mp C52_zip64_differs.1

end FF.Props
