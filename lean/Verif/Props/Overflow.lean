import Verif.Proofs.Panics
import Verif.Props.Verdict
import Verif.Props.Profile
/-!
# C74: exactly when a build with overflow checks panics
-/

namespace FF.Props
open FF FileFormat Spec

theorem val_panics {d : Bytes} {m p : Nat} {x : Prog FileFormat} : val (run d m x p) = .error .panic ↔ Panics d m x p := by
  unfold Panics
  cases run d m x p with
  | error e => exact ⟨fun h => by simpa [val] using h, fun h => by simpa [val] using h⟩
  | ok v => obtain ⟨a, q⟩ := v; exact ⟨(fun h => by cases h), fun h => by cases h⟩

/-- A reader on a stream, with any failures: if it panics, its walk overflows; without failures that is what it takes. -/
theorem execOn_panics (s : Src) (hs : s.WF) (hl : IsSlice s.data) (g : Feature) (hx : g.unchecked = true) :
    ((execOn (readerOf Cfg.debug g).1 (readerOf Cfg.debug g).2 s).1 = .error .panic → ReaderOverflows s.data s.maxPos g) ∧
    (s.Benign → ReaderOverflows s.data s.maxPos g →
      (execOn (readerOf Cfg.debug g).1 (readerOf Cfg.debug g).2 s).1 = .error .panic) := by
  have hb : g.bareRead = false := by cases g <;> first | rfl | cases hx
  rw [← reader_panics s.data s.maxPos hs.len hl g, ← val_panics]
  rcases execOn_exact _ _ s hs (reader_exact Cfg.debug g hb) (reader_abs Cfg.debug g) with h | ⟨h, e, he⟩
  · rw [h]; exact ⟨id, fun _ => id⟩
  · rw [he]
    exact ⟨(fun h => by cases h), fun h' => absurd h' h⟩

theorem unchecked_of_overflows {b : Bytes} {top : Nat} {g : Feature} (h : ReaderOverflows b top g) : g.unchecked = true := by
  cases g <;> first | rfl | exact h.elim

theorem structured_of_unchecked {g : Feature} (h : g.unchecked = true) : g ∈ Feature.structured := by
  revert h; cases g <;> decide

theorem afterRead_panics (ft : Features) (w : Bytes) (s : Src) (hs : s.WF) (hl : IsSlice s.data) :
    ((afterRead Cfg.debug ft w s).1 = .error .panic → OverflowOn ft w s.data s.maxPos) ∧
    (s.Benign → OverflowOn ft w s.data s.maxPos → (afterRead Cfg.debug ft w s).1 = .error .panic) := by
  have hgen : ∀ s' : Src, s'.WF → s'.data = s.data → (fromGenericReader ft s').1 ≠ .error .panic := by
    intro s' hs' hd h
    have := fromGenericReader_notCrash ft s' hs' (by rw [hd]; exact hl)
    rw [h] at this
    cases this
  unfold afterRead
  by_cases hne : w = []
  · subst hne
    rw [if_pos (show ([] : Bytes).length = 0 from rfl)]
    refine ⟨(fun h => by cases h), fun _ => ?_⟩
    rintro ⟨g, _, hsg, _⟩
    exact absurd ((signatureSays_empty _).mp hsg) (base_ne_empty _)
  have hlen : w.length ≠ 0 := fun h => hne (List.eq_nil_of_length_eq_zero h)
  rw [if_neg hlen]
  cases hsig : fromSignature w with
  | none =>
    simp only
    refine ⟨fun h => absurd h (hgen s hs rfl), fun _ => ?_⟩
    rintro ⟨g, _, hsg, ho⟩
    have := (signatureSays_none hne hsig _).mp hsg
    have hu := unchecked_of_overflows ho
    cases g <;> first | (cases hu; done) | exact absurd this (by decide)
  | some fmt =>
    simp only
    have hsays := signatureSays_some hsig
    rcases fmtReader_cases Cfg.debug ft fmt with hn | ⟨f, hf, he, hfmt, hr⟩
    · simp only [fromFmtReader, hn]
      refine ⟨(fun h => by cases h), fun _ => ?_⟩
      rintro ⟨g, hg, hsg, ho⟩
      have hb : g.base = fmt := (hsays _).mp hsg
      have := fmtReader_base Cfg.debug ft g (structured_of_unchecked (unchecked_of_overflows ho))
      rw [hb, hn, if_pos hg] at this
      cases this
    · simp only [fromFmtReader, hr]
      have hone : ∀ g : Feature, g ∈ Feature.structured → SignatureSays w g.base → g = f := by
        intro g hg hsg
        exact base_inj g hg f hf (((hsays _).mp hsg).trans hfmt)
      have hsf : SignatureSays w f.base := (hsays _).mpr hfmt.symm
      obtain ⟨k, hk⟩ := reader_all Cfg.debug f
      obtain ⟨hle, hwf, _⟩ := execOn_le _ _ s hs (hk.untilBuffered (fun _ => id))
      by_cases hu : f.unchecked = true
      · obtain ⟨h1, h2⟩ := execOn_panics s hs hl f hu
        generalize execOn (readerOf Cfg.debug f).1 (readerOf Cfg.debug f).2 s = r at h1 h2 hle hwf
        obtain ⟨r, s'⟩ := r
        constructor
        · intro h
          rcases r with (e | _ | _) | a
          · exact absurd h (hgen s' hwf hle.data)
          · exact ⟨f, he, hsf, h1 rfl⟩
          · cases h
          · cases h
        · rintro hb ⟨g, hg, hsg, ho⟩
          obtain rfl := hone g (structured_of_unchecked (unchecked_of_overflows ho)) hsg
          have := h2 hb ho
          simp only at this
          subst this
          rfl
      · have hnc := execOn_notCrash Cfg.debug f s hs hl (Or.inr (by simpa using hu))
        generalize execOn (readerOf Cfg.debug f).1 (readerOf Cfg.debug f).2 s = r at hnc hle hwf
        obtain ⟨r, s'⟩ := r
        constructor
        · intro h
          rcases r with (e | _ | _) | a
          · exact absurd h (hgen s' hwf hle.data)
          · cases hnc
          · cases hnc
          · cases h
        · rintro _ ⟨g, hg, hsg, ho⟩
          obtain rfl := hone g (structured_of_unchecked (unchecked_of_overflows ho)) hsg
          exact absurd (unchecked_of_overflows ho) hu

/-- C74. On a stream whose calls do not fail, however its reads are cut and whatever its position: a build with overflow
checks panics exactly if the walk of the ASF, MP4 or ZIP reader, enabled and called for by the magic number in what the
first `read` delivers, comes to a result that does not fit into 64 bits. -/
theorem C74_from_reader (ft : Features) (s : Src) (hs : s.WF) (hl : IsSlice s.data) (hq : s.NoFail) :
    (fromReader Cfg.debug ft s).1 = .error .panic ↔ OverflowOn ft (firstWindow s) s.data s.maxPos := by
  obtain ⟨hw, _⟩ := first_window s hq
  obtain ⟨hle, hwf, _⟩ := Src.read_spec s 36870 hs
  rw [fromReader_eq2]
  cases hx : s.read 36870 with
  | mk r s1 =>
    rw [hx] at hw hle hwf
    simp only at hw hle hwf ⊢
    subst hw
    simp only
    obtain ⟨h1, h2⟩ := afterRead_panics ft (firstWindow s) s1 hwf (by rw [hle.data]; exact hl)
    rw [hle.data, hle.maxPos] at h1 h2
    exact ⟨h1, h2 (hq.mono hle).benign⟩

/-- C74. On every stream, failures included: there is no panic without such an overflow. -/
theorem C74_only_overflows (ft : Features) (s : Src) (hs : s.WF) (hl : IsSlice s.data)
    (h : (fromReader Cfg.debug ft s).1 = .error .panic) :
    ∃ w, (s.read 36870).1 = .ok w ∧ OverflowOn ft w s.data s.maxPos := by
  obtain ⟨hle, hwf, _⟩ := Src.read_spec s 36870 hs
  rw [fromReader_eq2] at h
  cases hx : s.read 36870 with
  | mk r s1 =>
    rw [hx] at hle hwf h
    simp only at hle hwf h ⊢
    cases r with
    | error e => cases h
    | ok w =>
      have h1 := (afterRead_panics ft w s1 hwf (by rw [hle.data]; exact hl)).1 h
      rw [hle.data, hle.maxPos] at h1
      exact ⟨w, rfl, h1⟩

theorem overflowOn_take (ft : Features) (b : Bytes) (top : Nat) :
    OverflowOn ft (b.take 36870) b top ↔ OverflowOn ft b b top := by
  unfold OverflowOn
  simp only [signatureSays_take]

/-- C74 for `from_bytes`. -/
theorem C74_from_bytes (ft : Features) (b : Bytes) (hb : IsSlice b) :
    fromBytes Cfg.debug ft b = .error .panic ↔ OverflowOn ft b b (2 ^ 64 - 1) := by
  have hb' : b.length < 2 ^ 63 := hb
  have hq : (cursor b).NoFail := ⟨by simp [cursor], by simp [cursor]⟩
  have h := C74_from_reader ft (cursor b) (cursor_wf b (by omega)) hb hq
  rw [show firstWindow (cursor b) = b.take 36870 from rfl, show (cursor b).data = b from rfl,
    show (cursor b).maxPos = 2 ^ 64 - 1 from rfl, overflowOn_take] at h
  rw [← h, fromReader_cursor _ _ _ (by omega), fromBytes_ideal _ _ _ (by omega)]

/-- C74 for `from_file`, opened, and read without failures. -/
theorem C74_from_file {Path : Type} (ft : Features) (fs : FileSystem Path) (p : Path) (s : Src) (hfs : fs p = .ok s)
    (hs : s.WF) (hl : IsSlice s.data) (hq : s.NoFail) :
    fromFile Cfg.debug ft fs p = .error .panic ↔ OverflowOn ft (firstWindow s) s.data s.maxPos := by
  rw [← C74_from_reader ft s hs hl hq]
  unfold fromFile
  rw [hfs]

/-- C74. With C72: what a build with overflow checks reports on every content. -/
theorem C74_debug_verdict (ft : Features) (b : Bytes) (hb : IsSlice b) (f : FileFormat) :
    fromBytes Cfg.debug ft b = .ok f ↔ ¬ OverflowOn ft b b (2 ^ 64 - 1) ∧ Verdict ft b (2 ^ 64 - 1) f := by
  rw [← C74_from_bytes ft b hb, ← C72_from_bytes ft b hb]
  rcases C46_bytes ft b with h | h
  · rw [h]
    exact ⟨(fun h' => by cases h'), fun h' => absurd rfl h'.1⟩
  · rw [h]
    exact ⟨fun h' => ⟨(fun h'' => by rw [h'] at h''; cases h''), h'⟩, fun h' => h'.2⟩

/-- C74. So no size between 2^63 and 2^63 + 40 in an object or box, no end of an object and no offset of a directory beyond
2^64: no panic. In particular there is none without one of the three features. -/
theorem C74_safe (ft : Features) (b : Bytes) (hb : IsSlice b) (ha : ft.asf = false) (hm : ft.mp4 = false)
    (hz : ft.zip = false) : fromBytes Cfg.debug ft b ≠ .error .panic := by
  rw [Ne, C74_from_bytes ft b hb]
  rintro ⟨g, he, _, ho⟩
  cases g with
  | asf => rw [show Feature.asf.enabled ft = ft.asf from rfl, ha] at he; cases he
  | mp4 => rw [show Feature.mp4.enabled ft = ft.mp4 from rfl, hm] at he; cases he
  | zip => rw [show Feature.zip.enabled ft = ft.zip from rfl, hz] at he; cases he
  | _ => exact ho

-- Not vacuous: the three witnesses of C02 overflow, and here is one more, of the end of an object.
example : OverflowOn { asf := true } asfOverflow asfOverflow (2 ^ 64 - 1) := (C74_from_bytes _ _ (by decide)).mp C02_asf_panics
example : OverflowOn { mp4 := true } mp4Overflow mp4Overflow (2 ^ 64 - 1) := (C74_from_bytes _ _ (by decide)).mp C02_mp4_panics
example : OverflowOn { zip := true } zipOverflow zipOverflow (2 ^ 64 - 1) := (C74_from_bytes _ _ (by decide)).mp C02_zip_panics

/-- An extended content description that is said to end beyond 2^64. -/
def asfEnd (last : UInt8) : Bytes :=
  b!"\x30\x26\xB2\x75\x8E\x66\xCF\x11\xA6\xD9\x00\xAA\x00\x62\xCE\x6C" ++ List.replicate 8 0 ++ [1, 0, 0, 0, 1, 2] ++
    (asfExtendedContent.bytes ++ [last, 255, 255, 255, 255, 255, 255, 255] ++ [0, 0])

example : OverflowOn { asf := true } (asfEnd 200) (asfEnd 200) (2 ^ 64 - 1) :=
  (C74_from_bytes _ _ (by decide)).mp (by decide +kernel)
-- 30 + 26 + size = 2^64 overflows, one less does not.
example : OverflowOn { asf := true } (asfEnd 200) (asfEnd 200) (2 ^ 64 - 1) ∧
    ¬ OverflowOn { asf := true } (asfEnd 199) (asfEnd 199) (2 ^ 64 - 1) :=
  ⟨(C74_from_bytes _ _ (by decide)).mp (by decide +kernel),
    fun h => absurd ((C74_from_bytes _ _ (by decide)).mpr h) (by decide +kernel)⟩

end FF.Props
