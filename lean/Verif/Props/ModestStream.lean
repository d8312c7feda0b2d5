import Verif.Props.Modest
import Verif.Props.Profile
/-!
# C02: builds with overflow checks, on every stream
-/

namespace FF.Props
open FF FileFormat Spec

/-- The ideal run of a reader does not crash if the run of a release build does not and both agree. -/
theorem checked_notCrash (f : Feature) (src : Src) (h : src.WF) (hd : src.data.length < 2 ^ 62) (hm : 2 ^ 63 - 1 ≤ src.maxPos)
    (hs : f.unchecked = true → Same src.data src.maxPos src.maxPos (readerOf Cfg.debug f).2 (readerOf Cfg.release f).2 0) :
    NotCrash (execOn (readerOf Cfg.debug f).1 (readerOf Cfg.debug f).2 src).1 := by
  cases hu : f.unchecked with
  | false => exact execOn_notCrash Cfg.debug f src h (by omega) (Or.inr hu)
  | true =>
    have hb : f.bareRead = false := by revert hu; cases f <;> decide
    rcases execOn_exact _ _ src h (reader_exact Cfg.debug f hb) (reader_abs Cfg.debug f) with h1 | ⟨_, e, h1⟩
    · rw [h1, hs hu]
      let quiet : Src := { src with pos := 0, revs := [], sevs := [] }
      have hq : quiet.WF := ⟨h.1, Nat.zero_le _⟩
      have h2 := execOn_notCrash Cfg.release f quiet hq (Nat.lt_trans hd (by decide)) (Or.inl rfl)
      rcases execOn_exact _ _ quiet hq (reader_exact Cfg.release f hb) (reader_abs Cfg.release f) with h3 | ⟨hn, _⟩
      · rw [h3] at h2; exact h2
      · exact absurd ⟨by simp [quiet], by simp [quiet]⟩ hn
    · rw [h1]; trivial

/-- C02 on streams, all but fields of 2^62 and more: whatever the position, the seek range beyond that of files, and
the short counts, interruptions and failures of its calls, `from_reader` in a build with overflow checks makes the same
calls with the same outcome as in a release build, and returns. -/
theorem C02_stream_modest_partial (ft : Features) (s : Src) (hs : s.WF) (hd : s.data.length < 2 ^ 62) (hm : 2 ^ 63 - 1 ≤ s.maxPos)
    (h1 : ft.asf = true → SmallObjects s.data) (h2 : ft.mp4 = true → SmallBoxes s.data) (h3 : ft.zip = true → SmallZip64 s.data) :
    Returns (fromReader Cfg.debug ft s).1 ∧ fromReader Cfg.debug ft s = fromReader Cfg.release ft s := by
  suffices h : NotCrash (fromReader Cfg.debug ft s).1 by
    refine ⟨returns_of_notCrash h, ?_⟩
    rcases C46_stream ft s with hp | hp
    · rw [hp] at h; cases h
    · exact hp
  rw [fromReader_eq]
  obtain ⟨hle, hwf, _⟩ := Src.read_spec s bufferSize hs
  cases hr : s.read bufferSize with
  | mk r src =>
    rw [hr] at hle hwf
    cases r with
    | error e => trivial
    | ok buf =>
      have ed : src.data = s.data := hle.data
      have em : src.maxPos = s.maxPos := hle.maxPos
      simp only at hwf ⊢
      unfold afterRead
      split
      · trivial
      · cases hsig : fromSignature buf with
        | none => exact fromGenericReader_notCrash ft src hwf (by rw [ed]; omega)
        | some fmt =>
          simp only
          rcases fmtReader_cases Cfg.debug ft fmt with hn | ⟨f, hf, he, hfmt, hrd⟩
          · simp only [fromFmtReader, hn]; trivial
          · simp only [fromFmtReader, hrd]
            have hc := checked_notCrash f src hwf (by rw [ed]; exact hd) (by rw [em]; exact hm) (by
              intro hu
              rw [ed, em]
              cases f <;> first | (cases hu; done) | skip
              · exact same_asf _ _ hd (h1 he) hm hm _
              · exact same_mp4 _ _ hd (h2 he) hm hm _
              · exact same_zip _ _ hd (h3 he) hm hm _)
            obtain ⟨k, hk⟩ := reader_all Cfg.debug f
            obtain ⟨hle', hwf', _⟩ := execOn_le _ _ src hwf (hk.untilBuffered (fun _ => id))
            generalize execOn (readerOf Cfg.debug f).1 (readerOf Cfg.debug f).2 src = x at hc hle' hwf'
            obtain ⟨x, s'⟩ := x
            rcases x with (e | _ | _) | a
            · exact fromGenericReader_notCrash ft s' hwf' (by rw [hle'.data, ed]; omega)
            · cases hc
            · cases hc
            · trivial

/-- C02 on files. -/
theorem C02_file_modest_partial {Path : Type} (ft : Features) (fs : FileSystem Path) (p : Path)
    (h : ∀ s, fs p = .ok s → s.WF ∧ s.data.length < 2 ^ 62 ∧ 2 ^ 63 - 1 ≤ s.maxPos ∧ (ft.asf = true → SmallObjects s.data) ∧
      (ft.mp4 = true → SmallBoxes s.data) ∧ (ft.zip = true → SmallZip64 s.data)) :
    Returns (fromFile Cfg.debug ft fs p) ∧ fromFile Cfg.debug ft fs p = fromFile Cfg.release ft fs p := by
  unfold fromFile
  cases hs : fs p with
  | error e => exact ⟨Or.inr ⟨e, rfl⟩, rfl⟩
  | ok s =>
    obtain ⟨h1, h2, h3, h4, h5, h6⟩ := h s hs
    obtain ⟨r1, r2⟩ := C02_stream_modest_partial ft s h1 h2 h3 h4 h5 h6
    exact ⟨r1, by simp only [r2]⟩

-- A stream that drips and then fails, with a box of 64-bit size.
example : (fromReader Cfg.debug { mp4 := true }
    { cursor mp4WideBox with revs := [.full, .short 0, .error .interrupted, .short 3, .error (.other 1)] }).1 =
    .ok ArbitraryBinaryData := by decide +kernel
example : (fromReader Cfg.debug { mp4 := true }
    { cursor mp4WideBox with revs := [.full, .short 0, .error .interrupted, .short 3] }).1 =
    .ok Mpeg4Part14 := by decide +kernel
example (revs : List Ev) (sevs : List (Option ErrKind)) :
    fromReader Cfg.debug { mp4 := true } { cursor mp4WideBox with revs := revs, sevs := sevs } =
    fromReader Cfg.release { mp4 := true } { cursor mp4WideBox with revs := revs, sevs := sevs } :=
  (C02_stream_modest_partial _ _ ⟨by simp only [cursor]; decide, by simp only [cursor]; decide⟩ (by simp only [cursor]; decide)
    (by simp only [cursor]; decide) (fun h => absurd h (by decide)) (fun _ => mp4WideBox_small) (fun h => absurd h (by decide))).2

end FF.Props
