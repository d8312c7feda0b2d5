import Verif.Proofs.Mend
import Verif.Props.Verdict
import Verif.Props.Evidence
import Verif.Props.Overflow
/-!
# C75: a failure of the stream costs the verdict, it does not change it
-/

namespace FF.Props
open FF FileFormat Spec

theorem mended_mended (s : Src) : s.Mended s.mended := ⟨rfl, rfl, rfl, rfl, rfl⟩

theorem mended_noFail (s : Src) : s.mended.NoFail := by
  refine ⟨fun e he => ?_, fun e he => ?_⟩
  · simp only [Src.mended, mendEvents, List.mem_filterMap] at he
    obtain ⟨a, _, h⟩ := he
    split at h
    · cases h
    · injection h with h; cases h
    · rename_i h1 h2
      injection h with h
      exact h2 _ h
  · simp only [Src.mended, List.mem_map] at he
    obtain ⟨_, _, h⟩ := he
    exact h.symm

/-- C75. On every stream, whatever calls fail, and with whatever errors: `from_reader` returns the error of its first call;
or what it returns on the same stream without the failures; or arbitrary data; or plain text, if that is enabled and the
content is text. -/
theorem C75_failures (cfg : Cfg) (ft : Features) (s : Src) (hs : s.WF) (hl : IsSlice s.data) :
    (∃ e, (s.read 36870).1 = .error e ∧ (fromReader cfg ft s).1 = .error (.err e)) ∨
    (fromReader cfg ft s).1 = (fromReader cfg ft s.mended).1 ∨
    (fromReader cfg ft s).1 = .ok ArbitraryBinaryData ∨
    ((fromReader cfg ft s).1 = .ok PlainText ∧ ft.txt = true ∧ IsText (firstLines 16 (s.data.take 65536))) := by
  rw [fromReader_eq2, fromReader_eq2]
  obtain ⟨hle, hwf, _⟩ := Src.read_spec s 36870 hs
  rcases Src.read_mended (mended_mended s) 36870 with ⟨e, x, h1, _⟩ | ⟨bs, x, y, h1, h2, h3, _⟩
  · rw [h1]; exact Or.inl ⟨e, rfl, rfl⟩
  · rw [h1] at hle hwf
    rw [h1, h2]
    right
    simp only
    rcases afterRead_mended cfg ft bs h3 hwf with h | h | ⟨s', h, hd, hs'⟩
    · exact Or.inl h.symm
    · exact Or.inr (Or.inl h)
    · right
      rw [h]
      have hd' : s'.data = s.data := hd.trans hle.data
      have hnc := fromGenericReader_notCrash ft s' hs' (by rw [hd']; exact hl)
      have hg := generic_evidence ft s' hs'
      have hne : ∀ e, (fromGenericReader ft s').1 ≠ .error (.err e) := by
        intro e
        unfold fromGenericReader
        split
        · generalize execOn true txtReader s' = r
          obtain ⟨(e | _ | _) | f, s'⟩ := r <;> simp
        · simp
      cases hr : (fromGenericReader ft s').1 with
      | error e =>
        rw [hr] at hnc hne
        cases e with
        | err e => exact absurd rfl (hne e)
        | panic => cases hnc
        | diverge => cases hnc
      | ok f =>
        rcases hg f hr with rfl | ⟨rfl, h1, h2⟩
        · exact Or.inl rfl
        · rw [hd'] at h2
          exact Or.inr ⟨rfl, h1, h2⟩

/-- C75. Read the other way: whatever `from_reader` reports on a stream with failures, other than the two answers of last
resort, is the verdict on the content (C73), read as the stream lets it be read. -/
theorem C75_verdict (ft : Features) (s : Src) (hs : s.WF) (hl : IsSlice s.data) (f : FileFormat)
    (h : (fromReader Cfg.release ft s).1 = .ok f) (h1 : f ≠ ArbitraryBinaryData) (h2 : f ≠ PlainText) :
    VerdictOn ft (firstWindow s.mended) s.data s.maxPos (laterReads s.mended) f := by
  have hm : s.mended.WF := ⟨hs.1, hs.2⟩
  refine (C73_from_reader ft s.mended hm hl (mended_noFail s) f).mp ?_
  rcases C75_failures Cfg.release ft s hs hl with ⟨e, _, h'⟩ | h' | h' | ⟨h', _⟩
  · rw [h] at h'; cases h'
  · rw [← h', h]
  · rw [h] at h'; injection h' with h'; exact absurd h' h1
  · rw [h] at h'; injection h' with h'; exact absurd h' h2

/-- C75. When the first call succeeds, the first window of the stream without failures is that of the stream. -/
theorem C75_window (s : Src) (b : Bytes) (h : (s.read 36870).1 = .ok b) : firstWindow s.mended = b := by
  have h1 := (first_window s.mended (mended_noFail s)).1
  rcases Src.read_mended (mended_mended s) 36870 with ⟨e, x, h2, _⟩ | ⟨bs, x, y, h2, h3, _⟩
  · rw [h2] at h; cases h
  · rw [h2] at h
    rw [h3] at h1
    injection h with h
    injection h1 with h1
    exact h1.symm.trans h

/-- C75. With overflow checks, a stream on which detection panics makes it panic without its failures too: a failure of the
stream is never the reason. -/
theorem C75_panic (ft : Features) (s : Src) (hs : s.WF) (hl : IsSlice s.data)
    (h : (fromReader Cfg.debug ft s).1 = .error .panic) :
    OverflowOn ft (firstWindow s.mended) s.data s.maxPos := by
  have hm : s.mended.WF := ⟨hs.1, hs.2⟩
  refine (C74_from_reader ft s.mended hm hl (mended_noFail s)).mp ?_
  rcases C75_failures Cfg.debug ft s hs hl with ⟨e, _, h'⟩ | h' | h' | ⟨h', _⟩
  · rw [h] at h'; cases h'
  · rw [← h', h]
  · rw [h] at h'; cases h'
  · rw [h] at h'; cases h'

/-- C75 for `from_file`: the file that was opened, whatever fails while it is read. -/
theorem C75_from_file {Path : Type} (ft : Features) (fs : FileSystem Path) (p : Path) (s : Src) (hfs : fs p = .ok s)
    (hs : s.WF) (hl : IsSlice s.data) (f : FileFormat) (h : fromFile Cfg.release ft fs p = .ok f)
    (h1 : f ≠ ArbitraryBinaryData) (h2 : f ≠ PlainText) :
    VerdictOn ft (firstWindow s.mended) s.data s.maxPos (laterReads s.mended) f := by
  refine C75_verdict ft s hs hl f ?_ h1 h2
  unfold fromFile at h
  rw [hfs] at h
  exact h

/-- Not vacuous: the four outcomes, on one content. The second read fails: arbitrary data, or plain text if that reader is
enabled and the next reads succeed. The third one would fail: the same verdict as without the failure. The first one fails:
the error. -/
def failing (es : List Ev) : Src := { cursor b!"%PDF-1.4 ..AIPrivateData.." with revs := es }
example : (failing [.full, .error (.other 5)]).WF ∧ IsSlice (failing [.full, .error (.other 5)]).data :=
  ⟨⟨by decide, by decide⟩, by unfold IsSlice; decide +kernel⟩
example : (fromReader Cfg.release { pdf := true } (failing [.full, .error (.other 5)])).1 = .ok ArbitraryBinaryData := by
  decide +kernel
example : (fromReader Cfg.release { pdf := true, txt := true } (failing [.full, .error (.other 5)])).1 = .ok PlainText := by
  decide +kernel
example : (fromReader Cfg.release { pdf := true } (failing [.full, .full, .error (.other 5)])).1 =
    .ok AdobeIllustratorArtwork := by decide +kernel
example : (fromReader Cfg.release { pdf := true } (failing [.full, .error (.other 5)]).mended).1 =
    .ok AdobeIllustratorArtwork := by decide +kernel
example : (fromReader Cfg.release { pdf := true } (failing [.error (.other 5)])).1 = .error (.err (.other 5)) := by
  decide +kernel
/-- … and by the theorem: a stream whose calls fail after the verdict is reached carries the marker. -/
example : VerdictOn { pdf := true } b!"%PDF-1.4 ..AIPrivateData.." b!"%PDF-1.4 ..AIPrivateData.." (2 ^ 64 - 1)
    (laterReads (failing [.full, .full, .error (.other 5)]).mended) AdobeIllustratorArtwork := by
  have h := C75_verdict { pdf := true } (failing [.full, .full, .error (.other 5)]) ⟨by decide, by decide⟩
    (by unfold IsSlice; decide +kernel) AdobeIllustratorArtwork (by decide +kernel) (by decide) (by decide)
  rw [C75_window _ b!"%PDF-1.4 ..AIPrivateData.." (by decide +kernel)] at h
  exact h

end FF.Props
