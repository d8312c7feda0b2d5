import Verif.Proofs.Evidence
import Verif.Proofs.Pdf
import Verif.Proofs.Text
import Verif.Props.Family
import Verif.Props.Trailing
import Verif.Props.Stream
import Verif.Props.Mp4
import Verif.Props.Zip
/-!
# C61: verdicts are backed by the content
-/

namespace FF.Props
open FF FileFormat Spec

/-! ## The readers that look at what one read call delivers -/

theorem occursWithin_take {pat : Bytes} {lo hi n : Nat} {d : Bytes} (h : OccursWithin pat lo hi (d.take n)) :
    OccursWithin pat lo hi d := by
  have := occursWithin_append (d.drop n) h
  rwa [List.take_append_drop] at this

theorem showsXml_take {d : Bytes} {n : Nat} {row : FileFormat × List (List Bytes)} (h : ShowsXml (d.take n) row) :
    ShowsXml d row := by
  obtain ⟨c, hc, hm⟩ := h
  exact ⟨c, hc, fun m hmem => occursWithin_take (hm m hmem)⟩

theorem slice_of_take (d : Bytes) (p k n : Nat) (hk : k ≤ n) : slice (d.take (p + k)) p n = slice d p k := by
  unfold slice
  rw [List.drop_take, List.take_take, show p + k - p = k by omega, Nat.min_eq_right hk]

/-- A seek and one read call, unbuffered: both may fail; otherwise the program goes on with some bytes from there. -/
theorem exec_window {α : Type} (s : Src) (hs : s.WF) (p n : Nat) (f : Bytes → Prog α) :
    (∃ e, (execOn false (Prog.sk (.start p) >>= fun _ => Prog.rd n >>= f) s).1 = .error (.err e)) ∨
    (∃ k, k ≤ n ∧ ∃ s' : Src, execOn false (Prog.sk (.start p) >>= fun _ => Prog.rd n >>= f) s =
      execOn false (f (slice s.data p k)) s') := by
  obtain ⟨hle, hwf, hseek⟩ := Src.seek_spec s (.start p) hs
  have hrun : execOn false (Prog.sk (.start p) >>= fun _ => Prog.rd n >>= f) s =
      match s.seek (.start p) with
      | (.ok _, s1) => execOn false (Prog.rd n >>= f) s1
      | (.error e, s1) => (.error (.err e), s1) := by
    show (match exec (Prog.seek (.start p) fun _ => Prog.rd n >>= f) { src := s, buffered := false, buf := [] } with
      | (r, s) => (r, s.src)) = _
    simp only [exec, Rd.seek, if_true]
    cases s.seek (.start p) with
    | mk r s1 => cases r <;> rfl
  rw [hrun]
  cases hx : s.seek (.start p) with
  | mk r s1 =>
    rw [hx] at hle hwf hseek
    cases r with
    | error e => exact Or.inl ⟨e, rfl⟩
    | ok q =>
      simp only at hseek ⊢
      have hpos : s1.pos = p := by
        rcases hseek with ⟨q', h1, _, h3⟩ | ⟨_, h, _⟩ | ⟨_, h, _⟩
        · rw [h3]
          simp only [seekTarget] at h1
          split at h1 <;> simp_all
        · cases h
        · cases h
      have hread : execOn false (Prog.rd n >>= f) s1 =
          match s1.read n with
          | (.ok bs, s2) => execOn false (f bs) s2
          | (.error e, s2) => (.error (.err e), s2) := by
        unfold execOn
        rw [exec_read_unbuffered]
        cases s1.read n with
        | mk r s2 => cases r <;> rfl
      rw [hread]
      obtain ⟨_, _, hr⟩ := Src.read_spec s1 n hwf
      rcases hr with ⟨k, hk, _, h1, _⟩ | ⟨e, h1, _⟩
      · cases hy : s1.read n with
        | mk r s2 =>
          rw [hy] at h1
          simp only at h1 ⊢
          subst h1
          refine Or.inr ⟨k, hk, s2, ?_⟩
          rw [hpos, hle.data]
      · cases hy : s1.read n with
        | mk r s2 =>
          rw [hy] at h1
          simp only at h1 ⊢
          subst h1
          exact Or.inl ⟨e, rfl⟩

/-- `reader-xml` on any stream: the verdict is the one on a beginning of the content. -/
theorem xml_any (s : Src) (hs : s.WF) :
    (∃ e, (execOn false xmlReader s).1 = .error (.err e)) ∨
    (∃ k f, k ≤ 8192 ∧ (execOn false xmlReader s).1 = .ok f ∧
      FirstRow (s.data.take (5 + k)) ExtensibleMarkupLanguage xmlMarkers f) := by
  rcases exec_window s hs 5 8192 (fun buf => Prog.lift (xmlClassify buf xmlRules)) with ⟨e, h⟩ | ⟨k, hk, s', h⟩
  · exact Or.inl ⟨e, h⟩
  · obtain ⟨f, hf, hfr⟩ := xmlClassify_spec (s.data.take (5 + k)) xmlRules xmlRules_ne
    rw [xmlRules_eq] at hfr
    rw [slice_of_take _ _ _ _ hk] at hf
    refine Or.inr ⟨k, f, hk, ?_, hfr⟩
    show (execOn false (Prog.sk (.start 5) >>= fun _ => Prog.rd 8192 >>= fun buf =>
      Prog.lift (xmlClassify buf xmlRules)) s).1 = _
    rw [h, hf]
    rfl

/-- `reader-sqlite3` on any stream. -/
theorem sqlite3_any (s : Src) (hs : s.WF) :
    (∃ e, (execOn false sqlite3Reader s).1 = .error (.err e)) ∨
    (∃ k, k ≤ 32768 ∧
      ((OccursWithin b!"com.bohemiancoding.sketch3" 100 (100 + k) s.data ∧ (execOn false sqlite3Reader s).1 = .ok Sketch) ∨
       (¬ OccursWithin b!"com.bohemiancoding.sketch3" 100 (100 + k) s.data ∧
          (execOn false sqlite3Reader s).1 = .ok Sqlite3))) := by
  rcases exec_window s hs 100 32768 (fun buf => Prog.lift (holdsBytes buf sketchMarker) >>= fun found =>
    if found = true then pure Sketch else pure Sqlite3) with ⟨e, h⟩ | ⟨k, hk, s', h⟩
  · exact Or.inl ⟨e, h⟩
  · refine Or.inr ⟨k, hk, ?_⟩
    obtain ⟨r, hr, hi⟩ := holdsBytes_spec (slice s.data 100 k) sketchMarker
    rw [occursWithin_iff (by decide)] at hi
    have hx : (execOn false sqlite3Reader s).1 = .ok (if r = true then Sketch else Sqlite3) := by
      show (execOn false (Prog.sk (.start 100) >>= fun _ => Prog.rd 32768 >>= fun buf =>
        Prog.lift (holdsBytes buf sketchMarker) >>= fun found => if found = true then pure Sketch else pure Sqlite3) s).1 = _
      rw [h, hr]
      cases r <;> rfl
    rw [hx]
    cases r with
    | true => exact Or.inl ⟨hi.mp rfl, rfl⟩
    | false => exact Or.inr ⟨fun h => absurd (hi.mpr h) (by decide), rfl⟩

/-- `reader-pdf` on any stream. -/
theorem pdf_any (s : Src) (hs : s.WF) (f : FileFormat) (h : (execOn false pdfReader s).1 = .ok f) :
    f = PortableDocumentFormat ∨ Evidence s.data f := by
  obtain ⟨hle, hwf, hseek⟩ := Src.seek_spec s (.start 5) hs
  have hrun : execOn false pdfReader s =
      match s.seek (.start 5) with
      | (.ok _, s1) => execOn false (pdfLoop (pdfReadLimit + 1) 0 (List.replicate pdfOverlapSize 0)) s1
      | (.error e, s1) => (.error (.err e), s1) := by
    show (match exec (Prog.seek (.start 5) fun _ => pdfLoop (pdfReadLimit + 1) 0 (List.replicate pdfOverlapSize 0))
      { src := s, buffered := false, buf := [] } with | (r, s) => (r, s.src)) = _
    simp only [exec, Rd.seek, if_true]
    cases s.seek (.start 5) with
    | mk r s1 => cases r <;> rfl
  rw [hrun] at h
  cases hx : s.seek (.start 5) with
  | mk r s1 =>
    rw [hx] at hle hwf hseek h
    cases r with
    | error e => cases h
    | ok q =>
      simp only at hseek h
      have hpos : s1.pos = 5 := by
        rcases hseek with ⟨q', h1, _, h3⟩ | ⟨_, h, _⟩ | ⟨_, h, _⟩
        · rw [h3]
          simp only [seekTarget] at h1
          split at h1 <;> simp_all
        · cases h
        · cases h
      have hd : s1.data = s.data := hle.data
      rcases pdfLoop_exec (pdfReadLimit + 1) 0 (List.replicate pdfOverlapSize 0) s1 hwf hpos (Or.inl rfl)
        (by rw [slice_zero]; decide) (by rw [slice_zero]; decide) (by decide) (by decide) s1.Calm
        (fun c => c) (fun _ => ⟨by decide, Or.inl ⟨0, rfl⟩⟩) with ⟨_, e, he⟩ | ⟨g, T, h1, h2, h3, _⟩
      · have : (execOn false (pdfLoop (pdfReadLimit + 1) 0 (List.replicate pdfOverlapSize 0)) s1).1 = .error (.err e) := he
        rw [this] at h
        cases h
      · have : (execOn false (pdfLoop (pdfReadLimit + 1) 0 (List.replicate pdfOverlapSize 0)) s1).1 = .ok g := h1
        rw [this] at h
        cases h
        rw [hd] at h2
        rcases pdfDone_cases h2 h3 with ⟨rfl, pre, suf, e1, e2, e3⟩ | ⟨rfl, _⟩
        · refine Or.inr (.artwork ⟨pre, suf, e1, e2, ?_⟩)
          conv => rhs; rw [e1]
          rw [List.length_append, List.length_append]
          exact Nat.le_add_right _ _
        · exact Or.inl rfl

/-! ## All readers -/

theorem reader_evidence (cfg : Cfg) (g : Feature) (hg : g ∈ Feature.structured) (s : Src) (hs : s.WF) (f : FileFormat)
    (h : (execOn (readerOf cfg g).1 (readerOf cfg g).2 s).1 = .ok f) : f = g.base ∨ Evidence s.data f := by
  have key : g.bareRead = false → ∃ q, run s.data s.maxPos (readerOf cfg g).2 0 = .ok (f, q) := by
    intro hb
    rcases execOn_exact (readerOf cfg g).1 (readerOf cfg g).2 s hs (reader_exact cfg g hb) (reader_abs cfg g) with hx | ⟨_, e, hx⟩
    · rw [hx] at h
      cases hr : run s.data s.maxPos (readerOf cfg g).2 0 with
      | error e => rw [hr] at h; cases h
      | ok v => rw [hr] at h; cases h; exact ⟨v.2, rfl⟩
    · rw [hx] at h; cases h
  cases g with
  | asf => obtain ⟨q, hq⟩ := key rfl; exact asfReader_evidence hq
  | cfb => obtain ⟨q, hq⟩ := key rfl; exact cfbReader_evidence hq
  | ebml => obtain ⟨q, hq⟩ := key rfl; exact ebmlReader_evidence hq
  | exe => obtain ⟨q, hq⟩ := key rfl; exact exeReader_evidence hq
  | id3v2 => obtain ⟨q, hq⟩ := key rfl; exact id3v2Reader_evidence hq
  | mp4 => obtain ⟨q, hq⟩ := key rfl; exact mp4Reader_evidence hq
  | pdf => exact pdf_any s hs f h
  | rm => obtain ⟨q, hq⟩ := key rfl; exact rmReader_evidence hq
  | sqlite3 =>
    rcases sqlite3_any s hs with ⟨e, he⟩ | ⟨k, hk, ⟨h1, h2⟩ | ⟨_, h2⟩⟩
    · rw [show (execOn (readerOf cfg .sqlite3).1 (readerOf cfg .sqlite3).2 s).1 = .error (.err e) from he] at h
      cases h
    · rw [show (execOn (readerOf cfg .sqlite3).1 (readerOf cfg .sqlite3).2 s).1 = .ok Sketch from h2] at h
      cases h
      exact Or.inr (.sketch (occursWithin_mono (by omega) h1))
    · rw [show (execOn (readerOf cfg .sqlite3).1 (readerOf cfg .sqlite3).2 s).1 = .ok Sqlite3 from h2] at h
      cases h
      exact Or.inl rfl
  | txt => exact absurd hg (by decide)
  | xml =>
    rcases xml_any s hs with ⟨e, he⟩ | ⟨k, g, hk, h1, h2⟩
    · rw [show (execOn (readerOf cfg .xml).1 (readerOf cfg .xml).2 s).1 = .error (.err e) from he] at h
      cases h
    · rw [show (execOn (readerOf cfg .xml).1 (readerOf cfg .xml).2 s).1 = .ok g from h1] at h
      cases h
      generalize hl : xmlMarkers = l at h2
      cases h2 with
      | none => exact Or.inl rfl
      | hit l1 row l2 _ hr => exact Or.inr (.xml (by rw [hl]; simp) (showsXml_take hr))
  | zip => obtain ⟨q, hq⟩ := key rfl; exact (zipReader_evidence hq).2

/-- The generic verdict on any stream. -/
theorem generic_evidence (ft : Features) (s : Src) (hs : s.WF) (f : FileFormat)
    (h : (fromGenericReader ft s).1 = .ok f) :
    f = ArbitraryBinaryData ∨ (f = PlainText ∧ ft.txt = true ∧ IsText (firstLines 16 (s.data.take 65536))) := by
  unfold fromGenericReader at h
  split at h
  · rename_i ht
    rcases execOn_exact true txtReader s hs txt_exact txt_abs with hx | ⟨_, e, hx⟩
    · have hi : (fromGenericReader ft s).1 = idealGeneric ft s.data s.maxPos := by
        unfold fromGenericReader idealGeneric
        rw [if_pos ht, if_pos ht, ← hx]
        generalize execOn true txtReader s = r
        obtain ⟨(e | _ | _) | f, s'⟩ := r <;> rfl
      have h' : (fromGenericReader ft s).1 = .ok f := by
        unfold fromGenericReader; rw [if_pos ht]; exact h
      rcases idealGeneric_text ft s.data s.maxPos ht with ⟨h1, h2⟩ | ⟨_, h2⟩
      · rw [hi, h2] at h'
        cases h'
        exact Or.inr ⟨rfl, ht, h1⟩
      · rw [hi, h2] at h'
        cases h'
        exact Or.inl rfl
    · left
      revert h hx
      generalize execOn true txtReader s = r
      obtain ⟨r, s'⟩ := r
      rintro h rfl
      cases h
      rfl
  · cases h
    exact Or.inl rfl

/-- C61. On every stream, whatever its reads and seeks do: a format that is reported is the one whose magic the bytes of the
first read have; or the default; or plain text, and the content from its start is text; or a format that an enabled reader
adds to the one whose magic was found, and then the content shows the evidence for it. -/
theorem C61_evidence (cfg : Cfg) (ft : Features) (s : Src) (hs : s.WF) (hl : IsSlice s.data) (f : FileFormat)
    (h : (fromReader cfg ft s).1 = .ok f) :
    ∃ buf, (s.read 36870).1 = .ok buf ∧
      (Recognised buf f ∨ f = ArbitraryBinaryData ∨
        (f = PlainText ∧ ft.txt = true ∧ IsText (firstLines 16 (s.data.take 65536))) ∨
        (∃ g ∈ Feature.structured, g.enabled ft = true ∧ Recognised buf g.base ∧ Evidence s.data f)) := by
  rw [fromReader_eq] at h
  obtain ⟨hle, hwf, hread⟩ := Src.read_spec s bufferSize hs
  have hd : s.data.length < 2 ^ 63 := hl
  have hlenb : ∀ buf, (s.read bufferSize).1 = .ok buf → buf.length < 2 ^ 64 := by
    intro buf hbuf
    rcases hread with ⟨k, _, _, h1, _⟩ | ⟨e, h1, _⟩
    · rw [hbuf] at h1
      cases h1
      rw [length_slice]
      omega
    · rw [hbuf] at h1
      cases h1
  show ∃ buf, (s.read bufferSize).1 = .ok buf ∧ _
  cases hx : s.read bufferSize with
  | mk r s1 =>
    rw [hx] at h hle hwf hlenb
    simp only at hle hwf hlenb
    have hdata : s1.data = s.data := hle.data
    cases r with
    | error e => cases h
    | ok buf =>
      have hlen := hlenb buf rfl
      refine ⟨buf, rfl, ?_⟩
      simp only [afterRead] at h
      have hgen : ∀ s' : Src, s'.WF → s'.data = s.data → (fromGenericReader ft s').1 = .ok f →
          f = ArbitraryBinaryData ∨ (f = PlainText ∧ ft.txt = true ∧ IsText (firstLines 16 (s.data.take 65536))) := by
        intro s' hw hds hg
        have := generic_evidence ft s' hw f hg
        rwa [hds] at this
      split at h
      · rename_i h0
        cases h
        left
        have : buf = [] := List.eq_nil_of_length_eq_zero h0
        subst this
        unfold Recognised
        decide
      · split at h
        · rename_i fmt hsig
          have hrec := recognised_of_signature hlen hsig
          rcases fmtReader_cases cfg ft fmt with hnone | ⟨g, hg, hen, hbase, hrd⟩
          · simp only [fromFmtReader, hnone] at h
            cases h
            exact Or.inl hrec
          · simp only [fromFmtReader, hrd] at h
            obtain ⟨k, hall⟩ := reader_all cfg g
            obtain ⟨hle2, hwf2, _⟩ := execOn_le (readerOf cfg g).1 (readerOf cfg g).2 s1 hwf (hall.untilBuffered (fun _ => id))
            have hev := reader_evidence cfg g hg s1 hwf
            revert h hle2 hwf2 hev
            generalize execOn (readerOf cfg g).1 (readerOf cfg g).2 s1 = r
            obtain ⟨(e | _ | _) | g', s2⟩ := r <;> intro h hle2 hwf2 hev
            · rcases hgen s2 hwf2 (hle2.data.trans hdata) h with h | h
              · exact Or.inr (Or.inl h)
              · exact Or.inr (Or.inr (Or.inl h))
            · cases h
            · cases h
            · cases h
              rcases hev f rfl with h | h
              · subst h
                rw [hbase] at hrec
                exact Or.inl hrec
              · rw [hdata] at h
                exact Or.inr (Or.inr (Or.inr ⟨g, hg, hen, by rw [← hbase]; exact hrec, h⟩))
        · rcases hgen s1 hwf hdata h with h | h
          · exact Or.inr (Or.inl h)
          · exact Or.inr (Or.inr (Or.inl h))

theorem recognised_prefix {b : Bytes} (hb : b.length < 2 ^ 64) (f : FileFormat) :
    Recognised (b.take 36870) f ↔ Recognised b f := by
  unfold Recognised
  rw [fromBytes_none _ _ hb, fromBytes_none _ _ (by rw [List.length_take]; omega), fromSignature_take b _ (by decide)]
  have : (b.take 36870).length = 0 ↔ b.length = 0 := by rw [List.length_take]; omega
  simp only [this]

/-- C61 for a byte slice. -/
theorem C61_from_bytes (cfg : Cfg) (ft : Features) (b : Bytes) (hb : IsSlice b) (f : FileFormat)
    (h : fromBytes cfg ft b = .ok f) :
    Recognised b f ∨ f = ArbitraryBinaryData ∨ (f = PlainText ∧ ft.txt = true ∧ IsText (firstLines 16 (b.take 65536))) ∨
      (∃ g ∈ Feature.structured, g.enabled ft = true ∧ Recognised b g.base ∧ Evidence b f) := by
  have hb' : b.length < 2 ^ 63 := hb
  have h' : (fromReader cfg ft (cursor b)).1 = .ok f ∨ f = ArbitraryBinaryData := by
    unfold fromBytes fromSlice at h
    split at h
    · rename_i hx
      cases h
      exact Or.inl hx
    · cases h
      exact Or.inr rfl
    · cases h
  rcases h' with h' | h'
  · obtain ⟨buf, h1, h2⟩ := C61_evidence cfg ft (cursor b) (cursor_wf b (by omega)) hb f h'
    rw [cursor_read] at h1
    cases h1
    simp only [recognised_prefix (show b.length < 2 ^ 64 by omega)] at h2
    exact h2
  · exact Or.inr (Or.inl h')

/-- C61 for a file. -/
theorem C61_from_file {Path : Type} (cfg : Cfg) (ft : Features) (fs : FileSystem Path) (path : Path) (f : FileFormat)
    (h : fromFile cfg ft fs path = .ok f) :
    ∃ s, fs path = .ok s ∧ (s.WF → IsSlice s.data →
      ∃ buf, (s.read 36870).1 = .ok buf ∧
        (Recognised buf f ∨ f = ArbitraryBinaryData ∨
          (f = PlainText ∧ ft.txt = true ∧ IsText (firstLines 16 (s.data.take 65536))) ∨
          (∃ g ∈ Feature.structured, g.enabled ft = true ∧ Recognised buf g.base ∧ Evidence s.data f))) := by
  unfold fromFile at h
  split at h
  · cases h
  · rename_i s hx
    exact ⟨s, hx, fun hs hl => C61_evidence cfg ft s hs hl f h⟩

/-- With the ZIP reader, content that starts like an archive is only reported as one (or as something based on one) if the
end of central directory record is there: a truncated archive is not an archive. -/
theorem C61_zip_end (cfg : Cfg) (ft : Features) (he : ft.zip = true) (s : Src) (hs : s.WF) (hl : IsSlice s.data)
    (buf : Bytes) (hbuf : (s.read 36870).1 = .ok buf) (hrec : Recognised buf Zip) (f : FileFormat)
    (h : (fromReader cfg ft s).1 = .ok f) :
    f = ArbitraryBinaryData ∨ f = PlainText ∨
      OccursWithin b!"PK\x05\x06" (s.data.length - 65557) s.data.length s.data := by
  rw [fromReader_eq] at h
  obtain ⟨hle, hwf, hread⟩ := Src.read_spec s bufferSize hs
  have hd : s.data.length < 2 ^ 63 := hl
  have hlen : buf.length < 2 ^ 64 := by
    rcases hread with ⟨k, _, _, h1, _⟩ | ⟨e, h1, _⟩
    · rw [show (s.read bufferSize).1 = .ok buf from hbuf] at h1
      cases h1
      rw [length_slice]
      omega
    · rw [show (s.read bufferSize).1 = .ok buf from hbuf] at h1
      cases h1
  replace hbuf : (s.read bufferSize).1 = .ok buf := hbuf
  revert h hbuf hle hwf
  cases s.read bufferSize with
  | mk r s1 =>
    rintro h hle hwf rfl
    simp only at hle hwf
    have hdata : s1.data = s.data := hle.data
    have hsig := signature_of_recognised (g := .zip) hlen (by decide) hrec
    simp only [afterRead] at h
    split at h
    · rename_i h0
      rw [List.eq_nil_of_length_eq_zero h0] at hsig
      exact absurd hsig (by decide +kernel)
    · rw [hsig] at h
      have hrd := fmtReader_base cfg ft .zip (by decide)
      rw [if_pos (show Feature.zip.enabled ft = true from he)] at hrd
      simp only [fromFmtReader, hrd] at h
      obtain ⟨k, hall⟩ := reader_all cfg .zip
      obtain ⟨hle2, hwf2, _⟩ := execOn_le (readerOf cfg .zip).1 (readerOf cfg .zip).2 s1 hwf (hall.untilBuffered (fun _ => id))
      have hex := execOn_exact (readerOf cfg .zip).1 (readerOf cfg .zip).2 s1 hwf (reader_exact cfg .zip rfl) (reader_abs cfg .zip)
      revert h hle2 hwf2 hex
      generalize execOn (readerOf cfg .zip).1 (readerOf cfg .zip).2 s1 = r
      obtain ⟨(e | _ | _) | g', s2⟩ := r <;> intro h hle2 hwf2 hex
      · rcases generic_evidence ft s2 hwf2 f h with h | h
        · exact Or.inl h
        · exact Or.inr (Or.inl h.1)
      · cases h
      · cases h
      · cases h
        rcases hex with hx | ⟨_, e, hx⟩
        · cases hr : run s1.data s1.maxPos (readerOf cfg .zip).2 0 with
          | error e => rw [hr] at hx; cases hx
          | ok v =>
            rw [hr] at hx
            have hv : v.1 = f := by cases hx; rfl
            have := (zipReader_evidence (p := 0) (f := v.1) (q := v.2) hr).1
            rw [hdata] at this
            exact Or.inr (Or.inr this)
        · cases hx

-- A stream that drips and interrupts, where the verdict rests on what is behind the tag.
example : (fromReader Cfg.release Features.all drip).1 = .ok FreeLosslessAudioCodec ∧
    Evidence drip.data FreeLosslessAudioCodec ∧ ¬ Recognised drip.data FreeLosslessAudioCodec :=
  ⟨by decide +kernel, .flac (q := 10) ((magicAt_iff _ _ _).mpr (by decide +kernel)), by unfold Recognised; decide +kernel⟩
-- The same track handler after which the stream fails: the reader's verdict is lost, not wrong.
example : (fromReader Cfg.release Features.all { drip with revs := [.full, .short 0, .error (.other 5)] }).1 =
    .ok ArbitraryBinaryData := by decide +kernel
example : HandlerOf (Mp4Box.encodeAll (sampleMp4 false false)) b!"soun" ∧
    ¬ MagicAt 8 b!"soun" (Mp4Box.encodeAll (sampleMp4 false false)) := by
  refine ⟨⟨80, ?_, Or.inl ⟨?_, ?_⟩⟩, ?_⟩ <;> rw [magicAt_iff] <;> decide +kernel
-- An archive and its beginning.
example : fromBytes Cfg.release Features.all (sampleZip b!"extension.vsixmanifest" b!"x") = .ok MicrosoftVisualStudioExtension ∧
    Evidence (sampleZip b!"extension.vsixmanifest" b!"x") MicrosoftVisualStudioExtension ∧
    OccursWithin b!"PK\x05\x06" 0 160 (sampleZip b!"extension.vsixmanifest" b!"x") ∧
    fromBytes Cfg.release Features.all ((sampleZip b!"extension.vsixmanifest" b!"x").take 130) = .ok ArbitraryBinaryData :=
  ⟨by decide +kernel,
   .zipEntry (p := 57) (name := b!"extension.vsixmanifest") ⟨by decide +kernel, (magicAt_iff _ _ _).mpr (by decide +kernel)⟩ (.exact (by decide)),
   (occursWithin_iff (by decide) 0 160 _).mp (by decide +kernel), by decide +kernel⟩

end FF.Props
