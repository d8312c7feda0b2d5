import Verif.Props.Evidence
import Verif.Props.FirstRead
import Verif.Spec.Second
/-!
# C69: how a stream cuts its reads after the first one
-/

namespace FF.Props
open FF FileFormat Spec

/-- C69, as one would wish it: for two streams with the same content whose first read delivers the signature window,
it does not matter how the later reads are cut. -/
def C69_statement : Prop :=
  ∀ (cfg : Cfg) (ft : Features) (s s' : Src), s.WF → s'.WF → IsSlice s.data → s.NoFail → s'.NoFail →
    s.data = s'.data → s.maxPos = s'.maxPos →
    (s.read 36870).1 = .ok (s.data.take 36870) → (s'.read 36870).1 = .ok (s'.data.take 36870) →
    (fromReader cfg ft s).1 = (fromReader cfg ft s').1

/-- C69 does not hold: the XML reader makes one `read` call, and a short one hides the marker. -/
theorem C69_fails : ¬ C69_statement := by
  intro h
  have h1 := h Cfg.release { xml := true } (cursor (b!"<?xml version=\"1.0\"?><svg>"))
    { cursor (b!"<?xml version=\"1.0\"?><svg>") with revs := [.full, .short 9] }
    ⟨by decide, by decide⟩ ⟨by decide, by decide⟩ (by unfold IsSlice; decide +kernel) ⟨by simp [cursor], by simp [cursor]⟩
    ⟨by simp, by simp [cursor]⟩ rfl rfl (by decide +kernel) (by decide +kernel)
  rw [C12_xml_short_read.1, C12_xml_short_read.2] at h1
  cases h1

/-- The same with a SQLite database. -/
theorem C69_sqlite3_loses :
    (fromReader Cfg.release { sqlite3 := true }
      (cursor (b!"SQLite format 3\x00" ++ List.replicate 84 0 ++ b!"com.bohemiancoding.sketch3"))).1 = .ok Sketch ∧
    (fromReader Cfg.release { sqlite3 := true }
      { cursor (b!"SQLite format 3\x00" ++ List.replicate 84 0 ++ b!"com.bohemiancoding.sketch3") with
        revs := [.full, .short 24] }).1 = .ok Sqlite3 := by decide +kernel

/-! ## What the second read delivers -/

theorem read_second (s s1 s2 : Src) (p n q : Nat) (hs : s.WF) (hq : s.NoFail) (hp : p ≤ s.maxPos) (buf : Bytes)
    (h1 : s.read 36870 = (.ok buf, s1)) (h2 : s1.seek (.start p) = (.ok q, s2)) :
    (s2.read n).1 = .ok (slice s.data p (s.secondRead n)) := by
  have hpos : s2.pos = p ∧ s2.data = s.data := by
    obtain ⟨hle, hwf, _⟩ := Src.read_spec s 36870 hs
    rw [h1] at hle hwf
    obtain ⟨hle2, _, hc⟩ := Src.seek_spec s1 (.start p) hwf
    rw [h2] at hle2 hc
    refine ⟨?_, by rw [hle2.data, hle.data]⟩
    rcases hc with ⟨q', h3, _, h4⟩ | ⟨_, h, _⟩ | ⟨_, h, _⟩
    · simp only at h4
      rw [h4]
      simp only [seekTarget] at h3
      split at h3 <;> simp_all
    · cases h
    · cases h
  have hrev : s2.revs = s.revs.tail := by
    have e1 : s1.revs = s.revs.tail := by
      have : s1 = (s.read 36870).2 := by rw [h1]
      rw [this]
      unfold Src.read
      split <;> rename_i h <;> rw [h] <;> rfl
    have e2 : s2.revs = s1.revs := by
      have : s2 = (s1.seek (.start p)).2 := by rw [h2]
      rw [this]
      unfold Src.seek
      split
      · rfl
      · split <;> rfl
    rw [e2, e1]
  obtain ⟨hpos, hdata⟩ := hpos
  unfold Src.read Src.secondRead
  rw [hrev, hpos, hdata]
  have hno := hq.reads
  cases hr : s.revs with
  | nil => rfl
  | cons a l =>
    cases l with
    | nil => rfl
    | cons b l =>
      cases b with
      | full => rfl
      | short k => rfl
      | error e => exact absurd (by rw [hr]; simp) (hno e)

theorem seek_start_ok (s : Src) (hs : s.WF) (hq : s.NoFail) (p : Nat) (hp : p ≤ s.maxPos) :
    ∃ s2, s.seek (.start p) = (.ok p, s2) := by
  obtain ⟨_, _, hc⟩ := Src.seek_spec s (.start p) hs
  cases hx : s.seek (.start p) with
  | mk r s2 =>
    rw [hx] at hc
    rcases hc with ⟨q', h3, h4, h5⟩ | ⟨h3, _, _⟩ | ⟨e, _, h, _⟩
    · simp only [seekTarget, if_pos hp] at h3
      injection h3 with h3
      simp only at h4
      exact ⟨s2, by rw [h4, h3]⟩
    · simp [seekTarget, if_pos hp] at h3
    · exact absurd hq.benign h

theorem exec_second {α : Type} (s s1 : Src) (hs : s.WF) (hq : s.NoFail) (p n : Nat) (hp : p ≤ s.maxPos) (buf : Bytes)
    (h1 : s.read 36870 = (.ok buf, s1)) (f : Bytes → Prog α) :
    ∃ s', execOn false (Prog.sk (.start p) >>= fun _ => Prog.rd n >>= f) s1 =
      execOn false (f (slice s.data p (s.secondRead n))) s' := by
  obtain ⟨hle, hwf, _⟩ := Src.read_spec s 36870 hs
  rw [h1] at hle hwf
  obtain ⟨s2, h2⟩ := seek_start_ok s1 hwf (hq.mono hle) p (by rw [hle.maxPos]; exact hp)
  have h3 := read_second s s1 s2 p n p hs hq hp buf h1 h2
  have hrun : execOn false (Prog.sk (.start p) >>= fun _ => Prog.rd n >>= f) s1 =
      match s1.seek (.start p) with
      | (.ok _, s1) => execOn false (Prog.rd n >>= f) s1
      | (.error e, s1) => (.error (.err e), s1) := by
    show (match exec (Prog.seek (.start p) fun _ => Prog.rd n >>= f) { src := s1, buffered := false, buf := [] } with
      | (r, s) => (r, s.src)) = _
    simp only [exec, Rd.seek, if_true]
    cases s1.seek (.start p) with
    | mk r s1 => cases r <;> rfl
  have hread : execOn false (Prog.rd n >>= f) s2 =
      match s2.read n with
      | (.ok bs, s2) => execOn false (f bs) s2
      | (.error e, s2) => (.error (.err e), s2) := by
    unfold execOn
    rw [exec_read_unbuffered]
    cases s2.read n with
    | mk r s2 => cases r <;> rfl
  rw [hrun, h2]
  simp only
  rw [hread]
  cases hy : s2.read n with
  | mk r s3 =>
    rw [hy] at h3
    simp only at h3
    subst h3
    exact ⟨s3, rfl⟩

theorem secondRead_le (s : Src) (n : Nat) : s.secondRead n ≤ n := by
  unfold Src.secondRead
  split <;> omega

/-- The verdict of a reader that runs to an end is the verdict. -/
theorem reader_result (cfg : Cfg) (ft : Features) (s s1 : Src) (buf : Bytes) (g : Feature) (hg : g ∈ Feature.structured)
    (he : g.enabled ft = true) (f : FileFormat) (h1 : s.read 36870 = (.ok buf, s1)) (hlen : buf.length < 2 ^ 64)
    (hr : Recognised buf g.base) (hf : (execOn (readerOf cfg g).1 (readerOf cfg g).2 s1).1 = .ok f) :
    (fromReader cfg ft s).1 = .ok f := by
  have hsig := signature_of_recognised (g := g) hlen hg hr
  have hne : buf.length ≠ 0 := by
    intro h0
    have : buf = [] := List.eq_nil_of_length_eq_zero h0
    subst this
    have hn : fromSignature [] = none := by decide +kernel
    rw [hn] at hsig; cases hsig
  rw [fromReader_eq2, h1]
  simp only [afterRead]
  rw [if_neg hne, hsig]
  have hfr : fmtReader cfg ft g.base = some (readerOf cfg g) := by rw [fmtReader_base cfg ft g hg, if_pos he]
  simp only [fromFmtReader, hfr]
  cases hz : execOn (readerOf cfg g).1 (readerOf cfg g).2 s1 with
  | mk r2 s2 =>
    rw [hz] at hf
    simp only at hf
    subst hf
    rfl

theorem second_read_length {s s1 : Src} {buf : Bytes} (hs : s.WF) (hl : IsSlice s.data) (h : s.read 36870 = (.ok buf, s1)) :
    buf.length < 2 ^ 64 ∧ buf.length ≤ s.data.length := by
  have hl' : s.data.length < 2 ^ 63 := hl
  obtain ⟨_, _, hcase⟩ := Src.read_spec s 36870 hs
  rw [h] at hcase
  rcases hcase with ⟨k, _, _, h2, _⟩ | ⟨e, h2, _⟩
  · simp only at h2; injection h2 with h2; subst h2; rw [length_slice]; omega
  · cases h2

/-! ## XML and SQLite -/

/-- C69 for XML, what holds on every stream whose calls do not fail: the verdict is the one of C22 on the content up to the
end of what the second read delivers. -/
theorem C69_xml_partial (cfg : Cfg) (ft : Features) (s : Src) (hs : s.WF) (hl : IsSlice s.data) (hq : s.NoFail)
    (hm : 5 ≤ s.maxPos) (he : ft.xml = true) (buf : Bytes) (hbuf : (s.read 36870).1 = .ok buf)
    (hr : Recognised buf ExtensibleMarkupLanguage) (f : FileFormat) :
    (fromReader cfg ft s).1 = .ok f ↔ XmlVerdict (s.data.take (5 + s.secondRead 8192)) f := by
  cases hx : s.read 36870 with
  | mk r s1 =>
    rw [hx] at hbuf
    simp only at hbuf
    subst hbuf
    obtain ⟨s', h⟩ := exec_second s s1 hs hq 5 8192 hm buf hx (fun buf => Prog.lift (xmlClassify buf xmlRules))
    obtain ⟨f', hf, hfr⟩ := xmlClassify_spec (s.data.take (5 + s.secondRead 8192)) xmlRules xmlRules_ne
    rw [xmlRules_eq] at hfr
    rw [slice_of_take _ _ _ _ (secondRead_le s 8192)] at hf
    have hv := xmlVerdict_of_row hfr
    have hres : (fromReader cfg ft s).1 = .ok f' := by
      refine reader_result cfg ft s s1 buf .xml (by decide) he f' hx (second_read_length hs hl hx).1 hr ?_
      show (execOn false (Prog.sk (.start 5) >>= fun _ => Prog.rd 8192 >>= fun buf =>
        Prog.lift (xmlClassify buf xmlRules)) s1).1 = _
      rw [h, hf]
      rfl
    rw [hres]
    constructor
    · intro h; injection h with h; rw [← h]; exact hv
    · intro h; rw [xmlVerdict_unique hv h]

/-- C69 for SQLite, likewise. -/
theorem C69_sqlite3_partial (cfg : Cfg) (ft : Features) (s : Src) (hs : s.WF) (hl : IsSlice s.data) (hq : s.NoFail)
    (hm : 100 ≤ s.maxPos) (he : ft.sqlite3 = true) (buf : Bytes) (hbuf : (s.read 36870).1 = .ok buf)
    (hr : Recognised buf Sqlite3) :
    (OccursWithin b!"com.bohemiancoding.sketch3" 100 (100 + s.secondRead 32768) s.data → (fromReader cfg ft s).1 = .ok Sketch) ∧
    (¬ OccursWithin b!"com.bohemiancoding.sketch3" 100 (100 + s.secondRead 32768) s.data →
      (fromReader cfg ft s).1 = .ok Sqlite3) := by
  cases hx : s.read 36870 with
  | mk r s1 =>
    rw [hx] at hbuf
    simp only at hbuf
    subst hbuf
    obtain ⟨s', h⟩ := exec_second s s1 hs hq 100 32768 hm buf hx (fun buf => Prog.lift (holdsBytes buf sketchMarker) >>=
      fun found => if found = true then pure Sketch else pure Sqlite3)
    obtain ⟨r, hr', hi⟩ := holdsBytes_spec (slice s.data 100 (s.secondRead 32768)) sketchMarker
    rw [occursWithin_iff (by decide)] at hi
    have hres : (fromReader cfg ft s).1 = .ok (if r = true then Sketch else Sqlite3) := by
      refine reader_result cfg ft s s1 buf .sqlite3 (by decide) he _ hx (second_read_length hs hl hx).1 hr ?_
      show (execOn false (Prog.sk (.start 100) >>= fun _ => Prog.rd 32768 >>= fun buf =>
        Prog.lift (holdsBytes buf sketchMarker) >>= fun found => if found = true then pure Sketch else pure Sqlite3) s1).1 = _
      rw [h, hr']
      cases r <;> rfl
    rw [hres]
    cases r with
    | true => exact ⟨fun _ => rfl, fun h => absurd (hi.mp rfl) h⟩
    | false => exact ⟨fun h => absurd (hi.mpr h) (by decide), fun _ => rfl⟩

theorem xmlVerdict_total (b : Bytes) : ∃ f, XmlVerdict b f := by
  obtain ⟨f, _, h⟩ := xmlClassify_spec b xmlRules xmlRules_ne
  rw [xmlRules_eq] at h
  exact ⟨f, xmlVerdict_of_row h⟩

theorem showsXml_window (b : Bytes) (row : FileFormat × List (List Bytes)) : ShowsXml (b.take 8197) row ↔ ShowsXml b row := by
  have h : (b.take 8197).take 8197 = b.take 8197 := by rw [List.take_take, Nat.min_self]
  unfold ShowsXml
  constructor
  · rintro ⟨c, hc, hm⟩; exact ⟨c, hc, fun m hmem => (occurs_congr h).mp (hm m hmem)⟩
  · rintro ⟨c, hc, hm⟩; exact ⟨c, hc, fun m hmem => (occurs_congr h).mpr (hm m hmem)⟩

theorem xmlVerdict_take (b : Bytes) (f : FileFormat) : XmlVerdict (b.take 8197) f ↔ XmlVerdict b f := by
  unfold XmlVerdict
  simp only [showsXml_window]

/-- C69, for XML and SQLite in particular: if the second read is served in full, or delivers all of the content that is
left, the verdict is the one on the content in memory, however all other reads are cut. -/
theorem C69_second_full_partial (cfg : Cfg) (ft : Features) (s : Src) (hs : s.WF) (hl : IsSlice s.data) (hq : s.NoFail)
    (buf : Bytes) (hbuf : (s.read 36870).1 = .ok buf) :
    (ft.xml = true → 5 ≤ s.maxPos → Recognised buf ExtensibleMarkupLanguage → Recognised s.data ExtensibleMarkupLanguage →
      (s.secondRead 8192 = 8192 ∨ s.data.length ≤ 5 + s.secondRead 8192) → (fromReader cfg ft s).1 = fromBytes cfg ft s.data) ∧
    (ft.sqlite3 = true → 100 ≤ s.maxPos → Recognised buf Sqlite3 → Recognised s.data Sqlite3 →
      (s.secondRead 32768 = 32768 ∨ s.data.length ≤ 100 + s.secondRead 32768) →
      (fromReader cfg ft s).1 = fromBytes cfg ft s.data) := by
  refine ⟨fun he hm hr hr' h => ?_, fun he hm hr hr' h => ?_⟩
  · obtain ⟨f, hf⟩ := xmlVerdict_total s.data
    rw [(C22_xml cfg ft s.data hl he hr' f).mpr hf]
    rw [C69_xml_partial cfg ft s hs hl hq hm he buf hbuf hr]
    rcases h with h | h
    · rw [h]; exact (xmlVerdict_take _ _).mpr hf
    · rw [List.take_of_length_le h]; exact hf
  · have h1 := C69_sqlite3_partial cfg ft s hs hl hq hm he buf hbuf hr
    have h2 := C20_sketch cfg ft s.data hl he hr'
    have key : OccursWithin b!"com.bohemiancoding.sketch3" 100 (100 + s.secondRead 32768) s.data ↔
        OccursWithin b!"com.bohemiancoding.sketch3" 100 32868 s.data := by
      rcases h with h | h
      · rw [h]
      · constructor
        · rintro ⟨pre, suf, e, h3, h4⟩
          exact ⟨pre, suf, e, h3, by have := secondRead_le s 32768; omega⟩
        · rintro ⟨pre, suf, e, h3, h4⟩
          refine ⟨pre, suf, e, h3, ?_⟩
          have : s.data.length = pre.length + b!"com.bohemiancoding.sketch3".length + suf.length := by rw [e]; simp only [List.length_append]
          omega
    by_cases ho : OccursWithin b!"com.bohemiancoding.sketch3" 100 32868 s.data
    · rw [h1.1 (key.mpr ho), h2.1 ho]
    · rw [h1.2 (fun h => ho (key.mp h)), h2.2 ho]

/-- Not vacuous: a document on a stream whose second read ends behind the marker. -/
example : (fromReader Cfg.release { xml := true }
    { cursor (b!"<?xml version=\"1.0\"?><svg><amf>") with revs := [.full, .short 19] }).1 = .ok ScalableVectorGraphics := by
  decide +kernel
example : (⟨b!"<?xml version=\"1.0\"?><svg><amf>", 0, 2 ^ 64 - 1, [.full, .short 19], [], []⟩ : Src).NoFail ∧
    Recognised b!"<?xml version=\"1.0\"?><svg><amf>" ExtensibleMarkupLanguage := by
  refine ⟨⟨by simp, by simp⟩, ?_⟩
  unfold Recognised
  decide +kernel

end FF.Props
