import Verif.Spec.XmlRoot
import Verif.Props.TextForm
/-!
# C56 and C58: XML documents, their line endings and their root element
-/

namespace FF.Props
open FF Spec FileFormat

/-! ## C56 for the XML reader -/

theorem plain_prefix {m b : Bytes} (h : ∀ x ∈ m, x ≠ 10 ∧ x ≠ 13) (hp : m <+: crlf b) : m <+: b := by
  induction m generalizing b with
  | nil => exact List.nil_prefix
  | cons y m ih =>
    have hy := h y List.mem_cons_self
    cases b with
    | nil => exact absurd (List.prefix_nil.mp hp) (by simp)
    | cons x b =>
      rw [crlf_cons] at hp
      by_cases hx : x = 10
      · rw [if_pos hx] at hp
        simp only [List.cons_append, List.cons_prefix_cons] at hp
        exact absurd hp.1 hy.2
      · rw [if_neg hx] at hp
        simp only [List.cons_append, List.nil_append, List.cons_prefix_cons] at hp
        rw [hp.1]
        exact List.cons_prefix_cons.mpr ⟨rfl, ih (fun z hz => h z (List.mem_cons_of_mem _ hz)) hp.2⟩

theorem crlf_split {m b p s : Bytes} (hm : m ≠ []) (h : ∀ x ∈ m, x ≠ 10 ∧ x ≠ 13) (hb : crlf b = p ++ m ++ s) :
    ∃ pre suf, b = pre ++ m ++ suf ∧ crlf pre = p := by
  induction b generalizing p with
  | nil =>
    have := congrArg List.length hb
    simp only [List.length_append] at this
    have h1 : (crlf []).length = 0 := rfl
    have h2 := List.length_pos_iff.mpr hm
    omega
  | cons x b ih =>
    cases p with
    | nil =>
      obtain ⟨t, ht⟩ := plain_prefix h (b := x :: b) ⟨s, by rw [hb, List.nil_append]⟩
      exact ⟨[], t, by rw [List.nil_append, ht], rfl⟩
    | cons c p =>
      rw [crlf_cons] at hb
      by_cases hx : x = 10
      · subst hx
        simp only [if_true, List.cons_append, List.nil_append, List.cons.injEq] at hb
        obtain ⟨rfl, hb⟩ := hb
        cases p with
        | nil =>
          obtain ⟨y, m', rfl⟩ := List.exists_cons_of_ne_nil hm
          simp only [List.nil_append, List.cons_append, List.cons.injEq] at hb
          exact absurd hb.1.symm (h y List.mem_cons_self).1
        | cons d p =>
          simp only [List.cons_append, List.cons.injEq] at hb
          obtain ⟨rfl, hb⟩ := hb
          obtain ⟨pre, suf, rfl, rfl⟩ := ih hb
          exact ⟨10 :: pre, suf, rfl, rfl⟩
      · rw [if_neg hx] at hb
        simp only [List.cons_append, List.nil_append, List.cons.injEq] at hb
        obtain ⟨rfl, hb⟩ := hb
        obtain ⟨pre, suf, rfl, rfl⟩ := ih hb
        exact ⟨x :: pre, suf, rfl, by rw [crlf_cons, if_neg hx]; rfl⟩

theorem markers_plain : xmlMarkers.all (fun row => row.2.all fun ms => ms.all fun m =>
    decide (m ≠ []) && m.all fun x => decide (x ≠ 10) && decide (x ≠ 13)) = true := by decide

theorem occurs_crlf {b : Bytes} (hb : (crlf b).length ≤ 8197) (hx : b!"<?xml" <+: b) {row} (hrow : row ∈ xmlMarkers) {ms}
    (hms : ms ∈ row.2) {m : Bytes} (hm : m ∈ ms) : OccursWithin m 5 8197 (crlf b) ↔ OccursWithin m 5 8197 b := by
  have hc := List.all_eq_true.mp (List.all_eq_true.mp (List.all_eq_true.mp markers_plain row hrow) ms hms) m hm
  simp only [Bool.and_eq_true, decide_eq_true_eq, List.all_eq_true] at hc
  have hl := crlf_length b
  constructor
  · rintro ⟨p, s, h, hlo, hhi⟩
    obtain ⟨pre, suf, hb', hp⟩ := crlf_split hc.1 hc.2 h
    have hlen := congrArg List.length hb'
    simp only [List.length_append] at hlen
    refine ⟨pre, suf, hb', ?_, by omega⟩
    rcases Nat.lt_or_ge pre.length 5 with h5 | h5
    · exfalso
      have hpre : pre <+: b!"<?xml" :=
        List.prefix_of_prefix_length_le (l₃ := b) ⟨m ++ suf, by rw [hb', List.append_assoc]⟩ hx (by show _ ≤ 5; omega)
      have : crlf pre = pre := crlf_id (fun h10 => absurd (hpre.subset h10) (by decide))
      rw [this] at hp
      subst hp
      omega
    · exact h5
  · rintro ⟨pre, suf, h, hlo, hhi⟩
    have hm10 : crlf m = m := crlf_id (fun h10 => (hc.2 10 h10).1 rfl)
    have e : crlf b = crlf pre ++ m ++ crlf suf := by rw [h, crlf_append, crlf_append, hm10]
    have hlen := congrArg List.length e
    simp only [List.length_append] at hlen
    have := crlf_length pre
    exact ⟨crlf pre, crlf suf, e, by omega, by omega⟩

theorem xmlVerdict_congr {b b' : Bytes} (h : ∀ r ∈ xmlMarkers, (ShowsXml b' r ↔ ShowsXml b r)) {f : FileFormat}
    (hv : XmlVerdict b f) : XmlVerdict b' f := by
  unfold XmlVerdict at hv ⊢
  rcases hv with ⟨l1, row, l2, hl, hf, hs, hn⟩ | ⟨hf, hn⟩
  · exact Or.inl ⟨l1, row, l2, hl, hf, (h row (by rw [hl]; simp)).mpr hs,
      fun r hr hc => hn r hr ((h r (by rw [hl]; simp [hr])).mp hc)⟩
  · exact Or.inr ⟨hf, fun r hr hc => hn r hr ((h r hr).mp hc)⟩

/-- C56 for the XML reader: with `reader-xml`, an XML document (with an XML declaration) whose CRLF form has at most 8197
bytes is reported as the same format with both line endings. -/
theorem C56_xml (cfg cfg' : Cfg) (ft ft' : Features) (b : Bytes) (hb : (crlf b).length ≤ 8197) (hx : b!"<?xml" <+: b)
    (he : ft.xml = true) (he' : ft'.xml = true) (hr : Recognised b ExtensibleMarkupLanguage)
    (hr' : Recognised (crlf b) ExtensibleMarkupLanguage) : fromBytes cfg ft b = fromBytes cfg' ft' (crlf b) := by
  have hl := crlf_length b
  have hs : IsSlice b := by show b.length < 2 ^ 63; omega
  have hs' : IsSlice (crlf b) := by show (crlf b).length < 2 ^ 63; omega
  obtain ⟨f, h1, _⟩ := xml_run b (2 ^ 64 - 1) (by decide) 0
  have h3 := recognised_verdict cfg ft b hs .xml (by decide) he hr f h1
  rw [h3]
  refine Eq.symm ((C22_xml cfg' ft' _ hs' he' hr' f).mpr (xmlVerdict_congr (fun r hrow => ?_)
    ((C22_xml cfg ft b hs he hr f).mp h3)))
  exact ⟨fun ⟨c, hc, hm⟩ => ⟨c, hc, fun m hmem => (occurs_crlf hb hx hrow hc hmem).mp (hm m hmem)⟩,
    fun ⟨c, hc, hm⟩ => ⟨c, hc, fun m hmem => (occurs_crlf hb hx hrow hc hmem).mpr (hm m hmem)⟩⟩

-- Non-vacuity.
example : (crlf b!"<?xml version=\"1.0\"?>\n<svg/>").length ≤ 8197 ∧ b!"<?xml" <+: b!"<?xml version=\"1.0\"?>\n<svg/>" ∧
    Recognised b!"<?xml version=\"1.0\"?>\n<svg/>" ExtensibleMarkupLanguage ∧
    Recognised (crlf b!"<?xml version=\"1.0\"?>\n<svg/>") ExtensibleMarkupLanguage ∧
    fromBytes Cfg.release { xml := true } (crlf b!"<?xml version=\"1.0\"?>\n<svg/>") = .ok ScalableVectorGraphics := by
  refine ⟨by decide, by decide, by unfold Recognised; decide +kernel, by unfold Recognised; decide +kernel, by decide +kernel⟩

/-! ## C58 -/

/-- C58. The English claim: with `reader-xml`, an XML document is reported as the format its root element belongs to, and
as XML if the root element belongs to none, as long as the name of the root element ends within the first 8197 bytes. -/
def C58_statement : Prop :=
  ∀ (ft : Features) (start name rest : Bytes), ft.xml = true → IsSlice (start ++ rest) →
    Recognised (start ++ rest) ExtensibleMarkupLanguage → XmlProlog start name → start.length ≤ 8197 → EndsName rest →
    fromBytes Cfg.release ft (start ++ rest) = .ok ((rootFormats.lookup name).getD ExtensibleMarkupLanguage)

theorem mapper_prolog : XmlProlog b!"<?xml version=\"1.0\"?>\n<mapper" b!"mapper" :=
  ⟨b!"version=\"1.0\"", [.space [10]], by decide, by decide, by
    intro m hm
    rw [List.mem_singleton] at hm
    subst hm
    intro c hc
    rw [List.mem_singleton] at hc
    exact Or.inr (Or.inr (Or.inl hc))⟩

/-- C58 is false in general: the reader looks for the beginnings of tags anywhere in the document, so that, for example, a
MyBatis file with the root element `mapper` is reported as a Tiled map. -/
theorem C58_fails : ¬ C58_statement := by
  intro h
  have h1 := h { xml := true } b!"<?xml version=\"1.0\"?>\n<mapper" b!"mapper" b!" namespace=\"n\"/>" rfl (by decide)
    (by unfold Recognised; decide +kernel) mapper_prolog (by decide) ⟨0x20, _, rfl, Or.inl (Or.inl rfl)⟩
  have h2 : fromBytes Cfg.release { xml := true } (b!"<?xml version=\"1.0\"?>\n<mapper" ++ b!" namespace=\"n\"/>") =
    .ok TiledMapXml := by decide +kernel
  rw [h2] at h1
  exact absurd h1 (by decide)

/-- C58 fails for known root elements, too: an image with a formula is reported as the formula. -/
theorem C58_embedded : ∃ start rest, XmlProlog start b!"svg" ∧ EndsName rest ∧
    Recognised (start ++ rest) ExtensibleMarkupLanguage ∧
    fromBytes Cfg.release { xml := true } (start ++ rest) = .ok MathematicalMarkupLanguage := by
  refine ⟨b!"<?xml version=\"1.0\"?><svg", b!"><foreignObject><math/></foreignObject></svg>",
    ⟨b!"version=\"1.0\"", [], by decide, by decide, by simp⟩, ⟨0x3E, _, rfl, Or.inr (Or.inr rfl)⟩,
    by unfold Recognised; decide +kernel, by decide +kernel⟩

/-- Every root element shows a marker of its format. -/
theorem roots_marked : rootFormats.all (fun nf => xmlMarkers.any fun row => decide (row.1 = nf.2) &&
    row.2.any fun ms => ms.all fun m => decide (m.isPrefixOf (b!"<" ++ nf.1) = true)) = true := by decide

theorem root_shown {start name rest : Bytes} {f : FileFormat} (hp : XmlProlog start name) (hl : start.length ≤ 8197)
    (hf : (name, f) ∈ rootFormats) : ∃ row ∈ xmlMarkers, row.1 = f ∧ ShowsXml (start ++ rest) row := by
  obtain ⟨row, hrow, hc⟩ := List.any_eq_true.mp (List.all_eq_true.mp roots_marked _ hf)
  simp only [Bool.and_eq_true, decide_eq_true_eq, List.any_eq_true, List.all_eq_true] at hc
  obtain ⟨h1, ms, hms, hm⟩ := hc
  refine ⟨row, hrow, h1, ms, hms, fun m hmem => ?_⟩
  obtain ⟨t, ht⟩ := List.isPrefixOf_iff_prefix.mp (hm m hmem)
  obtain ⟨decl, misc, rfl, _⟩ := hp
  have ht' := congrArg List.length ht
  refine ⟨b!"<?xml " ++ decl ++ b!"?>" ++ misc.flatMap XmlMisc.encode, t ++ rest, ?_, ?_, ?_⟩
  · rw [← List.append_assoc, List.append_assoc _ m t, ht]
    simp only [List.append_assoc]
  · simp only [List.length_append]
    show 5 ≤ 6 + _ + _ + _
    omega
  · simp only [List.length_append] at hl ht' ⊢
    omega

theorem markers_nodup : (xmlMarkers.map (·.1)).Nodup := by decide

/-- C58, what holds of documents with a known root element: they are reported as the format of the root element, or as a
format that comes before it in the order of precedence and whose markers the document shows, too. -/
theorem C58_known_partial (cfg : Cfg) (ft : Features) (start name rest : Bytes) (f : FileFormat) (he : ft.xml = true)
    (hs : IsSlice (start ++ rest)) (hr : Recognised (start ++ rest) ExtensibleMarkupLanguage) (hp : XmlProlog start name)
    (hl : start.length ≤ 8197) (hf : (name, f) ∈ rootFormats) :
    fromBytes cfg ft (start ++ rest) = .ok f ∨
      ∃ before row after, xmlMarkers = before ++ row :: after ∧ ShowsXml (start ++ rest) row ∧ f ∈ after.map (·.1) ∧
        fromBytes cfg ft (start ++ rest) = .ok row.1 := by
  obtain ⟨row, hrow, rfl, hshow⟩ := root_shown (rest := rest) hp hl hf
  obtain ⟨g, h1, _⟩ := xml_run (start ++ rest) (2 ^ 64 - 1) (by decide) 0
  have h3 := recognised_verdict cfg ft _ hs .xml (by decide) he hr g h1
  have h4 := (C22_xml cfg ft _ hs he hr g).mp h3
  rcases h4 with ⟨l1, row', l2, hl', rfl, hs', hn⟩ | ⟨_, hn⟩
  · rw [hl'] at hrow
    rcases List.mem_append.mp hrow with hr1 | hr1
    · exact absurd hshow (hn row hr1)
    · rcases List.mem_cons.mp hr1 with rfl | hr2
      · exact Or.inl h3
      · exact Or.inr ⟨l1, row', l2, hl', hs', List.mem_map_of_mem hr2, h3⟩
  · exact absurd hshow (hn row hrow)

/-- C58. So documents that show no marker of another format are reported as the format of their root element. -/
theorem C58_alone_partial (cfg : Cfg) (ft : Features) (start name rest : Bytes) (f : FileFormat) (he : ft.xml = true)
    (hs : IsSlice (start ++ rest)) (hr : Recognised (start ++ rest) ExtensibleMarkupLanguage) (hp : XmlProlog start name)
    (hl : start.length ≤ 8197) (hf : (name, f) ∈ rootFormats)
    (ha : ∀ row ∈ xmlMarkers, row.1 ≠ f → ¬ ShowsXml (start ++ rest) row) : fromBytes cfg ft (start ++ rest) = .ok f := by
  rcases C58_known_partial cfg ft start name rest f he hs hr hp hl hf with h | ⟨l1, row, l2, h1, h2, h3, _⟩
  · exact h
  · refine absurd h2 (ha row (by rw [h1]; simp) fun hrow => ?_)
    have hnd := markers_nodup
    rw [h1, List.map_append, List.map_cons, hrow] at hnd
    exact (List.nodup_cons.mp (List.nodup_append.mp hnd).2.1).1 h3

/-- C58, what holds of documents with another root element: reported as XML exactly if they show no marker. -/
theorem C58_unknown_partial (cfg : Cfg) (ft : Features) (b : Bytes) (he : ft.xml = true) (hs : IsSlice b)
    (hr : Recognised b ExtensibleMarkupLanguage) :
    fromBytes cfg ft b = .ok ExtensibleMarkupLanguage ↔ ∀ row ∈ xmlMarkers, ¬ ShowsXml b row := by
  rw [C22_xml cfg ft b hs he hr]
  constructor
  · rintro (⟨l1, row, l2, h1, h2, h3, h4⟩ | ⟨_, h⟩)
    · exact absurd h2 (by
        have hx : ∀ r ∈ xmlMarkers, r.1 ≠ ExtensibleMarkupLanguage := by decide
        exact hx row (by rw [h1]; simp))
    · exact h
  · exact fun h => Or.inr ⟨rfl, h⟩

-- Non-vacuity: a document with a comment and a document type before its root element.
example : XmlProlog b!"<?xml version=\"1.0\"?>\n<!-- Feed --><!DOCTYPE rss><rss" b!"rss" ∧ EndsName b!" version=\"2.0\"/>" ∧
    (b!"rss", ReallySimpleSyndication) ∈ rootFormats ∧
    Recognised (b!"<?xml version=\"1.0\"?>\n<!-- Feed --><!DOCTYPE rss><rss" ++ b!" version=\"2.0\"/>") ExtensibleMarkupLanguage ∧
    fromBytes Cfg.release { xml := true } (b!"<?xml version=\"1.0\"?>\n<!-- Feed --><!DOCTYPE rss><rss" ++ b!" version=\"2.0\"/>") =
      .ok ReallySimpleSyndication := by
  refine ⟨⟨b!"version=\"1.0\"", [.space [10], .comment b!" Feed ", .doctype b!"rss"], by decide, by decide, ?_⟩,
    ⟨0x20, _, rfl, Or.inl (Or.inl rfl)⟩, by decide, by unfold Recognised; decide +kernel, by decide +kernel⟩
  intro m hm
  simp only [List.mem_cons, List.not_mem_nil, or_false] at hm
  rcases hm with rfl | rfl | rfl
  · intro c hc
    rw [List.mem_singleton] at hc
    exact Or.inr (Or.inr (Or.inl hc))
  · show ¬ _
    decide
  · show _ ∧ _
    decide

end FF.Props
