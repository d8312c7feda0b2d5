import Verif.Proofs.Pdf
import Verif.Proofs.Dispatch
import Verif.Props.Text
/-!
# Readers that search markers in a window (C20, C21, C22, C39)
-/

namespace FF.Props
open FF Spec FileFormat

/-! ## C20 -/

/-- C20. With `reader-sqlite3`, a SQLite database is reported as `Sketch` if the marker
`com.bohemiancoding.sketch3` occurs anywhere within the bytes 100..32868, and as `Sqlite3`
otherwise. -/
theorem C20_sketch (cfg : Cfg) (ft : Features) (b : Bytes) (hb : IsSlice b) (he : ft.sqlite3 = true)
    (hr : Recognised b Sqlite3) :
    (OccursWithin b!"com.bohemiancoding.sketch3" 100 32868 b → fromBytes cfg ft b = .ok Sketch) ∧
    (¬ OccursWithin b!"com.bohemiancoding.sketch3" 100 32868 b → fromBytes cfg ft b = .ok Sqlite3) := by
  have hv := recognised_verdict cfg ft b hb .sqlite3 (by decide) he hr
  rcases sqlite3_run b (2 ^ 64 - 1) (by decide) 0 with ⟨h1, h2⟩ | ⟨h1, h2⟩
  · exact ⟨fun _ => hv _ h2, fun h => absurd h1 h⟩
  · exact ⟨fun h => absurd h h1, fun _ => hv _ h2⟩

-- Non-vacuity: the marker at the earliest place.
example : Recognised (b!"SQLite format 3\x00" ++ List.replicate 84 0 ++ b!"com.bohemiancoding.sketch3") Sqlite3 ∧
    OccursWithin b!"com.bohemiancoding.sketch3" 100 32868
      (b!"SQLite format 3\x00" ++ List.replicate 84 0 ++ b!"com.bohemiancoding.sketch3") :=
  ⟨by unfold Recognised; decide +kernel,
    ⟨b!"SQLite format 3\x00" ++ List.replicate 84 0, [], by simp, by decide, by decide⟩⟩
-- one byte too early, and marker cut by the end
example : fromBytes Cfg.release { sqlite3 := true }
    (b!"SQLite format 3\x00" ++ List.replicate 83 0 ++ b!"com.bohemiancoding.sketch3") = .ok Sqlite3 := by
  decide +kernel

/-! ## C21 -/

/-- C21 for `from_bytes`: with `reader-pdf`, a PDF document is Illustrator artwork exactly if
`AIPrivateData` occurs within the bytes 5..33554437, at any place, across any chunk boundary. -/
theorem C21_artwork (cfg : Cfg) (ft : Features) (b : Bytes) (hb : IsSlice b) (he : ft.pdf = true)
    (hr : Recognised b PortableDocumentFormat) :
    (OccursWithin b!"AIPrivateData" 5 33554437 b → fromBytes cfg ft b = .ok AdobeIllustratorArtwork) ∧
    (¬ OccursWithin b!"AIPrivateData" 5 33554437 b → fromBytes cfg ft b = .ok PortableDocumentFormat) := by
  have hb' : b.length < 2 ^ 63 := hb
  have hv := recognised_verdict cfg ft b hb .pdf (by decide) he hr
  have hcalm : (cursor b).Calm := ⟨(fun _ h => nomatch h), (fun _ h => nomatch h)⟩
  have hwf := cursor_wf b (by omega)
  obtain ⟨f, T, h1, h2, h3, h4, _⟩ := pdfReader_exec (cursor b) hwf hcalm.noFail (show 5 ≤ 2 ^ 64 - 1 by decide)
  obtain ⟨k, hk⟩ := reader_all cfg .pdf
  have hx := execOn_calm pdfReader (cursor b) hwf hcalm (hk.untilBuffered (fun _ => id)) (reader_abs cfg .pdf)
  rw [h1] at hx
  have hf := hv f hx.symm
  have hT := h4 hcalm
  have hlim : pdfReadLimit = 33554432 := rfl
  have hd : (cursor b).data = b := rfl
  rw [hd] at h2
  rcases pdfDone_cases h2 h3 with ⟨rfl, ho⟩ | ⟨rfl, ho⟩
  · exact ⟨fun _ => hf, fun h => absurd (occursWithin_mono (by omega) ho) h⟩
  · exact ⟨fun h => absurd h ho, fun _ => hf⟩

theorem pdf_magic_length {b : Bytes} (h : HasMagic PortableDocumentFormat b) : 5 ≤ b.length := by
  obtain ⟨e, he, hf, alt, ha, hc⟩ := h
  have key : ∀ e ∈ signatureTable, e.format = PortableDocumentFormat → ∀ alt ∈ e.alts,
      ∃ p ∈ alt, 5 ≤ p.value.length := by decide +kernel
  obtain ⟨p, hp, hl⟩ := key e he hf alt ha
  obtain ⟨pre, suf, rfl, _⟩ := hc p hp
  simp only [List.length_append]
  omega

/-- C21 on streams, for every way in which the reads are cut into non-empty pieces: if the first
read delivers a PDF signature, then
* the verdict is artwork or PDF;
* it is artwork if the marker occurs within the bytes 5..33554437 of the content, wherever the
  pieces end;
* it is artwork only if the marker occurs within the bytes 5..33587204 (the loop stops after the
  first piece that reaches the limit, and a piece has at most 32768 bytes);
* if all reads are full, or the content ends before byte 33554437, it is artwork exactly if the
  marker occurs within 5..33554437. -/
theorem C21_artwork_stream (cfg : Cfg) (ft : Features) (s : Src) (hs : s.WF) (hl : IsSlice s.data)
    (hq : s.NoFail) (he : ft.pdf = true) (buf : Bytes) (hbuf : (s.read 36870).1 = .ok buf)
    (hr : Recognised buf PortableDocumentFormat) :
    ((fromReader cfg ft s).1 = .ok AdobeIllustratorArtwork ∨
      (fromReader cfg ft s).1 = .ok PortableDocumentFormat) ∧
    (OccursWithin b!"AIPrivateData" 5 33554437 s.data →
      (fromReader cfg ft s).1 = .ok AdobeIllustratorArtwork) ∧
    ((fromReader cfg ft s).1 = .ok AdobeIllustratorArtwork →
      OccursWithin b!"AIPrivateData" 5 33587204 s.data) ∧
    (s.Calm ∨ s.data.length ≤ 33554437 →
      ((fromReader cfg ft s).1 = .ok AdobeIllustratorArtwork ↔
        OccursWithin b!"AIPrivateData" 5 33554437 s.data)) := by
  have hl' : s.data.length < 2 ^ 63 := hl
  obtain ⟨hle, hwf, hcase⟩ := Src.read_spec s 36870 hs
  have hlen : buf.length ≤ s.data.length := by
    rcases hcase with ⟨k, _, _, h2, _⟩ | ⟨e, h2, _⟩
    · rw [h2] at hbuf; cases hbuf; rw [length_slice]; omega
    · rw [h2] at hbuf; cases hbuf
  have hsig : fromSignature buf = some PortableDocumentFormat :=
    signature_of_recognised (g := .pdf) (by omega) (by decide) hr
  have h5 := pdf_magic_length (fromSignature_some hsig)
  cases hx : s.read 36870 with
  | mk r s' =>
    rw [hx] at hbuf hle hwf
    simp only at hbuf hle hwf
    subst hbuf
    have hd : s'.data = s.data := hle.data
    have hm : s'.maxPos = s.maxPos := hle.maxPos
    have hwl := hs.len
    obtain ⟨f, T, h1, h2, h3, h4, _⟩ := pdfReader_exec s' hwf (hq.mono hle) (by omega)
    rw [hd] at h2
    have hres : (fromReader cfg ft s).1 = .ok f := by
      rw [fromReader_eq]
      have hx' : s.read bufferSize = (.ok buf, s') := hx
      rw [hx']
      simp only [afterRead]
      rw [if_neg (by omega), hsig]
      simp only [fromFmtReader, fmtReader, he, if_true]
      cases hz : execOn false pdfReader s' with
      | mk r2 s2 =>
        rw [hz] at h1
        simp only at h1
        subst h1
        rfl
    have hlim : pdfReadLimit = 33554432 := rfl
    rw [hres]
    rcases pdfDone_cases h2 h3 with ⟨rfl, ho⟩ | ⟨rfl, ho⟩
    · refine ⟨Or.inl rfl, fun _ => rfl, fun _ => occursWithin_mono (by omega) ho, fun hc => ⟨fun _ => ?_, fun _ => rfl⟩⟩
      rcases hc with hc | hc
      · have := h4 (hc.mono hle)
        exact occursWithin_mono (by omega) ho
      · obtain ⟨pre, suf, e, h4, h5⟩ := ho
        have := congrArg List.length e
        simp only [List.length_append] at this
        have hai : List.length aiMarker = (b!"AIPrivateData").length := rfl
        exact ⟨pre, suf, e, h4, by omega⟩
    · refine ⟨Or.inr rfl, fun h => absurd h ho, (by rintro ⟨⟩), fun _ => ⟨(by rintro ⟨⟩), fun h => absurd h ho⟩⟩

-- Non-vacuity: the marker is cut by the pieces.
example : (fromReader Cfg.release { pdf := true } { cursor (b!"%PDF-1.4 ..AIPrivateData..") with
    revs := [.short 7, .short 0, .short 8, .short 0, .short 3] }).1 = .ok AdobeIllustratorArtwork := by
  decide +kernel
example : (fromReader Cfg.release { pdf := true } { cursor (b!"%PDF-1.4 ..AIPrivateDat...") with
    revs := [.short 7, .short 0, .short 8, .short 0, .short 3] }).1 = .ok PortableDocumentFormat := by
  decide +kernel
example : Recognised (b!"%PDF-1.4 ..AIPrivateData..") PortableDocumentFormat ∧
    OccursWithin b!"AIPrivateData" 5 33554437 (b!"%PDF-1.4 ..AIPrivateData..") :=
  ⟨by unfold Recognised; decide +kernel, ⟨b!"%PDF-1.4 ..", b!"..", rfl, by decide, by decide⟩⟩

/-! ## C22 -/

theorem xmlVerdict_of_row {b : Bytes} {f : FileFormat} (h : FirstRow b ExtensibleMarkupLanguage xmlMarkers f) : XmlVerdict b f := by
  have gen : ∀ l, FirstRow b ExtensibleMarkupLanguage l f → l = xmlMarkers → XmlVerdict b f := by
    intro l hf hl
    cases hf with
    | hit l1 row l2 hn hr => exact Or.inl ⟨l1, row, l2, hl.symm, rfl, hr, hn⟩
    | none _ hn => exact Or.inr ⟨rfl, by rw [← hl]; exact hn⟩
  exact gen _ h rfl

theorem xmlVerdict_unique {b : Bytes} {f f' : FileFormat} (h3 : XmlVerdict b f') (h4 : XmlVerdict b f) : f = f' := by
  rcases h3 with ⟨b1, r1, a1, e1, rfl, s1, n1⟩ | ⟨rfl, n1⟩
  · rcases h4 with ⟨b2, r2, a2, e2, rfl, s2, n2⟩ | ⟨rfl, n2⟩
    · have hbl : b1.length = b2.length := by
        rcases Nat.lt_trichotomy b1.length b2.length with hlt | h | hlt
        · exfalso
          refine n2 r1 ?_ s1
          have : r1 = b2[b1.length]'hlt := by
            have hh : xmlMarkers[b1.length]? = some r1 := by rw [e1]; simp
            rw [e2, List.getElem?_append_left hlt] at hh
            rw [List.getElem?_eq_getElem hlt] at hh
            exact (Option.some.inj hh).symm
          rw [this]; exact List.getElem_mem _
        · exact h
        · exfalso
          refine n1 r2 ?_ s2
          have : r2 = b1[b2.length]'hlt := by
            have hh : xmlMarkers[b2.length]? = some r2 := by rw [e2]; simp
            rw [e1, List.getElem?_append_left hlt] at hh
            rw [List.getElem?_eq_getElem hlt] at hh
            exact (Option.some.inj hh).symm
          rw [this]; exact List.getElem_mem _
      rw [e1] at e2
      have := List.append_inj e2 hbl
      have h5 := this.2
      injection h5 with h6 _
      rw [h6]
    · exact absurd s1 (n2 r1 (by rw [e1]; simp))
  · rcases h4 with ⟨b2, r2, a2, e2, rfl, s2, n2⟩ | ⟨rfl, n2⟩
    · exact absurd s2 (n1 r2 (by rw [e2]; simp))
    · rfl

/-- C22. With `reader-xml`, an XML document is reported as the format of the first row of the marker
table that it shows within the bytes 5..8197. -/
theorem C22_xml (cfg : Cfg) (ft : Features) (b : Bytes) (hb : IsSlice b) (he : ft.xml = true)
    (hr : Recognised b ExtensibleMarkupLanguage) (f : FileFormat) :
    fromBytes cfg ft b = .ok f ↔ XmlVerdict b f := by
  have hv := recognised_verdict cfg ft b hb .xml (by decide) he hr
  obtain ⟨f', h1, h2⟩ := xml_run b (2 ^ 64 - 1) (by decide) 0
  rw [hv f' h1]
  have h3 : XmlVerdict b f' := xmlVerdict_of_row h2
  constructor
  · intro h; cases h; exact h3
  · intro h4
    rw [xmlVerdict_unique h3 h4]

-- Non-vacuity: two markers; the earlier row wins, not the earlier place in the input.
example : Recognised (b!"<?xml version=\"1.0\"?><svg><amf>") ExtensibleMarkupLanguage ∧
    fromBytes Cfg.release { xml := true } (b!"<?xml version=\"1.0\"?><svg><amf>") =
      .ok AdditiveManufacturingFormat := by
  unfold Recognised; decide +kernel
-- A row with two markers needs both.
example : fromBytes Cfg.release { xml := true } (b!"<?xml ?><tt>") = .ok ExtensibleMarkupLanguage ∧
    fromBytes Cfg.release { xml := true } (b!"<?xml ?><tt xmlns=\"http://www.w3.org/ns/ttml\">") =
      .ok TimedTextMarkupLanguage := by decide +kernel

/-! ## C39 -/

theorem take_take_eq {b b' : Bytes} {n m : Nat} (h : b.take m = b'.take m) (hn : n ≤ m) :
    b.take n = b'.take n := by
  have := congrArg (List.take n) h
  rwa [List.take_take, List.take_take, Nat.min_eq_left hn] at this

theorem occurs_congr {pat : Bytes} {lo hi : Nat} {b b' : Bytes} (h : b.take hi = b'.take hi) :
    OccursWithin pat lo hi b ↔ OccursWithin pat lo hi b' :=
  ⟨occursWithin_take h, occursWithin_take h.symm⟩

/-- C39, XML: the first 36870 bytes decide, whatever features are enabled; beyond the signature only
the first 8197 bytes are looked at. -/
theorem C39_xml (cfg : Cfg) (ft : Features) (b b' : Bytes) (hb : IsSlice b) (hb' : IsSlice b')
    (hr : Recognised b ExtensibleMarkupLanguage) (hr' : Recognised b' ExtensibleMarkupLanguage)
    (h : b.take 8197 = b'.take 8197) : fromBytes cfg ft b = fromBytes cfg ft b' := by
  cases he : ft.xml with
  | false =>
    rw [recognised_disabled cfg ft b hb .xml (by decide) he hr,
      recognised_disabled cfg ft b' hb' .xml (by decide) he hr']
  | true =>
    obtain ⟨f, h1, h2⟩ := xml_run b (2 ^ 64 - 1) (by decide) 0
    have h3 := recognised_verdict cfg ft b hb .xml (by decide) he hr f h1
    rw [h3]
    refine Eq.symm ((C22_xml cfg ft b' hb' he hr' f).mpr ?_)
    have h4 := (C22_xml cfg ft b hb he hr f).mp h3
    have hsh : ∀ r, ShowsXml b r ↔ ShowsXml b' r := fun r =>
      ⟨fun ⟨c, hc, hm⟩ => ⟨c, hc, fun m hmem => (occurs_congr h).mp (hm m hmem)⟩,
        fun ⟨c, hc, hm⟩ => ⟨c, hc, fun m hmem => (occurs_congr h).mpr (hm m hmem)⟩⟩
    unfold XmlVerdict at h4 ⊢
    simpa only [hsh] using h4

/-- C39, SQLite: beyond the signature only the first 32868 bytes are looked at. -/
theorem C39_sqlite3 (cfg : Cfg) (ft : Features) (b b' : Bytes) (hb : IsSlice b) (hb' : IsSlice b')
    (hr : Recognised b Sqlite3) (hr' : Recognised b' Sqlite3)
    (h : b.take 32868 = b'.take 32868) : fromBytes cfg ft b = fromBytes cfg ft b' := by
  cases he : ft.sqlite3 with
  | false =>
    rw [recognised_disabled cfg ft b hb .sqlite3 (by decide) he hr,
      recognised_disabled cfg ft b' hb' .sqlite3 (by decide) he hr']
  | true =>
    by_cases ho : OccursWithin b!"com.bohemiancoding.sketch3" 100 32868 b
    · rw [(C20_sketch cfg ft b hb he hr).1 ho, (C20_sketch cfg ft b' hb' he hr').1 ((occurs_congr h).mp ho)]
    · rw [(C20_sketch cfg ft b hb he hr).2 ho,
        (C20_sketch cfg ft b' hb' he hr').2 (fun h' => ho ((occurs_congr h).mpr h'))]

/-- C39, PDF: beyond the signature only the first 33554437 bytes are looked at. -/
theorem C39_pdf (cfg : Cfg) (ft : Features) (b b' : Bytes) (hb : IsSlice b) (hb' : IsSlice b')
    (hr : Recognised b PortableDocumentFormat) (hr' : Recognised b' PortableDocumentFormat)
    (h : b.take 33554437 = b'.take 33554437) : fromBytes cfg ft b = fromBytes cfg ft b' := by
  cases he : ft.pdf with
  | false =>
    rw [recognised_disabled cfg ft b hb .pdf (by decide) he hr,
      recognised_disabled cfg ft b' hb' .pdf (by decide) he hr']
  | true =>
    by_cases ho : OccursWithin b!"AIPrivateData" 5 33554437 b
    · rw [(C21_artwork cfg ft b hb he hr).1 ho, (C21_artwork cfg ft b' hb' he hr').1 ((occurs_congr h).mp ho)]
    · rw [(C21_artwork cfg ft b hb he hr).2 ho,
        (C21_artwork cfg ft b' hb' he hr').2 (fun h' => ho ((occurs_congr h).mpr h'))]

/-- C39, no signature: only the first 65536 bytes are looked at. -/
theorem C39_unknown (cfg : Cfg) (ft : Features) (b b' : Bytes) (hb : IsSlice b) (hb' : IsSlice b')
    (hr : Recognised b ArbitraryBinaryData) (h : b.take 65536 = b'.take 65536) :
    fromBytes cfg ft b = fromBytes cfg ft b' := by
  have h1 : b.length < 2 ^ 63 := hb
  have h2 : b'.length < 2 ^ 63 := hb'
  have hne : b ≠ [] := by
    rintro rfl
    unfold Recognised at hr
    revert hr; decide +kernel
  have hne' : b' ≠ [] := by
    rintro rfl
    cases b with
    | nil => exact hne rfl
    | cons => simp at h
  have hr' : Recognised b' ArbitraryBinaryData := by
    unfold Recognised at hr ⊢
    rw [fromBytes_none _ _ (by omega)] at hr ⊢
    rw [if_neg (by simpa using hne)] at hr
    rw [if_neg (by simpa using hne'), ← fromSignature_take b' 65536 (by decide), ← h,
      fromSignature_take b 65536 (by decide)]
    exact hr
  rw [fromBytes_text cfg ft b hb hne hr, fromBytes_text cfg ft b' hb' hne' hr']
  cases ht : ft.txt with
  | false => simp only [idealGeneric, ht, Bool.false_eq_true, if_false]
  | true =>
    rcases idealGeneric_text ft b (2 ^ 64 - 1) ht with ⟨g1, g2⟩ | ⟨g1, g2⟩ <;>
    rcases idealGeneric_text ft b' (2 ^ 64 - 1) ht with ⟨g3, g4⟩ | ⟨g3, g4⟩ <;>
    rw [← h] at g3
    · rw [g2, g4]
    · exact absurd g1 g3
    · exact absurd g3 g1
    · rw [g2, g4]

/-- C39: the signature itself is decided by the first 36870 bytes, so two inputs of these kinds that
agree on the larger of the two windows get the same verdict. -/
theorem C39_windows (cfg : Cfg) (ft : Features) (b b' : Bytes) (hb : IsSlice b) (hb' : IsSlice b') :
    (Recognised b ExtensibleMarkupLanguage → b.take 36870 = b'.take 36870 →
      fromBytes cfg ft b = fromBytes cfg ft b') ∧
    (Recognised b Sqlite3 → b.take 36870 = b'.take 36870 → fromBytes cfg ft b = fromBytes cfg ft b') ∧
    (Recognised b PortableDocumentFormat → b.take 33554437 = b'.take 33554437 →
      fromBytes cfg ft b = fromBytes cfg ft b') := by
  refine ⟨fun hr h => ?_, fun hr h => ?_, fun hr h => ?_⟩
  · exact C39_xml cfg ft b b' hb hb' hr (recognised_take hb hb' h .xml (by decide) hr)
      (take_take_eq h (by decide))
  · exact C39_sqlite3 cfg ft b b' hb hb' hr (recognised_take hb hb' h .sqlite3 (by decide) hr)
      (take_take_eq h (by decide))
  · exact C39_pdf cfg ft b b' hb hb' hr
      (recognised_take hb hb' (take_take_eq h (by decide)) .pdf (by decide) hr) h

-- Non-vacuity: what follows the window does not matter.
example (t : Bytes) (hb : IsSlice (b!"SQLite format 3\x00" ++ List.replicate 32852 0 ++ t))
    (hr : Recognised (b!"SQLite format 3\x00" ++ List.replicate 32852 0 ++ t) Sqlite3)
    (hr0 : Recognised (b!"SQLite format 3\x00" ++ List.replicate 32852 0) Sqlite3) :
    fromBytes Cfg.release Features.all (b!"SQLite format 3\x00" ++ List.replicate 32852 0) =
    fromBytes Cfg.release Features.all (b!"SQLite format 3\x00" ++ List.replicate 32852 0 ++ t) := by
  have hlen : (b!"SQLite format 3\x00" ++ List.replicate 32852 0).length = 32868 := by
    rw [List.length_append, List.length_replicate]; rfl
  refine C39_sqlite3 _ _ _ _ ?_ hb hr0 hr ?_
  · unfold IsSlice at *; rw [List.length_append] at hb; omega
  · rw [List.take_append_of_le_length (Nat.le_of_eq hlen.symm)]

end FF.Props
