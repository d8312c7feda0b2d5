import Verif.Props.Truncated
import Verif.Props.Zip
/-!
# C50 for EBML, XML and ZIP
-/

namespace FF.Props
open FF FileFormat Spec

/-- C50 for EBML: a file that is cut off behind 256 elements, or behind a cluster or another element that settles the
format, keeps its verdict. -/
theorem C50_ebml_partial (cfg : Cfg) (ft : Features) (es : List EbmlElement) (rest t : Bytes) (hv : ∀ e ∈ es, e.Valid)
    (hr : 256 ≤ es.length ∨ ∃ e ∈ es, e.Stops) (hs : IsSlice ((es.flatMap EbmlElement.encode ++ rest) ++ t)) (he : ft.ebml = true)
    (hrec : Recognised (es.flatMap EbmlElement.encode ++ rest) ExtensibleBinaryMetaLanguage)
    (hrec' : Recognised ((es.flatMap EbmlElement.encode ++ rest) ++ t) ExtensibleBinaryMetaLanguage) :
    fromBytes cfg ft (es.flatMap EbmlElement.encode ++ rest) = fromBytes cfg ft ((es.flatMap EbmlElement.encode ++ rest) ++ t) :=
  (C49_ebml_partial cfg ft es rest t hv hr hs he hrec hrec').symm

/-- C50 for EBML: so does a file that is cut off within the contents of its last element, unless this element has a
meaning. -/
theorem C50_ebml_last_partial (cfg : Cfg) (ft : Features) (es : List EbmlElement) (w id sw size : Nat) (body missing : Bytes)
    (hv : ∀ e ∈ es, e.Valid) (hi : IsId w id) (hf : FitsVint sw size)
    (hn : id ∉ ebmlContainers.map (·.2) ++ [0x4282, 0x86, 0x53B8, 0x1F43B675]) (hl : (body ++ missing).length ≤ size)
    (hs : IsSlice (es.flatMap EbmlElement.encode ++ (beBytes w id ++ (vint sw size ++ (body ++ missing))))) (he : ft.ebml = true)
    (hrec : Recognised (es.flatMap EbmlElement.encode ++ (beBytes w id ++ (vint sw size ++ body))) ExtensibleBinaryMetaLanguage)
    (hrec' : Recognised (es.flatMap EbmlElement.encode ++ (beBytes w id ++ (vint sw size ++ (body ++ missing))))
      ExtensibleBinaryMetaLanguage) :
    fromBytes cfg ft (es.flatMap EbmlElement.encode ++ (beBytes w id ++ (vint sw size ++ body))) =
      fromBytes cfg ft (es.flatMap EbmlElement.encode ++ (beBytes w id ++ (vint sw size ++ (body ++ missing)))) := by
  have hs1 : (es.flatMap EbmlElement.encode ++ (beBytes w id ++ (vint sw size ++ (body ++ missing)))).length < 2 ^ 63 := hs
  have hs2 : (es.flatMap EbmlElement.encode ++ (beBytes w id ++ (vint sw size ++ body))).length < 2 ^ 63 := by
    simp only [List.length_append] at hs1 ⊢
    omega
  rw [recognised_verdict cfg ft _ hs2 .ebml (by decide) he hrec _ (ebmlReader_run es _ hv hs2
      (.inr (.inl (.cut w id sw size body hi hf hn (by rw [List.length_append] at hl; omega)))) 0),
    recognised_verdict cfg ft _ hs .ebml (by decide) he hrec' _ (ebmlReader_run es _ hv hs1
      (.inr (.inl (.cut w id sw size _ hi hf hn hl))) 0)]

/-- C50 for XML: a document that is cut off is reported as the whole is, as XML, or as a format that comes later in the
order of precedence and whose markers the beginning shows; never as a format whose markers the whole does not show. -/
theorem C50_xml_partial (cfg : Cfg) (ft : Features) (b t : Bytes) (hb : IsSlice (b ++ t)) (he : ft.xml = true)
    (hr : Recognised b ExtensibleMarkupLanguage) (hr' : Recognised (b ++ t) ExtensibleMarkupLanguage) (f f' : FileFormat)
    (h : fromBytes cfg ft b = .ok f) (h' : fromBytes cfg ft (b ++ t) = .ok f') :
    f = f' ∨ f = ExtensibleMarkupLanguage ∨
      ∃ before row after, xmlMarkers = before ++ row :: after ∧ row.1 = f' ∧
        ∃ row' ∈ after, row'.1 = f ∧ ShowsXml b row' ∧ ¬ ShowsXml b row := by
  have hb' : (b ++ t).length < 2 ^ 63 := hb
  have hbs : IsSlice b := by show b.length < 2 ^ 63; rw [List.length_append] at hb'; omega
  have hmono : ∀ r, ShowsXml b r → ShowsXml (b ++ t) r :=
    fun r ⟨c, hc, hm⟩ => ⟨c, hc, fun m hmem => occursWithin_append t (hm m hmem)⟩
  have hx := (C22_xml cfg ft b hbs he hr f).mp h
  have hx' := (C22_xml cfg ft (b ++ t) hb he hr' f').mp h'
  rcases hx with ⟨l1, row, l2, e1, rfl, h1, h2⟩ | ⟨rfl, _⟩
  · rcases hx' with ⟨l1', row', l2', e2, rfl, h1', h2'⟩ | ⟨_, hn⟩
    · have hmem : row ∈ l1' ++ row' :: l2' := by rw [← e2, e1]; simp
      rcases List.mem_append.mp hmem with hm | hm
      · exact absurd (hmono _ h1) (h2' row hm)
      · rcases List.mem_cons.mp hm with rfl | hm
        · exact .inl rfl
        · by_cases hsame : row = row'
          · exact .inl (by rw [hsame])
          · refine .inr (.inr ⟨l1', row', l2', e2, rfl, row, hm, rfl, h1, ?_⟩)
            -- the row of the whole stands before the one of the beginning
            refine fun hc => ?_
            have hin : row' ∈ l1 ++ row :: l2 := by rw [← e1, e2]; simp
            have hnd : xmlMarkers.Nodup := by
              have : (xmlMarkers.map (·.1)).Nodup := by decide
              exact List.Pairwise.of_map (fun x => x.1) (fun a b h e => h (by rw [e])) this
            rcases List.mem_append.mp hin with hi | hi
            · exact h2 row' hi hc
            · rcases List.mem_cons.mp hi with hi | hi
              · exact hsame hi.symm
              · -- both orders cannot hold
                have p2 : [row, row'].Sublist xmlMarkers := by
                  rw [e1]
                  exact List.Sublist.trans (List.Sublist.cons_cons _ (List.singleton_sublist.mpr hi))
                    (List.sublist_append_right _ _)
                have hnd2 := hnd
                rw [e2] at hnd2
                have d1 := (List.nodup_append.mp hnd2)
                rw [e2] at p2
                rcases List.sublist_append_iff.mp p2 with ⟨a, c, hac, ha, hcs⟩
                match a, hac, ha, hcs with
                | [], hac, _, hcs =>
                  simp only [List.nil_append] at hac
                  subst hac
                  cases hcs with
                  | cons _ hcs => exact (List.nodup_cons.mp d1.2.1).1 (hcs.subset (by simp))
                  | cons_cons _ hcs => exact hsame rfl
                | x :: a, hac, ha, _ =>
                  simp only [List.cons_append, List.cons.injEq] at hac
                  have : row ∈ l1' := ha.subset (by rw [hac.1]; simp)
                  exact d1.2.2 row this row (List.mem_cons_of_mem _ hm) rfl
    · exact absurd (hmono _ h1) (hn row (by rw [e1]; simp))
  · exact .inr (.inl rfl)

/-- C50 for ZIP: the beginning of an archive is reported by a fallback verdict, unless the magic of an end record occurs
in its last 65557 bytes. -/
theorem C50_zip_partial (cfg : Cfg) (ft : Features) (b : Bytes) (hb : IsSlice b) (he : ft.zip = true) (hr : Recognised b Zip)
    (hm : ¬ b!"PK\x05\x06" <:+: b.drop (b.length - 65557)) :
    fromBytes cfg ft b = .ok ArbitraryBinaryData ∨ fromBytes cfg ft b = .ok PlainText := by
  have hb' : b.length < 2 ^ 63 := hb
  have hs : Feature.zip ∈ Feature.structured := by decide
  rw [fromBytes_reader cfg ft b (by omega) .zip hs he (signature_of_recognised (by omega) hs hr)]
  have hrun : ∃ e, run b (2 ^ 64 - 1) (readerOf cfg .zip).2 0 = .error (.err e) := by
    show ∃ e, run b (2 ^ 64 - 1) (zipReader cfg) 0 = .error (.err e)
    have emax : zipEocdMaxSize = 65557 := rfl
    have emin : zipEocdMinSize = 22 := rfl
    unfold zipReader
    rw [run_bind, run_sk_end _ (by omega), andThen_ok]
    simp only
    rw [run_bind, run_sk_start _ _ (by omega), andThen_ok, run_bind]
    by_cases hl : b.length < 22
    · rw [run_readBytes_eof (by omega) (by omega)]
      exact ⟨_, rfl⟩
    · rw [run_readBytes_ok (by omega), andThen_ok]
      have hbuf : slice b (b.length - zipEocdMaxSize) (max zipEocdMinSize (min b.length zipEocdMaxSize)) =
          b.drop (b.length - zipEocdMaxSize) := by
        unfold slice
        rw [List.take_of_length_le]
        rw [List.length_drop]; omega
      rw [hbuf]
      obtain ⟨r, hr, hspec⟩ := rfindBytes_spec (b.drop (b.length - zipEocdMaxSize)) zipEocdSignature
      rw [hr, run_bind, run_lift_ok, andThen_ok]
      cases r with
      | none => exact ⟨_, rfl⟩
      | some i => exact absurd (hspec.1.isInfix.trans (List.drop_suffix _ _).isInfix) hm
  obtain ⟨e, hrun⟩ := hrun
  rw [hrun]
  show idealGeneric ft b _ = _ ∨ idealGeneric ft b _ = _
  rcases idealGeneric_cases ft b (2 ^ 64 - 1) with ⟨_, _, h⟩ | ⟨_, h⟩
  · exact .inr h
  · exact .inl h

-- Non-vacuity.
example : (∃ e ∈ [EbmlElement.docType 1 b!"webm"], e.Stops) ∧
    Recognised ([EbmlElement.container 4 0x1A45DFA3 1 7, .docType 1 b!"webm"].flatMap EbmlElement.encode ++ b!"\x18") ExtensibleBinaryMetaLanguage :=
  ⟨⟨_, List.mem_singleton.mpr rfl, .inr ⟨_, .webm 1 _ (by decide)⟩⟩, by unfold Recognised; decide +kernel⟩
example : Recognised b!"<?xml version=\"1.0\"?><svg><a>" ExtensibleMarkupLanguage ∧
    Recognised (b!"<?xml version=\"1.0\"?><svg><a>" ++ b!"<math/>") ExtensibleMarkupLanguage ∧
    fromBytes Cfg.release { xml := true } b!"<?xml version=\"1.0\"?><svg><a>" = .ok ScalableVectorGraphics ∧
    fromBytes Cfg.release { xml := true } (b!"<?xml version=\"1.0\"?><svg><a>" ++ b!"<math/>") = .ok MathematicalMarkupLanguage := by
  unfold Recognised; decide +kernel
example : Recognised (sampleLocal b!"word/document.xml" b!"text") Zip ∧
    ¬ b!"PK\x05\x06" <:+: (sampleLocal b!"word/document.xml" b!"text").drop ((sampleLocal b!"word/document.xml" b!"text").length - 65557) ∧
    fromBytes Cfg.release { zip := true } (sampleLocal b!"word/document.xml" b!"text") = .ok ArbitraryBinaryData :=
  ⟨by unfold Recognised; decide +kernel, by decide +kernel, by decide +kernel⟩

end FF.Props
