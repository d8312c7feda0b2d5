import Verif.Spec.Comment
import Verif.Props.Payload
/-!
# C59: the comment and the end records of a ZIP archive
-/

namespace FF.Props
open FF Spec FileFormat

/-- C59. The English claim: neither the archive comment nor the kind of end records matters. -/
def C59_statement : Prop :=
  ∀ (cfg : Cfg) (ft : Features) (z : ZipBody) (c c' : Bytes), z.Valid → c.length < 2 ^ 16 → c'.length < 2 ^ 16 → ft.zip = true →
    IsSlice (z.classic c) → IsSlice (z.classic c') → IsSlice (z.zip64 c') → Recognised (z.classic c) Zip →
    (Recognised (z.classic c') Zip → fromBytes cfg ft (z.classic c) = fromBytes cfg ft (z.classic c')) ∧
    (Recognised (z.zip64 c') Zip → fromBytes cfg ft (z.classic c) = fromBytes cfg ft (z.zip64 c'))

/-- A document of one entry. -/
def officeBody : ZipBody :=
  ⟨sampleLocal b!"word/document.xml" b!"text", [sampleEntry b!"word/document.xml" 4 0], List.replicate 6 0, List.replicate 4 0⟩

/-- A comment that contains a directory and an end record. -/
def evilComment : Bytes :=
  (sampleEntry b!"xl/workbook.xml" 4 0).encode ++ (b!"PK\x05\x06" ++ (List.replicate 6 0 ++ (leBytes 2 1 ++
    (List.replicate 4 0 ++ (leBytes 4 (officeBody.body.length + 22) ++ [0, 0])))))

theorem officeBody_valid : officeBody.Valid := by
  refine ⟨?_, by decide, by decide, by decide, by decide, noLocator _ (by decide +kernel), ?_⟩
  · intro e he
    rw [List.mem_singleton.mp he]
    exact ⟨by decide, by decide, by decide, by decide, by decide, by decide, by decide, by decide⟩
  · intro e he hm
    rw [List.mem_singleton.mp he] at hm
    exact absurd hm.1 (by decide)

/-- C59 is false in general: a comment with an end record of its own takes over. Here a comment turns a text document into
a spreadsheet. -/
theorem C59_fails : ¬ C59_statement := by
  intro h
  have h1 := (h Cfg.release { zip := true } officeBody [] evilComment officeBody_valid (by decide) (by decide +kernel) rfl
    (by decide +kernel) (by decide +kernel) (by decide +kernel) (by unfold Recognised; decide +kernel)).1
    (by unfold Recognised; decide +kernel)
  have h2 : fromBytes Cfg.release { zip := true } (officeBody.classic []) = .ok OfficeOpenXmlDocument := by decide +kernel
  have h3 : fromBytes Cfg.release { zip := true } (officeBody.classic evilComment) = .ok OfficeOpenXmlSpreadsheet := by
    decide +kernel
  rw [h2, h3] at h1
  exact absurd h1 (by decide)

theorem stored_append {offset : Nat} {content file : Bytes} (h : StoredAt offset content file) (t : Bytes) :
    StoredAt offset content (file ++ t) := by
  cases h with
  | intro before head name extra after hb hh hn he =>
    have := StoredAt.intro (offset := offset) (content := content) before head name extra (after ++ t) hb hh hn he
    simpa only [List.append_assoc] using this

theorem classic_archive {z : ZipBody} (hz : z.Valid) {c : Bytes} (hc : c.length < 2 ^ 16) (hs : IsSlice (z.classic c))
    (hm : ¬ b!"PK\x05\x06" <:+: z.disks ++ (leBytes 2 z.entries.length ++ (z.size ++ (leBytes 4 z.locals.length ++
      (leBytes 2 c.length ++ c))))) : IsArchive (z.classic c) z.entries.length z.entries := by
  have hn := hz.count
  refine ⟨hs, hz.entries, by omega, z.locals, _, by rw [ZipBody.classic, ZipBody.body, List.append_assoc], ?_⟩
  exact ZipEnd.classic z.body z.disks z.size (leBytes 2 c.length ++ c) _ _ (by omega) hz.place hz.disks hz.size
    (by rw [List.length_append, show (leBytes 2 c.length).length = 2 from rfl]; omega) hm hz.locator

theorem zip64_archive {z : ZipBody} (hz : z.Valid) {c : Bytes} (hc : c.length < 2 ^ 16) (hs : IsSlice (z.zip64 c))
    (hm : ¬ b!"PK\x05\x06" <:+: List.replicate 16 0xff ++ (leBytes 2 c.length ++ c)) :
    IsArchive (z.zip64 c) z.entries.length z.entries := by
  have hn := hz.count
  have hp := hz.place
  have he := ZipEnd.zip64 z.body (b!"PK\x06\x06" ++ leBytes 8 44 ++ List.replicate 20 0) (List.replicate 8 0) []
    (List.replicate 4 0) [1, 0, 0, 0] (List.replicate 16 0xff ++ (leBytes 2 c.length ++ c)) z.entries.length z.locals.length
    (by omega) (by omega) rfl rfl rfl rfl
    (by simp only [List.length_append, List.length_replicate, show (leBytes 2 c.length).length = 2 from rfl]; omega) hm
  have e : z.zip64 c = (z.body ++ (b!"PK\x06\x06" ++ leBytes 8 44 ++ List.replicate 20 0 ++ (leBytes 8 z.entries.length ++
    (List.replicate 8 0 ++ (leBytes 8 z.locals.length ++ []))))) ++ (b!"PK\x06\x07" ++ (List.replicate 4 0 ++
    (leBytes 8 z.body.length ++ ([1, 0, 0, 0] ++ (b!"PK\x05\x06" ++ (List.replicate 16 0xff ++ (leBytes 2 c.length ++ c))))))) := by
    rw [List.append_nil]; rfl
  rw [← e] at he
  exact ⟨hs, hz.entries, by omega, z.locals, _, by rw [ZipBody.zip64, ZipBody.body, List.append_assoc, List.append_assoc], he⟩

theorem body_alike {z : ZipBody} (hz : z.Valid) (t t' : Bytes) : ZipAlike (z.body ++ t) (z.body ++ t') z.entries z.entries := by
  have h := hz.stored
  generalize hes : z.entries = es at h
  have hsub : ∀ e ∈ es, e ∈ z.entries := by rw [hes]; exact fun _ h => h
  clear hes
  induction es with
  | nil => exact .nil
  | cons e es ih =>
    refine .cons ⟨rfl, Iff.rfl, fun hm => ?_⟩ (ih (fun x hx => h x (List.mem_cons_of_mem _ hx))
      (fun x hx => hsub x (List.mem_cons_of_mem _ hx)))
    obtain ⟨c, h1, h2⟩ := h e List.mem_cons_self hm
    exact ⟨c, h1, h1, stored_append (stored_append h2 _) _, stored_append (stored_append h2 _) _⟩

/-- C59, what holds: a comment in which the magic of an end record does not show up makes no difference. -/
theorem C59_comment_partial (cfg cfg' : Cfg) (ft ft' : Features) (z : ZipBody) (c c' : Bytes) (hz : z.Valid)
    (hc : c.length < 2 ^ 16) (hc' : c'.length < 2 ^ 16) (he : ft.zip = true) (he' : ft'.zip = true)
    (hs : IsSlice (z.classic c)) (hs' : IsSlice (z.classic c'))
    (hr : Recognised (z.classic c) Zip) (hr' : Recognised (z.classic c') Zip)
    (hm : ¬ b!"PK\x05\x06" <:+: z.disks ++ (leBytes 2 z.entries.length ++ (z.size ++ (leBytes 4 z.locals.length ++
      (leBytes 2 c.length ++ c)))))
    (hm' : ¬ b!"PK\x05\x06" <:+: z.disks ++ (leBytes 2 z.entries.length ++ (z.size ++ (leBytes 4 z.locals.length ++
      (leBytes 2 c'.length ++ c'))))) :
    fromBytes cfg ft (z.classic c) = fromBytes cfg' ft' (z.classic c') :=
  C45_zip cfg cfg' ft ft' _ _ _ _ _ _ (classic_archive hz hc hs hm) (classic_archive hz hc' hs' hm') he he' hr hr'
    (body_alike hz _ _)

/-- C59. Likewise for the conversion to ZIP64. -/
theorem C59_zip64_partial (cfg cfg' : Cfg) (ft ft' : Features) (z : ZipBody) (c c' : Bytes) (hz : z.Valid)
    (hc : c.length < 2 ^ 16) (hc' : c'.length < 2 ^ 16) (he : ft.zip = true) (he' : ft'.zip = true)
    (hs : IsSlice (z.classic c)) (hs' : IsSlice (z.zip64 c'))
    (hr : Recognised (z.classic c) Zip) (hr' : Recognised (z.zip64 c') Zip)
    (hm : ¬ b!"PK\x05\x06" <:+: z.disks ++ (leBytes 2 z.entries.length ++ (z.size ++ (leBytes 4 z.locals.length ++
      (leBytes 2 c.length ++ c)))))
    (hm' : ¬ b!"PK\x05\x06" <:+: List.replicate 16 0xff ++ (leBytes 2 c'.length ++ c')) :
    fromBytes cfg ft (z.classic c) = fromBytes cfg' ft' (z.zip64 c') := by
  refine C45_zip cfg cfg' ft ft' _ _ _ _ _ _ (classic_archive hz hc hs hm) (zip64_archive hz hc' hs' hm') he he' hr hr' ?_
  unfold ZipBody.zip64 ZipBody.classic
  rw [List.append_assoc]
  exact body_alike hz _ _

-- Non-vacuity.
example : officeBody.Valid ∧ Recognised (officeBody.classic b!"a comment") Zip ∧ Recognised (officeBody.zip64 b!"another one") Zip ∧
    IsSlice (officeBody.classic b!"a comment") ∧ IsSlice (officeBody.zip64 b!"another one") ∧
    (¬ b!"PK\x05\x06" <:+: officeBody.disks ++ (leBytes 2 officeBody.entries.length ++ (officeBody.size ++
      (leBytes 4 officeBody.locals.length ++ (leBytes 2 b!"a comment".length ++ b!"a comment"))))) ∧
    (¬ b!"PK\x05\x06" <:+: List.replicate 16 0xff ++ (leBytes 2 b!"another one".length ++ b!"another one")) ∧
    fromBytes Cfg.release { zip := true } (officeBody.zip64 b!"another one") = .ok OfficeOpenXmlDocument := by
  refine ⟨officeBody_valid, ?_, ?_, by decide +kernel, by decide +kernel, by decide +kernel, by decide +kernel, by decide +kernel⟩
  · unfold Recognised; decide +kernel
  · unfold Recognised; decide +kernel

end FF.Props
