import Verif.Proofs.Zip
import Verif.Proofs.Dispatch
/-!
# ZIP archives (C25, C26, C27)
-/

namespace FF.Props
open FF Spec FileFormat

/-- The verdict that the entries `es` of the archive `file` call for. -/
def ZipExpected (r : Except Fail FileFormat) (file : Bytes) (es : List ZipEntry) : Prop :=
  (∀ pre e post f, es = pre ++ e :: post → (∀ x ∈ pre, ¬ x.Decisive) → e.Decides file f → r = .ok f) ∧
  ((∀ e ∈ es, ¬ e.Decisive) → (∃ e ∈ es, e.name = b!"META-INF/MANIFEST.MF") → r = .ok JavaArchive) ∧
  ((∀ e ∈ es, ¬ e.Decisive) → (∀ e ∈ es, e.name ≠ b!"META-INF/MANIFEST.MF") → r = .ok Zip)

/-- `file` is an archive with end records, classic or ZIP64, whose central directory of `count` entries is at
the place that they say, and starts with the entries `es`: all of them, or the first 1024. -/
structure IsArchive (file : Bytes) (count : Nat) (es : List ZipEntry) : Prop where
  slice : IsSlice file
  valid : ∀ e ∈ es, e.Valid
  shown : es.length = min 1024 count
  directory : ∃ before after, file = before ++ (es.flatMap ZipEntry.encode ++ after) ∧ ZipEnd file count before.length

/-- C25. With `reader-zip`, for every archive the first decisive one of its first 1024 entries decides; if there
is none, it is a Java archive if it has a manifest, else a plain ZIP file. Nothing else matters: not the local
headers and data (but of a decisive `mimetype` entry), nor other fields of the directory and the end
records, nor comments and extra fields, nor what is between these parts. -/
theorem C25_first_decisive_entry (cfg : Cfg) (ft : Features) (file : Bytes) (count : Nat) (es : List ZipEntry)
    (ha : IsArchive file count es) (he : ft.zip = true) (hrec : Recognised file Zip) :
    ZipExpected (fromBytes cfg ft file) file es := by
  obtain ⟨hs, hv, hk, before, after, hdir, hend⟩ := ha
  have hs' : file.length < 2 ^ 63 := hs
  have key := fun f h => recognised_verdict cfg ft _ hs .zip (by decide) he hrec f h
  obtain ⟨h1, h2, h3⟩ := zipReader_run cfg file count _ hend (2 ^ 64 - 1) hs' (by omega) before after es hv hdir rfl hk 0
  exact ⟨fun pre e post f a b c => key _ (h1 pre e post f a b c), fun a b => key _ (h2 a b), fun a b => key _ (h3 a b)⟩

/-- C26. Names tell what their bytes tell, also if they are not valid UTF-8: an archive of one entry, not a
`mimetype` entry, is reported as `f`, other than ZIP and Java archive, if and only if the bytes of the
name match a rule of `f`. -/
theorem C26_name_bytes (cfg : Cfg) (ft : Features) (file : Bytes) (e : ZipEntry) (ha : IsArchive file 1 [e])
    (hm : ¬ e.IsMimetype) (he : ft.zip = true) (hrec : Recognised file Zip) (f : FileFormat) (hf : f ≠ Zip)
    (hf' : f ≠ JavaArchive) : fromBytes cfg ft file = .ok f ↔ NameMeans e.name f := by
  obtain ⟨h1, h2, h3⟩ := C25_first_decisive_entry cfg ft file 1 [e] ha he hrec
  constructor
  · intro h
    apply Classical.byContradiction
    intro hn
    by_cases hd : ∃ g, NameMeans e.name g
    · obtain ⟨g, hg⟩ := hd
      have := h1 [] e [] g rfl (by simp) (.name hg)
      rw [this] at h
      cases h
      exact hn hg
    · have hnd : ∀ x ∈ [e], ¬ x.Decisive := by
        intro x hx
        rw [List.mem_singleton.mp hx]
        rintro (h | h)
        · exact hd h
        · exact hm h
      by_cases hman : e.name = b!"META-INF/MANIFEST.MF"
      · rw [h2 hnd ⟨e, by simp, hman⟩] at h
        cases h
        exact hf' rfl
      · rw [h3 hnd (by simpa using hman)] at h
        cases h
        exact hf rfl
  · intro h
    exact h1 [] e [] f rfl (by simp) (.name h)

/-- C26. The rules never conflict: a name tells at most one format, so their order does not matter. -/
theorem C26_rules_exclusive (name : Bytes) (f g : FileFormat) (hf : NameMeans name f) (hg : NameMeans name g) : f = g :=
  nameMeans_unique hf hg

/-- C27. If the first decisive entry is a stored `mimetype` entry, its contents decide: a known media type with
any Unicode white space around it gives the format of this type, everything else (also what is not valid
UTF-8) a plain ZIP file. -/
theorem C27_mimetype (cfg : Cfg) (ft : Features) (file : Bytes) (count : Nat) (es : List ZipEntry)
    (ha : IsArchive file count es) (he : ft.zip = true) (hrec : Recognised file Zip)
    (pre post : List ZipEntry) (e : ZipEntry) (hes : es = pre ++ e :: post) (hpre : ∀ x ∈ pre, ¬ x.Decisive)
    (hm : e.IsMimetype) (content : Bytes) (hl : content.length = e.compressed) (hst : StoredAt e.offset content file) :
    (∀ f, MimeMeans content f → fromBytes cfg ft file = .ok f) ∧
    ((∀ f, ¬ MimeMeans content f) → fromBytes cfg ft file = .ok Zip) := by
  obtain ⟨h1, _, _⟩ := C25_first_decisive_entry cfg ft file count es ha he hrec
  exact ⟨fun f hf => h1 pre e post f hes hpre (.mime hm hl hst hf), fun hf => h1 pre e post Zip hes hpre (.otherMime hm hl hst hf)⟩

/-- C27. Contents tell at most one format. -/
theorem C27_contents_exclusive (content : Bytes) (f g : FileFormat) (hf : MimeMeans content f) (hg : MimeMeans content g) :
    f = g := by
  have h1 := (zipMime_iff content f).mpr hf
  have h2 := (zipMime_iff content g).mpr hg
  rw [h1] at h2
  exact Option.some.inj h2

/-! ## Non-vacuity -/

/-- A local header and the data behind it. -/
def sampleLocal (name data : Bytes) : Bytes :=
  b!"PK\x03\x04" ++ List.replicate 22 0 ++ leBytes 2 name.length ++ leBytes 2 4 ++ name ++ b!"xtra" ++ data

/-- Entry for it. -/
def sampleEntry (name : Bytes) (size offset : Nat) : ZipEntry :=
  ⟨b!"PK\x01\x02" ++ List.replicate 16 0, size, size, List.replicate 8 0, offset, name, b!"extra field", b!"comment"⟩

/-- An archive of one entry. -/
def sampleZip (name data : Bytes) : Bytes :=
  sampleLocal name data ++ ((sampleEntry name data.length 0).encode ++ (b!"PK\x05\x06" ++ (List.replicate 6 0 ++
    (leBytes 2 1 ++ (List.replicate 4 0 ++ (leBytes 4 (sampleLocal name data).length ++ (leBytes 2 7 ++ b!"archive")))))))

theorem noLocator (before : Bytes) (h : ¬ b!"PK\x06\x07" <+: before.drop (before.length - 20)) :
    ∀ a b, before = a ++ b → b.length = 20 → ¬ b!"PK\x06\x07" <+: b := by
  rintro a b rfl hb
  rw [List.length_append, hb, Nat.add_sub_cancel, List.drop_left] at h
  exact h

theorem sampleZip_archive (name data : Bytes) (h1 : (sampleEntry name data.length 0).Valid)
    (h2 : (sampleLocal name data).length < 2 ^ 32)
    (h3 : ¬ b!"PK\x05\x06" <:+: List.replicate 6 0 ++ (leBytes 2 1 ++ (List.replicate 4 0 ++
      (leBytes 4 (sampleLocal name data).length ++ (leBytes 2 7 ++ b!"archive")))))
    (h4 : ¬ b!"PK\x06\x07" <+: (sampleLocal name data ++ (sampleEntry name data.length 0).encode).drop
      ((sampleLocal name data ++ (sampleEntry name data.length 0).encode).length - 20)) (h5 : IsSlice (sampleZip name data)) :
    IsArchive (sampleZip name data) 1 [sampleEntry name data.length 0] := by
  refine ⟨h5, by simpa using h1, rfl, sampleLocal name data, _, by simp only [List.flatMap_cons, List.flatMap_nil, List.append_nil]; rfl, ?_⟩
  have := ZipEnd.classic (sampleLocal name data ++ (sampleEntry name data.length 0).encode) (List.replicate 6 0)
    (List.replicate 4 0) (leBytes 2 7 ++ b!"archive") 1 (sampleLocal name data).length (by decide) h2 rfl rfl (by decide) h3 (noLocator _ h4)
  rw [List.append_assoc] at this
  exact this

-- An archive with one entry whose name is not UTF-8.
example : IsArchive (sampleZip b!"\xff\xc3.fb2" b!"book") 1 [sampleEntry b!"\xff\xc3.fb2" 4 0] ∧
    Recognised (sampleZip b!"\xff\xc3.fb2" b!"book") Zip ∧ NameMeans b!"\xff\xc3.fb2" FictionbookZip ∧
    fromBytes Cfg.release { zip := true } (sampleZip b!"\xff\xc3.fb2" b!"book") = .ok FictionbookZip := by
  refine ⟨sampleZip_archive _ _ ?_ (by decide) (by decide +kernel) (by decide +kernel) (by decide +kernel), ?_, .fb2 (by decide) (by unfold TopLevel; decide), ?_⟩
  · exact ⟨by decide, by decide, by decide, by decide, by decide, by decide, by decide, by decide⟩
  · unfold Recognised; decide +kernel
  · decide +kernel

-- A stored media type between white space (U+3000 and a line feed).
example : IsArchive (sampleZip b!"mimetype" b!"\xe3\x80\x80application/epub+zip\n") 1 [sampleEntry b!"mimetype" 24 0] ∧
    Recognised (sampleZip b!"mimetype" b!"\xe3\x80\x80application/epub+zip\n") Zip ∧
    (sampleEntry b!"mimetype" 24 0).IsMimetype ∧
    StoredAt 0 b!"\xe3\x80\x80application/epub+zip\n" (sampleZip b!"mimetype" b!"\xe3\x80\x80application/epub+zip\n") ∧
    MimeMeans b!"\xe3\x80\x80application/epub+zip\n" ElectronicPublication ∧
    fromBytes Cfg.release { zip := true } (sampleZip b!"mimetype" b!"\xe3\x80\x80application/epub+zip\n") =
      .ok ElectronicPublication := by
  refine ⟨sampleZip_archive _ _ ?_ (by decide) (by decide +kernel) (by decide +kernel) (by decide +kernel), ?_, ⟨rfl, rfl⟩,
    StoredAt.intro [] (b!"PK\x03\x04" ++ List.replicate 22 0) b!"mimetype" b!"xtra" _ rfl (by decide) (by decide) (by decide),
    ⟨b!"application/epub+zip", ['\u3000'], ['\n'], by decide, by decide +kernel, by decide +kernel, by decide +kernel⟩, ?_⟩
  · exact ⟨by decide, by decide, by decide, by decide, by decide, by decide, by decide, by decide⟩
  · unfold Recognised; decide +kernel
  · decide +kernel

/-- A ZIP64 archive of one entry. -/
def sampleZip64 (name data : Bytes) : Bytes :=
  ((sampleLocal name data ++ (sampleEntry name data.length 0).encode) ++ (b!"PK\x06\x06" ++ List.replicate 28 0 ++ (leBytes 8 1 ++
    (List.replicate 8 0 ++ (leBytes 8 (sampleLocal name data).length ++ []))))) ++ (b!"PK\x06\x07" ++ (List.replicate 4 0 ++
    (leBytes 8 (sampleLocal name data ++ (sampleEntry name data.length 0).encode).length ++ ([1, 0, 0, 0] ++ (b!"PK\x05\x06" ++
    List.replicate 18 0xff)))))

example : IsArchive (sampleZip64 b!"word/document.xml" b!"text") 1 [sampleEntry b!"word/document.xml" 4 0] ∧
    Recognised (sampleZip64 b!"word/document.xml" b!"text") Zip ∧
    fromBytes Cfg.release { zip := true } (sampleZip64 b!"word/document.xml" b!"text") = .ok OfficeOpenXmlDocument := by
  refine ⟨⟨by decide +kernel, ?_, rfl, sampleLocal b!"word/document.xml" b!"text", _, by
      simp only [List.flatMap_cons, List.flatMap_nil, List.append_nil, sampleZip64, List.append_assoc]; rfl,
    ZipEnd.zip64 _ (b!"PK\x06\x06" ++ List.replicate 28 0) (List.replicate 8 0) [] (List.replicate 4 0) [1, 0, 0, 0]
      (List.replicate 18 0xff) 1 _ (by decide) (by decide +kernel) rfl rfl rfl rfl (by decide) (by decide)⟩, ?_, ?_⟩
  · intro e he
    rw [List.mem_singleton.mp he]
    exact ⟨by decide, by decide, by decide, by decide, by decide, by decide, by decide, by decide⟩
  · unfold Recognised; decide +kernel
  · decide +kernel

end FF.Props
