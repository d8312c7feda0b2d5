import Verif.Proofs.Target32
import Verif.Props.Stream
import Verif.Props.Family
import Verif.Props.Zip
/-!
# C52: 32-bit targets
-/

namespace FF.Props
open FF FileFormat Spec

/-- C52 as one would wish it, for slices, which have fewer than 2^31 bytes on these targets. -/
def C52_statement : Prop :=
  ∀ (cfg : Cfg) (ft : Features) (b : Bytes), b.length < 2 ^ 31 → Target32.fromBytes cfg ft b = fromBytes cfg ft b

/-! ## It does not hold -/

/-- A ZIP archive of one file `mimetype`, stored, of allegedly `size` bytes. -/
def mimetypeOfSize (size : Nat) : Bytes :=
  b!"PK\x03\x04" ++ List.replicate 22 0 ++ [8, 0, 0, 0] ++ b!"mimetype" ++
    (b!"PK\x01\x02" ++ List.replicate 16 0 ++ leBytes 4 size ++ leBytes 4 size ++ [8, 0, 0, 0, 0, 0] ++ List.replicate 12 0 ++
      b!"mimetype") ++
    (b!"PK\x05\x06" ++ List.replicate 6 0 ++ [1, 0] ++ List.replicate 4 0 ++ [38, 0, 0, 0] ++ [0, 0])

/-- A 114-byte archive makes `from_bytes` panic on 32-bit targets, in every build profile. -/
theorem C52_zip_panics (cfg : Cfg) :
    (mimetypeOfSize (2 ^ 31)).length = 114 ∧
    Target32.fromBytes cfg { zip := true } (mimetypeOfSize (2 ^ 31)) = .error .panic ∧
    fromBytes cfg { zip := true } (mimetypeOfSize (2 ^ 31)) = .ok ArbitraryBinaryData := by
  refine ⟨by decide, ?_, ?_⟩ <;> cases cfg with | mk c => cases c <;> decide +kernel

-- The length is the exact limit.
example : Target32.fromBytes Cfg.release { zip := true } (mimetypeOfSize (2 ^ 31 - 1)) = .ok ArbitraryBinaryData := by
  decide +kernel

/-- A WebM file whose DocType element has an eight-byte size of `n`. -/
def docTypeOfSize (n : Nat) : Bytes :=
  [0x1A, 0x45, 0xDF, 0xA3, 0x93] ++ [0x42, 0x82, 1] ++ beBytes 7 n ++ b!"webm\x00\x00\x00\x00"

/-- Another verdict for an EBML file. -/
theorem C52_ebml_differs :
    Target32.fromBytes Cfg.release { ebml := true } (docTypeOfSize (2 ^ 32)) = .ok ExtensibleBinaryMetaLanguage ∧
    fromBytes Cfg.release { ebml := true } (docTypeOfSize (2 ^ 32)) = .ok Webm := by
  decide +kernel

/-- A ZIP64 archive of one file `word/document.xml` that counts `n` files. -/
def zip64OfCount (n : Nat) : Bytes :=
  b!"PK\x03\x04" ++ List.replicate 26 0 ++
    (b!"PK\x01\x02" ++ List.replicate 24 0 ++ [17, 0, 0, 0, 0, 0] ++ List.replicate 12 0 ++ b!"word/document.xml") ++
    (b!"PK\x06\x06" ++ List.replicate 28 0 ++ leBytes 8 n ++ List.replicate 8 0 ++ leBytes 8 30) ++
    (b!"PK\x06\x07" ++ List.replicate 4 0 ++ leBytes 8 93 ++ List.replicate 4 0) ++ (b!"PK\x05\x06" ++ List.replicate 18 0)

/-- Another verdict for a ZIP64 archive. -/
theorem C52_zip64_differs :
    Target32.fromBytes Cfg.release { zip := true } (zip64OfCount (2 ^ 32)) = .ok Zip ∧
    fromBytes Cfg.release { zip := true } (zip64OfCount (2 ^ 32)) = .ok OfficeOpenXmlDocument ∧
    Target32.fromBytes Cfg.release { zip := true } (zip64OfCount 1) = .ok OfficeOpenXmlDocument := by
  decide +kernel

theorem C52_fails : ¬ C52_statement := by
  intro h
  obtain ⟨h1, h2, h3⟩ := C52_zip_panics Cfg.release
  have := h Cfg.release { zip := true } (mimetypeOfSize (2 ^ 31)) (by omega)
  rw [h2, h3] at this
  cases this

/-! ## What does hold -/

theorem fmtReader32_other (cfg : Cfg) (ft : Features) {fmt : FileFormat} (h1 : ¬ (ft.ebml = true ∧ fmt = ExtensibleBinaryMetaLanguage))
    (h2 : ¬ (ft.zip = true ∧ fmt = Zip)) : Target32.fmtReader cfg ft fmt = fmtReader cfg ft fmt := by
  unfold Target32.fmtReader
  split
  · have : ft.ebml = false := by simpa using h1
    simp [this, fmtReader]
  · have : ft.zip = false := by simpa using h2
    simp [this, fmtReader]
  · rfl

/-- The conditions under which the readers of the two targets agree, for the format that the signatures found. -/
theorem afterRead32_same (cfg : Cfg) (ft : Features) (src : Src) (hs : src.WF) (hl : src.data.length < 2 ^ 32) (buf : Bytes)
    (h1 : ft.ebml = true → fromSignature buf = some ExtensibleBinaryMetaLanguage → Elements32 src.data)
    (h2 : ft.zip = true → fromSignature buf = some Zip → Entries32 src.data ∧ Mimetypes31 src.data) :
    Target32.afterRead cfg ft buf src = afterRead cfg ft buf src := by
  have key : ∀ fmt, fromSignature buf = some fmt → Target32.fromFmtReader cfg ft fmt src = fromFmtReader cfg ft fmt src := by
    intro fmt hf
    by_cases c1 : ft.ebml = true ∧ fmt = ExtensibleBinaryMetaLanguage
    · obtain ⟨c, rfl⟩ := c1
      have e1 : Target32.fmtReader cfg ft ExtensibleBinaryMetaLanguage = some (true, Target32.ebmlReader) := by
        simp [Target32.fmtReader, c]
      have e2 : fmtReader cfg ft ExtensibleBinaryMetaLanguage = some (true, ebmlReader) := by simp [fmtReader, c]
      simp only [Target32.fromFmtReader, fromFmtReader, e1, e2]
      exact Alike.execOn (fun q => Target32.alike_ebml (h1 c hf) q) hs
    · by_cases c2 : ft.zip = true ∧ fmt = Zip
      · obtain ⟨c, rfl⟩ := c2
        have e1 : Target32.fmtReader cfg ft Zip = some (true, Target32.zipReader cfg) := by simp [Target32.fmtReader, c]
        have e2 : fmtReader cfg ft Zip = some (true, zipReader cfg) := by simp [fmtReader, c]
        simp only [Target32.fromFmtReader, fromFmtReader, e1, e2]
        exact Alike.execOn (fun q => Target32.alike_zip cfg hl (h2 c hf).1 (h2 c hf).2 q) hs
      · simp only [Target32.fromFmtReader, fromFmtReader, fmtReader32_other cfg ft c1 c2]
        rfl
  unfold afterRead Target32.afterRead
  by_cases h0 : buf.length = 0
  · rw [if_pos h0, if_pos h0]
  · rw [if_neg h0, if_neg h0]
    cases hf : fromSignature buf with
    | none => rfl
    | some fmt =>
      simp only [key fmt hf]
      rfl

theorem fromReader32_same (cfg : Cfg) (ft : Features) (s : Src) (hs : s.WF) (hl : s.data.length < 2 ^ 32)
    (h1 : ∀ buf, (s.read 36870).1 = .ok buf → ft.ebml = true → fromSignature buf = some ExtensibleBinaryMetaLanguage →
      Elements32 s.data)
    (h2 : ∀ buf, (s.read 36870).1 = .ok buf → ft.zip = true → fromSignature buf = some Zip →
      Entries32 s.data ∧ Mimetypes31 s.data) :
    Target32.fromReader cfg ft s = fromReader cfg ft s := by
  rw [fromReader_eq2]
  show (match s.read 36870 with
      | (.error e, src) => (.error (.err e), src)
      | (.ok buf, src) => Target32.afterRead cfg ft buf src : Except Fail FileFormat × Src) = _
  obtain ⟨hle, hwf, _⟩ := Src.read_spec s 36870 hs
  cases hr : s.read 36870 with
  | mk r s' =>
    rw [hr] at hle hwf
    cases r with
    | error e => rfl
    | ok buf =>
      have hd : s'.data = s.data := hle.data
      exact afterRead32_same cfg ft s' hwf (by rw [hd]; exact hl) buf
        (by rw [hd]; exact h1 buf (by rw [hr])) (by rw [hd]; exact h2 buf (by rw [hr]))

/-- C52, for slices: the verdict is the one of 64-bit targets, provided that no field that the EBML or ZIP detection
takes a size or a count from exceeds the range of the smaller type. Missing: the others, see `C52_zip_panics`,
`C52_ebml_differs` and `C52_zip64_differs`. -/
theorem C52_same_partial (cfg : Cfg) (ft : Features) (b : Bytes) (hb : b.length < 2 ^ 31) (h : Fields32 ft b) :
    Target32.fromBytes cfg ft b = fromBytes cfg ft b := by
  have hd : (cursor b).data = b := rfl
  have hrd : ∀ buf, ((cursor b).read 36870).1 = .ok buf → buf = b.take 36870 := by
    intro buf h
    rw [cursor_read] at h
    cases h; rfl
  have e : ∀ f, fromSignature (b.take 36870) = some f → Recognised b f := fun f hf =>
    recognised_of_signature (by omega) (by rw [← hf]; exact (fromSignature_take b _ (Nat.le_refl _)).symm)
  have := fromReader32_same cfg ft (cursor b) (cursor_wf b (by omega)) (by rw [hd]; omega)
    (fun buf h1 h2 h3 => h.ebml h2 (e _ (by rw [← hrd buf h1]; exact h3)))
    (fun buf h1 h2 h3 => h.zip h2 (e _ (by rw [← hrd buf h1]; exact h3)))
  show (match (Target32.fromReader cfg ft (cursor b)).1 with
    | .ok f => .ok f
    | .error (.err _) => .ok FileFormat.default
    | .error f => .error f : Except Fail FileFormat) = _
  rw [this]
  rfl

/-- C52, on every stream of fewer than 2^32 bytes, whatever its calls deliver and even if they fail: `from_reader` makes
the same calls, ends in the same way and leaves the stream in the same state. -/
theorem C52_stream_partial (cfg : Cfg) (ft : Features) (s : Src) (hs : s.WF) (hl : s.data.length < 2 ^ 32)
    (h1 : ft.ebml = true → Elements32 s.data) (h2 : ft.zip = true → Entries32 s.data ∧ Mimetypes31 s.data) :
    Target32.fromReader cfg ft s = fromReader cfg ft s :=
  fromReader32_same cfg ft s hs hl (fun _ _ h _ => h1 h) (fun _ _ h _ => h2 h)

/-- C52, for files of fewer than 2^32 bytes, on a file system whose calls may do anything. -/
theorem C52_file_partial {Path : Type} (cfg : Cfg) (ft : Features) (fs : FileSystem Path) (p : Path)
    (h : ∀ s, fs p = .ok s → s.WF ∧ s.data.length < 2 ^ 32 ∧ (ft.ebml = true → Elements32 s.data) ∧
      (ft.zip = true → Entries32 s.data ∧ Mimetypes31 s.data)) :
    Target32.fromFile cfg ft fs p = fromFile cfg ft fs p := by
  unfold Target32.fromFile fromFile
  cases hs : fs p with
  | error e => rfl
  | ok s =>
    obtain ⟨h1, h2, h3, h4⟩ := h s hs
    simp only
    rw [C52_stream_partial cfg ft s h1 h2 h3 h4]

/-- C52, without any condition on fields or on the length, and for every stream, even one whose calls fail: where the
bytes of the first read are recognised neither as EBML nor as ZIP, or those two features are off, both targets do the
same calls with the same outcome. -/
theorem C52_other_formats (cfg : Cfg) (ft : Features) (s : Src)
    (h : ∀ buf, (s.read 36870).1 = .ok buf → (ft.ebml = true → ¬ Recognised buf ExtensibleBinaryMetaLanguage) ∧
      (ft.zip = true → ¬ Recognised buf Zip)) (hs : s.WF) :
    Target32.fromReader cfg ft s = fromReader cfg ft s := by
  rw [fromReader_eq2]
  show (match s.read 36870 with
      | (.error e, src) => (.error (.err e), src)
      | (.ok buf, src) => Target32.afterRead cfg ft buf src : Except Fail FileFormat × Src) = _
  obtain ⟨_, _, hlen⟩ := Src.read_spec s 36870 hs
  cases hr : s.read 36870 with
  | mk r s' =>
    rw [hr] at h hlen
    cases r with
    | error e => rfl
    | ok buf =>
      have hb : buf.length < 2 ^ 64 := by
        rcases hlen with ⟨k, h1, _, h2, _⟩ | ⟨e, h2, _⟩
        · cases h2; rw [length_slice]; omega
        · cases h2
      unfold Target32.afterRead afterRead
      simp only
      split
      · rfl
      · cases hf : fromSignature buf with
        | none => rfl
        | some fmt =>
          simp only
          have hrec := recognised_of_signature hb hf
          have := fmtReader32_other cfg ft (fmt := fmt) (fun hc => (h buf rfl).1 hc.1 (hc.2 ▸ hrec))
            (fun hc => (h buf rfl).2 hc.1 (hc.2 ▸ hrec))
          simp only [Target32.fromFmtReader, fromFmtReader, this]
          rfl

theorem zipReader32_missing {b : Bytes} {m M : Nat} (cfg : Cfg) (hb : b.length ≤ m) (hM : zipEocdMaxSize = M) (h3 : M < 2 ^ 20)
    (hn : ¬ b!"PK\x05\x06" <:+: slice b (b.length - M) (max 22 (b.length % 2 ^ 32))) :
    ∃ e, run b m (Target32.zipReader cfg) 0 = .error (.err e) := by
  unfold Target32.zipReader
  have h1 : zipEocdMinSize = 22 := rfl
  rw [hM]
  rw [← h1] at hn
  rw [run_bind, run_sk_end _ hb]
  simp only [andThen_ok]
  rw [run_bind, run_sk_start _ _ (by omega)]
  simp only [andThen_ok]
  rw [Target32.readBytes_small (by omega), run_bind, run_readBytes]
  split
  · simp only [andThen_ok]
    obtain ⟨r, hr, hsp⟩ := rfindBytes_spec (slice b (b.length - M)
      (max zipEocdMinSize (min (Target32.asUsize b.length) M))) zipEocdSignature
    rw [hr, run_bind, run_lift_ok]
    simp only [andThen_ok]
    cases r with
    | none => exact ⟨_, rfl⟩
    | some i =>
      exfalso
      apply hn
      have : b!"PK\x05\x06" <:+: slice b (b.length - M)
          (max zipEocdMinSize (min (Target32.asUsize b.length) M)) := infix_iff_occursAt.mpr ⟨i, hsp.1⟩
      refine this.trans ?_
      unfold slice Target32.asUsize
      exact (List.take_prefix_take_left (by omega)).isInfix
  · exact ⟨_, rfl⟩

/-- C52 fails for large archives, too: the search for the end record takes the length modulo 2^32 for the number of
bytes to look at. For a file of 4 GiB and a bit more, that is only the beginning of the last 65557 bytes, and the file
is not taken for an archive unless there is something like an end record in it. -/
theorem C52_large_archive {Path : Type} (cfg : Cfg) (ft : Features) (hz : ft.zip = true) (b : Bytes) (hb : IsSlice b)
    (hr : Recognised b Zip) (hl : 2 ^ 32 ≤ b.length)
    (hn : ¬ b!"PK\x05\x06" <:+: slice b (b.length - 65557) (max 22 (b.length % 2 ^ 32)))
    (s : Src) (hs : RegularFile s b) (fs : FileSystem Path) (p : Path) (hfs : fs p = .ok s) :
    Target32.fromFile cfg ft fs p = .ok ArbitraryBinaryData ∨
    (ft.txt = true ∧ Target32.fromFile cfg ft fs p = .ok PlainText) := by
  have hb' : b.length < 2 ^ 63 := hb
  have hsig : fromSignature (b.take 36870) = some Zip := by
    have := signature_of_recognised (g := .zip) (by omega) (by decide) hr
    rw [← fromSignature_take b _ (Nat.le_refl _)] at this
    exact this
  have hwf : s.WF := ⟨by rw [hs.data, hs.maxPos]; omega, by rw [hs.pos]; omega⟩
  have hw := perfect_window hs.pos hs.calm 36870
  obtain ⟨hle, hwf', _⟩ := Src.read_spec s 36870 hwf
  unfold Target32.fromFile
  rw [hfs]
  show (Target32.fromReader cfg ft s).1 = _ ∨ (_ ∧ (Target32.fromReader cfg ft s).1 = _)
  have e : (Target32.fromReader cfg ft s).1 = (match s.read 36870 with
      | (.error e, src) => (.error (.err e), src)
      | (.ok buf, src) => Target32.afterRead cfg ft buf src : Except Fail FileFormat × Src).1 := rfl
  rw [e]
  cases hrd : s.read 36870 with
  | mk r s' =>
    rw [hrd] at hw hle hwf'
    simp only at hw hle hwf'
    subst hw
    simp only
    have hd : s'.data = b := hle.data.trans hs.data
    have hm : s'.maxPos = 2 ^ 63 - 1 := hle.maxPos.trans hs.maxPos
    have hbn : s'.Benign := hs.calm.benign.mono hle
    have hrun := zipReader32_missing (m := s'.maxPos) cfg (by rw [hm]; omega) rfl (by decide) hn
    rw [← hd] at hrun
    obtain ⟨er, hrun⟩ := hrun
    have hex : (execOn true (Target32.zipReader cfg) s').1 = .error (.err er) := by
      have := (execOn_exact true (Target32.zipReader cfg) s' hwf' ((Target32.zipReader_all cfg).exact fun _ h => h.1)
        (Or.inr ⟨_, _, rfl⟩)).resolve_right fun h => h.1 hbn
      rw [this, hrun]; rfl
    obtain ⟨l1, w1, _⟩ := execOn_le true (Target32.zipReader cfg) s' hwf' ((Target32.zipReader_all cfg).untilBuffered OpEx.until)
    have h0 : ¬ (s.data.take 36870).length = 0 := by
      rw [hs.data, List.length_take]; omega
    have hz' : Target32.fmtReader cfg ft Zip = some (true, Target32.zipReader cfg) := by simp [Target32.fmtReader, hz]
    unfold Target32.afterRead
    rw [if_neg h0, hs.data, hsig]
    simp only [Target32.fromFmtReader, hz']
    generalize execOn true (Target32.zipReader cfg) s' = x at hex l1 w1
    obtain ⟨x, s2⟩ := x
    simp only at hex
    subst hex
    simp only
    rw [fromGenericReader_ideal ft s2 w1 (hbn.mono l1)]
    rcases idealGeneric_cases ft s2.data s2.maxPos with ⟨h, _, h'⟩ | ⟨_, h'⟩
    · exact Or.inr ⟨h, h'⟩
    · exact Or.inl h'

/-! ## Non-vacuity -/

/-- An empty archive behind `n` zero bytes. -/
def paddedArchive (n : Nat) : Bytes :=
  (b!"PK\x03\x04" ++ List.replicate n 0) ++ (b!"PK\x05\x06" ++ List.replicate 18 0)

theorem paddedArchive_length (n : Nat) : (paddedArchive n).length = n + 26 := by
  simp [paddedArchive]

theorem paddedArchive_recognised (n : Nat) (hn : 36866 ≤ n) (hn' : n < 2 ^ 62) : Recognised (paddedArchive n) Zip := by
  refine recognised_of_signature (by rw [paddedArchive_length]; omega) ?_
  rw [← fromSignature_take _ 36870 (Nat.le_refl _)]
  have : (paddedArchive n).take 36870 = b!"PK\x03\x04" ++ List.replicate 36866 0 := by
    have h4 : (b!"PK\x03\x04" : Bytes).length = 4 := rfl
    unfold paddedArchive
    rw [List.take_append_of_le_length (by rw [List.length_append, List.length_replicate, h4]; omega), List.take_append,
      List.take_of_length_le (by rw [h4]; omega), List.take_replicate, h4, Nat.min_eq_left (by omega)]
  rw [this]
  decide +kernel

theorem paddedArchive_zip (cfg : Cfg) (N : Nat) (h1 : 36866 ≤ N) (h2 : N < 2 ^ 62) :
    fromBytes cfg { zip := true } (paddedArchive N) = .ok Zip := by
  have hlen := paddedArchive_length N
  have hsl : IsSlice (paddedArchive N) := by unfold IsSlice; omega
  have hrec := paddedArchive_recognised N h1 h2
  refine (C25_first_decisive_entry cfg _ (paddedArchive N) 0 [] ⟨hsl, (fun _ h => nomatch h), rfl, [], _, rfl, ?_⟩ rfl hrec).2.2
    (fun _ h => nomatch h) (fun _ h => nomatch h)
  have e : paddedArchive N = (b!"PK\x03\x04" ++ List.replicate N 0) ++ (b!"PK\x05\x06" ++ (List.replicate 6 0 ++ (leBytes 2 0 ++
      (List.replicate 4 0 ++ (leBytes 4 0 ++ [0, 0]))))) := by
    unfold paddedArchive
    congr 1
  rw [e]
  refine ZipEnd.classic (b!"PK\x03\x04" ++ List.replicate N 0) (List.replicate 6 0) (List.replicate 4 0) [0, 0] 0 0
    (by decide) (by decide) rfl rfl (by decide) (by decide) ?_
  rintro a c hac hc hpre
  have h4 : (b!"PK\x03\x04" : Bytes).length = 4 := rfl
  have ha : a.length + 20 = N + 4 := by
    have := congrArg List.length hac
    rw [List.length_append, List.length_append, List.length_replicate, h4] at this
    omega
  have hd : c = (b!"PK\x03\x04" ++ List.replicate N 0).drop a.length := by rw [hac, List.drop_left]
  rw [List.drop_append, List.drop_eq_nil_of_le (by rw [h4]; omega), List.nil_append, List.drop_replicate, h4,
    show N - (a.length - 4) = 20 by omega] at hd
  rw [hd] at hpre
  revert hpre; decide

theorem paddedArchive_tail (N : Nat) (h : N + 4 = 2 ^ 32) (M : Nat) (hM : M < 2 ^ 20 ∧ 48 ≤ M) :
    ¬ b!"PK\x05\x06" <:+: slice (paddedArchive N) ((paddedArchive N).length - M) (max 22 ((paddedArchive N).length % 2 ^ 32)) := by
  rw [paddedArchive_length, show max 22 ((N + 26) % 2 ^ 32) = 22 by omega]
  have h4 : (b!"PK\x03\x04" : Bytes).length = 4 := rfl
  have : slice (paddedArchive N) (N + 26 - M) 22 = List.replicate 22 0 := by
    unfold slice paddedArchive
    rw [List.drop_append_of_le_length (by rw [List.length_append, List.length_replicate, h4]; omega),
      List.take_append_of_le_length (by rw [List.length_drop, List.length_append, List.length_replicate, h4]; omega), List.drop_append,
      List.drop_eq_nil_of_le (by rw [h4]; omega), List.nil_append, List.drop_replicate, List.take_replicate, h4,
      show min 22 (N - (N + 26 - M - 4)) = 22 by omega]
  rw [this]
  decide

/-- An archive of 4 GiB and 22 bytes: a ZIP file on 64-bit targets, not so on 32-bit ones. -/
theorem C52_large_example (cfg : Cfg) (N : Nat) (hN : N + 4 = 2 ^ 32) (fs : FileSystem Unit)
    (hfs : fs () = .ok { cursor (paddedArchive N) with maxPos := 2 ^ 63 - 1 }) :
    (paddedArchive N).length = 2 ^ 32 + 22 ∧ fromBytes cfg { zip := true } (paddedArchive N) = .ok Zip ∧
    Target32.fromFile cfg { zip := true } fs () = .ok ArbitraryBinaryData := by
  have hlen := paddedArchive_length N
  refine ⟨by omega, paddedArchive_zip cfg N (by omega) (by omega), ?_⟩
  have := C52_large_archive cfg { zip := true } rfl (paddedArchive N) (by unfold IsSlice; omega)
    (paddedArchive_recognised N (by omega) (by omega)) (by omega) (paddedArchive_tail N hN _ ⟨by decide, by decide⟩) _
    ⟨rfl, rfl, rfl, ⟨by simp [cursor], by simp [cursor]⟩⟩ fs () hfs
  rcases this with h | ⟨h, _⟩
  · exact h
  · cases h

/-- Enough for `Elements32`: no offset of the content has an oversized DocType or CodecID element. -/
theorem elements32_of {b : Bytes} (h : ∀ p < b.length, ebmlIdAt b p ∈ [0x4282, 0x86] → ebmlSizeAt b p < 2 ^ 32) : Elements32 b := by
  intro p _ hid
  by_cases hp : p < b.length
  · exact h p hp hid
  · exfalso
    have : ebmlIdAt b p = 0 := by
      unfold ebmlIdAt slice
      rw [List.drop_eq_nil_of_le (by omega)]
      simp [beNat]
    rw [this] at hid
    revert hid; decide

theorem entries32_of {b : Bytes} (h : ∀ p < b.length, slice b p 4 = b!"PK\x06\x07" → slice b (p + 20) 4 = b!"PK\x05\x06" →
    leNat (slice b ((leNat (slice b (p + 8) 8) + 32) % 2 ^ 64) 8) < 2 ^ 32) : Entries32 b := by
  intro p h1 h2
  by_cases hp : p < b.length
  · exact h p hp h1 h2
  · unfold slice at h1
    rw [List.drop_eq_nil_of_le (by omega)] at h1
    cases h1

theorem mimetypes31_of {b : Bytes} (h : ∀ p < b.length, leNat (slice b (p + 28) 2) = 8 → slice b (p + 46) 8 = b!"mimetype" →
    leNat (slice b (p + 20) 4) < 2 ^ 31) : Mimetypes31 b := by
  intro p h1 h2
  by_cases hp : p < b.length
  · exact h p hp h1 h2
  · unfold slice at h2
    rw [List.drop_eq_nil_of_le (by omega)] at h2
    cases h2

-- Fields of the greatest admitted value.
example : Fields32 Features.all (docTypeOfSize (2 ^ 32 - 1)) :=
  ⟨fun _ _ => elements32_of (by decide +kernel), fun _ h => absurd h (by unfold Recognised; decide +kernel)⟩
example : ¬ Elements32 (docTypeOfSize (2 ^ 32)) := by
  intro h
  have := h _ (EbmlAt.next .first) (by decide +kernel)
  revert this; decide +kernel
example : Fields32 Features.all (zip64OfCount (2 ^ 32 - 1)) :=
  ⟨fun _ h => absurd h (by unfold Recognised; decide +kernel),
    fun _ _ => ⟨entries32_of (by decide +kernel), mimetypes31_of (by decide +kernel)⟩⟩
example : Fields32 Features.all (mimetypeOfSize (2 ^ 31 - 1)) :=
  ⟨fun _ h => absurd h (by unfold Recognised; decide +kernel),
    fun _ _ => ⟨entries32_of (by decide +kernel), mimetypes31_of (by decide +kernel)⟩⟩
example : ¬ Mimetypes31 (mimetypeOfSize (2 ^ 31)) := by
  intro h
  have := h 38 (by decide +kernel) (by decide +kernel)
  revert this; decide +kernel
-- A stream that fails in the middle of the directory.
example : (Target32.fromReader Cfg.release Features.all
    { cursor (zip64OfCount 1) with revs := [.full, .short 0, .error (.other 7), .short 3] }).1 =
    (fromReader Cfg.release Features.all
    { cursor (zip64OfCount 1) with revs := [.full, .short 0, .error (.other 7), .short 3] }).1 := by
  decide +kernel
-- A dripping stream, for `C52_stream_partial`, and another format, for `C52_other_formats`.
example : (Target32.fromReader Cfg.release Features.all
    { cursor (zip64OfCount 1) with revs := [.full, .short 0, .error .interrupted, .short 3] }).1 = .ok OfficeOpenXmlDocument := by
  decide +kernel
example : (Target32.fromReader Cfg.release Features.all (cursor b!"%PDF-1.4\n/Encrypt")).1 = (fromReader Cfg.release Features.all (cursor b!"%PDF-1.4\n/Encrypt")).1 := by
  decide +kernel

end FF.Props
