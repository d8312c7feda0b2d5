import Verif.Proofs.Walk3
import Verif.Proofs.Walk4
import Verif.Props.Family
import Verif.Props.Total
import Verif.Props.Mp4
import Verif.Props.Asf
import Verif.Props.Zip
import Verif.Props.Stream
/-!
# C62: the verdict on every content, also malformed, is the one that a walk over the content finds
-/

namespace FF.Props
open FF FileFormat Spec

/-- The largest offset to which a slice can be positioned. -/
def topOffset : Nat := 2 ^ 64 - 1

theorem generic_unique {ft : Features} {b : Bytes} {f g : FileFormat} (hf : Generic ft b f) (hg : Generic ft b g) : f = g := by
  rcases hf with ⟨h1, h2, rfl⟩ | ⟨h1, rfl⟩ <;> rcases hg with ⟨h3, h4, rfl⟩ | ⟨h3, rfl⟩
  · rfl
  · exact absurd ⟨h1, h2⟩ h3
  · exact absurd ⟨h3, h4⟩ h1
  · rfl

theorem walk_verdict (ft : Features) (b : Bytes) (hb : IsSlice b) (g : Feature)
    (hg : g ∈ Feature.structured) (he : g.enabled ft = true) (hr : Recognised b g.base) (W : FileFormat → Prop)
    (hw : ∀ f, Ends b topOffset (readerOf Cfg.release g).2 0 f ↔ W f) (f : FileFormat) :
    fromBytes Cfg.release ft b = .ok f ↔ W f ∨ ((∀ x, ¬ W x) ∧ Generic ft b f) := by
  have hread := recognised_reader Cfg.release ft b hb g hg he hr
  obtain ⟨v, hv⟩ := C01_from_bytes_total ft b hb
  cases hx : run b (2 ^ 64 - 1) (readerOf Cfg.release g).2 0 with
  | ok y =>
    have hwy : W y.1 := (hw _).mp ⟨y.2, hx⟩
    rw [hread, hx]
    change (Except.ok y.1 : Except Fail FileFormat) = _ ↔ _
    constructor
    · intro h; cases h; exact Or.inl hwy
    · rintro (h | ⟨h, _⟩)
      · obtain ⟨q, hq⟩ := (hw _).mpr h
        have hq' : run b (2 ^ 64 - 1) (readerOf Cfg.release g).2 0 = .ok (f, q) := hq
        rw [hx] at hq'
        cases hq'
        rfl
      · exact absurd hwy (h _)
  | error x =>
    have hno : ∀ x, ¬ W x := by
      intro x h
      obtain ⟨q, hq⟩ := (hw _).mpr h
      have hq' : run b (2 ^ 64 - 1) (readerOf Cfg.release g).2 0 = .ok (x, q) := hq
      rw [hx] at hq'
      cases hq'
    have hgen : Generic ft b v := by
      rw [hread, hx] at hv
      cases x with
      | err e => exact generic_of_ideal hv
      | panic => cases hv
      | diverge => cases hv
    rw [hv]
    constructor
    · intro h; cases h; exact Or.inr ⟨hno, hgen⟩
    · rintro (h | ⟨_, h⟩)
      · exact absurd h (hno _)
      · rw [generic_unique h hgen]

/-- C62 for MP4. -/
theorem C62_mp4 (ft : Features) (he : ft.mp4 = true) (b : Bytes) (hb : IsSlice b) (hr : Recognised b Mpeg4Part14)
    (f : FileFormat) : fromBytes Cfg.release ft b = .ok f ↔
      Mp4Walk b topOffset 256 0 [] f ∨ ((∀ x, ¬ Mp4Walk b topOffset 256 0 [] x) ∧ Generic ft b f) := by
  have hb' : b.length < 2 ^ 63 := hb
  exact walk_verdict ft b hb .mp4 (by decide) he hr _ (mp4Reader_walk b _ (by unfold topOffset; omega)) f

/-- C62 for EBML. -/
theorem C62_ebml (ft : Features) (he : ft.ebml = true) (b : Bytes) (hb : IsSlice b)
    (hr : Recognised b ExtensibleBinaryMetaLanguage) (f : FileFormat) : fromBytes Cfg.release ft b = .ok f ↔
      EbmlWalk b topOffset 256 0 [] f ∨ ((∀ x, ¬ EbmlWalk b topOffset 256 0 [] x) ∧ Generic ft b f) := by
  have hb' : b.length < 2 ^ 63 := hb
  exact walk_verdict ft b hb .ebml (by decide) he hr _ (ebmlReader_walk b _ (by unfold topOffset; omega)) f

/-- C62 for ASF. -/
theorem C62_asf (ft : Features) (he : ft.asf = true) (b : Bytes) (hb : IsSlice b)
    (hr : Recognised b AdvancedSystemsFormat) (f : FileFormat) : fromBytes Cfg.release ft b = .ok f ↔
      AsfContent b topOffset f ∨ ((∀ x, ¬ AsfContent b topOffset x) ∧ Generic ft b f) := by
  have hb' : b.length < 2 ^ 63 := hb
  exact walk_verdict ft b hb .asf (by decide) he hr _ (asfReader_walk b _ (by unfold topOffset; omega) hb') f

/-- C62 for RealMedia. -/
theorem C62_rm (ft : Features) (he : ft.rm = true) (b : Bytes) (hb : IsSlice b)
    (hr : Recognised b Realmedia) (f : FileFormat) : fromBytes Cfg.release ft b = .ok f ↔
      RmContent b topOffset f ∨ ((∀ x, ¬ RmContent b topOffset x) ∧ Generic ft b f) := by
  have hb' : b.length < 2 ^ 63 := hb
  exact walk_verdict ft b hb .rm (by decide) he hr _ (rmReader_walk b _ (by unfold topOffset; omega)) f

/-- C62 for ID3v2. -/
theorem C62_id3v2 (ft : Features) (he : ft.id3v2 = true) (b : Bytes) (hb : IsSlice b)
    (hr : Recognised b Id3v2) (f : FileFormat) : fromBytes Cfg.release ft b = .ok f ↔
      Id3Walk b topOffset 0 f ∨ ((∀ x, ¬ Id3Walk b topOffset 0 x) ∧ Generic ft b f) := by
  have hb' : b.length < 2 ^ 63 := hb
  exact walk_verdict ft b hb .id3v2 (by decide) he hr _ (id3v2Reader_walk hb' (by unfold topOffset; omega)) f

/-- C62 for ZIP. -/
theorem C62_zip (ft : Features) (he : ft.zip = true) (b : Bytes) (hb : IsSlice b)
    (hr : Recognised b Zip) (f : FileFormat) : fromBytes Cfg.release ft b = .ok f ↔
      ZipContent b topOffset f ∨ ((∀ x, ¬ ZipContent b topOffset x) ∧ Generic ft b f) := by
  have hb' : b.length < 2 ^ 63 := hb
  exact walk_verdict ft b hb .zip (by decide) he hr _ (zipReader_walk b _ (by unfold topOffset; omega) hb') f

/-! ## Streams and files

A stream whose calls do not fail (they may be short, from the second read on) and that can be positioned up to `s.maxPos`:
for a file that is the largest signed 64-bit number. -/

theorem base_injective : ∀ f ∈ Feature.structured, ∀ g ∈ Feature.structured, f.base = g.base → f = g := by decide

theorem walk_stream (ft : Features) (s : Src) (hs : s.WF) (hl : IsSlice s.data) (hb : s.Benign)
    (hw : (s.read 36870).1 = .ok (s.data.take 36870)) (g : Feature) (hg : g ∈ Feature.structured)
    (hbare : g.bareRead = false) (he : g.enabled ft = true) (hr : Recognised s.data g.base) (W : FileFormat → Prop)
    (hwalk : ∀ f, Ends s.data s.maxPos (readerOf Cfg.release g).2 0 f ↔ W f) (f : FileFormat) :
    (fromReader Cfg.release ft s).1 = .ok f ↔ W f ∨ ((∀ x, ¬ W x) ∧ Generic ft s.data f) := by
  have hl' : s.data.length < 2 ^ 63 := hl
  have hsig := signature_of_recognised (by omega) hg hr
  have hread : (fromReader Cfg.release ft s).1 =
      orDefault (val (run s.data s.maxPos (readerOf Cfg.release g).2 0)) (idealGeneric ft s.data s.maxPos) := by
    rw [fromReader_window Cfg.release ft s hs hb hw]
    · unfold ideal
      rw [fromSignature_take _ bufferSize (Nat.le_refl _), hsig]
      have hne : s.data.length ≠ 0 := by
        intro h0
        rw [List.eq_nil_of_length_eq_zero h0] at hsig
        have hn : fromSignature [] = none := by decide +kernel
        rw [hn] at hsig; cases hsig
      simp only [if_neg hne, fmtReader_base Cfg.release ft g hg, he, if_true]
    · rintro ⟨x, hx, h1, _, h2⟩
      rw [fromSignature_take _ bufferSize (Nat.le_refl _), hsig] at h2
      have := base_injective g hg x hx (Option.some.inj h2)
      rw [this, h1] at hbare
      cases hbare
  obtain ⟨v, hv⟩ : ∃ v, (fromReader Cfg.release ft s).1 = .ok v := by
    rcases C01_from_reader_total ft s hs hl with h | ⟨e, h⟩
    · exact h
    · have := (C10_error_iff _ _ _ _).mp h
      rw [hw] at this
      cases this
  cases hx : run s.data s.maxPos (readerOf Cfg.release g).2 0 with
  | ok y =>
    have hwy : W y.1 := (hwalk _).mp ⟨y.2, hx⟩
    rw [hread, hx]
    change (Except.ok y.1 : Except Fail FileFormat) = _ ↔ _
    constructor
    · intro h; cases h; exact Or.inl hwy
    · rintro (h | ⟨h, _⟩)
      · obtain ⟨q, hq⟩ := (hwalk _).mpr h
        rw [hx] at hq
        cases hq
        rfl
      · exact absurd hwy (h _)
  | error x =>
    have hno : ∀ x, ¬ W x := by
      intro x h
      obtain ⟨q, hq⟩ := (hwalk _).mpr h
      rw [hx] at hq
      cases hq
    have hgen : Generic ft s.data v := by
      rw [hread, hx] at hv
      cases x with
      | err e => exact generic_of_ideal hv
      | panic => cases hv
      | diverge => cases hv
    rw [hv]
    constructor
    · intro h; cases h; exact Or.inr ⟨hno, hgen⟩
    · rintro (h | ⟨_, h⟩)
      · exact absurd h (hno _)
      · rw [generic_unique h hgen]

/-- C62 for MP4 in a stream. -/
theorem C62_mp4_stream (ft : Features) (he : ft.mp4 = true) (s : Src) (hs : s.WF) (hl : IsSlice s.data) (hb : s.Benign)
    (hw : (s.read 36870).1 = .ok (s.data.take 36870)) (hr : Recognised s.data Mpeg4Part14) (f : FileFormat) :
    (fromReader Cfg.release ft s).1 = .ok f ↔
      Mp4Walk s.data s.maxPos 256 0 [] f ∨ ((∀ x, ¬ Mp4Walk s.data s.maxPos 256 0 [] x) ∧ Generic ft s.data f) :=
  walk_stream ft s hs hl hb hw .mp4 (by decide) rfl he hr _ (mp4Reader_walk s.data _ hs.1) f

/-- C62 for EBML in a stream. -/
theorem C62_ebml_stream (ft : Features) (he : ft.ebml = true) (s : Src) (hs : s.WF) (hl : IsSlice s.data) (hb : s.Benign)
    (hw : (s.read 36870).1 = .ok (s.data.take 36870)) (hr : Recognised s.data ExtensibleBinaryMetaLanguage) (f : FileFormat) :
    (fromReader Cfg.release ft s).1 = .ok f ↔
      EbmlWalk s.data s.maxPos 256 0 [] f ∨ ((∀ x, ¬ EbmlWalk s.data s.maxPos 256 0 [] x) ∧ Generic ft s.data f) :=
  walk_stream ft s hs hl hb hw .ebml (by decide) rfl he hr _ (ebmlReader_walk s.data _ hs.1) f

/-- C62 for ASF in a stream. -/
theorem C62_asf_stream (ft : Features) (he : ft.asf = true) (s : Src) (hs : s.WF) (hl : IsSlice s.data) (hb : s.Benign)
    (hw : (s.read 36870).1 = .ok (s.data.take 36870)) (hr : Recognised s.data AdvancedSystemsFormat) (f : FileFormat) :
    (fromReader Cfg.release ft s).1 = .ok f ↔
      AsfContent s.data s.maxPos f ∨ ((∀ x, ¬ AsfContent s.data s.maxPos x) ∧ Generic ft s.data f) :=
  walk_stream ft s hs hl hb hw .asf (by decide) rfl he hr _ (asfReader_walk s.data _ hs.1 hl) f

/-- C62 for RealMedia in a stream. -/
theorem C62_rm_stream (ft : Features) (he : ft.rm = true) (s : Src) (hs : s.WF) (hl : IsSlice s.data) (hb : s.Benign)
    (hw : (s.read 36870).1 = .ok (s.data.take 36870)) (hr : Recognised s.data Realmedia) (f : FileFormat) :
    (fromReader Cfg.release ft s).1 = .ok f ↔
      RmContent s.data s.maxPos f ∨ ((∀ x, ¬ RmContent s.data s.maxPos x) ∧ Generic ft s.data f) :=
  walk_stream ft s hs hl hb hw .rm (by decide) rfl he hr _ (rmReader_walk s.data _ hs.1) f

/-- C62 for ID3v2 in a stream. -/
theorem C62_id3v2_stream (ft : Features) (he : ft.id3v2 = true) (s : Src) (hs : s.WF) (hl : IsSlice s.data) (hb : s.Benign)
    (hw : (s.read 36870).1 = .ok (s.data.take 36870)) (hr : Recognised s.data Id3v2) (f : FileFormat) :
    (fromReader Cfg.release ft s).1 = .ok f ↔
      Id3Walk s.data s.maxPos 0 f ∨ ((∀ x, ¬ Id3Walk s.data s.maxPos 0 x) ∧ Generic ft s.data f) :=
  walk_stream ft s hs hl hb hw .id3v2 (by decide) rfl he hr _ (id3v2Reader_walk hl hs.1) f

/-- C62 for ZIP in a stream. -/
theorem C62_zip_stream (ft : Features) (he : ft.zip = true) (s : Src) (hs : s.WF) (hl : IsSlice s.data) (hb : s.Benign)
    (hw : (s.read 36870).1 = .ok (s.data.take 36870)) (hr : Recognised s.data Zip) (f : FileFormat) :
    (fromReader Cfg.release ft s).1 = .ok f ↔
      ZipContent s.data s.maxPos f ∨ ((∀ x, ¬ ZipContent s.data s.maxPos x) ∧ Generic ft s.data f) :=
  walk_stream ft s hs hl hb hw .zip (by decide) rfl he hr _ (zipReader_walk s.data _ hs.1 hl) f

/-! ## Non-vacuity -/

/-- A box whose size says 0 in front of the end: the walk stays there until the limit. -/
def stuckMp4 : Bytes := [0, 0, 0, 20] ++ b!"ftypisom........" ++ [0, 0, 0, 0] ++ b!"freeabcd"

example : Recognised stuckMp4 Mpeg4Part14 ∧ Mp4Walk stuckMp4 topOffset 256 0 [] Mpeg4Part14 := by
  refine ⟨by unfold Recognised; decide +kernel, ?_⟩
  have hstay : ∀ n, Mp4Walk stuckMp4 topOffset n 20 [] Mpeg4Part14 := by
    intro n
    induction n with
    | zero => exact .limit (seen := [])
    | succ n ih =>
      exact .skip (type := b!"free") (size := 0) (q := 28) (r := 20)
        ⟨(magicAt_iff _ _ _).mpr (by decide), rfl, Or.inl ⟨by decide, by decide, rfl⟩⟩ (by decide)
        ⟨by decide, by decide⟩ ih
  exact .skip (type := b!"ftyp") (size := 20) (q := 8) (r := 20)
    ⟨(magicAt_iff _ _ _).mpr (by decide), rfl, Or.inl ⟨by decide, by decide, rfl⟩⟩ (by decide)
    ⟨by decide, by decide⟩ (hstay 255)

-- A header that is cut off: there is no walk, and the verdict is the generic one.
example : Recognised ([0, 0, 0, 20] ++ b!"ftypisom........" ++ [0, 0]) Mpeg4Part14 ∧
    (∀ x, ¬ Mp4Walk ([0, 0, 0, 20] ++ b!"ftypisom........" ++ [0, 0]) topOffset 256 0 [] x) ∧
    fromBytes Cfg.release { mp4 := true } ([0, 0, 0, 20] ++ b!"ftypisom........" ++ [0, 0]) = .ok ArbitraryBinaryData := by
  have hr : Recognised ([0, 0, 0, 20] ++ b!"ftypisom........" ++ [0, 0]) Mpeg4Part14 := by unfold Recognised; decide +kernel
  refine ⟨hr, fun x h => ?_, by decide +kernel⟩
  obtain ⟨q, hq⟩ := (mp4Reader_walk _ topOffset (by decide) x).mpr h
  have hv : val (run ([0, 0, 0, 20] ++ b!"ftypisom........" ++ [0, 0]) topOffset (mp4Reader Cfg.release) 0) = .error (.err .unexpectedEof) := by
    decide +kernel
  rw [hq] at hv
  cases hv

-- A segment of unknown size, with a codec ID in it: the master elements are entered whatever their size is.
example : Recognised ([0x1A, 0x45, 0xDF, 0xA3, 0x80] ++ [0x18, 0x53, 0x80, 0x67, 0xFF] ++ [0x86, 0x82] ++ b!"A_") ExtensibleBinaryMetaLanguage ∧
    EbmlWalk ([0x1A, 0x45, 0xDF, 0xA3, 0x80] ++ [0x18, 0x53, 0x80, 0x67, 0xFF] ++ [0x86, 0x82] ++ b!"A_") topOffset 256 0 [] MatroskaAudio := by
  refine ⟨by unfold Recognised; decide +kernel, ?_⟩
  refine .enter (id := [0x1A, 0x45, 0xDF, 0xA3]) (size := 0) (q := 5)
    ⟨4, 1, ?_, by decide, (magicAt_iff _ _ _).mpr (by decide), rfl, ?_, by decide, rfl⟩ (by decide) ?_
  · unfold VintAt; decide
  · unfold VintAt; decide
  refine .enter (id := [0x18, 0x53, 0x80, 0x67]) (size := 127) (q := 10)
    ⟨4, 1, ?_, by decide, (magicAt_iff _ _ _).mpr (by decide), rfl, ?_, by decide, rfl⟩ (by decide) ?_
  · unfold VintAt; decide
  · unfold VintAt; decide
  refine .codec (size := 2) (q := 12) (x := b!"A_") (r := 14)
    ⟨1, 1, ?_, by decide, (magicAt_iff _ _ _).mpr (by decide), rfl, ?_, by decide, rfl⟩
    ((magicAt_iff _ _ _).mpr (by decide)) rfl ⟨by decide, by decide⟩ (.finish (seen := [b!"A_"]) (by decide))
  · unfold VintAt; decide
  · unfold VintAt; decide

-- ASF: an object whose size is 0 leads back to itself.
example : Recognised (asfHead ++ [255, 0, 0, 0, 1, 2] ++ List.replicate 24 0) AdvancedSystemsFormat ∧
    AsfContent (asfHead ++ [255, 0, 0, 0, 1, 2] ++ List.replicate 24 0) topOffset AdvancedSystemsFormat := by
  refine ⟨by unfold Recognised; decide +kernel, by decide, by decide, ?_⟩
  have hstay : ∀ n, AsfWalk (asfHead ++ [255, 0, 0, 0, 1, 2] ++ List.replicate 24 0) topOffset n 30 []
      AdvancedSystemsFormat := by
    intro n
    induction n with
    | zero => exact .limit (seen := [])
    | succ n ih =>
      exact .skip (r := 30) (by decide) (fun h => absurd ((magicAt_iff _ _ _).mp h) (by decide))
        (fun h => absurd ((magicAt_iff _ _ _).mp h) (by decide)) ⟨by decide, by decide⟩ ih
  exact hstay _

-- RealMedia: a chunk that is shorter than its own header.
example : Recognised (b!".RMF\x00\x00\x00\x12" ++ List.replicate 6 0 ++ [0, 0, 0, 2] ++ b!"DATA" ++ [0, 0, 0, 1]) Realmedia ∧
    RmContent (b!".RMF\x00\x00\x00\x12" ++ List.replicate 6 0 ++ [0, 0, 0, 2] ++ b!"DATA" ++ [0, 0, 0, 1]) topOffset Realmedia := by
  refine ⟨by unfold Recognised; decide +kernel, by decide, ?_⟩
  exact .skip (n := 0) (r := 19) (by decide) (fun h => absurd ((magicAt_iff _ _ _).mp h) (by decide)) ⟨by decide, by decide⟩
    (.limit (seen := []))

-- ID3v2: a tag with size bytes above 127, and MPEG frames behind it.
example : Recognised (b!"ID3" ++ [4, 0, 0, 128, 128, 128, 130] ++ [1, 2] ++ [0xFF, 0xFB, 0, 0, 0, 0, 0, 0, 0, 0]) Id3v2 ∧
    Id3Walk (b!"ID3" ++ [4, 0, 0, 128, 128, 128, 130] ++ [1, 2] ++ [0xFF, 0xFB, 0, 0, 0, 0, 0, 0, 0, 0]) topOffset 0 Mpeg12AudioLayer3 := by
  refine ⟨by unfold Recognised; decide +kernel, ?_⟩
  refine .tag (ext := 0) (foot := 0) ((magicAt_iff _ _ _).mpr (by decide)) (by decide) (Or.inr ⟨by decide, rfl⟩) (by decide) (by decide) ?_
  exact .mp3 (c := 0xFB) (by decide) (by decide) ((magicAt_iff _ _ _).mpr (by decide))

/-- An archive whose end record is cut off behind the offset of the directory; the directory names an entry that settles
the format. The local header is not there. -/
def cutZip : Bytes :=
  b!"PK\x03\x04" ++ List.replicate 28 0 ++ [7, 0, 0, 0, 0, 0] ++ List.replicate 12 0 ++ b!"doc.kml" ++
    b!"PK\x05\x06" ++ [0, 0, 0, 0, 0, 0, 1, 0, 0, 0, 0, 0, 4, 0, 0, 0] ++ List.replicate 2 0

example : Recognised cutZip Zip ∧ ZipContent cutZip topOffset KeyholeMarkupLanguageZip := by
  refine ⟨by unfold Recognised; decide +kernel, 57, 1, 4, ⟨by decide, by decide, (magicAt_iff _ _ _).mpr (by decide), ?_⟩, ?_, by decide, ?_⟩
  · intro e he h
    have hm := (magicAt_iff _ _ _).mp h
    have hl : e ≤ 75 := by
      have h1 := hm.1
      have h2 : cutZip.length = 79 := by decide
      have h3 : b!"PK\x05\x06".length = 4 := rfl
      omega
    have hall : ∀ e, e ≤ 75 → 57 < e → slice cutZip e 4 ≠ b!"PK\x05\x06" := by decide
    exact hall e hl he hm.2
  · exact .classic (fun h => absurd ((magicAt_iff _ _ _).mp h.2) (by decide)) (by decide)
  · exact .decisive (name := b!"doc.kml") (next := 57) ⟨by decide, (magicAt_iff _ _ _).mpr (by decide), by decide, by decide⟩
      (.exact (by decide))

-- The same size on a file: beyond what it can be positioned to, there is no walk.
def farMp4 : Bytes := [0, 0, 0, 20] ++ b!"ftypisom........" ++ [0, 0, 0, 1] ++ b!"free" ++ [0x7F, 0xFF, 0xFF, 0xFF, 0xFF, 0xFF, 0xFF, 0xFF]

example : Recognised farMp4 Mpeg4Part14 ∧
    (fromReader Cfg.release { mp4 := true } { cursor farMp4 with maxPos := 2 ^ 63 - 1 }).1 = .ok ArbitraryBinaryData ∧
    fromBytes Cfg.release { mp4 := true } farMp4 = .ok Mpeg4Part14 := by
  unfold Recognised; decide +kernel

example : ∀ s : Src, s = { cursor farMp4 with maxPos := 2 ^ 63 - 1, revs := [.full, .short 1] } →
    s.WF ∧ IsSlice s.data ∧ s.Benign ∧ (s.read 36870).1 = .ok (s.data.take 36870) := by
  rintro s rfl
  refine ⟨⟨by decide, by decide⟩, by unfold IsSlice; decide, ⟨?_, ?_⟩, by decide +kernel⟩
  · intro e he; simp at he
  · intro e he; nomatch he

end FF.Props
