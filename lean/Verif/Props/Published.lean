import Verif.Proofs.Published
import Verif.Props.Signature
/-!
# C47: published magic numbers
-/

namespace FF.Props
open FF FileFormat Spec

/-- C47 as one would wish it: whoever shows the published magic number of a format is reported as that format,
unless the content has the magic of a format listed before it, too. -/
def C47_statement : Prop :=
  ∀ k ∈ allPublished, ∀ (cfg : Cfg) (b : Bytes), IsSlice b → Shows b k →
    ∃ g, fromBytes cfg Features.none b = .ok g ∧ HasMagic g b ∧ (g = k.1 ∨ ListedBefore g k.1)

/-- The code violates C47: the cookie of a virtual hard disk is `conectix`, the table has `connectix`. -/
theorem C47_fails : ¬ C47_statement := by
  intro h
  obtain ⟨g, hg, hm, _⟩ := h (MicrosoftVirtualHardDisk, [(0, b!"conectix")])
    (List.mem_append_right _ (List.mem_cons_self ..)) Cfg.release (b!"conectix")
    (by decide) (by
      intro p hp
      simp only [List.mem_singleton] at hp
      subst hp
      exact ⟨[], [], rfl, rfl⟩)
  have : fromBytes Cfg.release Features.none (b!"conectix") = .ok ArbitraryBinaryData := by decide +kernel
  rw [this] at hg
  cases hg
  have hn : fromSignature (b!"conectix") = none := by decide +kernel
  exact fromSignature_none.mp hn _ hm

/-- Each of the missed magic numbers (the brand `avci` of AVC images, for one, which the table spells
`avic`) is not reported as its format. -/
theorem C47_missed : ∀ k ∈ publishedMissed, ∀ cfg, fromBytes cfg Features.none (sample k) ≠ .ok k.1 := by
  have h : (publishedMissed.all fun k => fromSignature (sample k) != some k.1 &&
      decide ((sample k).length < 2 ^ 64) && k.1 != FileFormat.default && k.1 != FileFormat.Empty) = true := by decide +kernel
  intro k hk cfg
  have hk := List.all_eq_true.mp h k hk
  simp only [Bool.and_eq_true, decide_eq_true_eq, bne_iff_ne, ne_eq] at hk
  obtain ⟨⟨⟨h1, h2⟩, h3⟩, h4⟩ := hk
  rw [fromBytes_none cfg _ h2]
  intro he
  split at he
  · injection he with he; exact h4 he.symm
  · injection he with he
    cases hs : fromSignature (sample k) with
    | none => rw [hs] at he; exact h3 he.symm
    | some g => rw [hs] at he h1; exact h1 (by rw [← he]; rfl)

/-- Raw images of Nikon in big-endian order are told to be TIFF images. -/
theorem C47_big_endian_raw (cfg : Cfg) : fromBytes cfg Features.none
    (b!"MM\x00*\x00\x00\x00\x08\x00\x1c\x00\xfe") = .ok TagImageFileFormat := by
  rw [fromBytes_none cfg _ (by decide +kernel)]
  decide +kernel

theorem sample_shows {f : FileFormat} {o : Nat} {v : Bytes} : Shows (sample (f, [(o, v)])) (f, [(o, v)]) := by
  intro p hp
  simp only [List.mem_singleton] at hp
  subst hp
  exact ⟨List.replicate o 0, [], by simp [sample], by simp⟩

theorem published_covered : ((published ++ publishedMore).all covered) = true := by
  decide +kernel

/-- C47 for all published magic numbers but the missed ones. -/
theorem C47_recognised_partial (k : Published) (hk : k ∈ allPublished) (hv : k ∉ publishedMissed) (cfg : Cfg) (b : Bytes)
    (hb : IsSlice b) (h : Shows b k) :
    ∃ g, fromBytes cfg Features.none b = .ok g ∧ HasMagic g b ∧ (g = k.1 ∨ ListedBefore g k.1) := by
  rcases List.mem_append.mp hk with hk | hk
  · exact C05_complete cfg b hb k.1 (covered_sound (List.all_eq_true.mp published_covered k hk) h)
  · exact absurd hk hv

theorem published_settled : (publishedDistinct.all fun k => settled k signatureTable) = true := by
  decide +kernel

/-- C47. The distinct ones decide alone, whatever else the content holds. -/
theorem C47_distinct (k : Published) (hk : k ∈ publishedDistinct) (cfg : Cfg) (b : Bytes) (hb : IsSlice b) (h : Shows b k) :
    fromBytes cfg Features.none b = .ok k.1 := by
  have hb' : b.length < 2 ^ 63 := hb
  have hs : fromSignature b = some k.1 := settled_sound signatureTable (List.all_eq_true.mp published_settled k hk) h
  have hm : HasMagic k.1 b := fromSignature_some hs
  rw [fromBytes_none cfg b (by omega), if_neg (hasMagic_nonempty hm), hs]
  rfl

-- Non-vacuity: contents that show a magic number, with anything behind it.
example (tail : Bytes) : Shows (b!"\x89PNG\r\n\x1a\n" ++ tail) (PortableNetworkGraphics, [(0, b!"\x89PNG\r\n\x1a\n")]) := by
  intro p hp
  simp only [List.mem_singleton] at hp
  subst hp
  exact ⟨[], tail, rfl, rfl⟩
example : (PortableNetworkGraphics, [(0, b!"\x89PNG\r\n\x1a\n")]) ∈ published := by decide +kernel
example : (Sqlite3, [(0, b!"SQLite format 3\x00")]) ∈ publishedDistinct := by decide +kernel
-- The verdict is not always the format itself: a GIF file with a tape archive header at offset 257.
example : fromBytes Cfg.release Features.none (b!"GIF89a" ++ List.replicate 251 0 ++ b!"ustar  \x00") = .ok TapeArchive := by
  decide +kernel

/-! ## C67 -/

/-- C67 as one would wish it: a format is reported only for content that shows one of its published magic
numbers. -/
def C67_statement : Prop :=
  ∀ (cfg : Cfg) (b : Bytes) (g : FileFormat), IsSlice b → fromBytes cfg Features.none b = .ok g →
    g = FileFormat.Empty ∨ g = FileFormat.default ∨ ∃ k ∈ allPublished, k.1 = g ∧ Shows b k

/-- C67 does not hold: text that starts with `0707` is a cpio archive (whose magic numbers are `070701`,
`070702` and `070707`). -/
theorem C67_fails : ¬ C67_statement := by
  intro h
  have hv : fromBytes Cfg.release Features.none (b!"0707 555 1234") = .ok Cpio := by decide +kernel
  rcases h _ _ _ (by decide) hv with h | h | ⟨k, hk, hf, hs⟩
  · cases h
  · cases h
  · have hno : (allPublished.all fun k => !Nat.beq k.1.ctorIdx Cpio.ctorIdx ||
        !(k.2.all fun p => Part.matches ⟨p.1, p.2⟩ (b!"0707 555 1234"))) = true := by decide +kernel
    have h1 := List.all_eq_true.mp hno k hk
    rw [hf] at h1
    have h2 : (k.2.all fun p => Part.matches ⟨p.1, p.2⟩ (b!"0707 555 1234")) = true :=
      List.all_eq_true.mpr fun p hp => (part_matches_iff ⟨p.1, p.2⟩ _).mpr (hs p hp)
    rw [h2] at h1
    exact absurd h1 (by decide)

/-- The most far-reaching cases: a zlib stream (`78 01`) is an Apple disk image. -/
theorem C67_zlib : ∀ (cfg : Cfg) (b : Bytes), IsSlice b → MagicAt 0 (b!"x\x01") b →
    ∃ g, fromBytes cfg Features.none b = .ok g ∧ (g = AppleDiskImage ∨ ListedBefore g AppleDiskImage) := by
  intro cfg b hb h
  have hc : covered (AppleDiskImage, [(0, b!"x\x01")]) = true := by decide +kernel
  obtain ⟨g, h1, _, h2⟩ := C05_complete cfg b hb AppleDiskImage (covered_sound hc (by
    intro p hp
    simp only [List.mem_singleton] at hp
    subst hp
    exact h))
  exact ⟨g, h1, h2⟩

theorem table_backed : (signatureTable.all fun e =>
    looselyRecognised.any (fun f => Nat.beq f.ctorIdx e.format.ctorIdx) ||
      e.alts.all (backed (published ++ publishedMore) e.format)) = true := by
  decide +kernel

/-- C67 for all formats but those in `looselyRecognised`. -/
theorem C67_shows_partial (cfg : Cfg) (b : Bytes) (g : FileFormat) (hb : IsSlice b)
    (hg : fromBytes cfg Features.none b = .ok g) (hl : g ∉ looselyRecognised) :
    g = FileFormat.Empty ∨ g = FileFormat.default ∨ ∃ k ∈ allPublished, k.1 = g ∧ Shows b k := by
  have hb' : b.length < 2 ^ 63 := hb
  rw [fromBytes_none cfg b (by omega)] at hg
  split at hg
  · cases hg; exact Or.inl rfl
  · cases hs : fromSignature b with
    | none => rw [hs] at hg; cases hg; exact Or.inr (Or.inl rfl)
    | some f =>
      rw [hs] at hg
      cases hg
      obtain ⟨e, he, hef, alt, ha, hc⟩ := fromSignature_some hs
      have h1 := List.all_eq_true.mp table_backed e he
      rw [Bool.or_eq_true] at h1
      rcases h1 with h1 | h1
      · exfalso
        obtain ⟨x, hx, h1⟩ := List.any_eq_true.mp h1
        have := fmt_of_idx (Nat.eq_of_beq_eq_true h1)
        rw [hef] at this
        rw [← this] at hl
        exact hl hx
      · obtain ⟨k, hk, hkf, hks⟩ := backed_sound (List.all_eq_true.mp h1 alt ha) hc
        refine Or.inr (Or.inr ⟨k, List.mem_append_left _ hk, ?_, hks⟩)
        rw [hkf]; exact hef

/-- How many that is: 296 of the 343 formats with a magic number. -/
theorem C67_most_formats : (signatureTable.filter fun e =>
    !looselyRecognised.any (fun f => Nat.beq f.ctorIdx e.format.ctorIdx)).length = 296 := by
  decide +kernel

/-- The bytes of an alternative of the table, with dashes between and behind them. -/
def dashed (alt : List Part) : Bytes :=
  alt.foldl (fun b p => b ++ List.replicate (p.offset - b.length) 45 ++ p.value) [] ++ List.replicate 16 45

/-- A content that is reported as `f` but does not show a published magic number of it. -/
def looseWitness (f : FileFormat) (b : Bytes) : Bool :=
  fromSignature b == some f && decide (b.length < 2 ^ 63) && b.length != 0 &&
    allPublished.all fun k => !Nat.beq k.1.ctorIdx f.ctorIdx || !(k.2.all fun p => Part.matches ⟨p.1, p.2⟩ b)

theorem loosely_witnessed : (looselyRecognised.all fun f => signatureTable.any fun e =>
    Nat.beq e.format.ctorIdx f.ctorIdx && e.alts.any fun alt => looseWitness f (dashed alt)) = true := by decide +kernel

/-- C67, the exceptions are all of them violations: each format in `looselyRecognised` is reported for some content that shows
none of its published magic numbers. -/
theorem C67_loose (f : FileFormat) (hf : f ∈ looselyRecognised) (cfg : Cfg) :
    ∃ b, IsSlice b ∧ fromBytes cfg Features.none b = .ok f ∧ ∀ k ∈ allPublished, k.1 = f → ¬ Shows b k := by
  obtain ⟨e, _, h⟩ := List.any_eq_true.mp (List.all_eq_true.mp loosely_witnessed f hf)
  rw [Bool.and_eq_true] at h
  obtain ⟨alt, _, h⟩ := List.any_eq_true.mp h.2
  unfold looseWitness at h
  simp only [Bool.and_eq_true, beq_iff_eq, decide_eq_true_eq, bne_iff_ne, ne_eq] at h
  obtain ⟨⟨⟨h1, h2⟩, h3⟩, h4⟩ := h
  refine ⟨dashed alt, h2, ?_, fun k hk hkf hs => ?_⟩
  · rw [fromBytes_none cfg _ (by omega), if_neg h3, h1]
    rfl
  · have h5 := List.all_eq_true.mp h4 k hk
    rw [hkf] at h5
    have h6 : (k.2.all fun p => Part.matches ⟨p.1, p.2⟩ (dashed alt)) = true :=
      List.all_eq_true.mpr fun p hp => (part_matches_iff ⟨p.1, p.2⟩ _).mpr (hs p hp)
    rw [h6] at h5
    simp at h5

-- Non-vacuity.
example : fromBytes Cfg.release Features.none (b!"GIF89a...") = .ok GraphicsInterchangeFormat ∧
    GraphicsInterchangeFormat ∉ looselyRecognised := by decide +kernel

end FF.Props
