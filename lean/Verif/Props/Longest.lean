import Verif.Props.Signature
import Verif.Spec.Longest
/-!
# C66: the longest magic value wins
-/

namespace FF.Props
open FF FileFormat Spec

/-- C66 as the order of the table suggests it: when the input holds magic values of several formats,
the verdict is a format with the longest of them. -/
def C66_statement : Prop :=
  ∀ (cfg : Cfg) (b : Bytes) (f : FileFormat), IsSlice b → HasMagic f b →
    ∃ g, fromBytes cfg Features.none b = .ok g ∧ HasLongestMagic g b

/-- A `FF 0A` at the start (the 2-byte magic of a JPEG XL codestream) in front of a DICOM file, whose
128-byte preamble is free for any use. -/
def dicomAfterPreamble : Bytes := b!"\xFF\x0A" ++ List.replicate 126 0 ++ b!"DICM"

theorem isMagicOf_mem {f : FileFormat} {alt : List Part} (h : IsMagicOf f alt) :
    ∃ e ∈ signatureTable, e.format = f ∧ alt ∈ e.alts := h

/-- C66 does not hold: entries are sorted by their longest alternative, and a match of a short one
(2 bytes at offset 0) of an early entry hides a longer magic (4 bytes at 128) of a later one. -/
theorem C66_fails : ¬ C66_statement := by
  intro h
  have hv : fromBytes Cfg.release Features.none dicomAfterPreamble = .ok JpegXl := by decide +kernel
  have hx : signatureTable.any (fun e => e.format == DigitalImagingAndCommunicationsInMedicine &&
      e.alts.any fun alt => alt.all (fun p => p.matches dicomAfterPreamble) &&
        magicSize alt == 4) = true := by decide +kernel
  obtain ⟨e, he, hx⟩ := List.any_eq_true.mp hx
  obtain ⟨hf, hx⟩ := Bool.and_eq_true_iff.mp hx
  obtain ⟨alt, ha, hx⟩ := List.any_eq_true.mp hx
  obtain ⟨hm, hs⟩ := Bool.and_eq_true_iff.mp hx
  have hc : Carries dicomAfterPreamble alt := fun p hp =>
    (part_matches_iff p _).mp (List.all_eq_true.mp hm p hp)
  obtain ⟨g, hg, alt', ⟨e', he', hf', ha'⟩, hc', hall⟩ := h Cfg.release dicomAfterPreamble e.format
    (by decide +kernel) ⟨e, he, rfl, alt, ha, hc⟩
  rw [hv] at hg
  cases hg
  have h4 := hall e.format alt ⟨e, he, rfl, ha⟩ hc
  rw [beq_iff_eq.mp hs] at h4
  have hno : signatureTable.all (fun e => e.format != JpegXl ||
      e.alts.all fun alt => decide (magicSize alt < 4) ||
        !(alt.all fun p => p.matches dicomAfterPreamble)) = true := by decide +kernel
  have h1 := List.all_eq_true.mp hno e' he'
  rw [hf'] at h1
  have h2 : (e'.alts.all fun alt => decide (magicSize alt < 4) ||
        !(alt.all fun p => p.matches dicomAfterPreamble)) = true := by simpa using h1
  have h3 := List.all_eq_true.mp h2 alt' ha'
  have hm' : (alt'.all fun p => p.matches dicomAfterPreamble) = true :=
    List.all_eq_true.mpr fun p hp => (part_matches_iff p _).mpr (hc' p hp)
  rw [hm'] at h3
  simp at h3
  omega

theorem entry_unique {x y : SigEntry} (hx : x ∈ signatureTable) (hy : y ∈ signatureTable)
    (h : x.format = y.format) : x = y := by
  obtain ⟨i, hi, rfl⟩ := List.getElem_of_mem hx
  obtain ⟨j, hj, rfl⟩ := List.getElem_of_mem hy
  have : i = j := by
    refine (List.getElem_inj (xs := signatureTable.map SigEntry.format) (h₀ := by simpa using hi)
      (h₁ := by simpa using hj) table_nodup).mp ?_
    simpa using h
  subst this; rfl

theorem le_foldr_max {l : List Nat} {a : Nat} (h : a ∈ l) : a ≤ l.foldr max 0 := by
  induction l with
  | nil => cases h
  | cons x l ih =>
    simp only [List.foldr_cons]
    rcases List.mem_cons.mp h with rfl | h
    · omega
    · have := ih h; omega

theorem foldr_max_mem {l : List Nat} (h : l ≠ []) : l.foldr max 0 ∈ l := by
  induction l with
  | nil => exact absurd rfl h
  | cons x l ih =>
    simp only [List.foldr_cons]
    by_cases hl : l = []
    · subst hl; simp
    · have := ih hl
      by_cases hx : x ≤ l.foldr max 0
      · rw [Nat.max_eq_right hx]; exact List.mem_cons_of_mem _ this
      · rw [Nat.max_eq_left (by omega)]; simp

theorem listed_longest {f g : FileFormat} (h : ListedBefore g f) {e e' : SigEntry}
    (he : e ∈ signatureTable) (he' : e' ∈ signatureTable) (hf : e.format = f) (hg : e'.format = g) :
    longestMagic e ≤ longestMagic e' := by
  obtain ⟨l1, d', l2, d, l3, ht, hd', hd⟩ := h
  have hs := C06_sorted
  rw [ht, List.append_assoc, List.cons_append] at hs
  have h1 := (List.pairwise_append.mp hs).2.1
  have h2 := (List.pairwise_cons.mp h1).1 d (by simp)
  have e1 : e = d := entry_unique he (y := d) (by rw [ht]; simp) (by rw [hf, hd])
  have e2 : e' = d' := entry_unique he' (y := d') (by rw [ht]; simp) (by rw [hg, hd'])
  rw [e1, e2]; exact h2

/-- C66, the part that holds of every input: no magic value in the input is longer than the longest
magic value of the verdict's format (of which the input may hold a shorter one). -/
theorem C66_longest_partial (cfg : Cfg) (b : Bytes) (hb : IsSlice b) (f g : FileFormat)
    (alt : List Part) (hf : IsMagicOf f alt) (hc : Carries b alt)
    (hg : fromBytes cfg Features.none b = .ok g) :
    HasMagic g b ∧ ∃ alt', IsMagicOf g alt' ∧ magicSize alt ≤ magicSize alt' := by
  obtain ⟨e, he, hef, ha⟩ := hf
  obtain ⟨g', hg', hmg, hord⟩ := C05_complete cfg b hb f ⟨e, he, hef, alt, ha, hc⟩
  rw [hg] at hg'
  cases hg'
  refine ⟨hmg, ?_⟩
  rcases hord with h | h
  · subst h; exact ⟨alt, ⟨e, he, hef, ha⟩, Nat.le_refl _⟩
  · obtain ⟨e', he', hef', alt0, ha0, _⟩ := hmg
    have hle := listed_longest h he he' hef hef'
    have h1 : magicSize alt ≤ longestMagic e := le_foldr_max (List.mem_map.mpr ⟨alt, ha, rfl⟩)
    have h2 : longestMagic e' ∈ e'.alts.map fun alt => (alt.map fun p => p.value.length).sum := by
      apply foldr_max_mem
      intro h0
      rw [List.map_eq_nil_iff] at h0
      rw [h0] at ha0; cases ha0
    obtain ⟨alt', ha', hl⟩ := List.mem_map.mp h2
    refine ⟨alt', ⟨e', he', hef', ha'⟩, ?_⟩
    have : magicSize alt' = longestMagic e' := hl
    omega

/-- C66 holds in full when the magic values of the verdict's format all have one size. -/
theorem C66_one_size_partial (cfg : Cfg) (b : Bytes) (hb : IsSlice b) (f g : FileFormat)
    (hf : HasMagic f b) (hg : fromBytes cfg Features.none b = .ok g) (h1 : OneSize g) :
    HasLongestMagic g b := by
  obtain ⟨e, he, hef, alt, ha, hc⟩ := hf
  obtain ⟨⟨e', he', hef', alt', ha', hc'⟩, _⟩ :=
    C66_longest_partial cfg b hb f g alt ⟨e, he, hef, ha⟩ hc hg
  refine ⟨alt', ⟨e', he', hef', ha'⟩, hc', ?_⟩
  intro f2 alt2 hf2 hc2
  obtain ⟨_, alt3, hg3, hle⟩ := C66_longest_partial cfg b hb f2 g alt2 hf2 hc2 hg
  rw [h1 alt' alt3 ⟨e', he', hef', ha'⟩ hg3]
  exact hle

/-- C66, how often: all but 60 of the 343 entries have magic values of one size. -/
theorem C66_most_formats :
    (signatureTable.filter fun e => e.alts.all fun alt => e.alts.all fun alt' =>
      magicSize alt == magicSize alt').length = 283 ∧ signatureTable.length = 343 := by
  decide +kernel

/-- An entry of that kind makes its format one of one size. -/
theorem C66_one_size (f : FileFormat)
    (h : ∃ e ∈ signatureTable, e.format = f ∧
      (e.alts.all fun alt => e.alts.all fun alt' => magicSize alt == magicSize alt') = true) :
    OneSize f := by
  rintro alt alt' ⟨e1, he1, hf1, ha1⟩ ⟨e2, he2, hf2, ha2⟩
  obtain ⟨e, he, hf, hall⟩ := h
  have x1 : e1 = e := entry_unique he1 he (by rw [hf1, hf])
  have x2 : e2 = e := entry_unique he2 he (by rw [hf2, hf])
  subst x1
  subst x2
  have h1 := List.all_eq_true.mp hall alt ha1
  exact beq_iff_eq.mp (List.all_eq_true.mp h1 alt' ha2)

-- Non-vacuity: a tar archive whose first member is named like a GIF magic holds a 6-byte and an
-- 8-byte magic; the tar magic has one size and wins.
def gifNamedTar : Bytes := b!"GIF89a" ++ List.replicate 251 0 ++ b!"ustar\x0000"

example : fromBytes Cfg.release Features.none gifNamedTar = .ok TapeArchive ∧ OneSize TapeArchive ∧
    HasMagic GraphicsInterchangeFormat gifNamedTar := by
  refine ⟨by decide +kernel, C66_one_size _ ?_, ?_⟩
  · exact ⟨_, List.mem_of_find?_eq_some (p := fun e => e.format == TapeArchive) rfl, rfl, by
      decide +kernel⟩
  · have hx : signatureTable.any (fun e => e.format == GraphicsInterchangeFormat &&
      e.matches gifNamedTar) = true := by decide +kernel
    obtain ⟨e, he, hx⟩ := List.any_eq_true.mp hx
    obtain ⟨hf, hx⟩ := Bool.and_eq_true_iff.mp hx
    exact ⟨e, he, beq_iff_eq.mp hf, (entry_matches_iff e _).mp hx⟩

end FF.Props
