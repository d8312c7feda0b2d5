import Verif.Spec.Zip
import Verif.Proofs.Lossy
import Verif.Proofs.Leaves
/-!
# Names of ZIP entries and media types
-/

namespace FF
open Spec FileFormat

/-- Exact names and patterns of the model, in its order. -/
def zipName (s : Str) : Option FileFormat :=
  match zipNames.lookup s with
  | some f => some f
  | none => zipPatterns s

/-! ## The rules exclude each other -/

/-- All rules with a prefix. -/
def zipPrefixes : List (Bytes × FileFormat) :=
  zipDirectories ++ [(b!"Payload/", IosAppStorePackage), (b!"Documents/", Openxps),
    (b!"3D/", ThreeDimensionalManufacturingFormat)]

/-- All rules for the top level. -/
def zipSuffixes : List (Bytes × FileFormat) :=
  [(b!".fb2", FictionbookZip), (b!".usd", UniversalSceneDescriptionZip), (b!".usda", UniversalSceneDescriptionZip),
   (b!".usdc", UniversalSceneDescriptionZip)]

theorem nameMeans_class {n : Bytes} {f : FileFormat} (h : NameMeans n f) :
    (n, f) ∈ zipExactNames ∨ (∃ d, (d, f) ∈ zipPrefixes ∧ d <+: n) ∨
      (∃ s, (s, f) ∈ zipSuffixes ∧ s <:+ n ∧ TopLevel n) := by
  cases h with
  | exact h => exact .inl h
  | inside h hp => exact .inr (.inl ⟨_, List.mem_append_left _ h, hp⟩)
  | fb2 h ht => exact .inr (.inr ⟨_, by decide, h, ht⟩)
  | app h _ => exact .inr (.inl ⟨_, by decide, h⟩)
  | page h _ => exact .inr (.inl ⟨_, by decide, h⟩)
  | model h _ => exact .inr (.inl ⟨_, by decide, h⟩)
  | usd hs h ht =>
    simp only [List.mem_cons, List.not_mem_nil, or_false] at hs
    rcases hs with rfl | rfl | rfl
    · exact .inr (.inr ⟨_, by decide, h, ht⟩)
    · exact .inr (.inr ⟨_, by decide, h, ht⟩)
    · exact .inr (.inr ⟨_, by decide, h, ht⟩)

theorem prefix_slash : ∀ x ∈ zipPrefixes, 47 ∈ x.1 := by decide
theorem exact_prefix : ∀ x ∈ zipExactNames, ∀ y ∈ zipPrefixes, ¬ y.1 <+: x.1 := by decide
theorem exact_suffix : ∀ x ∈ zipExactNames, ∀ y ∈ zipSuffixes, ¬ y.1 <:+ x.1 := by decide
theorem exact_exact : ∀ x ∈ zipExactNames, ∀ y ∈ zipExactNames, x.1 = y.1 → x.2 = y.2 := by decide +kernel
theorem prefix_prefix : ∀ x ∈ zipPrefixes, ∀ y ∈ zipPrefixes, x.1 <+: y.1 → x.2 = y.2 := by decide +kernel
theorem suffix_suffix : ∀ x ∈ zipSuffixes, ∀ y ∈ zipSuffixes, x.1 <:+ y.1 → x.2 = y.2 := by decide +kernel

/-- A name tells at most one format. -/
theorem nameMeans_unique {n : Bytes} {f g : FileFormat} (hf : NameMeans n f) (hg : NameMeans n g) : f = g := by
  rcases nameMeans_class hf with h1 | ⟨d, h1, hd⟩ | ⟨s, h1, hs, ht⟩
  · rcases nameMeans_class hg with h2 | ⟨d', h2, hd'⟩ | ⟨s', h2, hs', ht'⟩
    · exact exact_exact _ h1 _ h2 rfl
    · exact absurd hd' (exact_prefix _ h1 _ h2)
    · exact absurd hs' (exact_suffix _ h1 _ h2)
  · rcases nameMeans_class hg with h2 | ⟨d', h2, hd'⟩ | ⟨s', h2, hs', ht'⟩
    · exact absurd hd (exact_prefix _ h2 _ h1)
    · rcases Nat.le_total d.length d'.length with hl | hl
      · exact prefix_prefix _ h1 _ h2 (List.prefix_of_prefix_length_le hd hd' hl)
      · exact (prefix_prefix _ h2 _ h1 (List.prefix_of_prefix_length_le hd' hd hl)).symm
    · exact absurd (hd.subset (prefix_slash _ h1)) ht'
  · rcases nameMeans_class hg with h2 | ⟨d', h2, hd'⟩ | ⟨s', h2, hs', ht'⟩
    · exact absurd hs (exact_suffix _ h2 _ h1)
    · exact absurd (hd'.subset (prefix_slash _ h2)) ht
    · rcases Nat.le_total s.length s'.length with hl | hl
      · exact suffix_suffix _ h1 _ h2 (List.suffix_of_suffix_length_le hs hs' hl)
      · exact (suffix_suffix _ h2 _ h1 (List.suffix_of_suffix_length_le hs' hs hl)).symm

/-! ## The model follows the rules -/

theorem zipNames_eq : zipNames = zipExactNames.map fun r => (asciiStr r.1, r.2) := by decide +kernel
theorem zipExactNames_ascii : ∀ r ∈ zipExactNames, Ascii r.1 := by decide

/-- Lookup by decoded text is lookup by bytes. -/
theorem lookup_lossy (t : List (Bytes × FileFormat)) (ht : ∀ r ∈ t, Ascii r.1) (n : Bytes) :
    (t.map fun r => (asciiStr r.1, r.2)).lookup (decodeLossy n) = t.lookup n := by
  induction t with
  | nil => rfl
  | cons r t ih =>
    obtain ⟨a, f⟩ := r
    have hr := ht (a, f) (by simp)
    simp only at hr
    simp only [List.map_cons, List.lookup_cons]
    rw [ih (fun r h => ht r (by simp [h]))]
    by_cases h : n = a
    · rw [beq_iff_eq.mpr h, beq_iff_eq.mpr ((lossy_eq a hr n).mpr h)]
    · rw [beq_eq_false_iff_ne.mpr h, beq_eq_false_iff_ne.mpr (fun e => h ((lossy_eq a hr n).mp e))]

theorem str_startsWith (n p : Bytes) (hp : Ascii p) : (decodeLossy n).startsWith (asciiStr p) = true ↔ p <+: n := by
  unfold Str.startsWith
  rw [List.isPrefixOf_iff_prefix, lossy_prefix p hp]

theorem str_endsWith (n p : Bytes) (hp : Ascii p) : (decodeLossy n).endsWith (asciiStr p) = true ↔ p <:+ n := by
  unfold Str.endsWith
  rw [List.isSuffixOf_iff_suffix, lossy_suffix p hp]

theorem str_contains (n p : Bytes) (hp : Ascii p) : (decodeLossy n).contains (asciiStr p) = true ↔ p <:+: n := by
  rw [strContains_iff, lossy_infix p hp]

theorem str_topLevel (n : Bytes) : (!(decodeLossy n).containsChar 47) = true ↔ TopLevel n := by
  unfold Str.containsChar TopLevel
  rw [← lossy_mem 47 (by decide)]
  simp [List.any_eq_false]
  constructor
  · intro h hm; exact h 47 hm rfl
  · intro h x hx he; subst he; exact h hx

theorem ite_some {c : Prop} [Decidable c] {a f : FileFormat} {r : Option FileFormat}
    (h : (if c then some a else r) = some f) : (c ∧ f = a) ∨ (¬ c ∧ r = some f) := by
  by_cases hc : c
  · rw [if_pos hc] at h; exact .inl ⟨hc, (Option.some.inj h).symm⟩
  · rw [if_neg hc] at h; exact .inr ⟨hc, h⟩

theorem ite_none {c : Prop} [Decidable c] {a : FileFormat} {r : Option FileFormat}
    (h : (if c then some a else r) = none) : ¬ c ∧ r = none := by
  by_cases hc : c
  · rw [if_pos hc] at h; cases h
  · rw [if_neg hc] at h; exact ⟨hc, h⟩

theorem zipPatterns_iff (n : Bytes) :
    (∀ f, zipPatterns (decodeLossy n) = some f → NameMeans n f) ∧
    (∀ f, zipPatterns (decodeLossy n) = none → NameMeans n f → (n, f) ∈ zipExactNames) := by
  have e1 : (decodeLossy n).startsWith s!!"Fusion[Active]/" = true ↔ _ := str_startsWith n b!"Fusion[Active]/" (by decide)
  have e2 : (decodeLossy n).startsWith s!!"circuitdiagram/" = true ↔ _ := str_startsWith n b!"circuitdiagram/" (by decide)
  have e3 : (decodeLossy n).startsWith s!!"dwf/" = true ↔ _ := str_startsWith n b!"dwf/" (by decide)
  have e4 : (decodeLossy n).endsWith s!!".fb2" = true ↔ _ := str_endsWith n b!".fb2" (by decide)
  have e5 : (decodeLossy n).startsWith s!!"FusionAssetName[Active]/" = true ↔ _ := str_startsWith n b!"FusionAssetName[Active]/" (by decide)
  have e6 : (decodeLossy n).startsWith s!!"Payload/" = true ↔ _ := str_startsWith n b!"Payload/" (by decide)
  have e7 : (decodeLossy n).contains s!!".app/" = true ↔ _ := str_contains n b!".app/" (by decide)
  have e8 : (decodeLossy n).startsWith s!!"word/" = true ↔ _ := str_startsWith n b!"word/" (by decide)
  have e9 : (decodeLossy n).startsWith s!!"visio/" = true ↔ _ := str_startsWith n b!"visio/" (by decide)
  have e10 : (decodeLossy n).startsWith s!!"ppt/" = true ↔ _ := str_startsWith n b!"ppt/" (by decide)
  have e11 : (decodeLossy n).startsWith s!!"xl/" = true ↔ _ := str_startsWith n b!"xl/" (by decide)
  have e12 : (decodeLossy n).startsWith s!!"Documents/" = true ↔ _ := str_startsWith n b!"Documents/" (by decide)
  have e13 : (decodeLossy n).endsWith s!!".fpage" = true ↔ _ := str_endsWith n b!".fpage" (by decide)
  have e14 : (decodeLossy n).startsWith s!!"SpaceClaim/" = true ↔ _ := str_startsWith n b!"SpaceClaim/" (by decide)
  have e15 : (decodeLossy n).startsWith s!!"3D/" = true ↔ _ := str_startsWith n b!"3D/" (by decide)
  have e16 : (decodeLossy n).endsWith s!!".model" = true ↔ _ := str_endsWith n b!".model" (by decide)
  have e17 : (decodeLossy n).endsWith s!!".usd" = true ↔ _ := str_endsWith n b!".usd" (by decide)
  have e18 : (decodeLossy n).endsWith s!!".usda" = true ↔ _ := str_endsWith n b!".usda" (by decide)
  have e19 : (decodeLossy n).endsWith s!!".usdc" = true ↔ _ := str_endsWith n b!".usdc" (by decide)
  have et := str_topLevel n
  have dir : ∀ d f, (d, f) ∈ zipDirectories → d <+: n → NameMeans n f := fun d f h hp => .inside h hp
  unfold zipPatterns
  constructor
  · intro f h
    rcases ite_some h with ⟨hc, rfl⟩ | ⟨_, h⟩
    · exact dir _ _ (by decide) (e1.mp hc)
    rcases ite_some h with ⟨hc, rfl⟩ | ⟨_, h⟩
    · exact dir _ _ (by decide) (e2.mp hc)
    rcases ite_some h with ⟨hc, rfl⟩ | ⟨_, h⟩
    · exact dir _ _ (by decide) (e3.mp hc)
    rcases ite_some h with ⟨hc, rfl⟩ | ⟨_, h⟩
    · rw [Bool.and_eq_true] at hc; exact .fb2 (e4.mp hc.1) (et.mp hc.2)
    rcases ite_some h with ⟨hc, rfl⟩ | ⟨_, h⟩
    · exact dir _ _ (by decide) (e5.mp hc)
    rcases ite_some h with ⟨hc, rfl⟩ | ⟨_, h⟩
    · rw [Bool.and_eq_true] at hc; exact .app (e6.mp hc.1) (e7.mp hc.2)
    rcases ite_some h with ⟨hc, rfl⟩ | ⟨_, h⟩
    · exact dir _ _ (by decide) (e8.mp hc)
    rcases ite_some h with ⟨hc, rfl⟩ | ⟨_, h⟩
    · exact dir _ _ (by decide) (e9.mp hc)
    rcases ite_some h with ⟨hc, rfl⟩ | ⟨_, h⟩
    · exact dir _ _ (by decide) (e10.mp hc)
    rcases ite_some h with ⟨hc, rfl⟩ | ⟨_, h⟩
    · exact dir _ _ (by decide) (e11.mp hc)
    rcases ite_some h with ⟨hc, rfl⟩ | ⟨_, h⟩
    · rw [Bool.and_eq_true] at hc; exact .page (e12.mp hc.1) (e13.mp hc.2)
    rcases ite_some h with ⟨hc, rfl⟩ | ⟨_, h⟩
    · exact dir _ _ (by decide) (e14.mp hc)
    rcases ite_some h with ⟨hc, rfl⟩ | ⟨_, h⟩
    · rw [Bool.and_eq_true] at hc; exact .model (e15.mp hc.1) (e16.mp hc.2)
    rcases ite_some h with ⟨hc, rfl⟩ | ⟨_, h⟩
    · rw [Bool.and_eq_true, Bool.or_eq_true, Bool.or_eq_true] at hc
      rcases hc.1 with (hs | hs) | hs
      · exact .usd (by decide) (e17.mp hs) (et.mp hc.2)
      · exact .usd (by decide) (e18.mp hs) (et.mp hc.2)
      · exact .usd (by decide) (e19.mp hs) (et.mp hc.2)
    · cases h
  · intro f h hm
    obtain ⟨n1, h⟩ := ite_none h
    obtain ⟨n2, h⟩ := ite_none h
    obtain ⟨n3, h⟩ := ite_none h
    obtain ⟨n4, h⟩ := ite_none h
    obtain ⟨n5, h⟩ := ite_none h
    obtain ⟨n6, h⟩ := ite_none h
    obtain ⟨n7, h⟩ := ite_none h
    obtain ⟨n8, h⟩ := ite_none h
    obtain ⟨n9, h⟩ := ite_none h
    obtain ⟨n10, h⟩ := ite_none h
    obtain ⟨n11, h⟩ := ite_none h
    obtain ⟨n12, h⟩ := ite_none h
    obtain ⟨n13, h⟩ := ite_none h
    obtain ⟨n14, h⟩ := ite_none h
    rw [Bool.and_eq_true] at n4 n6 n11 n13 n14
    rw [Bool.or_eq_true, Bool.or_eq_true] at n14
    cases hm with
    | exact h => exact h
    | inside hd hp =>
      exfalso
      simp only [zipDirectories, List.mem_cons, Prod.mk.injEq, List.not_mem_nil, or_false] at hd
      rcases hd with ⟨rfl, rfl⟩ | ⟨rfl, rfl⟩ | ⟨rfl, rfl⟩ | ⟨rfl, rfl⟩ | ⟨rfl, rfl⟩ | ⟨rfl, rfl⟩ | ⟨rfl, rfl⟩ |
        ⟨rfl, rfl⟩ | ⟨rfl, rfl⟩
      · exact n1 (e1.mpr hp)
      · exact n2 (e2.mpr hp)
      · exact n3 (e3.mpr hp)
      · exact n5 (e5.mpr hp)
      · exact n7 (e8.mpr hp)
      · exact n8 (e9.mpr hp)
      · exact n9 (e10.mpr hp)
      · exact n10 (e11.mpr hp)
      · exact n12 (e14.mpr hp)
    | fb2 h ht => exact absurd ⟨e4.mpr h, et.mpr ht⟩ n4
    | app h ha => exact absurd ⟨e6.mpr h, e7.mpr ha⟩ n6
    | page h hp => exact absurd ⟨e12.mpr h, e13.mpr hp⟩ n11
    | model h hp => exact absurd ⟨e15.mpr h, e16.mpr hp⟩ n13
    | usd hs h ht =>
      simp only [List.mem_cons, List.not_mem_nil, or_false] at hs
      rcases hs with rfl | rfl | rfl
      · exact absurd ⟨.inl (.inl (e17.mpr h)), et.mpr ht⟩ n14
      · exact absurd ⟨.inl (.inr (e18.mpr h)), et.mpr ht⟩ n14
      · exact absurd ⟨.inr (e19.mpr h), et.mpr ht⟩ n14

theorem lookup_pair {α β : Type} [BEq α] [LawfulBEq α] {t : List (α × β)} {a : α} {b : β} (h : t.lookup a = some b) :
    (a, b) ∈ t := by
  induction t with
  | nil => cases h
  | cons r t ih =>
    obtain ⟨x, y⟩ := r
    rw [List.lookup_cons] at h
    cases hx : a == x with
    | true =>
      rw [hx] at h
      simp only [Option.some.injEq] at h
      rw [beq_iff_eq.mp hx, h]
      simp
    | false =>
      rw [hx] at h
      exact List.mem_cons_of_mem _ (ih h)

/-- The model's test on the decoded name is the rule on the bytes. -/
theorem zipName_iff (n : Bytes) (f : FileFormat) : zipName (decodeLossy n) = some f ↔ NameMeans n f := by
  have fwd : ∀ f, zipName (decodeLossy n) = some f → NameMeans n f := by
    intro f h
    unfold zipName at h
    rw [zipNames_eq, lookup_lossy _ zipExactNames_ascii] at h
    cases hl : zipExactNames.lookup n with
    | some g =>
      rw [hl] at h
      cases h
      exact .exact (lookup_pair hl)
    | none =>
      rw [hl] at h
      exact (zipPatterns_iff n).1 f h
  refine ⟨fwd f, fun hm => ?_⟩
  cases hz : zipName (decodeLossy n) with
  | some g => rw [nameMeans_unique hm (fwd g hz)]
  | none =>
    exfalso
    unfold zipName at hz
    rw [zipNames_eq, lookup_lossy _ zipExactNames_ascii] at hz
    cases hl : zipExactNames.lookup n with
    | some g => rw [hl] at hz; cases hz
    | none =>
      rw [hl] at hz
      have hmem := (zipPatterns_iff n).2 f hz hm
      rw [List.lookup_eq_none_iff] at hl
      have := hl _ hmem
      simp at this

/-! ## Media types -/

theorem isWhitespace_iff (c : Char) : isWhitespace c.toNat = true ↔ White c := by
  unfold isWhitespace White
  simp only [Bool.or_eq_true, Bool.and_eq_true, decide_eq_true_eq, beq_iff_eq, List.mem_cons, List.not_mem_nil, or_false]
  omega

theorem dropWhile_split {α : Type} (p : α → Bool) (l r : List α) :
    l.dropWhile p = r ↔ (∃ a, l = a ++ r ∧ ∀ x ∈ a, p x = true) ∧ (∀ x, r.head? = some x → p x = false) := by
  induction l with
  | nil =>
    simp only [List.dropWhile_nil]
    constructor
    · rintro rfl
      exact ⟨⟨[], rfl, by simp⟩, by simp⟩
    · rintro ⟨⟨a, ha, _⟩, _⟩
      exact (List.append_eq_nil_iff.mp ha.symm).2.symm
  | cons x l ih =>
    cases hx : p x with
    | true =>
      rw [List.dropWhile_cons_of_pos hx, ih]
      constructor
      · rintro ⟨⟨a, rfl, ha⟩, h2⟩
        refine ⟨⟨x :: a, rfl, ?_⟩, h2⟩
        intro y hy
        rcases List.mem_cons.mp hy with rfl | hy
        · exact hx
        · exact ha y hy
      · rintro ⟨⟨a, he, ha⟩, h2⟩
        cases a with
        | nil =>
          rw [List.nil_append] at he
          have := h2 x (by rw [← he]; rfl)
          rw [hx] at this; cases this
        | cons y a =>
          rw [List.cons_append, List.cons.injEq] at he
          exact ⟨⟨a, he.2, fun z hz => ha z (by simp [hz])⟩, h2⟩
    | false =>
      rw [List.dropWhile_cons_of_neg (by simp [hx])]
      constructor
      · rintro rfl
        exact ⟨⟨[], rfl, by simp⟩, by simp [hx]⟩
      · rintro ⟨⟨a, he, ha⟩, h2⟩
        cases a with
        | nil => exact he
        | cons y a =>
          rw [List.cons_append, List.cons.injEq] at he
          have := ha y (by simp)
          rw [← he.1, hx] at this; cases this

theorem trim_iff (s m : Str) (h1 : ∀ x, m.head? = some x → isWhitespace x = false)
    (h2 : ∀ x, m.reverse.head? = some x → isWhitespace x = false) (hm : m ≠ []) :
    trim s = m ↔ ∃ a b, s = a ++ m ++ b ∧ (∀ x ∈ a, isWhitespace x = true) ∧ (∀ x ∈ b, isWhitespace x = true) := by
  unfold trim
  rw [List.reverse_eq_iff, dropWhile_split]
  constructor
  · rintro ⟨⟨a, ha, hw⟩, _⟩
    rw [List.reverse_eq_iff, List.reverse_append, List.reverse_reverse, dropWhile_split] at ha
    obtain ⟨⟨c, hc, hcw⟩, _⟩ := ha
    exact ⟨c, a.reverse, by rw [hc, List.append_assoc], hcw, by simpa using hw⟩
  · rintro ⟨a, b, rfl, ha, hb⟩
    have e : (a ++ m ++ b).dropWhile isWhitespace = m ++ b := by
      rw [dropWhile_split]
      refine ⟨⟨a, by rw [List.append_assoc], ha⟩, ?_⟩
      intro x hx
      cases m with
      | nil => exact absurd rfl hm
      | cons y m => exact h1 x (by simpa using hx)
    rw [e, List.reverse_append]
    exact ⟨⟨b.reverse, rfl, by simpa using hb⟩, h2⟩

theorem zipMimetypes_eq : zipMimetypes = zipMediaTypes.map fun r => (asciiStr r.1, r.2) := by decide +kernel
theorem zipMediaTypes_ascii : ∀ r ∈ zipMediaTypes, Ascii r.1 := by decide
theorem zipMediaTypes_trimmed : ∀ r ∈ zipMediaTypes, (asciiStr r.1).head?.all (fun x => !isWhitespace x) = true ∧
    (asciiStr r.1).reverse.head?.all (fun x => !isWhitespace x) = true ∧ r.1 ≠ [] := by decide +kernel
theorem zipMediaTypes_unique : ∀ r ∈ zipMediaTypes, ∀ r' ∈ zipMediaTypes, r.1 = r'.1 → r.2 = r'.2 := by decide +kernel

theorem asciiStr_inj {a b : Bytes} (h : asciiStr a = asciiStr b) : a = b :=
  (List.map_inj_right (f := UInt8.toNat) (fun _ _ => UInt8.toNat_inj.mp)).mp h

theorem isWhitespace_ne_bad {x : Nat} (h : isWhitespace x = true) : x ≠ 0xFFFD := by
  rintro rfl; revert h; decide

theorem isWhitespace_char {x : Nat} (h : isWhitespace x = true) : ∃ c : Char, c.toNat = x := by
  refine encode_of ?_
  unfold isWhitespace at h
  simp only [Bool.or_eq_true, Bool.and_eq_true, decide_eq_true_eq, beq_iff_eq] at h
  omega

/-- Trimming the decoded contents gives a media type exactly if the contents are this type with white
space around it. -/
theorem trim_lossy (content m : Bytes) (hm : Ascii m) (h1 : ∀ x, (asciiStr m).head? = some x → isWhitespace x = false)
    (h2 : ∀ x, (asciiStr m).reverse.head? = some x → isWhitespace x = false) (hne : m ≠ []) :
    trim (decodeLossy content) = asciiStr m ↔ ∃ before after, (∀ c ∈ before, White c) ∧ (∀ c ∈ after, White c) ∧
      content = utf8 before ++ m ++ utf8 after := by
  have hne' : asciiStr m ≠ [] := by simpa [asciiStr] using hne
  rw [trim_iff _ _ h1 h2 hne']
  constructor
  · rintro ⟨a, b, he, ha, hb⟩
    have hbad : 0xFFFD ∉ decodeLossy content := by
      rw [he]
      intro hx
      rw [List.mem_append, List.mem_append] at hx
      rcases hx with (hx | hx) | hx
      · exact isWhitespace_ne_bad (ha _ hx) rfl
      · obtain ⟨y, hy, hyx⟩ := List.mem_map.mp hx
        have := hm y hy
        omega
      · exact isWhitespace_ne_bad (hb _ hx) rfl
    obtain ⟨cs, hc, hd⟩ := utf8_of_lossy content hbad
    rw [hd] at he
    obtain ⟨ab, b', rfl, hab, hb'⟩ := List.map_eq_append_iff.mp he
    obtain ⟨a', m', rfl, ha', hm'⟩ := List.map_eq_append_iff.mp hab
    refine ⟨a', b', ?_, ?_, ?_⟩
    · intro c hc; exact (isWhitespace_iff c).mp (ha _ (by rw [← ha']; exact List.mem_map_of_mem hc))
    · intro c hc; exact (isWhitespace_iff c).mp (hb _ (by rw [← hb']; exact List.mem_map_of_mem hc))
    · rw [hc, utf8_append, utf8_append]
      congr 2
      refine (lossy_eq m hm _).mp ?_
      have := decodeLossy_utf8 m' []
      rw [List.append_nil, decodeLossy_nil, List.append_nil] at this
      rw [this, hm']
  · rintro ⟨before, after, hb, ha, rfl⟩
    refine ⟨before.map Char.toNat, after.map Char.toNat, ?_, ?_, ?_⟩
    · have := decodeLossy_utf8 after []
      rw [List.append_nil, decodeLossy_nil, List.append_nil] at this
      rw [List.append_assoc, decodeLossy_utf8, decodeLossy_ascii m _ hm, this, List.append_assoc]
    · intro x hx
      obtain ⟨c, hc, rfl⟩ := List.mem_map.mp hx
      exact (isWhitespace_iff c).mpr (hb c hc)
    · intro x hx
      obtain ⟨c, hc, rfl⟩ := List.mem_map.mp hx
      exact (isWhitespace_iff c).mpr (ha c hc)

theorem media_trim {m : Bytes} {f : FileFormat} (h : (m, f) ∈ zipMediaTypes) (content : Bytes) :
    trim (decodeLossy content) = asciiStr m ↔ ∃ before after, (∀ c ∈ before, White c) ∧ (∀ c ∈ after, White c) ∧
      content = utf8 before ++ m ++ utf8 after := by
  obtain ⟨h1, h2, h3⟩ := zipMediaTypes_trimmed _ h
  refine trim_lossy content m (zipMediaTypes_ascii _ h) ?_ ?_ h3
  · intro x hx; rw [hx] at h1; simpa using h1
  · intro x hx; rw [hx] at h2; simpa using h2

/-- What the model looks up is what the contents tell. -/
theorem zipMime_iff (content : Bytes) (f : FileFormat) :
    zipMimetypes.lookup (trim (decodeLossy content)) = some f ↔ MimeMeans content f := by
  constructor
  · intro h
    have := lookup_pair h
    rw [zipMimetypes_eq] at this
    obtain ⟨⟨m, g⟩, hr, he⟩ := List.mem_map.mp this
    simp only [Prod.mk.injEq] at he
    obtain ⟨he, rfl⟩ := he
    obtain ⟨b, a, hb, ha, hc⟩ := (media_trim hr content).mp he.symm
    exact ⟨m, b, a, hr, hb, ha, hc⟩
  · rintro ⟨m, b, a, hr, hb, ha, hc⟩
    have he := (media_trim hr content).mpr ⟨b, a, hb, ha, hc⟩
    rw [he]
    cases hl : zipMimetypes.lookup (asciiStr m) with
    | none =>
      rw [List.lookup_eq_none_iff] at hl
      have := hl (asciiStr m, f) (by rw [zipMimetypes_eq]; exact List.mem_map_of_mem (f := fun r => (asciiStr r.1, r.2)) hr)
      simp at this
    | some g =>
      have := lookup_pair hl
      rw [zipMimetypes_eq] at this
      obtain ⟨⟨m', g'⟩, hr', he'⟩ := List.mem_map.mp this
      simp only [Prod.mk.injEq] at he'
      obtain ⟨e1, rfl⟩ := he'
      have := asciiStr_inj e1
      subst this
      rw [show g' = f from zipMediaTypes_unique _ hr' _ hr rfl]

end FF
