import Verif.Proofs.MetaTable
import Verif.Spec.Meta
/-!
# C40, C41: the metadata methods
-/

namespace FF.Props
open FF FileFormat Spec

set_option maxRecDepth 100000

/-- The position of a variant in the enum is below the number of variants. -/
theorem ctorIdx_lt (f : FileFormat) : f.ctorIdx < 447 := by
  cases f <;> exact Nat.le_of_ble_eq_true rfl

theorem ctorIdx_inj {f g : FileFormat} (h : f.ctorIdx = g.ctorIdx) : f = g := by
  rw [← FileFormat.ofNat_ctorIdx f, h, FileFormat.ofNat_ctorIdx]

/-- The set of formats of a list, as a bit mask. -/
def mask (l : List FileFormat) : Nat := l.foldr (fun f m => m ||| 1 <<< f.ctorIdx) 0

theorem mem_of_mask {l : List FileFormat} {i : Nat} (h : (mask l).testBit i = true) :
    ∃ f ∈ l, f.ctorIdx = i := by
  induction l with
  | nil => simp [mask] at h
  | cons a t ih =>
    simp only [mask, List.foldr_cons, Nat.testBit_or, Bool.or_eq_true] at h
    rcases h with h | h
    · obtain ⟨f, hf, h⟩ := ih h
      exact ⟨f, List.mem_cons_of_mem _ hf, h⟩
    · refine ⟨a, List.mem_cons_self, ?_⟩
      rw [Nat.one_shiftLeft, Nat.testBit_two_pow] at h
      exact of_decide_eq_true h

/-- A list whose mask is full has every format. -/
theorem mem_of_full {l : List FileFormat} (h : mask l + 1 = 1 <<< 447) (f : FileFormat) : f ∈ l := by
  obtain ⟨g, hg, hi⟩ := mem_of_mask (l := l) (i := f.ctorIdx) (by
    rw [Nat.eq_sub_of_add_eq h, Nat.one_shiftLeft, Nat.testBit_two_pow_sub_one]
    exact decide_eq_true (ctorIdx_lt f))
  exact ctorIdx_inj hi ▸ hg

/-- The enum has no variants outside `all`. -/
theorem mem_all (f : FileFormat) : f ∈ FileFormat.all := mem_of_full (by decide +kernel) f

/-- The README entry of a format. -/
def entry (f : FileFormat) : String := readmeEntry f.name f.shortName

/-- The bytes of a string as a number. -/
def strKey (s : String) : Nat := s.toByteArray.data.toList.foldl (fun a c => a * 256 + c.toNat) 0

/-- Strictly increasing under a key. -/
def incr (k : FileFormat → Nat) : List FileFormat → Bool
  | a :: b :: t => decide (k a < k b) && incr k (b :: t)
  | _ => true

theorem incr_lt (k : FileFormat → Nat) (a : FileFormat) (l : List FileFormat) (h : incr k (a :: l) = true) :
    ∀ b ∈ l, k a < k b := by
  induction l generalizing a with
  | nil => simp
  | cons c t ih =>
    simp only [incr, Bool.and_eq_true, decide_eq_true_eq] at h
    intro b hb
    rcases List.mem_cons.mp hb with rfl | hb
    · exact h.1
    · exact Nat.lt_trans h.1 (ih c h.2 b hb)

theorem incr_tail (k : FileFormat → Nat) (a : FileFormat) (l : List FileFormat) (h : incr k (a :: l) = true) :
    incr k l = true := by
  cases l with
  | nil => rfl
  | cons c t =>
    simp only [incr, Bool.and_eq_true] at h
    exact h.2

theorem incr_inj (k : FileFormat → Nat) (l : List FileFormat) (h : incr k l = true) :
    ∀ a ∈ l, ∀ b ∈ l, k a = k b → a = b := by
  induction l with
  | nil => simp
  | cons c t ih =>
    have h1 := incr_lt k c t h
    have h2 := ih (incr_tail k c t h)
    intro a ha b hb hab
    rcases List.mem_cons.mp ha with ha | ha
    · rcases List.mem_cons.mp hb with hb | hb
      · rw [ha, hb]
      · have := h1 b hb
        rw [← ha] at this; omega
    · rcases List.mem_cons.mp hb with hb | hb
      · have := h1 a ha
        rw [← hb] at this; omega
      · exact h2 a ha b hb hab

theorem nameOrder_incr : incr (fun f => strKey f.name) Meta.nameOrder = true := by decide +kernel
theorem entryOrder_incr : incr (fun f => strKey (entry f)) Meta.entryOrder = true := by decide +kernel
theorem mem_nameOrder (f : FileFormat) : f ∈ Meta.nameOrder := mem_of_full (by decide +kernel) f
theorem mem_entryOrder (f : FileFormat) : f ∈ Meta.entryOrder := mem_of_full (by decide +kernel) f
theorem readmeOrder_eq :
    readme = Meta.readmeOrder.map (fun p => (readmeHeading p.1, p.2.map entry)) := by decide +kernel
theorem readmeOrder_kind : ∀ p ∈ Meta.readmeOrder, ∀ f ∈ p.2, f.kind = p.1 := by decide +kernel
theorem readmeOrder_all (f : FileFormat) : ∃ p ∈ Meta.readmeOrder, f ∈ p.2 :=
  List.mem_flatMap.mp (mem_of_full (l := Meta.readmeOrder.flatMap (·.2)) (by decide +kernel) f)

/-- C40. Every format is listed in the README under its kind, with its name and short name. -/
theorem C40_listed (f : FileFormat) :
    ∃ entries, (readmeHeading f.kind, entries) ∈ readme ∧
      readmeEntry f.name f.shortName ∈ entries := by
  obtain ⟨p, hp, hf⟩ := readmeOrder_all f
  refine ⟨p.2.map entry, ?_, List.mem_map.mpr ⟨f, hf, rfl⟩⟩
  rw [readmeOrder_eq, readmeOrder_kind p hp f hf]
  exact List.mem_map.mpr ⟨p, hp, rfl⟩

/-- C40. Every entry of the README list is a format of that kind, name and short name, and only
one. -/
theorem C40_no_others (heading : String) (entries : List String) (h : (heading, entries) ∈ readme)
    (e : String) (he : e ∈ entries) :
    ∃ f : FileFormat, readmeEntry f.name f.shortName = e ∧ readmeHeading f.kind = heading ∧
      ∀ g : FileFormat, readmeEntry g.name g.shortName = e → g = f := by
  rw [readmeOrder_eq] at h
  obtain ⟨p, hp, heq⟩ := List.mem_map.mp h
  cases heq
  obtain ⟨f, hf, rfl⟩ := List.mem_map.mp he
  refine ⟨f, rfl, by rw [readmeOrder_kind p hp f hf], fun g hg => ?_⟩
  exact incr_inj _ _ entryOrder_incr g (mem_entryOrder g) f (mem_entryOrder f)
    (congrArg strKey hg)

/-- C40. `Display` prints the name, `Default` is the catch-all format. -/
theorem C40_display (f : FileFormat) : f.display = f.name ∧ FileFormat.default = ArbitraryBinaryData :=
  ⟨rfl, rfl⟩

example : readmeEntry Zip.name Zip.shortName = "ZIP" ∧
    readmeEntry SevenZip.name SevenZip.shortName = "7-Zip (7Z)" := by decide +kernel

/-! ## C41 -/

/-- A checker for media types. -/
def mediaOk (m : List Char) : Bool :=
  let t := m.takeWhile (· ≠ '/')
  let r := m.dropWhile (· ≠ '/')
  topLevelTypes.contains t &&
    match r with
    | '/' :: c :: s => isLowerAlnum c && decide (s.length < 127) &&
        s.all (fun c => isLowerAlnum c || ['!', '#', '$', '&', '-', '^', '_', '.', '+'].contains c)
    | _ => false

theorem mediaOk_sound (m : String) (h : mediaOk m.toList = true) : WellFormedMediaType m := by
  simp only [mediaOk, Bool.and_eq_true] at h
  obtain ⟨h1, h2⟩ := h
  split at h2
  · rename_i c s hr
    simp only [Bool.and_eq_true, decide_eq_true_eq, List.all_eq_true, Bool.or_eq_true] at h2
    obtain ⟨⟨h2, h3⟩, h4⟩ := h2
    refine ⟨m.toList.takeWhile (· ≠ '/'), c :: s, ?_, by simpa using h1, ⟨c, s, rfl, h2⟩, ?_, ?_⟩
    · rw [← hr, List.takeWhile_append_dropWhile]
    · simp; omega
    · intro x hx
      rcases List.mem_cons.mp hx with rfl | hx
      · exact Or.inl h2
      · rcases h4 x hx with h | h
        · exact Or.inl h
        · exact Or.inr (by simpa using h)
  · cases h2

/-- A checker for extensions. -/
def extOk (e : List Char) : Bool :=
  !e.isEmpty && e.all (fun c => isLowerAlnum c || ('A' ≤ c && c ≤ 'Z') || c == '-')

theorem extOk_sound (e : String) (h : extOk e.toList = true) : WellFormedExtension e := by
  simp only [extOk, Bool.and_eq_true, List.all_eq_true, Bool.or_eq_true] at h
  refine ⟨by simpa using h.1, fun c hc => ?_⟩
  rcases h.2 c hc with (h | h) | h
  · exact Or.inl h
  · exact Or.inr (Or.inl (by simpa using h))
  · exact Or.inr (Or.inr (by simpa using h))

theorem media_ok1 : ∀ f ∈ FileFormat.all.take 150, mediaOk f.mediaType.toList = true := by
  decide +kernel
theorem media_ok2 : ∀ f ∈ (FileFormat.all.drop 150).take 150, mediaOk f.mediaType.toList = true := by
  decide +kernel
theorem media_ok3 : ∀ f ∈ (FileFormat.all.drop 150).drop 150, mediaOk f.mediaType.toList = true := by
  decide +kernel

theorem media_ok (f : FileFormat) (h : f ∈ FileFormat.all) : mediaOk f.mediaType.toList = true := by
  rw [← List.take_append_drop 150 FileFormat.all, List.mem_append] at h
  rcases h with h | h
  · exact media_ok1 f h
  · rw [← List.take_append_drop 150 (FileFormat.all.drop 150), List.mem_append] at h
    exact h.elim (media_ok2 f) (media_ok3 f)

theorem ext_ok : ∀ f ∈ FileFormat.all, extOk f.extension.toList = true := by decide +kernel

/-- C41. `media_type` is a well-formed media type. -/
theorem C41_media_type (f : FileFormat) : WellFormedMediaType f.mediaType :=
  mediaOk_sound _ (media_ok f (mem_all f))

/-- C41. `extension` is never empty and can be appended to a file name as it is. -/
theorem C41_extension (f : FileFormat) : WellFormedExtension f.extension :=
  extOk_sound _ (ext_ok f (mem_all f))

/-- C41. The name identifies the format. -/
theorem C41_names_unique (f g : FileFormat) (h : f.name = g.name) : f = g :=
  incr_inj _ _ nameOrder_incr f (mem_nameOrder f) g (mem_nameOrder g)
    (congrArg strKey h)

-- Short names, media types and extensions do not identify formats.
example : Mpeg4Part14Audio.shortName = Mpeg4Part14Video.shortName := by decide +kernel

end FF.Props
