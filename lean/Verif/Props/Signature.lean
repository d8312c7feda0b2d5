import Verif.Proofs.Cases
import Verif.Proofs.Sparse
/-!
# C03-C09: signatures
-/

namespace FF.Props
open FF FileFormat Spec

/-! ## C03 -/

/-- C03. `Empty` is reported exactly for the empty input, in every build and for every feature set. -/
theorem C03_empty_iff (cfg : Cfg) (ft : Features) (b : Bytes) (hb : IsSlice b) :
    fromBytes cfg ft b = .ok FileFormat.Empty ↔ b.length = 0 := by
  have hb' : b.length < 2 ^ 63 := hb
  constructor
  · intro h
    cases fromBytes_outcome cfg ft b (by omega) with
    | empty hd hr => simp [hd]
    | unknown hd hs hr =>
      rw [h] at hr
      rcases idealGeneric_cases ft b (2 ^ 64 - 1) with ⟨_, _, hg⟩ | ⟨_, hg⟩ <;> rw [hg] at hr <;> cases hr
    | plain hd f hs hn hr =>
      rw [h] at hr
      cases hr
      exact absurd rfl (hasMagic_special (fromSignature_some hs)).1
    | refined hd g hg he hs f hv hf hr =>
      rw [h] at hr
      cases hr
      exact absurd rfl (family_special g hg _ hf).1
    | failed hd g hg he hs e hv hr =>
      rw [h] at hr
      rcases idealGeneric_cases ft b (2 ^ 64 - 1) with ⟨_, _, hg⟩ | ⟨_, hg⟩ <;> rw [hg] at hr <;> cases hr
    | crashed hd g hg he hs x hx hv hr => rw [h] at hr; cases hr
  · intro h
    have : b = [] := List.eq_nil_of_length_eq_zero h
    subst this
    rw [fromBytes_ideal cfg ft [] (by simp)]
    rfl

example : fromBytes Cfg.debug Features.all [] = .ok FileFormat.Empty := by decide +kernel
example : fromBytes Cfg.debug Features.all [0] = .ok ArbitraryBinaryData := by decide +kernel

/-! ## C04, C05 -/

/-- C04. A format reported without readers has one of its magic values in the input. -/
theorem C04_sound (cfg : Cfg) (b : Bytes) (hb : IsSlice b) (f : FileFormat)
    (h : fromBytes cfg Features.none b = .ok f) (h1 : f ≠ FileFormat.Empty)
    (h2 : f ≠ ArbitraryBinaryData) : HasMagic f b := by
  have hb' : b.length < 2 ^ 63 := hb
  exact fromSignature_some (fromSignature_of_none (by omega) h h1 h2)

-- Non-vacuity, and an instance of `HasMagic` read off the table.
example : fromBytes Cfg.release Features.none (b!"\x89PNG\r\n\x1a\n....") = .ok PortableNetworkGraphics := by
  decide +kernel

theorem table_nonempty : signatureTable.all (fun e => e.alts.all fun alt =>
    alt.any fun p => !p.value.isEmpty) = true := by decide +kernel

theorem hasMagic_nonempty {f : FileFormat} {b : Bytes} (h : HasMagic f b) : b.length ≠ 0 := by
  obtain ⟨e, he, _, alt, ha, hc⟩ := h
  have h1 := List.all_eq_true.mp table_nonempty e he
  have h2 := List.all_eq_true.mp h1 alt ha
  obtain ⟨p, hp, h3⟩ := List.any_eq_true.mp h2
  obtain ⟨pre, suf, rfl, _⟩ := hc p hp
  cases hv : p.value with
  | nil => rw [hv] at h3; cases h3
  | cons a t => simp

/-- C05. A magic value in the input is never overlooked: the verdict is its format, or a format
that is listed before it and has a magic in the input as well. -/
theorem C05_complete (cfg : Cfg) (b : Bytes) (hb : IsSlice b) (f : FileFormat) (h : HasMagic f b) :
    ∃ g, fromBytes cfg Features.none b = .ok g ∧ HasMagic g b ∧ (g = f ∨ ListedBefore g f) := by
  have hb' : b.length < 2 ^ 63 := hb
  rw [fromBytes_none cfg b (by omega), if_neg (hasMagic_nonempty h)]
  cases hs : fromSignature b with
  | none => exact absurd h (fromSignature_none.mp hs f)
  | some g => exact ⟨g, rfl, fromSignature_some hs, fromSignature_first h hs⟩

theorem table_nodup : (signatureTable.map SigEntry.format).Nodup := by decide +kernel

/-- The order is strict: each format has one entry, so "listed before" never holds both ways. -/
theorem C05_order_strict (f g : FileFormat) (h : ListedBefore f g) : ¬ ListedBefore g f ∧ f ≠ g := by
  have nd := table_nodup
  obtain ⟨l1, e, l2, e', l3, ht, rfl, rfl⟩ := h
  have hne : e.format ≠ e'.format := by
    intro heq
    rw [ht] at nd
    simp only [List.map_append, List.map_cons, List.append_assoc, List.cons_append] at nd
    have := (List.nodup_append.mp nd).2.1
    rw [List.nodup_cons] at this
    apply this.1
    rw [heq]
    simp
  refine ⟨?_, hne⟩
  rintro ⟨m1, d, m2, d', m3, hm, hd, hd'⟩
  have key : ∀ {l : List FileFormat}, l.Nodup → ∀ {a b : FileFormat} {x1 x2 x3 y1 y2 y3},
      l = x1 ++ a :: (x2 ++ b :: x3) → l = y1 ++ b :: (y2 ++ a :: y3) → False := by
    intro l hl a b x1 x2 x3 y1 y2 y3 h1 h2
    have hi : ∀ {z1 z2 : List FileFormat} {c : FileFormat}, l = z1 ++ c :: z2 →
        l[z1.length]? = some c := by
      intro z1 z2 c hz; rw [hz]; simp
    have inj : ∀ i j : Nat, ∀ c, l[i]? = some c → l[j]? = some c → i = j := by
      intro i j c h1 h2
      obtain ⟨hi, e1⟩ := List.getElem?_eq_some_iff.mp h1
      obtain ⟨hj, e2⟩ := List.getElem?_eq_some_iff.mp h2
      exact (List.getElem_inj hl).mp (e1.trans e2.symm)
    have a1 := hi h1
    have b1 := hi (z1 := x1 ++ a :: x2) (z2 := x3) (c := b) (by rw [h1]; simp)
    have b2 := hi h2
    have a2 := hi (z1 := y1 ++ b :: y2) (z2 := y3) (c := a) (by rw [h2]; simp)
    have e1 := inj _ _ _ a1 a2
    have e2 := inj _ _ _ b1 b2
    simp at e1 e2
    omega
  refine key nd (a := e.format) (b := e'.format) ?_ ?_
    (x1 := l1.map SigEntry.format) (x2 := l2.map SigEntry.format) (x3 := l3.map SigEntry.format)
    (y1 := m1.map SigEntry.format) (y2 := m2.map SigEntry.format) (y3 := m3.map SigEntry.format)
  · rw [ht]; simp
  · rw [hm]; simp [hd, hd']

-- Non-vacuity: an input with the magic of WAV at 0/8 and of ISO 9660 further on would have both;
-- here: APNG is listed before PNG and its magic contains PNG's.
example : fromBytes Cfg.release Features.none
    (b!"\x89PNG\r\n\x1a\n" ++ List.replicate 29 0 ++ b!"acTL") = .ok AnimatedPortableNetworkGraphics := by
  decide +kernel

/-! ## C06 -/

theorem live_entry {e : SigEntry} (he : e ∈ signatureTable) {alt : List Part} (ha : alt ∈ e.alts) :
    fromSignature (fill alt (partsEnd alt)) = some e.format ∧ Carries (fill alt (partsEnd alt)) alt := by
  have h1 := List.all_eq_true.mp table_live e he
  have h2 := List.all_eq_true.mp h1 alt ha
  rw [Bool.and_eq_true] at h2
  refine ⟨?_, ?_⟩
  · rw [← sparseVerdict_eq]
    simpa using h2.1
  · intro p hp
    have := List.all_eq_true.mp h2.2 p hp
    rw [sparseMatches_eq] at this
    exact (part_matches_iff _ _).mp this

theorem partsEnd_le {alt : List Part} {n : Nat} (h : ∀ p ∈ alt, p.offset + p.value.length ≤ n) :
    partsEnd alt ≤ n := by
  induction alt with
  | nil => simp [partsEnd]
  | cons p alt ih =>
    have h1 := h p (by simp)
    have h2 := ih (fun q hq => h q (by simp [hq]))
    simp only [partsEnd, List.foldr_cons] at h2 ⊢
    omega

/-- C06. Every magic value of every format in the table is live: some input carries it and is
reported as this format, so no earlier entry shadows it. -/
theorem C06_live (cfg : Cfg) (e : SigEntry) (he : e ∈ signatureTable) (alt : List Part)
    (ha : alt ∈ e.alts) :
    ∃ b, IsSlice b ∧ Carries b alt ∧ fromBytes cfg Features.none b = .ok e.format := by
  obtain ⟨h1, h2⟩ := live_entry he ha
  have hle : partsEnd alt ≤ bufferSize := partsEnd_le (fun p hp => part_window he ha hp)
  have hlen := length_fill alt (partsEnd alt)
  have hb : (fill alt (partsEnd alt)).length < 2 ^ 63 := by
    rw [hlen]
    simp only [bufferSize] at hle
    omega
  refine ⟨fill alt (partsEnd alt), hb, h2, ?_⟩
  rw [fromBytes_none cfg _ (by omega), h1]
  have h0 : HasMagic e.format (fill alt (partsEnd alt)) := ⟨e, he, rfl, alt, ha, h2⟩
  rw [if_neg (hasMagic_nonempty h0)]
  rfl

/-- Number of magic bytes of the longest alternative. -/
def longestMagic (e : SigEntry) : Nat :=
  (e.alts.map fun alt => (alt.map fun p => p.value.length).sum).foldr max 0

/-- C06, order. More specific entries come first: the table is sorted by decreasing size of the
longest magic value. -/
theorem C06_sorted : signatureTable.Pairwise (fun e e' => longestMagic e' ≤ longestMagic e) := by
  have h : (signatureTable.map longestMagic).Pairwise (fun a b => b ≤ a) := by decide +kernel
  exact List.pairwise_map.mp h

-- Non-vacuity: the table has 343 entries and 726 magic values.
example : signatureTable.length = 343 ∧ (signatureTable.map fun e => e.alts.length).sum = 726 := by
  decide +kernel

/-! ## C07 -/

/-- C07. The first 36870 bytes determine the verdict. -/
theorem C07_window (cfg : Cfg) (b : Bytes) (hb : IsSlice b) :
    fromBytes cfg Features.none b = fromBytes cfg Features.none (b.take 36870) := by
  have hb' : b.length < 2 ^ 63 := hb
  rw [fromBytes_none cfg b (by omega), fromBytes_none cfg _ (by simp; omega),
    fromSignature_take b 36870 (by decide)]
  by_cases h : b.length = 0
  · rw [if_pos h, if_pos (by rw [List.length_take]; omega)]
  · rw [if_neg h, if_neg (by rw [List.length_take]; omega)]

/-- The ISO 9660 magic in the third possible sector. -/
def isoParts : List Part := [⟨36865, b!"CD001"⟩]

theorem iso_full : sparseVerdict isoParts 36870 = some Iso9660 := by decide +kernel
theorem iso_cut : sparseVerdict isoParts 36869 = none := by decide +kernel

theorem fill_take (parts : List Part) (len n : Nat) (h : n ≤ len) :
    (fill parts len).take n = fill parts n := by
  unfold fill
  rw [← List.map_take, List.take_range, Nat.min_eq_left h]

theorem hasMagic_append {f : FileFormat} {b : Bytes} (h : HasMagic f b) (t : Bytes) :
    HasMagic f (b ++ t) := by
  obtain ⟨e, he, hf, alt, ha, hc⟩ := h
  refine ⟨e, he, hf, alt, ha, fun p hp => ?_⟩
  obtain ⟨pre, suf, rfl, hl⟩ := hc p hp
  exact ⟨pre, suf ++ t, by simp, hl⟩

/-- C07, tightness. No smaller window suffices. -/
theorem C07_tight (cfg : Cfg) (n : Nat) (hn : n < 36870) :
    ∃ b, IsSlice b ∧ fromBytes cfg Features.none b ≠ fromBytes cfg Features.none (b.take n) := by
  refine ⟨fill isoParts 36870, ?_, ?_⟩
  · show (fill isoParts 36870).length < 2 ^ 63
    rw [length_fill]; omega
  · rw [fill_take _ _ _ (by omega), fromBytes_none cfg _ (by rw [length_fill]; omega),
      fromBytes_none cfg _ (by rw [length_fill]; omega), length_fill, length_fill,
      ← sparseVerdict_eq, iso_full, if_neg (by omega)]
    have hcut : fromSignature (fill isoParts n) = none := by
      rw [fromSignature_none]
      intro f hf
      have h1 := hasMagic_append hf ((fill isoParts 36869).drop n)
      have h2 : fill isoParts n ++ (fill isoParts 36869).drop n = fill isoParts 36869 := by
        rw [← fill_take isoParts 36869 n (by omega), List.take_append_drop]
      rw [h2] at h1
      have h3 := iso_cut
      rw [sparseVerdict_eq] at h3
      exact fromSignature_none.mp h3 f h1
    rw [hcut]
    split
    · intro h; cases h
    · intro h; cases h

/-! ## C08 -/

/-- C08. Appending bytes to a recognised input keeps it recognised: as the same format or one
listed before it, whose magic the longer input holds. -/
theorem C08_append (cfg : Cfg) (b t : Bytes) (hb : IsSlice (b ++ t)) (f : FileFormat)
    (h : fromBytes cfg Features.none b = .ok f) (h1 : f ≠ FileFormat.Empty)
    (h2 : f ≠ ArbitraryBinaryData) :
    ∃ g, fromBytes cfg Features.none (b ++ t) = .ok g ∧ (g = f ∨ ListedBefore g f) ∧
      g ≠ FileFormat.Empty ∧ g ≠ ArbitraryBinaryData := by
  have hb' : (b ++ t).length < 2 ^ 63 := hb
  rw [List.length_append] at hb'
  have hm := C04_sound cfg b (show b.length < 2 ^ 63 by omega) f h h1 h2
  obtain ⟨g, hg, hmg, ho⟩ := C05_complete cfg (b ++ t) hb f (hasMagic_append hm t)
  exact ⟨g, hg, ho, (hasMagic_special hmg).1, (hasMagic_special hmg).2.1⟩

-- Non-vacuity: PNG data grows into an animated PNG.
example : fromBytes Cfg.release Features.none (b!"\x89PNG\r\n\x1a\n" ++ List.replicate 29 0) =
    .ok PortableNetworkGraphics := by decide +kernel

/-! ## C09 -/

/-- C09. Without a known magic and without `reader-txt`, the verdict is the default. -/
theorem C09_default (cfg : Cfg) (ft : Features) (b : Bytes) (hb : IsSlice b) (hne : b ≠ [])
    (hm : ∀ f, ¬ HasMagic f b) (ht : ft.txt = false) :
    fromBytes cfg ft b = .ok FileFormat.default ∧ FileFormat.default = ArbitraryBinaryData := by
  refine ⟨?_, rfl⟩
  have hb' : b.length < 2 ^ 63 := hb
  have hs := fromSignature_none.mpr hm
  rw [fromBytes_ideal cfg ft b (by omega)]
  unfold ideal
  rw [fromSignature_take b _ (Nat.le_refl _), hs, if_neg (by simpa using hne)]
  unfold idealGeneric
  rw [ht]
  rfl

/-- C09 with `reader-txt`. -/
theorem C09_default_txt (cfg : Cfg) (ft : Features) (b : Bytes) (hb : IsSlice b) (hne : b ≠ [])
    (hm : ∀ f, ¬ HasMagic f b) :
    fromBytes cfg ft b = .ok PlainText ∨ fromBytes cfg ft b = .ok ArbitraryBinaryData := by
  have hb' : b.length < 2 ^ 63 := hb
  have hs := fromSignature_none.mpr hm
  rw [fromBytes_ideal cfg ft b (by omega)]
  unfold ideal
  rw [fromSignature_take b _ (Nat.le_refl _), hs, if_neg (by simpa using hne)]
  rcases idealGeneric_cases ft b (2 ^ 64 - 1) with ⟨_, _, h⟩ | ⟨_, h⟩
  · exact Or.inl h
  · exact Or.inr h

-- Non-vacuity.
example : ∀ f, ¬ HasMagic f (b!"hello") := fromSignature_none.mp (by decide +kernel)

end FF.Props
