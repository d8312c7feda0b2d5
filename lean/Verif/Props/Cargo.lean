import Verif.Model.Cargo
import Verif.Spec.Cargo
import Verif.Props.Fallback
/-!
# Feature unification (C79)
-/

namespace FF.Props
open FF FileFormat Spec

def allReaders : List String := ["reader-asf", "reader-cfb", "reader-ebml", "reader-exe", "reader-id3v2", "reader-mp4", "reader-pdf",
  "reader-rm", "reader-sqlite3", "reader-txt", "reader-xml", "reader-zip"]

theorem cargoImplied_reader : cargoImplied "reader" = allReaders := by decide +kernel

theorem cargoImplied_other {name : String} (h : name ≠ "reader") : cargoImplied name = [] := by
  unfold cargoImplied
  cases he : cargoTable.find? fun e => e.1 == name with
  | none => rfl
  | some e =>
    have hm := List.mem_of_find?_eq_some he
    have hn := List.find?_some he
    have hn' : e.1 = name := by simpa using hn
    have key : ∀ e ∈ cargoTable, e.1 = "reader" ∨ e.2 = [] := by decide +kernel
    rcases key e hm with h' | h'
    · exact absurd (hn'.symm.trans h') h
    · exact h'

theorem mem_cargoStep (names : List String) (x : String) :
    x ∈ names ++ names.flatMap cargoImplied ↔ x ∈ names ∨ ("reader" ∈ names ∧ x ∈ allReaders) := by
  rw [List.mem_append, List.mem_flatMap]
  constructor
  · rintro (h | ⟨y, hy, hx⟩)
    · exact Or.inl h
    · by_cases hr : y = "reader"
      · subst hr; rw [cargoImplied_reader] at hx; exact Or.inr ⟨hy, hx⟩
      · rw [cargoImplied_other hr] at hx; cases hx
  · rintro (h | ⟨h, hx⟩)
    · exact Or.inl h
    · exact Or.inr ⟨_, h, by rw [cargoImplied_reader]; exact hx⟩

theorem mem_cargoClosure (n : Nat) (names : List String) (x : String) :
    x ∈ cargoClosure n names ↔ x ∈ names ∨ (0 < n ∧ "reader" ∈ names ∧ x ∈ allReaders) := by
  induction n generalizing names with
  | zero => simp [cargoClosure]
  | succ n ih =>
    rw [cargoClosure, ih, mem_cargoStep, mem_cargoStep]
    have hnot : ¬ "reader" ∈ allReaders := by decide +kernel
    constructor
    · rintro ((h | h) | ⟨_, (h | h), hx⟩)
      · exact Or.inl h
      · exact Or.inr ⟨Nat.succ_pos _, h⟩
      · exact Or.inr ⟨Nat.succ_pos _, h, hx⟩
      · exact absurd h.2 hnot
    · rintro (h | ⟨_, h⟩)
      · exact Or.inl (Or.inl h)
      · exact Or.inl (Or.inr h)

theorem cfgFeatures_enabled (names : List String) (g : Feature) :
    g.enabled (cfgFeatures names) = true ↔ g.cargoName ∈ names := by
  cases g <;> simp [cfgFeatures, Feature.enabled, Feature.cargoName]

theorem cargoName_mem (g : Feature) : g.cargoName ∈ allReaders := by
  cases g <;> decide +kernel

theorem cargoName_injective (g h : Feature) (e : g.cargoName = h.cargoName) : g = h := by
  revert e; cases g <;> cases h <;> decide +kernel

theorem cargoKnown_iff (name : String) : cargoKnown name = true ↔ KnownName name := by
  unfold cargoKnown KnownName
  rw [Bool.or_eq_true, List.any_eq_true]
  constructor
  · rintro (h | ⟨e, he, h⟩)
    · exact Or.inl (by simpa using h)
    · have h' : e.1 = name := by simpa using h
      subst h'
      have key : ∀ e ∈ cargoTable, e.1 = "reader" ∨ e.1 ∈ Feature.cargoName <$> (Feature.txt :: Feature.structured) := by
        decide +kernel
      rcases key e he with h | h
      · exact Or.inr (Or.inl h)
      · obtain ⟨g, _, hg⟩ := List.mem_map.mp h
        exact Or.inr (Or.inr ⟨g, hg.symm⟩)
  · rintro (rfl | rfl | ⟨g, rfl⟩)
    · exact Or.inl (by decide +kernel)
    · exact Or.inr (by decide +kernel)
    · exact Or.inr (by cases g <;> decide +kernel)

/-- C79. Cargo refuses the build exactly if some dependent names a feature that the package does not have. -/
theorem C79_refused (dependents : List (List String)) :
    cargoBuild dependents = none ↔ ∃ d ∈ dependents, ∃ name ∈ d, ¬ KnownName name := by
  unfold cargoBuild
  simp only
  split
  · rename_i h
    rw [List.all_eq_true] at h
    constructor
    · intro h'; cases h'
    · rintro ⟨d, hd, name, hn, hk⟩
      exact absurd ((cargoKnown_iff name).mp (h name (List.mem_flatten.mpr ⟨d, hd, hn⟩))) hk
  · rename_i h
    refine ⟨fun _ => ?_, fun _ => rfl⟩
    rw [List.all_eq_true] at h
    refine Classical.byContradiction fun hne => h fun name hn => ?_
    obtain ⟨d, hd, hn⟩ := List.mem_flatten.mp hn
    refine (cargoKnown_iff name).mpr (Classical.byContradiction fun hk => hne ⟨d, hd, name, hn, hk⟩)

/-- C79. The build has a reader exactly if some dependent asks for it. In particular the order of the dependents and of the
names, and repetitions, do not matter. -/
theorem C79_unified (dependents : List (List String)) (ft : Features) (h : cargoBuild dependents = some ft) (g : Feature) :
    g.enabled ft = true ↔ ∃ d ∈ dependents, AsksFor d g := by
  unfold cargoBuild at h
  simp only at h
  split at h
  · injection h with h
    subst h
    rw [cfgFeatures_enabled, mem_cargoClosure]
    unfold AsksFor
    constructor
    · rintro (h | ⟨_, h, _⟩)
      · obtain ⟨d, hd, hm⟩ := List.mem_flatten.mp h
        exact ⟨d, hd, Or.inl hm⟩
      · obtain ⟨d, hd, hm⟩ := List.mem_flatten.mp h
        exact ⟨d, hd, Or.inr hm⟩
    · rintro ⟨d, hd, h | h⟩
      · exact Or.inl (List.mem_flatten.mpr ⟨d, hd, h⟩)
      · exact Or.inr ⟨by decide, List.mem_flatten.mpr ⟨d, hd, h⟩, cargoName_mem g⟩
  · cases h

/-- C79. A dependent's own build: the readers it asks for, no others. -/
theorem C79_own (d : List String) (ft : Features) (h : cargoBuild [d] = some ft) (g : Feature) :
    g.enabled ft = true ↔ AsksFor d g := by
  rw [C79_unified [d] ft h g]
  simp

theorem features_ext {ft ft' : Features} (h : ∀ g : Feature, g.enabled ft = g.enabled ft') : ft = ft' := by
  have ha := h .asf; have hb := h .cfb; have hc := h .ebml; have hd := h .exe; have he := h .id3v2; have hf := h .mp4
  have hg := h .pdf; have hh := h .rm; have hi := h .sqlite3; have hj := h .txt; have hk := h .xml; have hl := h .zip
  cases ft; cases ft'
  simp only [Feature.enabled] at ha hb hc hd he hf hg hh hi hj hk hl
  simp only [Features.mk.injEq]
  exact ⟨ha, hb, hc, hd, he, hf, hg, hh, hi, hj, hk, hl⟩

/-- C79. What a dependent gets by default is no reader; `reader` is all of them. -/
theorem C79_ends : cargoBuild [] = some Features.none ∧ cargoBuild [["default"]] = some Features.none ∧
    cargoBuild [["reader"]] = some Features.all := by
  decide +kernel

/-- C79. Dependents that ask for the same get the same, however they say it. -/
theorem C79_same (ds ds' : List (List String)) (ft ft' : Features) (h : cargoBuild ds = some ft) (h' : cargoBuild ds' = some ft')
    (same : ∀ g : Feature, (∃ d ∈ ds, AsksFor d g) ↔ ∃ d ∈ ds', AsksFor d g) : ft = ft' := by
  refine features_ext fun g => ?_
  have h1 := C79_unified ds ft h g
  have h2 := C79_unified ds' ft' h' g
  rw [same g, ← h2] at h1
  exact Bool.eq_iff_iff.mpr h1

theorem own_build {ds : List (List String)} {ft : Features} (h : cargoBuild ds = some ft) {d : List String} (hd : d ∈ ds) :
    ∃ fd, cargoBuild [d] = some fd := by
  cases hb : cargoBuild [d] with
  | some fd => exact ⟨fd, rfl⟩
  | none =>
    obtain ⟨d', hd', name, hn, hk⟩ := (C79_refused [d]).mp hb
    rw [List.mem_singleton] at hd'
    subst hd'
    rw [(C79_refused ds).mpr ⟨d', hd, name, hn, hk⟩] at h
    cases h

/-- The outcome of a dependent's own build. -/
def OwnOutcome (cfg : Cfg) (ds : List (List String)) (b : Bytes) (r : Except Fail FileFormat) : Prop :=
  ∃ d ∈ ds, ∃ fd, cargoBuild [d] = some fd ∧ fromBytes cfg fd b = r

/-- C79: the unified build reports what one of the dependents would see on its own. -/
def C79_statement : Prop :=
  ∀ (cfg : Cfg) (ds : List (List String)) (ft : Features) (b : Bytes), ds ≠ [] → cargoBuild ds = some ft → IsSlice b →
    OwnOutcome cfg ds b (fromBytes cfg ft b)

/-- C79 does not hold: with `reader-exe` and `reader-txt`, a note that starts with MZ is text, but each feature alone gives
another verdict. -/
theorem C79_fails : ¬ C79_statement := by
  intro h
  obtain ⟨d, hd, fd, hf, hr⟩ := h Cfg.release [["reader-exe"], ["reader-txt"]] { exe := true, txt := true }
    b!"MZ, see you tomorrow\n" (by decide) (by decide +kernel) (by unfold IsSlice; decide)
  have hu : fromBytes Cfg.release { exe := true, txt := true } b!"MZ, see you tomorrow\n" = .ok PlainText := by decide +kernel
  rw [hu] at hr
  rcases List.mem_cons.mp hd with rfl | hd
  · have hb : cargoBuild [["reader-exe"]] = some { exe := true } := by decide +kernel
    rw [hb] at hf; cases hf
    have : fromBytes Cfg.release { exe := true } b!"MZ, see you tomorrow\n" = .ok ArbitraryBinaryData := by decide +kernel
    rw [this] at hr; cases hr
  · rw [List.mem_singleton] at hd
    subst hd
    have hb : cargoBuild [["reader-txt"]] = some { txt := true } := by decide +kernel
    rw [hb] at hf; cases hf
    have : fromBytes Cfg.release { txt := true } b!"MZ, see you tomorrow\n" = .ok MsDosExecutable := by decide +kernel
    rw [this] at hr; cases hr

/-- C79, what holds: the unified build reports what one of the dependents would see on its own, with one exception. Content
that is recognised as an executable (or as MP4, if it has more than 151587081 bytes), cannot be parsed as such and is text is reported
as text, if one dependent asks for that reader and another for `reader-txt`; on its own, the first would see arbitrary data and the
second the executable. -/
theorem C79_verdict_partial (cfg : Cfg) (ds : List (List String)) (ft : Features) (b : Bytes) (hne : ds ≠ [])
    (h : cargoBuild ds = some ft) (hb : IsSlice b) :
    OwnOutcome cfg ds b (fromBytes cfg ft b) ∨
    (fromBytes cfg ft b = .ok PlainText ∧ IsText (firstLines 16 (b.take 65536)) ∧ OwnOutcome cfg ds b (.ok ArbitraryBinaryData) ∧
      ∃ g : Feature, (g = .exe ∨ g = .mp4 ∧ 0x09090909 < b.length) ∧ Recognised b g.base ∧ OwnOutcome cfg ds b (.ok g.base)) := by
  have sub : ∀ d ∈ ds, ∀ fd, cargoBuild [d] = some fd → ∀ g : Feature, g.enabled fd = true → g.enabled ft = true :=
    fun d hd fd hf g hg => (C79_unified ds ft h g).mpr ⟨d, hd, (C79_own d fd hf g).mp hg⟩
  have txtOf : ∀ ft : Features, Feature.enabled ft .txt = ft.txt := fun _ => rfl
  by_cases hg : ∃ g ∈ Feature.structured, Recognised b g.base ∧ g.enabled ft = true
  · obtain ⟨g, hgs, hr, hon⟩ := hg
    have only : ∀ g' ∈ Feature.structured, Recognised b g'.base → g' = g := by
      intro g' hg' hr'
      unfold Recognised at hr hr'
      rw [hr] at hr'
      injection hr' with hr'
      exact base_inj g' hg' g hgs hr'.symm
    obtain ⟨d, hd, ha⟩ := (C79_unified ds ft h g).mp hon
    obtain ⟨fd, hf⟩ := own_build h hd
    have hgd : g.enabled fd = true := (C79_own d fd hf g).mpr ha
    by_cases ht : fd.txt = ft.txt
    · refine Or.inl ⟨d, hd, fd, hf, C15_two_switches cfg fd ft b hb ⟨fun g' hg' hr' => ?_, ht⟩⟩
      rw [only g' hg' hr', hgd, hon]
    · have hft : ft.txt = true := by
        cases h1 : ft.txt with
        | true => rfl
        | false =>
          cases h2 : fd.txt with
          | false => exact absurd (h2.trans h1.symm) ht
          | true => exact absurd (sub d hd fd hf .txt h2) (by rw [txtOf, h1]; decide)
      have hfd : fd.txt = false := by
        cases h2 : fd.txt with
        | false => rfl
        | true => exact absurd (h2.trans hft.symm) ht
      have hsame : SameExcept .txt fd { fd with txt := true } := by
        intro h' hne'; cases h' <;> first | rfl | exact absurd rfl hne'
      have hag : fromBytes cfg { fd with txt := true } b = fromBytes cfg ft b := by
        refine C15_two_switches cfg _ ft b hb ⟨fun g' hg' hr' => ?_, hft.symm⟩
        rw [only g' hg' hr', hon]
        have := hsame g (by rintro rfl; revert hgs; decide)
        rw [← this, hgd]
      rcases C15_txt_only_from_default cfg fd _ hsame hfd b hb with he | ⟨h1, h2⟩
      · exact Or.inl ⟨d, hd, fd, hf, he.trans hag⟩
      · rw [hag] at h2
        obtain ⟨htwo, _, _, htext⟩ := C19_text_only_from_two cfg ft b hb g hgs hr h2
        obtain ⟨d', hd', ha'⟩ := (C79_unified ds ft h .txt).mp hft
        obtain ⟨fd', hf'⟩ := own_build h hd'
        have htd : fd'.txt = true := (C79_own d' fd' hf' .txt).mpr ha'
        cases hg2 : g.enabled fd' with
        | true =>
          refine Or.inl ⟨d', hd', fd', hf', C15_two_switches cfg fd' ft b hb ⟨fun g' hg' hr' => ?_, htd.trans hft.symm⟩⟩
          rw [only g' hg' hr', hg2, hon]
        | false =>
          exact Or.inr ⟨h2, htext, ⟨d, hd, fd, hf, h1⟩, g, htwo, hr, d', hd', fd', hf',
            recognised_disabled cfg fd' b hb g hgs hg2 hr⟩
  · have off : ∀ d ∈ ds, ∀ fd, cargoBuild [d] = some fd → fd.txt = ft.txt → AgreeOn b fd ft := by
      intro d hd fd hf ht
      refine ⟨fun g hgs hr => ?_, ht⟩
      have h1 : g.enabled ft = false := by
        cases h1 : g.enabled ft with
        | false => rfl
        | true => exact absurd ⟨g, hgs, hr, h1⟩ hg
      cases h2 : g.enabled fd with
      | false => exact h1.symm
      | true => rw [sub d hd fd hf g h2] at h1; cases h1
    cases hft : ft.txt with
    | true =>
      obtain ⟨d, hd, ha⟩ := (C79_unified ds ft h .txt).mp hft
      obtain ⟨fd, hf⟩ := own_build h hd
      have htd : fd.txt = true := (C79_own d fd hf .txt).mpr ha
      exact Or.inl ⟨d, hd, fd, hf, C15_two_switches cfg fd ft b hb (off d hd fd hf (htd.trans hft.symm))⟩
    | false =>
      cases ds with
      | nil => exact absurd rfl hne
      | cons d ds =>
        have hd : d ∈ d :: ds := List.mem_cons_self
        obtain ⟨fd, hf⟩ := own_build h hd
        have htd : fd.txt = false := by
          cases h2 : fd.txt with
          | false => rfl
          | true => have := sub d hd fd hf .txt h2; rw [txtOf, hft] at this; cases this
        exact Or.inl ⟨d, hd, fd, hf, C15_two_switches cfg fd ft b hb (off d hd fd hf (htd.trans hft.symm))⟩

-- Non-vacuity: three dependents, one of them with all readers; a name that the package does not have.
example : (cargoBuild [["default"], ["reader-zip", "reader-zip"], ["reader"]]).isSome = true ∧
    cargoBuild [["default"], ["reader-zip"], ["reader-pdf", "default"]] = some { pdf := true, zip := true } ∧
    cargoBuild [["readers"]] = none := by decide +kernel

end FF.Props
