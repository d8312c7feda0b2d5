import Verif.Proofs.Published
import Verif.Props.Needed
/-!
# C66: which formats hide longer magic values
-/

namespace FF.Props
open FF FileFormat Spec

def asPairs (alt : List Part) : List (Nat × Bytes) := alt.map fun p => (p.offset, p.value)

theorem shows_pairs {b : Bytes} {alt : List Part} (f : FileFormat) (h : Carries b alt) : Shows b (f, asPairs alt) := by
  intro q hq
  obtain ⟨p, hp, rfl⟩ := List.mem_map.mp hq
  exact h p hp

def oneSizeEntry (e : SigEntry) : Bool :=
  e.alts.all fun alt => e.alts.all fun alt' => magicSize alt == magicSize alt'

def isShortFirst (f : FileFormat) : Bool := shortMagicFirst.any fun g => Nat.beq g.ctorIdx f.ctorIdx

/-- If the content holds value `a` of the entry and a longer value of a later entry, then it holds a value of an earlier
entry, or one of this entry that is as long. -/
def pairSettled (before : List SigEntry) (e : SigEntry) (a b : List Part) : Bool :=
  Nat.ble (magicSize b) (magicSize a) || b.any (conflicts (asPairs a)) ||
  (before.any fun h => h.alts.any fun c => c.all (implied (asPairs (a ++ b)))) ||
  (e.alts.any fun c => Nat.ble (magicSize b) (magicSize c) && c.all (implied (asPairs (a ++ b))))

def entryLongest (before : List SigEntry) (e : SigEntry) (after : List SigEntry) : Bool :=
  e.alts.all fun a => after.all fun g => g.alts.all fun b => pairSettled before e a b

def tableLongest : List SigEntry → List SigEntry → Bool
  | _, [] => true
  | before, e :: after =>
    (isShortFirst e.format || oneSizeEntry e || entryLongest before e after) && tableLongest (e :: before) after

theorem table_longest : tableLongest [] signatureTable = true := by decide +kernel

theorem tableLongest_sound {bs es : List SigEntry} (h : tableLongest bs es = true) (l1 : List SigEntry) (e : SigEntry)
    (l2 : List SigEntry) (hs : es = l1 ++ e :: l2) :
    (isShortFirst e.format || oneSizeEntry e || entryLongest (l1.reverse ++ bs) e l2) = true := by
  induction l1 generalizing bs es with
  | nil =>
    subst hs
    exact (Bool.and_eq_true_iff.mp h).1
  | cons x l1 ih =>
    subst hs
    have := ih (Bool.and_eq_true_iff.mp h).2 rfl
    rw [List.reverse_cons, List.append_assoc]
    exact this

/-- Of finitely many things with a property one has the largest size. -/
theorem exists_largest {α : Type} (size : α → Nat) (P : α → Prop) (l : List α) (h : ∃ a ∈ l, P a) :
    ∃ a ∈ l, P a ∧ ∀ c ∈ l, P c → size c ≤ size a := by
  induction l with
  | nil => obtain ⟨a, ha, _⟩ := h; cases ha
  | cons x l ih =>
    by_cases hl : ∃ a ∈ l, P a
    · obtain ⟨a, ha, hp, hm⟩ := ih hl
      by_cases hx : P x ∧ size a < size x
      · refine ⟨x, List.mem_cons_self, hx.1, fun c hc hpc => ?_⟩
        rcases List.mem_cons.mp hc with rfl | hc
        · exact Nat.le_refl _
        · have := hm c hc hpc; omega
      · refine ⟨a, List.mem_cons_of_mem _ ha, hp, fun c hc hpc => ?_⟩
        rcases List.mem_cons.mp hc with rfl | hc
        · by_cases hlt : size a < size c
          · exact absurd ⟨hpc, hlt⟩ hx
          · omega
        · exact hm c hc hpc
    · obtain ⟨a, ha, hp⟩ := h
      rcases List.mem_cons.mp ha with rfl | ha
      · refine ⟨a, List.mem_cons_self, hp, fun c hc hpc => ?_⟩
        rcases List.mem_cons.mp hc with rfl | hc
        · exact Nat.le_refl _
        · exact absurd ⟨c, hc, hpc⟩ hl
      · exact absurd ⟨a, ha, hp⟩ hl

/-- C66, all but 39 formats: when the verdict is a format that is not in `shortMagicFirst`, no magic value in the content is
longer than the longest one of this format there. -/
theorem C66_all_but_39_partial (cfg : Cfg) (b : Bytes) (hb : IsSlice b) (f g : FileFormat) (hf : HasMagic f b)
    (hg : fromBytes cfg Features.none b = .ok g) (hn : g ∉ shortMagicFirst) : HasLongestMagic g b := by
  have hb' : b.length < 2 ^ 63 := hb
  have hg0 := hg
  rw [fromBytes_none cfg b (by omega), if_neg (hasMagic_nonempty hf)] at hg
  cases hs : fromSignature b with
  | none => exact absurd hf (fromSignature_none.mp hs f)
  | some g' =>
    rw [hs] at hg
    cases hg
    unfold fromSignature at hs
    obtain ⟨e, hfind, hef⟩ := Option.map_eq_some_iff.mp hs
    obtain ⟨hm, l1, l2, ht, hbefore⟩ := List.find?_eq_some_iff_append.mp hfind
    have he : e ∈ signatureTable := by rw [ht]; simp
    rcases Bool.or_eq_true_iff.mp (tableLongest_sound table_longest l1 e l2 ht) with h | h
    · rcases Bool.or_eq_true_iff.mp h with h | h
      · obtain ⟨x, hx, h⟩ := List.any_eq_true.mp h
        have := fmt_of_idx (Nat.eq_of_beq_eq_true h)
        rw [this, hef] at hx
        exact absurd hx hn
      · exact C66_one_size_partial cfg b hb f g' hf hg0 (C66_one_size g' ⟨e, he, hef, h⟩)
    · obtain ⟨a, ha, hc, hmax⟩ := exists_largest magicSize (Carries b) e.alts ((entry_matches_iff e b).mp hm)
      refine ⟨a, ⟨e, he, hef, ha⟩, hc, ?_⟩
      rintro f2 b2 ⟨e2, he2, hf2, hb2⟩ hc2
      rw [ht] at he2
      rcases List.mem_append.mp he2 with he2 | he2
      · have := hbefore e2 he2
        rw [(entry_matches_iff e2 b).mpr ⟨b2, hb2, hc2⟩] at this
        cases this
      rcases List.mem_cons.mp he2 with rfl | he2
      · exact hmax b2 hb2 hc2
      have hp := List.all_eq_true.mp (List.all_eq_true.mp (List.all_eq_true.mp h a ha) e2 he2) b2 hb2
      have hab : Carries b (a ++ b2) := by
        intro p hp
        rcases List.mem_append.mp hp with hp | hp
        · exact hc p hp
        · exact hc2 p hp
      rcases Bool.or_eq_true_iff.mp hp with hp | hp
      · rcases Bool.or_eq_true_iff.mp hp with hp | hp
        · rcases Bool.or_eq_true_iff.mp hp with hp | hp
          · exact Nat.le_of_ble_eq_true hp
          · obtain ⟨p, hpb, hp⟩ := List.any_eq_true.mp hp
            exact absurd (hc2 p hpb) (conflicts_sound (k := (g', asPairs a)) hp (shows_pairs g' hc))
        · obtain ⟨x, hx, hp⟩ := List.any_eq_true.mp hp
          obtain ⟨c, hcx, hp⟩ := List.any_eq_true.mp hp
          have hx' : x ∈ l1 := by simpa using hx
          have := hbefore x hx'
          rw [(entry_matches_iff x b).mpr ⟨c, hcx, fun p hpc =>
            implied_sound (k := (g', asPairs (a ++ b2))) (List.all_eq_true.mp hp p hpc) (shows_pairs g' hab)⟩] at this
          cases this
      · obtain ⟨c, hce, hp⟩ := List.any_eq_true.mp hp
        obtain ⟨h1, h2⟩ := Bool.and_eq_true_iff.mp hp
        have := hmax c hce fun p hpc =>
          implied_sound (k := (g', asPairs (a ++ b2))) (List.all_eq_true.mp h2 p hpc) (shows_pairs g' hab)
        have := Nat.le_of_ble_eq_true h1
        omega

/-! ## The 39 formats -/

/-- For each of these formats: its entry, one of its values, a later entry, and a longer value of that one. -/
def shortRows : List (Nat × Nat × Nat × Nat) := [
  (23, 5, 60, 0), (24, 2, 60, 0), (25, 2, 53, 1), (29, 8, 60, 0), (33, 13, 60, 0), (36, 2, 60, 0),
  (44, 1, 53, 1), (45, 4, 60, 0), (53, 1, 54, 0), (54, 1, 60, 0), (57, 1, 60, 0), (60, 1, 61, 0),
  (76, 1, 95, 0), (83, 1, 95, 0), (85, 2, 95, 0), (90, 1, 95, 0), (94, 1, 95, 0), (95, 2, 96, 0),
  (108, 2, 128, 0), (110, 1, 128, 0), (113, 1, 128, 0), (115, 1, 128, 0), (125, 1, 128, 0), (149, 1, 153, 0),
  (150, 1, 153, 0), (161, 1, 163, 0), (162, 2, 163, 0), (170, 1, 171, 0), (175, 1, 185, 0), (176, 1, 185, 0),
  (177, 1, 185, 0), (181, 1, 185, 0), (183, 1, 185, 0), (184, 2, 185, 0), (187, 1, 191, 0), (191, 1, 192, 0),
  (212, 19, 213, 0), (238, 1, 239, 0), (272, 1, 290, 0)]

def rowShort (f : FileFormat) (r : Nat × Nat × Nat × Nat) : Bool :=
  match signatureTable[r.1]?, signatureTable[r.2.2.1]? with
  | some e, some e2 =>
    match e.alts[r.2.1]?, e2.alts[r.2.2.2]? with
    | some a, some b =>
      Nat.beq e.format.ctorIdx f.ctorIdx && Nat.ble (partsEnd (a ++ b)) 36870 &&
      (sparseVerdict (a ++ b) (partsEnd (a ++ b)) == some f) &&
      (b.all fun p => sparseMatches (a ++ b) (partsEnd (a ++ b)) p) &&
      (e.alts.all fun c => Nat.blt (magicSize c) (magicSize b) ||
        !(c.all fun p => sparseMatches (a ++ b) (partsEnd (a ++ b)) p))
    | _, _ => false
  | _, _ => false

theorem rows_short : ((shortMagicFirst.zip shortRows).all fun x => rowShort x.1 x.2) = true ∧
    shortMagicFirst.length = shortRows.length := by
  constructor <;> decide +kernel

/-- C66, the exceptions are violations, all of them: each of the 39 formats is reported for some content with a longer magic
value of another format than of this one. -/
theorem C66_short (cfg : Cfg) (f : FileFormat) (hf : f ∈ shortMagicFirst) :
    ∃ b, IsSlice b ∧ fromBytes cfg Features.none b = .ok f ∧ ¬ HasLongestMagic f b := by
  obtain ⟨i, hi, hif⟩ := List.getElem_of_mem hf
  have hz : (f, shortRows[i]'(rows_short.2 ▸ hi)) ∈ shortMagicFirst.zip shortRows := by
    rw [← hif, ← List.getElem_zip (h := by rw [List.length_zip, ← rows_short.2]; omega)]
    exact List.getElem_mem _
  have h := List.all_eq_true.mp rows_short.1 _ hz
  generalize shortRows[i]'(rows_short.2 ▸ hi) = r at h
  simp only [rowShort] at h
  split at h
  case h_2 => cases h
  rename_i e e2 h1 h2
  split at h
  case h_2 => cases h
  rename_i a b ha hb
  simp only [Bool.and_eq_true] at h
  obtain ⟨⟨⟨⟨k1, k2⟩, k3⟩, k4⟩, k5⟩ := h
  have he := List.mem_of_getElem? h1
  have he2 := List.mem_of_getElem? h2
  have hef : e.format = f := fmt_of_idx (Nat.eq_of_beq_eq_true k1)
  have hlen := length_fill (a ++ b) (partsEnd (a ++ b))
  have hle := Nat.le_of_ble_eq_true k2
  have hcb : Carries (fill (a ++ b) (partsEnd (a ++ b))) b := fun p hp =>
    (part_matches_iff p _).mp (by rw [← sparseMatches_eq]; exact List.all_eq_true.mp k4 p hp)
  have hM : HasMagic e2.format (fill (a ++ b) (partsEnd (a ++ b))) := ⟨e2, he2, rfl, b, List.mem_of_getElem? hb, hcb⟩
  refine ⟨fill (a ++ b) (partsEnd (a ++ b)), ?_, ?_, ?_⟩
  · show List.length _ < 2 ^ 63
    omega
  · rw [fromBytes_none cfg _ (by omega), if_neg (hasMagic_nonempty hM), ← sparseVerdict_eq, beq_iff_eq.mp k3]
    rfl
  · rintro ⟨c, ⟨e3, he3, hf3, hc3⟩, hcc, hall⟩
    rw [entry_unique he3 he (by rw [hf3, hef])] at hc3
    have hx := hall e2.format b ⟨e2, he2, rfl, List.mem_of_getElem? hb⟩ hcb
    have hk := List.all_eq_true.mp k5 c hc3
    have : (c.all fun p => sparseMatches (a ++ b) (partsEnd (a ++ b)) p) = true :=
      List.all_eq_true.mpr fun p hp => by rw [sparseMatches_eq]; exact (part_matches_iff p _).mpr (hcc p hp)
    rw [this] at hk
    have hlt : Nat.blt (magicSize c) (magicSize b) = true := by simpa using hk
    have := Nat.le_of_ble_eq_true hlt
    omega

-- Non-vacuity: Python scripts have magic values of several sizes, and are not among the 39.
example : PythonScript ∉ shortMagicFirst ∧ fromBytes Cfg.release Features.none (b!"#!/usr/bin/python\n") = .ok PythonScript ∧
    (signatureTable.filter fun e => !oneSizeEntry e && !isShortFirst e.format).length = 21 := by decide +kernel

end FF.Props
