import Verif.Proofs.Sig
import Verif.Spec.Published2
/-!
# Published magic numbers against the table
-/

namespace FF
open FileFormat Spec

/-- The bytes of part `p` are among the published ones. -/
def implied (parts : List (Nat × Bytes)) (p : Part) : Bool :=
  parts.any fun q => Nat.ble q.1 p.offset && Nat.ble (p.offset - q.1) q.2.length && (p.value.isPrefixOf (q.2.drop (p.offset - q.1)))

/-- The published bytes contain a whole alternative of the entry. -/
def coveredBy (k : Published) (e : SigEntry) : Bool := e.alts.any fun alt => alt.all (implied k.2)

def covered (k : Published) : Bool :=
  signatureTable.any fun e => Nat.beq e.format.ctorIdx k.1.ctorIdx && coveredBy k e

theorem fmt_of_idx {f g : FileFormat} (h : f.ctorIdx = g.ctorIdx) : f = g := by
  rw [← FileFormat.ofNat_ctorIdx f, h, FileFormat.ofNat_ctorIdx]

theorem implied_sound {k : Published} {b : Bytes} {p : Part} (h : implied k.2 p = true) (hb : Shows b k) :
    MagicAt p.offset p.value b := by
  unfold implied at h
  rw [List.any_eq_true] at h
  obtain ⟨q, hq, h⟩ := h
  rw [Bool.and_eq_true, Bool.and_eq_true] at h
  have hle : q.1 ≤ p.offset := Nat.le_of_ble_eq_true h.1.1
  have hv : p.offset - q.1 ≤ q.2.length := Nat.le_of_ble_eq_true h.1.2
  have hpre : p.value <+: q.2.drop (p.offset - q.1) := List.isPrefixOf_iff_prefix.mp h.2
  obtain ⟨pre, suf, he, hl⟩ := hb q hq
  obtain ⟨t, ht⟩ := hpre
  refine ⟨pre ++ q.2.take (p.offset - q.1), t ++ suf, ?_, ?_⟩
  · rw [he]
    have : q.2 = q.2.take (p.offset - q.1) ++ (p.value ++ t) := by rw [ht, List.take_append_drop]
    simp only [List.append_assoc]
    rw [← List.append_assoc p.value t suf, ← List.append_assoc (q.2.take _) (p.value ++ t) suf, ← this]
  · rw [List.length_append, List.length_take, hl]
    omega

theorem coveredBy_sound {k : Published} {e : SigEntry} {b : Bytes} (h : coveredBy k e = true) (hb : Shows b k) :
    ∃ alt ∈ e.alts, Carries b alt := by
  unfold coveredBy at h
  rw [List.any_eq_true] at h
  obtain ⟨alt, ha, h⟩ := h
  rw [List.all_eq_true] at h
  exact ⟨alt, ha, fun p hp => implied_sound (h p hp) hb⟩

theorem covered_sound {k : Published} {b : Bytes} (h : covered k = true) (hb : Shows b k) : HasMagic k.1 b := by
  unfold covered at h
  rw [List.any_eq_true] at h
  obtain ⟨e, he, h⟩ := h
  rw [Bool.and_eq_true] at h
  exact ⟨e, he, fmt_of_idx (Nat.eq_of_beq_eq_true h.1), coveredBy_sound h.2 hb⟩

/-! ## Conflicts -/

/-- Two byte strings that differ somewhere on their common length. -/
def differ : Bytes → Bytes → Bool
  | a :: x, b :: y => !(Nat.beq a.toNat b.toNat) || differ x y
  | _, _ => false

theorem differ_sound {u v s t : Bytes} (h : differ u v = true) : u ++ s ≠ v ++ t := by
  induction u generalizing v with
  | nil => simp [differ] at h
  | cons a x ih =>
    cases v with
    | nil => simp [differ] at h
    | cons b y =>
      intro he
      simp only [List.cons_append, List.cons.injEq] at he
      simp only [differ, Bool.or_eq_true, Bool.not_eq_true'] at h
      rcases h with h | h
      · rw [he.1] at h
        simp at h
      · exact ih h he.2

/-- The part cannot be present together with the published bytes. -/
def conflicts (parts : List (Nat × Bytes)) (p : Part) : Bool :=
  parts.any fun q =>
    if Nat.ble q.1 p.offset then differ (q.2.drop (p.offset - q.1)) p.value
    else differ q.2 (p.value.drop (q.1 - p.offset))

theorem magicAt_drop {o : Nat} {v b : Bytes} (h : MagicAt o v b) : ∃ t, b.drop o = v ++ t := by
  obtain ⟨pre, suf, rfl, hl⟩ := h
  exact ⟨suf, by rw [← hl, List.append_assoc, List.drop_left]⟩

theorem drop_more {o n : Nat} {v b t : Bytes} (h : b.drop o = v ++ t) (hn : n ≤ v.length) : b.drop (o + n) = v.drop n ++ t := by
  rw [← List.drop_drop, h, List.drop_append_of_le_length hn]

theorem differ_nil_left {v : Bytes} : differ [] v = false := rfl
theorem differ_nil_right {v : Bytes} : differ v [] = false := by cases v <;> rfl

theorem conflicts_sound {k : Published} {b : Bytes} {p : Part} (h : conflicts k.2 p = true) (hb : Shows b k) :
    ¬ MagicAt p.offset p.value b := by
  intro hp
  unfold conflicts at h
  rw [List.any_eq_true] at h
  obtain ⟨q, hq, h⟩ := h
  obtain ⟨s, hs⟩ := magicAt_drop (hb q hq)
  obtain ⟨t, ht⟩ := magicAt_drop hp
  by_cases hle : Nat.ble q.1 p.offset = true
  · rw [if_pos hle] at h
    have hle' := Nat.le_of_ble_eq_true hle
    by_cases hn : p.offset - q.1 ≤ q.2.length
    · have := drop_more hs hn
      rw [show q.1 + (p.offset - q.1) = p.offset by omega, ht] at this
      exact differ_sound h this.symm
    · rw [List.drop_eq_nil_of_le (by omega), differ_nil_left] at h
      cases h
  · rw [if_neg hle] at h
    have hle' : ¬ q.1 ≤ p.offset := fun h => hle (Nat.ble_eq_true_of_le h)
    by_cases hn : q.1 - p.offset ≤ p.value.length
    · have := drop_more ht hn
      rw [show p.offset + (q.1 - p.offset) = q.1 by omega, hs] at this
      exact differ_sound h this
    · rw [List.drop_eq_nil_of_le (by omega), differ_nil_right] at h
      cases h

/-- No entry before that of the format can match together with the published bytes. -/
def settled (k : Published) : List SigEntry → Bool
  | [] => false
  | e :: es =>
    if Nat.beq e.format.ctorIdx k.1.ctorIdx then coveredBy k e
    else (e.alts.all fun alt => alt.any (conflicts k.2)) && settled k es

theorem settled_sound {k : Published} {b : Bytes} (es : List SigEntry) (h : settled k es = true) (hb : Shows b k) :
    (es.find? fun e => e.matches b).map SigEntry.format = some k.1 := by
  induction es with
  | nil => cases h
  | cons e es ih =>
    unfold settled at h
    by_cases hf : Nat.beq e.format.ctorIdx k.1.ctorIdx = true
    · rw [if_pos hf] at h
      have hm : e.matches b = true := (entry_matches_iff e b).mpr (coveredBy_sound h hb)
      rw [List.find?_cons_of_pos (p := fun e : SigEntry => e.matches b) hm]
      simp only [Option.map_some]
      rw [fmt_of_idx (Nat.eq_of_beq_eq_true hf)]
    · rw [if_neg hf, Bool.and_eq_true] at h
      have hm : ¬ e.matches b = true := by
        intro hm
        obtain ⟨alt, ha, hc⟩ := (entry_matches_iff e b).mp hm
        have h1 := List.all_eq_true.mp h.1 alt ha
        rw [List.any_eq_true] at h1
        obtain ⟨p, hp, h1⟩ := h1
        exact conflicts_sound h1 hb (hc p hp)
      rw [List.find?_cons_of_neg (p := fun e : SigEntry => e.matches b) hm]
      exact ih h.2

/-! ## The other direction -/

/-- The published bytes `q` are among those of the alternative. -/
def within (alt : List Part) (q : Nat × Bytes) : Bool :=
  alt.any fun p => Nat.ble p.offset q.1 && Nat.ble (q.1 - p.offset) p.value.length &&
    q.2.isPrefixOf (p.value.drop (q.1 - p.offset))

/-- The alternative contains a published magic number of its format. -/
def backed (ks : List Published) (f : FileFormat) (alt : List Part) : Bool :=
  ks.any fun k => Nat.beq k.1.ctorIdx f.ctorIdx && k.2.all (within alt)

theorem within_sound {alt : List Part} {q : Nat × Bytes} {b : Bytes} (h : within alt q = true)
    (hc : Carries b alt) : MagicAt q.1 q.2 b := by
  unfold within at h
  rw [List.any_eq_true] at h
  obtain ⟨p, hp, h⟩ := h
  rw [Bool.and_eq_true, Bool.and_eq_true] at h
  have hle : p.offset ≤ q.1 := Nat.le_of_ble_eq_true h.1.1
  have hv : q.1 - p.offset ≤ p.value.length := Nat.le_of_ble_eq_true h.1.2
  obtain ⟨t, ht⟩ : q.2 <+: p.value.drop (q.1 - p.offset) := List.isPrefixOf_iff_prefix.mp h.2
  obtain ⟨pre, suf, he, hl⟩ := hc p hp
  refine ⟨pre ++ p.value.take (q.1 - p.offset), t ++ suf, ?_, ?_⟩
  · rw [he]
    have : p.value = p.value.take (q.1 - p.offset) ++ (q.2 ++ t) := by rw [ht, List.take_append_drop]
    simp only [List.append_assoc]
    rw [← List.append_assoc q.2 t suf, ← List.append_assoc (p.value.take _) (q.2 ++ t) suf, ← this]
  · rw [List.length_append, List.length_take, hl]
    omega

theorem backed_sound {ks : List Published} {f : FileFormat} {alt : List Part} {b : Bytes}
    (h : backed ks f alt = true) (hc : Carries b alt) : ∃ k ∈ ks, k.1 = f ∧ Shows b k := by
  unfold backed at h
  rw [List.any_eq_true] at h
  obtain ⟨k, hk, h⟩ := h
  rw [Bool.and_eq_true] at h
  refine ⟨k, hk, fmt_of_idx (Nat.eq_of_beq_eq_true h.1), ?_⟩
  intro q hq
  exact within_sound (List.all_eq_true.mp h.2 q hq) hc

end FF
