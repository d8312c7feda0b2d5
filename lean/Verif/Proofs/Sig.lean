import Verif.Spec.Magic
import Verif.Proofs.Total
/-!
# Signature matching
-/

namespace FF
open FileFormat Spec

theorem part_matches_iff (p : Part) (b : Bytes) : p.matches b = true ↔ MagicAt p.offset p.value b := by
  unfold Part.matches MagicAt
  simp only [Bool.and_eq_true, decide_eq_true_eq, beq_iff_eq]
  constructor
  · rintro ⟨h1, h2⟩
    refine ⟨b.take p.offset, b.drop (p.offset + p.value.length), ?_, ?_⟩
    · have h3 : b = b.take p.offset ++ (slice b p.offset p.value.length ++
          (b.drop p.offset).drop p.value.length) := by
        rw [slice, List.take_append_drop, List.take_append_drop]
      rw [h2, List.drop_drop] at h3
      rw [List.append_assoc]
      exact h3
    · rw [List.length_take]; omega
  · rintro ⟨pre, suf, rfl, h⟩
    refine ⟨by simp; omega, ?_⟩
    rw [List.append_assoc]
    exact slice_append _ _ _ _ _ h.symm rfl

theorem entry_matches_iff (e : SigEntry) (b : Bytes) :
    e.matches b = true ↔ ∃ alt ∈ e.alts, Carries b alt := by
  simp [SigEntry.matches, Carries, part_matches_iff, List.any_eq_true, List.all_eq_true]

theorem fromSignature_some {b : Bytes} {f : FileFormat} (h : fromSignature b = some f) :
    HasMagic f b := by
  unfold fromSignature at h
  cases hf : signatureTable.find? (fun e => e.matches b) with
  | none => rw [hf] at h; cases h
  | some e =>
    rw [hf] at h
    cases h
    exact ⟨e, List.mem_of_find?_eq_some hf, rfl,
      (entry_matches_iff e b).mp (List.find?_some (p := fun e : SigEntry => e.matches b) hf)⟩

theorem fromSignature_none {b : Bytes} : fromSignature b = none ↔ ∀ f, ¬ HasMagic f b := by
  unfold fromSignature
  rw [Option.map_eq_none_iff, List.find?_eq_none]
  constructor
  · rintro h f ⟨e, he, _, ha⟩
    exact h e he ((entry_matches_iff e b).mpr ha)
  · intro h e he hm
    exact h e.format ⟨e, he, rfl, (entry_matches_iff e b).mp hm⟩

/-- The verdict is the format of the first entry with a magic. -/
theorem fromSignature_first {b : Bytes} {f g : FileFormat} (hf : HasMagic f b)
    (hg : fromSignature b = some g) : g = f ∨ ListedBefore g f := by
  obtain ⟨e, he, rfl, ha⟩ := hf
  have hm := (entry_matches_iff e b).mpr ha
  unfold fromSignature at hg
  cases hx : signatureTable.find? (fun e => e.matches b) with
  | none => rw [hx] at hg; cases hg
  | some e' =>
    rw [hx] at hg
    cases hg
    obtain ⟨hm', l1, l2, hsplit, hno⟩ := List.find?_eq_some_iff_append.mp hx
    rw [hsplit] at he
    rcases List.mem_append.mp he with h | h
    · have := hno e h
      simp [hm] at this
    · rcases List.mem_cons.mp h with h | h
      · subst h; exact Or.inl rfl
      · right
        obtain ⟨m1, m2, rfl⟩ := List.append_of_mem h
        exact ⟨l1, e', m1, e, m2, by rw [hsplit]; simp, rfl, rfl⟩

/-! ## The detection window -/

theorem table_window :
    signatureTable.all (fun e => e.alts.all fun alt => alt.all fun p =>
      decide (p.offset + p.value.length ≤ 36870)) = true := by
  decide +kernel

theorem part_window {e : SigEntry} (he : e ∈ signatureTable) {alt : List Part} (ha : alt ∈ e.alts)
    {p : Part} (hp : p ∈ alt) : p.offset + p.value.length ≤ bufferSize := by
  have h := table_window
  rw [List.all_eq_true] at h
  have h := h e he
  rw [List.all_eq_true] at h
  have h := h alt ha
  rw [List.all_eq_true] at h
  have h := h p hp
  simpa [bufferSize] using h

theorem part_matches_take (p : Part) (b : Bytes) (n : Nat) (h : p.offset + p.value.length ≤ n) :
    p.matches (b.take n) = p.matches b := by
  unfold Part.matches
  have h1 : slice (b.take n) p.offset p.value.length = slice b p.offset p.value.length := by
    simp only [slice, List.drop_take, List.take_take]
    congr 1
    omega
  rw [h1, List.length_take]
  congr 1
  simp only [ge_iff_le, decide_eq_decide]
  omega

theorem find?_congr {α : Type} {p q : α → Bool} (l : List α) (h : ∀ a ∈ l, p a = q a) :
    l.find? p = l.find? q := by
  induction l with
  | nil => rfl
  | cons a l ih =>
    simp only [List.find?_cons, h a (by simp), ih (fun x hx => h x (by simp [hx]))]

theorem any_congr {α : Type} {p q : α → Bool} (l : List α) (h : ∀ a ∈ l, p a = q a) :
    l.any p = l.any q := by
  induction l with
  | nil => rfl
  | cons a l ih => simp only [List.any_cons, h a (by simp), ih (fun x hx => h x (by simp [hx]))]

theorem all_congr {α : Type} {p q : α → Bool} (l : List α) (h : ∀ a ∈ l, p a = q a) :
    l.all p = l.all q := by
  induction l with
  | nil => rfl
  | cons a l ih => simp only [List.all_cons, h a (by simp), ih (fun x hx => h x (by simp [hx]))]

theorem fromSignature_take (b : Bytes) (n : Nat) (hn : bufferSize ≤ n) :
    fromSignature (b.take n) = fromSignature b := by
  unfold fromSignature
  congr 1
  refine find?_congr _ fun e he => ?_
  refine any_congr _ fun alt ha => ?_
  refine all_congr _ fun p hp => ?_
  exact part_matches_take p b n (Nat.le_trans (part_window he ha hp) hn)

/-! ## The special formats have no signature -/

theorem table_special : signatureTable.all (fun e =>
    e.format != FileFormat.Empty && e.format != ArbitraryBinaryData && e.format != PlainText) = true := by
  decide +kernel

theorem hasMagic_special {f : FileFormat} {b : Bytes} (h : HasMagic f b) :
    f ≠ FileFormat.Empty ∧ f ≠ ArbitraryBinaryData ∧ f ≠ PlainText := by
  obtain ⟨e, he, rfl, _⟩ := h
  have := List.all_eq_true.mp table_special e he
  simpa [and_assoc] using this

/-! ## `from_bytes` without readers -/

theorem fmtReader_none (cfg : Cfg) (fmt : FileFormat) : fmtReader cfg Features.none fmt = none := by
  rcases fmtReader_cases cfg Features.none fmt with h | ⟨f, _, he, _⟩
  · exact h
  · exfalso
    revert he
    cases f <;> decide

theorem ideal_none (cfg : Cfg) (d : Bytes) (m : Nat) :
    ideal cfg Features.none d m =
      if d.length = 0 then .ok Empty else .ok ((fromSignature d).getD ArbitraryBinaryData) := by
  unfold ideal
  rw [fromSignature_take d bufferSize (Nat.le_refl _)]
  split
  · rfl
  · cases fromSignature d with
    | none => rfl
    | some fmt => simp [fmtReader_none]

theorem fromBytes_none (cfg : Cfg) (b : Bytes) (h : b.length < 2 ^ 64) :
    fromBytes cfg Features.none b =
      if b.length = 0 then .ok Empty else .ok ((fromSignature b).getD ArbitraryBinaryData) := by
  rw [fromBytes_ideal cfg _ b h, ideal_none]

/-- A base format reported without readers comes from the signature. -/
theorem fromSignature_of_none {cfg : Cfg} {b : Bytes} (h : b.length < 2 ^ 64) {f : FileFormat}
    (hf : fromBytes cfg Features.none b = .ok f) (h1 : f ≠ FileFormat.Empty) (h2 : f ≠ ArbitraryBinaryData) :
    fromSignature b = some f := by
  rw [fromBytes_none cfg b h] at hf
  split at hf
  · cases hf; exact absurd rfl h1
  · cases hs : fromSignature b with
    | none => rw [hs] at hf; cases hf; exact absurd rfl h2
    | some g => rw [hs] at hf; cases hf; rfl

end FF
