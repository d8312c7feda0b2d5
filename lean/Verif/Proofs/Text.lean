import Verif.Proofs.Utf8
import Verif.Proofs.Cases
/-!
# The text reader accepts exactly the texts
-/

namespace FF
open Spec FileFormat

/-- A byte below 128 only encodes the character of that number. -/
theorem encode_ascii {c : Char} {b : UInt8} (hb : b ∈ String.utf8EncodeChar c) (h : b.toNat < 128) :
    String.utf8EncodeChar c = [b] ∧ c.toNat = b.toNat := by
  have hr := char_range c
  have hv : c.val.toNat = c.toNat := rfl
  unfold String.utf8EncodeChar at hb ⊢
  simp only [hv] at hb ⊢
  generalize c.toNat = v at hr hb ⊢
  by_cases h1 : v ≤ 127
  · rw [if_pos h1] at hb ⊢
    rw [List.mem_singleton] at hb
    subst hb
    exact ⟨rfl, by rw [toNat_ofNat_lt (by omega)]⟩
  · exfalso
    rw [if_neg h1] at hb
    by_cases h2 : v ≤ 2047
    · rw [if_pos h2] at hb
      simp only [List.mem_cons, List.not_mem_nil, or_false] at hb
      rcases hb with rfl | rfl <;> rw [toNat_ofNat_lt (by omega)] at h <;> omega
    · rw [if_neg h2] at hb
      by_cases h3 : v ≤ 65535
      · rw [if_pos h3] at hb
        simp only [List.mem_cons, List.not_mem_nil, or_false] at hb
        rcases hb with rfl | rfl | rfl <;> rw [toNat_ofNat_lt (by omega)] at h <;> omega
      · rw [if_neg h3] at hb
        simp only [List.mem_cons, List.not_mem_nil, or_false] at hb
        rcases hb with rfl | rfl | rfl | rfl <;> rw [toNat_ofNat_lt (by omega)] at h <;> omega

theorem utf8_split {cs : List Char} {a b : Bytes} {x : UInt8} (hx : x.toNat < 128)
    (h : utf8 cs = a ++ x :: b) :
    ∃ c1 c c2, cs = c1 ++ c :: c2 ∧ utf8 c1 = a ∧ c.toNat = x.toNat ∧ utf8 c2 = b := by
  induction cs generalizing a with
  | nil =>
    have := congrArg List.length h
    simp [utf8] at this
  | cons c cs ih =>
    rw [utf8_cons] at h
    by_cases hl : (String.utf8EncodeChar c).length ≤ a.length
    · obtain ⟨a', rfl⟩ : ∃ a', a = String.utf8EncodeChar c ++ a' := by
        have := congrArg (List.take (String.utf8EncodeChar c).length) h
        rw [List.take_left, List.take_append_of_le_length hl] at this
        refine ⟨a.drop (String.utf8EncodeChar c).length, ?_⟩
        have h2 := (List.take_append_drop (String.utf8EncodeChar c).length a).symm
        rw [← this] at h2
        exact h2
      rw [List.append_assoc, List.append_cancel_left_eq] at h
      obtain ⟨c1, c', c2, rfl, h1, h2, h3⟩ := ih h
      exact ⟨c :: c1, c', c2, rfl, by rw [utf8_cons, h1], h2, h3⟩
    · have hmem : x ∈ String.utf8EncodeChar c := by
        have : (String.utf8EncodeChar c)[a.length]? = some x := by
          have h1 := congrArg (fun l => l[a.length]?) h
          rw [List.getElem?_append_left (by omega), List.getElem?_append_right (Nat.le_refl _)] at h1
          simpa using h1
        exact List.mem_of_getElem? this
      obtain ⟨h1, h2⟩ := encode_ascii hmem hx
      rw [h1] at h hl
      have ha : a = [] := List.eq_nil_of_length_eq_zero (by simpa using hl)
      subst ha
      simp only [List.cons_append, List.nil_append, List.cons.injEq, true_and] at h
      exact ⟨[], c, cs, rfl, rfl, h2, h⟩

theorem isText_nil : IsText [] := ⟨[], rfl, by simp⟩

theorem isText_append {a b : Bytes} (ha : IsText a) (hb : IsText b) : IsText (a ++ b) := by
  obtain ⟨c1, rfl, h1⟩ := ha
  obtain ⟨c2, rfl, h2⟩ := hb
  refine ⟨c1 ++ c2, (utf8_append _ _).symm, fun c hc => ?_⟩
  rcases List.mem_append.mp hc with hc | hc
  · exact h1 c hc
  · exact h2 c hc

/-- A text can be cut behind a line feed. -/
theorem isText_cut {a b : Bytes} (h : IsText (a ++ 10 :: b)) : IsText (a ++ [10]) ∧ IsText b := by
  obtain ⟨cs, hcs, hf⟩ := h
  obtain ⟨c1, c, c2, rfl, h1, h2, h3⟩ := utf8_split (x := 10) (by decide) hcs.symm
  refine ⟨⟨c1 ++ [c], ?_, fun c' hc => hf c' ?_⟩, ⟨c2, h3.symm, fun c' hc => hf c' ?_⟩⟩
  · rw [utf8_append, utf8_cons, h1, h3] at hcs
    rw [utf8_append, h1]
    rw [List.append_cancel_left_eq] at hcs
    have : (10 : UInt8) :: b = [10] ++ b := rfl
    rw [this, List.append_cancel_right_eq] at hcs
    rw [hcs]; simp [utf8]
  · simp at hc ⊢; rcases hc with hc | hc <;> simp [hc]
  · simp [hc]

theorem uptoNewline_split (bs : Bytes) :
    (∃ a b, bs = a ++ 10 :: b ∧ uptoNewline bs = a ++ [10] ∧
        ∀ n, firstLines (n + 1) bs = (a ++ [10]) ++ firstLines n b) ∨
      (uptoNewline bs = bs ∧ ∀ n, firstLines (n + 1) bs = bs) := by
  induction bs with
  | nil => exact Or.inr ⟨rfl, fun n => rfl⟩
  | cons x t ih =>
    by_cases hx : x = 10
    · subst hx
      exact Or.inl ⟨[], t, rfl, by simp [uptoNewline], fun n => by simp [firstLines]⟩
    · rcases ih with ⟨a, b, h1, h2, h3⟩ | ⟨h1, h2⟩
      · refine Or.inl ⟨x :: a, b, by rw [h1]; rfl, by rw [uptoNewline, if_neg hx, h2]; rfl, fun n => ?_⟩
        rw [firstLines, if_neg hx, h3]; rfl
      · refine Or.inr ⟨by rw [uptoNewline, if_neg hx, h1], fun n => ?_⟩
        rw [firstLines, if_neg hx, h2]

theorem firstLines_nil (n : Nat) : firstLines n [] = [] := by cases n <;> rfl

theorem forbidden_iff (c : Char) :
    (isControl c.toNat && !isWhitespace c.toNat) = true ↔ Forbidden c := by
  unfold isControl isWhitespace Forbidden
  generalize c.toNat = n
  simp only [Bool.and_eq_true, Bool.or_eq_true, decide_eq_true_eq, Bool.not_eq_true', Bool.or_eq_false_iff,
    Bool.and_eq_false_iff, decide_eq_false_iff_not, beq_eq_false_iff_ne]
  omega

theorem mem_of_strip {s : Str} {c : Nat} (h : c ∈ stripLineEnding s) : c ∈ s := by
  unfold stripLineEnding at h
  split at h
  · simp only at h
    split at h
    · exact (List.dropLast_subset _) ((List.dropLast_subset _) h)
    · exact (List.dropLast_subset _) h
  · exact h

theorem strip_mem {s : Str} {c : Nat} (h : c ∈ s) : c ∈ stripLineEnding s ∨ c = 10 ∨ c = 13 := by
  have key : ∀ (l : Str) (x : Nat), l.getLast? = some x → c ∈ l → c ∈ l.dropLast ∨ c = x := by
    intro l x hl hc
    have hne : l ≠ [] := by rintro rfl; cases hc
    rw [List.getLast?_eq_some_getLast hne] at hl
    rw [← List.dropLast_concat_getLast hne] at hc
    cases hl
    rcases List.mem_append.mp hc with h | h
    · exact Or.inl h
    · exact Or.inr (List.mem_singleton.mp h)
  unfold stripLineEnding
  split
  · rename_i h10
    rcases key s 10 h10 h with h1 | h1
    · simp only
      split
      · rename_i h13
        rcases key _ 13 h13 h1 with h2 | h2
        · exact Or.inl h2
        · exact Or.inr (Or.inr h2)
      · exact Or.inl h1
    · exact Or.inr (Or.inl h1)
  · exact Or.inl h

/-- What one round of the loop decides. -/
theorem line_isText (line : Bytes) :
    IsText line ↔ ∃ s, decodeUtf8 line = some s ∧
      (stripLineEnding s).find? (fun c => isControl c && !isWhitespace c) = none := by
  constructor
  · rintro ⟨cs, hcs, hf⟩
    refine ⟨cs.map Char.toNat, (decodeUtf8_iff _ _).mpr ⟨cs, hcs, rfl⟩, ?_⟩
    rw [List.find?_eq_none]
    intro c hc
    obtain ⟨ch, hch, rfl⟩ := List.mem_map.mp (mem_of_strip hc)
    exact fun h => hf ch hch ((forbidden_iff ch).mp h)
  · rintro ⟨s, hs, hf⟩
    obtain ⟨cs, hcs, rfl⟩ := (decodeUtf8_iff _ _).mp hs
    refine ⟨cs, hcs, fun c hc hfc => ?_⟩
    rw [List.find?_eq_none] at hf
    rcases strip_mem (List.mem_map_of_mem (f := Char.toNat) hc) with h1 | h1 | h1
    · exact hf _ h1 ((forbidden_iff c).mpr hfc)
    · unfold Forbidden at hfc; omega
    · unfold Forbidden at hfc; omega

theorem txtLines_run (n limit : Nat) (d : Bytes) (m p : Nat) :
    (IsText (firstLines n (slice d p limit)) ∧ val (run d m (txtLines n limit) p) = .ok PlainText) ∨
    (¬ IsText (firstLines n (slice d p limit)) ∧
      ∃ e, val (run d m (txtLines n limit) p) = .error (.err e)) := by
  induction n generalizing limit p with
  | zero => exact Or.inl ⟨by rw [firstLines]; exact isText_nil, rfl⟩
  | succ n ih =>
    rw [txtLines, run_bind, run_rdUntil, andThen_ok]
    generalize hl : slice d p limit = bs
    have hsl : ∀ a b, bs = a ++ b → slice d (p + a.length) (limit - a.length) = b := by
      intro a b hab
      have : (slice d p limit).drop a.length = b := by rw [hl, hab]; simp
      rw [← this]
      simp only [slice]
      rw [List.drop_take, List.drop_drop]
    rcases uptoNewline_split bs with ⟨a, b, h1, h2, h3⟩ | ⟨h1, h2⟩
    · rw [h2, if_neg (by simp), h3]
      have hcut : IsText (a ++ [10] ++ firstLines n b) ↔ IsText (a ++ [10]) ∧ IsText (firstLines n b) := by
        constructor
        · intro h
          rw [List.append_assoc] at h
          exact isText_cut h
        · exact fun h => isText_append h.1 h.2
      rw [hcut]
      have hlt := line_isText (a ++ [10])
      have hs := hsl (a ++ [10]) b (by rw [h1]; simp)
      by_cases ht : IsText (a ++ [10])
      · obtain ⟨s, hs1, hs2⟩ := hlt.mp ht
        simp only [hs1, hs2]
        have := ih (limit - (a ++ [10]).length) (p + (a ++ [10]).length)
        rw [hs] at this
        simpa only [ht, true_and] using this
      · refine Or.inr ⟨fun h => ht h.1, ?_⟩
        cases hd : decodeUtf8 (a ++ [10]) with
        | none => exact ⟨_, rfl⟩
        | some s =>
          cases hf : (stripLineEnding s).find? (fun c => isControl c && !isWhitespace c) with
          | none => exact absurd (hlt.mpr ⟨s, hd, hf⟩) ht
          | some _ => exact ⟨_, by simp only [hf]; rfl⟩
    · rw [h1, h2]
      by_cases h0 : bs.length = 0
      · rw [if_pos h0]
        have : bs = [] := List.eq_nil_of_length_eq_zero h0
        subst this
        exact Or.inl ⟨isText_nil, rfl⟩
      · rw [if_neg h0]
        have hlt := line_isText bs
        have hs := hsl bs [] (by simp)
        by_cases ht : IsText bs
        · obtain ⟨s, hs1, hs2⟩ := hlt.mp ht
          simp only [hs1, hs2]
          have := ih (limit - bs.length) (p + bs.length)
          rw [hs, firstLines_nil] at this
          rcases this with this | this
          · exact Or.inl ⟨ht, this.2⟩
          · exact absurd isText_nil this.1
        · refine Or.inr ⟨ht, ?_⟩
          cases hd : decodeUtf8 bs with
          | none => exact ⟨_, rfl⟩
          | some s =>
            cases hf : (stripLineEnding s).find? (fun c => isControl c && !isWhitespace c) with
            | none => exact absurd (hlt.mpr ⟨s, hd, hf⟩) ht
            | some _ => exact ⟨_, by simp only [hf]; rfl⟩

/-- The generic verdict. -/
theorem idealGeneric_text (ft : Features) (d : Bytes) (m : Nat) (ht : ft.txt = true) :
    (IsText (firstLines 16 (d.take 65536)) ∧ idealGeneric ft d m = .ok PlainText) ∨
    (¬ IsText (firstLines 16 (d.take 65536)) ∧ idealGeneric ft d m = .ok ArbitraryBinaryData) := by
  have h : val (run d m txtReader 0) = val (run d m (txtLines txtLineLimit txtReadLimit) 0) := by
    unfold txtReader
    rw [run_bind, run_sk_start _ _ (by omega), andThen_ok]
  have h2 := txtLines_run txtLineLimit txtReadLimit d m 0
  have h3 : firstLines txtLineLimit (slice d 0 txtReadLimit) = firstLines 16 (d.take 65536) := rfl
  rw [h3] at h2
  unfold idealGeneric
  rw [if_pos ht, h]
  rcases h2 with ⟨h4, h5⟩ | ⟨h4, e, h5⟩
  · exact Or.inl ⟨h4, by rw [h5]; rfl⟩
  · exact Or.inr ⟨h4, by rw [h5]; rfl⟩

end FF
