import Verif.Proofs.Text
/-!
# Prefixes of texts
-/

namespace FF
open Spec FileFormat

theorem encode_inj {c c' : Char} {r r' : Bytes}
    (h : String.utf8EncodeChar c ++ r = String.utf8EncodeChar c' ++ r') : c = c' ∧ r = r' := by
  obtain ⟨b, t, h1, h2⟩ := utf8Step_encode c r
  obtain ⟨b', t', h1', h2'⟩ := utf8Step_encode c' r'
  rw [h1, h1'] at h
  cases h
  rw [h2] at h2'
  injection h2' with e1 e2
  exact ⟨Char.toNat_inj.mp e1, e2⟩

theorem utf8_prefix {cs cs1 : List Char} {r : Bytes} (h : utf8 cs = utf8 cs1 ++ r) :
    ∃ cs2, cs = cs1 ++ cs2 ∧ r = utf8 cs2 := by
  induction cs1 generalizing cs with
  | nil => exact ⟨cs, rfl, h.symm⟩
  | cons c cs1 ih =>
    cases cs with
    | nil =>
      exfalso
      have := congrArg List.length h
      have h2 := encode_length c
      rw [utf8_cons, List.length_append, List.length_append] at this
      simp only [utf8, List.flatMap_nil, List.length_nil] at this
      omega
    | cons c' cs =>
      rw [utf8_cons, utf8_cons, List.append_assoc] at h
      obtain ⟨rfl, h'⟩ := encode_inj h
      obtain ⟨cs2, rfl, h2⟩ := ih h'
      exact ⟨cs2, rfl, h2⟩

/-- The last byte of a text is not a leading byte of a longer character. -/
theorem utf8_last {cs : List Char} {a : Bytes} {x : UInt8} (h : utf8 cs = a ++ [x]) :
    x.toNat < 0xC0 := by
  have hne : cs ≠ [] := by
    rintro rfl
    have := congrArg List.length h
    simp [utf8] at this
  rw [← List.dropLast_concat_getLast hne, utf8_append] at h
  generalize cs.getLast hne = c at h
  have h2 := congrArg List.getLast? h
  rw [List.getLast?_append, List.getLast?_append] at h2
  have hv : c.val.toNat = c.toNat := rfl
  have h3 : utf8 [c] = String.utf8EncodeChar c := by simp [utf8]
  rw [h3] at h2
  have hr := char_range c
  unfold String.utf8EncodeChar at h2
  simp only [hv] at h2
  generalize c.toNat = v at h2 hr
  split at h2
  · simp at h2; rw [← h2, UInt8.toNat_ofNat']; omega
  · split at h2
    · simp at h2; rw [← h2, UInt8.toNat_add, UInt8.toNat_ofNat', show UInt8.toNat 128 = 128 from rfl]; omega
    · split at h2
      · simp at h2; rw [← h2, UInt8.toNat_add, UInt8.toNat_ofNat', show UInt8.toNat 128 = 128 from rfl]; omega
      · simp at h2; rw [← h2, UInt8.toNat_add, UInt8.toNat_ofNat', show UInt8.toNat 128 = 128 from rfl]; omega

theorem firstLines_take (n k : Nat) (b : Bytes) : firstLines n (b.take k) = (firstLines n b).take k := by
  induction b generalizing n k with
  | nil => simp [firstLines_nil]
  | cons x t ih =>
    cases n with
    | zero => simp [firstLines]
    | succ n =>
      cases k with
      | zero => simp [firstLines]
      | succ k =>
        rw [List.take_succ_cons, firstLines, firstLines]
        split <;> simp [ih]

theorem firstLines_prefix (n : Nat) (b : Bytes) : ∃ r, b = firstLines n b ++ r := by
  induction b generalizing n with
  | nil => exact ⟨[], by simp [firstLines_nil]⟩
  | cons x t ih =>
    cases n with
    | zero => exact ⟨x :: t, by simp [firstLines]⟩
    | succ n =>
      rw [firstLines]
      split
      · obtain ⟨r, hr⟩ := ih n; exact ⟨r, by rw [List.cons_append, ← hr]⟩
      · obtain ⟨r, hr⟩ := ih (n + 1); exact ⟨r, by rw [List.cons_append, ← hr]⟩

theorem firstLines_isText (n : Nat) {b : Bytes} (h : IsText b) : IsText (firstLines n b) := by
  induction n generalizing b with
  | zero => rw [firstLines]; exact isText_nil
  | succ n ih =>
    rcases uptoNewline_split b with ⟨a, b', h1, _, h3⟩ | ⟨_, h2⟩
    · rw [h3]
      rw [h1] at h
      obtain ⟨h4, h5⟩ := isText_cut h
      exact isText_append h4 (ih h5)
    · rw [h2]; exact h

theorem take_isText {b : Bytes} (h : IsText b) (k : Nat) (hk : k ≤ b.length) :
    IsText (b.take k) ↔ ∃ cs1 cs2, b = utf8 (cs1 ++ cs2) ∧ (utf8 cs1).length = k := by
  obtain ⟨cs, rfl, hf⟩ := h
  constructor
  · rintro ⟨cs1, h1, _⟩
    have h2 := (List.take_append_drop k (utf8 cs)).symm
    rw [h1] at h2
    obtain ⟨cs2, rfl, _⟩ := utf8_prefix h2
    exact ⟨cs1, cs2, rfl, by rw [← h1, List.length_take]; omega⟩
  · rintro ⟨cs1, cs2, h1, h2⟩
    have h3 : utf8 cs = utf8 cs1 ++ utf8 cs2 := by rw [h1, utf8_append]
    obtain ⟨cs2', rfl, _⟩ := utf8_prefix h3
    refine ⟨cs1, ?_, fun c hc => hf c (by simp [hc])⟩
    rw [h3, ← h2]
    simp

/-- A long run of one letter carries no magic. -/
theorem table_letters : signatureTable.all (fun e => e.alts.all fun alt => alt.any fun p =>
    p.value.any (· != 97)) = true := by decide +kernel

theorem letters_no_magic (n : Nat) (t : Bytes) (hn : 36870 ≤ n) (f : FileFormat) :
    ¬ HasMagic f (List.replicate n 97 ++ t) := by
  have h : fromSignature (List.replicate n 97 ++ t) = none := by
    rw [← fromSignature_take _ bufferSize (Nat.le_refl _),
      List.take_append_of_le_length (by simpa [bufferSize] using hn), fromSignature_none]
    rintro f ⟨e, he, _, alt, ha, hc⟩
    have h1 := List.all_eq_true.mp (List.all_eq_true.mp table_letters e he) alt ha
    obtain ⟨p, hp, h2⟩ := List.any_eq_true.mp h1
    obtain ⟨x, hx, h3⟩ := List.any_eq_true.mp h2
    obtain ⟨pre, suf, h4, _⟩ := hc p hp
    have h5 : x ∈ List.take bufferSize (List.replicate n (97 : UInt8)) := by rw [h4]; simp [hx]
    have h6 := List.mem_of_mem_take h5
    rw [List.mem_replicate] at h6
    simp [h6.2] at h3
  exact fromSignature_none.mp h f

end FF
