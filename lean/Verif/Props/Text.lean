import Verif.Proofs.Text2
/-!
# Plain text (C23, C24)
-/

namespace FF.Props
open FF Spec FileFormat

/-- With `reader-txt`, on input without a known magic. -/
theorem fromBytes_text (cfg : Cfg) (ft : Features) (b : Bytes) (hb : IsSlice b) (hne : b ≠ [])
    (hr : Recognised b ArbitraryBinaryData) :
    fromBytes cfg ft b = idealGeneric ft b (2 ^ 64 - 1) := by
  have hb' : b.length < 2 ^ 63 := hb
  have hl : b.length ≠ 0 := by simpa using hne
  have hs : fromSignature b = none := by
    unfold Recognised at hr
    rw [fromBytes_none _ _ (by omega), if_neg hl] at hr
    cases hx : fromSignature b with
    | none => rfl
    | some f =>
      rw [hx] at hr
      cases hr
      exact absurd rfl (hasMagic_special (fromSignature_some hx)).2.1
  rw [fromBytes_ideal _ _ _ (by omega)]
  unfold ideal
  rw [fromSignature_take b _ (Nat.le_refl _), hs, if_neg hl]

/-- C23. With `reader-txt`, a non-empty input without a known magic (one that is
`ArbitraryBinaryData` when no reader is enabled) is `PlainText` exactly if the first 16 lines of its
first 65536 bytes are UTF-8 text without control characters other than white space; otherwise it
stays `ArbitraryBinaryData`. -/
theorem C23_text_iff (cfg : Cfg) (ft : Features) (b : Bytes) (hb : IsSlice b) (hne : b ≠ [])
    (ht : ft.txt = true) (hr : Recognised b ArbitraryBinaryData) :
    (fromBytes cfg ft b = .ok PlainText ↔ IsText (firstLines 16 (b.take 65536))) ∧
    (fromBytes cfg ft b = .ok ArbitraryBinaryData ↔ ¬ IsText (firstLines 16 (b.take 65536))) := by
  rw [fromBytes_text cfg ft b hb hne hr]
  rcases idealGeneric_text ft b (2 ^ 64 - 1) ht with ⟨h1, h2⟩ | ⟨h1, h2⟩ <;> rw [h2] <;> simp [h1]

-- Non-vacuity: UTF-8 with a multi-byte character, white-space controls; a bell character; bad UTF-8.
example : Recognised (b!"h\xC3\xA9llo\tworld\r\nbye\n") ArbitraryBinaryData ∧
    fromBytes Cfg.release { txt := true } (b!"h\xC3\xA9llo\tworld\r\nbye\n") = .ok PlainText := by
  unfold Recognised; decide +kernel
example : fromBytes Cfg.release { txt := true } (b!"h\x07llo") = .ok ArbitraryBinaryData ∧
    fromBytes Cfg.release { txt := true } (b!"h\xC3llo") = .ok ArbitraryBinaryData ∧
    fromBytes Cfg.release { txt := true } (b!"\xED\xA0\x80") = .ok ArbitraryBinaryData ∧
    fromBytes Cfg.release { txt := true } (b!"1\n2\n3\n4\n5\n6\n7\n8\n9\n10\n11\n12\n13\n14\n15\n16\n\xFF") =
      .ok PlainText := by decide +kernel

/-! ## C24 -/

/-- C24 as one would wish it. -/
def C24_statement : Prop :=
  ∀ (cfg : Cfg) (ft : Features) (b : Bytes), IsSlice b → b ≠ [] → ft.txt = true → IsText b →
    Recognised b ArbitraryBinaryData → fromBytes cfg ft b = .ok PlainText

/-- C24, exactly: a text without known magic is reported as `PlainText` if and only if its first 16
lines end within the first 65536 bytes or byte 65536 is a character boundary. -/
theorem C24_exact (cfg : Cfg) (ft : Features) (b : Bytes) (hb : IsSlice b) (hne : b ≠ [])
    (ht : ft.txt = true) (hr : Recognised b ArbitraryBinaryData) (hx : IsText b) :
    fromBytes cfg ft b = .ok PlainText ↔
      (firstLines 16 b).length ≤ 65536 ∨
      ∃ cs1 cs2, b = utf8 (cs1 ++ cs2) ∧ (utf8 cs1).length = 65536 := by
  rw [(C23_text_iff cfg ft b hb hne ht hr).1, firstLines_take]
  have hL := firstLines_isText 16 hx
  obtain ⟨r, hpre⟩ := firstLines_prefix 16 b
  by_cases hl : (firstLines 16 b).length ≤ 65536
  · rw [List.take_of_length_le hl]
    exact ⟨fun _ => Or.inl hl, fun _ => hL⟩
  · have h1 : (firstLines 16 b).take 65536 = b.take 65536 := by
      conv => rhs; rw [hpre]
      rw [List.take_append_of_le_length (by omega)]
    have h2 : (firstLines 16 b).length ≤ b.length := by
      conv => rhs; rw [hpre]
      simp
    rw [h1, take_isText hx 65536 (by omega)]
    exact ⟨Or.inr, fun h => h.resolve_left hl⟩

/-- C24, the part that holds: texts of at most 65536 bytes, and longer ones whose first 16 lines fit
or whose 65536th byte ends a character. -/
theorem C24_text_partial (cfg : Cfg) (ft : Features) (b : Bytes) (hb : IsSlice b) (hne : b ≠ [])
    (ht : ft.txt = true) (hr : Recognised b ArbitraryBinaryData) (hx : IsText b)
    (h : b.length ≤ 65536 ∨ (firstLines 16 b).length ≤ 65536 ∨
      ∃ cs1 cs2, b = utf8 (cs1 ++ cs2) ∧ (utf8 cs1).length = 65536) :
    fromBytes cfg ft b = .ok PlainText := by
  refine (C24_exact cfg ft b hb hne ht hr hx).mpr ?_
  rcases h with h | h | h
  · left
    obtain ⟨r, hpre⟩ := firstLines_prefix 16 b
    have : b.length = (firstLines 16 b).length + r.length := by
      conv => lhs; rw [hpre]
      simp
    omega
  · exact Or.inl h
  · exact Or.inr h

/-- 65535 letters and a two-byte character. -/
def longText : Bytes := List.replicate 65535 97 ++ [0xC3, 0xA9]

theorem longText_length : longText.length = 65537 := by
  unfold longText
  rw [List.length_append, List.length_replicate]
  rfl

theorem longText_isText : IsText longText := by
  refine ⟨List.replicate 65535 'a' ++ ['é'], ?_, ?_⟩
  · rw [utf8_append]
    have h1 : ∀ n, utf8 (List.replicate n 'a') = List.replicate n 97 := by
      intro n
      induction n with
      | zero => rfl
      | succ n ih => rw [List.replicate_succ, utf8_cons, ih, List.replicate_succ]; rfl
    rw [h1]
    rfl
  · intro c hc
    rcases List.mem_append.mp hc with hc | hc
    · rw [List.mem_replicate] at hc; rw [hc.2]; decide
    · rw [List.mem_singleton] at hc; rw [hc]; decide

theorem longText_unknown : Recognised longText ArbitraryBinaryData := by
  unfold Recognised
  have h := fromSignature_none.mpr (letters_no_magic 65535 [0xC3, 0xA9] (by omega))
  rw [fromBytes_none _ _ (by rw [longText_length]; omega), if_neg (by rw [longText_length]; omega)]
  unfold longText
  rw [h]
  rfl

/-- C24 does not hold: the text reader cuts the input at 65536 bytes, which can split a character. -/
theorem C24_fails : ¬ C24_statement := by
  intro h
  have hs : IsSlice longText := by unfold IsSlice; rw [longText_length]; omega
  have hne : longText ≠ [] := by
    intro h0
    have := longText_length
    rw [h0] at this
    cases this
  have := h Cfg.release { txt := true } longText hs hne rfl longText_isText longText_unknown
  rw [(C23_text_iff _ _ _ hs hne rfl longText_unknown).1, firstLines_take] at this
  have hlines : ∀ (n : Nat) (t : Bytes), firstLines 16 (List.replicate n 97 ++ t) =
      List.replicate n 97 ++ firstLines 16 t := by
    intro n t
    induction n with
    | zero => rfl
    | succ n ih => rw [List.replicate_succ, List.cons_append, firstLines, if_neg (by decide), ih]; rfl
  have h2 : (firstLines 16 longText).take 65536 = List.replicate 65535 97 ++ [0xC3] := by
    unfold longText
    rw [hlines, List.take_append, List.take_of_length_le (by rw [List.length_replicate]; omega),
      List.length_replicate]
    rfl
  rw [h2] at this
  obtain ⟨cs, hcs, _⟩ := this
  have := utf8_last hcs.symm
  revert this
  decide

end FF.Props
