import Verif.Model.Std
import Verif.Spec.Text
/-!
# The decoder is correct
-/

namespace FF
open Spec

theorem char_range (c : Char) : c.toNat < 0xD800 ∨ (0xDFFF < c.toNat ∧ c.toNat < 0x110000) := c.valid

theorem toNat_ofNat_lt {n : Nat} (h : n < 256) : (UInt8.ofNat n).toNat = n := by
  rw [UInt8.toNat_ofNat']; omega

theorem charCongr {a b : Nat} {r : Bytes} (h : a = b) : Utf8Step.char a r = .char b r := by rw [h]

/-- Decoding one encoded character. -/
theorem utf8Step_encode (c : Char) (rest : Bytes) :
    ∃ b t, String.utf8EncodeChar c ++ rest = b :: t ∧ utf8Step b t = .char c.toNat rest := by
  have hr := char_range c
  have hv : c.val.toNat = c.toNat := rfl
  unfold String.utf8EncodeChar
  simp only [hv]
  generalize c.toNat = v at hr
  by_cases h1 : v ≤ 127
  · rw [if_pos h1]
    refine ⟨_, _, rfl, ?_⟩
    unfold utf8Step
    rw [toNat_ofNat_lt (by omega)]
    simp only
    rw [if_pos (by omega)]
    rfl
  · rw [if_neg h1]
    by_cases h2 : v ≤ 2047
    · rw [if_pos h2]
      refine ⟨_, _ :: rest, rfl, ?_⟩
      unfold utf8Step isCont
      rw [toNat_ofNat_lt (by omega)]
      simp only
      rw [toNat_ofNat_lt (n := v % 64 + 128) (by omega), if_neg (by omega), if_pos (by omega),
        if_pos (by simp; omega)]
      exact charCongr (by omega)
    · rw [if_neg h2]
      by_cases h3 : v ≤ 65535
      · rw [if_pos h3]
        refine ⟨_, _ :: _ :: rest, rfl, ?_⟩
        unfold utf8Step isCont
        rw [toNat_ofNat_lt (by omega)]
        simp only
        rw [toNat_ofNat_lt (n := v % 64 + 128) (by omega), toNat_ofNat_lt (n := v / 64 % 64 + 128) (by omega),
          if_neg (by omega), if_neg (by omega), if_pos (by omega), if_pos (by omega), if_pos (by simp; omega)]
        exact charCongr (by omega)
      · rw [if_neg h3]
        refine ⟨_, _ :: _ :: _ :: rest, rfl, ?_⟩
        unfold utf8Step isCont
        rw [toNat_ofNat_lt (by omega)]
        simp only
        rw [toNat_ofNat_lt (n := v % 64 + 128) (by omega), toNat_ofNat_lt (n := v / 64 % 64 + 128) (by omega),
          toNat_ofNat_lt (n := v / 4096 % 64 + 128) (by omega),
          if_neg (by omega), if_neg (by omega), if_neg (by omega), if_pos (by omega), if_pos (by omega),
          if_pos (by simp; omega), if_pos (by simp; omega)]
        exact charCongr (by omega)

theorem encode_of {v : Nat} (h : v < 0xD800 ∨ (0xDFFF < v ∧ v < 0x110000)) :
    ∃ c : Char, c.toNat = v := by
  refine ⟨⟨UInt32.ofNat v, ?_⟩, ?_⟩
  · show UInt32.isValidChar _
    unfold UInt32.isValidChar Nat.isValidChar
    have : (UInt32.ofNat v).toNat = v := by rw [UInt32.toNat_ofNat']; omega
    rw [this]; omega
  · show (UInt32.ofNat v).toNat = v
    rw [UInt32.toNat_ofNat']; omega

theorem ofNat_eq {n : Nat} {b : UInt8} (h : n = b.toNat) : UInt8.ofNat n = b := by
  subst h; exact UInt8.ofNat_toNat

theorem isCont_iff {b : UInt8} : isCont b = true ↔ 0x80 ≤ b.toNat ∧ b.toNat ≤ 0xBF := by
  simp [isCont]

/-- Whatever the decoder accepts is an encoded character. -/
theorem utf8Step_char {b : UInt8} {t rest : Bytes} {cp : Nat} (h : utf8Step b t = .char cp rest) :
    ∃ c : Char, c.toNat = cp ∧ b :: t = String.utf8EncodeChar c ++ rest := by
  have key : ∀ {v : Nat}, (v < 0xD800 ∨ (0xDFFF < v ∧ v < 0x110000)) → ∀ {pre : Bytes},
      (∀ c : Char, c.toNat = v → String.utf8EncodeChar c = pre) → cp = v → b :: t = pre ++ rest →
      ∃ c : Char, c.toNat = cp ∧ b :: t = String.utf8EncodeChar c ++ rest := by
    intro v hv pre hp hcp hbt
    obtain ⟨c, hc⟩ := encode_of hv
    exact ⟨c, hc.trans hcp.symm, by rw [hp c hc, hbt]⟩
  have hval : ∀ c : Char, c.val.toNat = c.toNat := fun _ => rfl
  unfold utf8Step at h
  simp only at h
  have hb := b.toNat_lt
  split at h
  · rename_i h1
    cases h
    refine key (v := b.toNat) (by omega) (pre := [b]) ?_ rfl rfl
    intro c hc
    unfold String.utf8EncodeChar
    simp only [hval, hc]
    rw [if_pos (by omega), UInt8.ofNat_toNat]
  · split at h
    · rename_i h1 h2
      split at h
      · rename_i c1 t1
        split at h
        · rename_i hc1
          rw [isCont_iff] at hc1
          injection h with e1 e2
          refine key (v := (b.toNat - 0xC0) * 64 + (c1.toNat - 0x80)) (by omega) (pre := [b, c1]) ?_ e1.symm (by rw [← e2]; rfl)
          intro c hc
          unfold String.utf8EncodeChar
          simp only [hval, hc]
          rw [if_neg (by omega), if_pos (by omega), ofNat_eq (b := b) (by omega), ofNat_eq (b := c1) (by omega)]
        · cases h
      · cases h
    · split at h
      · rename_i h1 h2 h3
        split at h
        · rename_i c1 t1
          split at h
          · rename_i hy
            split at h
            · rename_i c2 t2
              split at h
              · rename_i hc2
                rw [isCont_iff] at hc2
                injection h with e1 e2
                have := c1.toNat_lt
                refine key (v := (b.toNat - 0xE0) * 4096 + (c1.toNat - 0x80) * 64 + (c2.toNat - 0x80))
                  (by omega) (pre := [b, c1, c2]) ?_ e1.symm (by rw [← e2]; rfl)
                intro c hc
                unfold String.utf8EncodeChar
                simp only [hval, hc]
                rw [if_neg (by omega), if_neg (by omega), if_pos (by omega), ofNat_eq (b := b) (by omega),
                  ofNat_eq (b := c1) (by omega), ofNat_eq (b := c2) (by omega)]
              · cases h
            · cases h
          · cases h
        · cases h
      · split at h
        · rename_i h1 h2 h3 h4
          split at h
          · rename_i c1 t1
            split at h
            · rename_i hy
              split at h
              · rename_i c2 t2
                split at h
                · rename_i hc2
                  split at h
                  · rename_i c3 t3
                    split at h
                    · rename_i hc3
                      rw [isCont_iff] at hc2 hc3
                      injection h with e1 e2
                      have := c1.toNat_lt
                      refine key (v := (b.toNat - 0xF0) * 262144 + (c1.toNat - 0x80) * 4096 +
                          (c2.toNat - 0x80) * 64 + (c3.toNat - 0x80))
                        (by omega) (pre := [b, c1, c2, c3]) ?_ e1.symm (by rw [← e2]; rfl)
                      intro c hc
                      unfold String.utf8EncodeChar
                      simp only [hval, hc]
                      rw [if_neg (by omega), if_neg (by omega), if_neg (by omega), ofNat_eq (b := b) (by omega),
                        ofNat_eq (b := c1) (by omega), ofNat_eq (b := c2) (by omega),
                        ofNat_eq (b := c3) (by omega)]
                    · cases h
                  · cases h
                · cases h
              · cases h
            · cases h
          · cases h
        · cases h

theorem encode_length (c : Char) : 1 ≤ (String.utf8EncodeChar c).length := by
  obtain ⟨b, t, h, _⟩ := utf8Step_encode c []
  rw [List.append_nil] at h
  rw [h]
  simp

theorem utf8_cons (c : Char) (cs : List Char) : utf8 (c :: cs) = String.utf8EncodeChar c ++ utf8 cs := rfl
theorem utf8_append (a b : List Char) : utf8 (a ++ b) = utf8 a ++ utf8 b := by simp [utf8]

theorem length_le_utf8 (cs : List Char) : cs.length ≤ (utf8 cs).length := by
  induction cs with
  | nil => simp
  | cons c cs ih =>
    have := encode_length c
    rw [utf8_cons, List.length_append, List.length_cons]
    omega

theorem decodeUtf8Aux_encode (cs : List Char) (fuel : Nat) (h : cs.length ≤ fuel) :
    decodeUtf8Aux fuel (utf8 cs) = some (cs.map Char.toNat) := by
  induction cs generalizing fuel with
  | nil => cases fuel <;> rfl
  | cons c cs ih =>
    cases fuel with
    | zero => simp at h
    | succ fuel =>
      obtain ⟨b, t, h1, h2⟩ := utf8Step_encode c (utf8 cs)
      rw [utf8_cons, h1, decodeUtf8Aux, h2]
      simp only
      rw [ih fuel (by simpa using h)]
      rfl

theorem decodeUtf8Aux_some {fuel : Nat} {bs : Bytes} {s : Str} (h : decodeUtf8Aux fuel bs = some s) :
    ∃ cs : List Char, bs = utf8 cs ∧ s = cs.map Char.toNat := by
  induction fuel generalizing bs s with
  | zero =>
    cases bs with
    | nil => cases h; exact ⟨[], rfl, rfl⟩
    | cons b t => cases h
  | succ fuel ih =>
    cases bs with
    | nil => cases h; exact ⟨[], rfl, rfl⟩
    | cons b t =>
      rw [decodeUtf8Aux] at h
      cases hs : utf8Step b t with
      | bad r => rw [hs] at h; cases h
      | char cp rest =>
        rw [hs] at h
        simp only [Option.map_eq_some_iff] at h
        obtain ⟨s', hs', rfl⟩ := h
        obtain ⟨cs, h1, h2⟩ := ih hs'
        obtain ⟨c, hc, hbt⟩ := utf8Step_char hs
        exact ⟨c :: cs, by rw [utf8_cons, hbt, h1], by simp [hc, h2]⟩

/-- `str::from_utf8` accepts exactly the encodings and returns the text. -/
theorem decodeUtf8_iff (bs : Bytes) (s : Str) :
    decodeUtf8 bs = some s ↔ ∃ cs : List Char, bs = utf8 cs ∧ s = cs.map Char.toNat := by
  constructor
  · exact decodeUtf8Aux_some
  · rintro ⟨cs, rfl, rfl⟩
    exact decodeUtf8Aux_encode cs _ (length_le_utf8 cs)

end FF
