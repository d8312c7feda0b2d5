import Verif.Proofs.Utf8
/-!
# Lossy decoding and ASCII patterns

`String::from_utf8_lossy` replaces ill-formed pieces by U+FFFD. ASCII bytes are never part of such a
piece, so ASCII patterns are found in the decoded string exactly where they are in the bytes.
-/

namespace FF
open Spec

/-- All bytes are ASCII. -/
def Ascii (p : Bytes) : Prop := ∀ x ∈ p, x.toNat < 0x80

instance decidableAscii (p : Bytes) : Decidable (Ascii p) := inferInstanceAs (Decidable (∀ x ∈ p, _))

/-- ASCII bytes as a string. -/
def asciiStr (p : Bytes) : Str := p.map UInt8.toNat

/-- Scalar value and rest of a step; ill-formed pieces give U+FFFD. -/
def Utf8Step.value : Utf8Step → Nat
  | .char cp _ => cp
  | .bad _ => 0xFFFD
def Utf8Step.rest : Utf8Step → Bytes
  | .char _ r => r
  | .bad r => r

/-- A step whose first byte is not ASCII: the value is not ASCII, and the rest follows after non-ASCII bytes. -/
theorem utf8Step_high {b : UInt8} (hb : 0x80 ≤ b.toNat) (t : Bytes) :
    0x80 ≤ (utf8Step b t).value ∧ ∃ mid, t = mid ++ (utf8Step b t).rest := by
  cases h : utf8Step b t with
  | char cp rest =>
    obtain ⟨c, hc, he⟩ := utf8Step_char h
    constructor
    · show 0x80 ≤ cp
      apply Classical.byContradiction
      intro hlt
      have : String.utf8EncodeChar c = [UInt8.ofNat c.toNat] := by
        unfold String.utf8EncodeChar
        simp only [show c.val.toNat = c.toNat from rfl]
        rw [if_pos (by omega)]
      rw [this, List.cons_append, List.cons.injEq] at he
      have := he.1
      subst this
      rw [toNat_ofNat_lt (by omega)] at hb
      omega
    · have := encode_length c
      obtain ⟨x, xs, hx⟩ : ∃ x xs, String.utf8EncodeChar c = x :: xs := by
        cases hh : String.utf8EncodeChar c with
        | nil => rw [hh] at this; simp at this
        | cons x xs => exact ⟨x, xs, rfl⟩
      rw [hx, List.cons_append, List.cons.injEq] at he
      exact ⟨xs, he.2⟩
  | bad rest =>
    refine ⟨show 0x80 ≤ 0xFFFD by decide, ?_⟩
    show ∃ mid, t = mid ++ rest
    unfold utf8Step at h
    simp only at h
    repeat' split at h
    all_goals first
      | cases h; done
      | (injection h with h; subst h
         first
          | exact ⟨[], rfl⟩
          | exact ⟨[_], rfl⟩
          | exact ⟨[_, _], rfl⟩
          | exact ⟨[_, _, _], rfl⟩)

theorem utf8Step_low {b : UInt8} (hb : b.toNat < 0x80) (t : Bytes) : utf8Step b t = .char b.toNat t := by
  unfold utf8Step
  simp only
  rw [if_pos hb]

theorem utf8Step_rest_length (b : UInt8) (t : Bytes) : (utf8Step b t).rest.length ≤ t.length := by
  by_cases hb : b.toNat < 0x80
  · rw [utf8Step_low hb]; exact Nat.le_refl _
  · obtain ⟨_, mid, h⟩ := utf8Step_high (Nat.le_of_not_lt hb) t
    have := congrArg List.length h
    rw [List.length_append] at this
    omega

theorem decodeLossyAux_fuel (bs : Bytes) (f g : Nat) (hf : bs.length ≤ f) (hg : bs.length ≤ g) :
    decodeLossyAux f bs = decodeLossyAux g bs := by
  induction f generalizing bs g with
  | zero =>
    have : bs = [] := List.eq_nil_of_length_eq_zero (by omega)
    subst this
    cases g <;> rfl
  | succ f ih =>
    cases bs with
    | nil => cases g <;> rfl
    | cons b t =>
      cases g with
      | zero => simp at hg
      | succ g =>
        have hl := utf8Step_rest_length b t
        simp only [List.length_cons] at hf hg
        rw [decodeLossyAux, decodeLossyAux]
        cases h : utf8Step b t with
        | char cp r => rw [h] at hl; simp only; rw [ih r g (by simp only [Utf8Step.rest] at hl; omega) (by simp only [Utf8Step.rest] at hl; omega)]
        | bad r => rw [h] at hl; simp only; rw [ih r g (by simp only [Utf8Step.rest] at hl; omega) (by simp only [Utf8Step.rest] at hl; omega)]

theorem decodeLossy_nil : decodeLossy [] = [] := rfl

theorem decodeLossy_cons (b : UInt8) (t : Bytes) :
    decodeLossy (b :: t) = (utf8Step b t).value :: decodeLossy (utf8Step b t).rest := by
  unfold decodeLossy
  have hl := utf8Step_rest_length b t
  rw [List.length_cons, decodeLossyAux]
  cases h : utf8Step b t with
  | char cp r => rw [h] at hl; exact congrArg _ (decodeLossyAux_fuel r _ _ hl (Nat.le_refl _))
  | bad r => rw [h] at hl; exact congrArg _ (decodeLossyAux_fuel r _ _ hl (Nat.le_refl _))

theorem decodeLossy_low {b : UInt8} (hb : b.toNat < 0x80) (t : Bytes) :
    decodeLossy (b :: t) = b.toNat :: decodeLossy t := by
  rw [decodeLossy_cons, utf8Step_low hb]; rfl

/-- Induction along the decoder. -/
theorem lossy_induction {P : Bytes → Prop} (hnil : P [])
    (hlow : ∀ b t, b.toNat < 0x80 → P t → P (b :: t))
    (hhigh : ∀ b t, 0x80 ≤ b.toNat → P (utf8Step b t).rest → P (b :: t)) (bs : Bytes) : P bs := by
  suffices h : ∀ n, ∀ bs : Bytes, bs.length ≤ n → P bs from h _ bs (Nat.le_refl _)
  intro n
  induction n with
  | zero =>
    intro bs h
    rw [List.eq_nil_of_length_eq_zero (Nat.le_zero.mp h)]
    exact hnil
  | succ n ih =>
    intro bs h
    cases bs with
    | nil => exact hnil
    | cons b t =>
      simp only [List.length_cons] at h
      by_cases hb : b.toNat < 0x80
      · exact hlow b t hb (ih t (by omega))
      · exact hhigh b t (by omega) (ih _ (by have := utf8Step_rest_length b t; omega))

/-- An ASCII byte ends every piece: what follows does not influence the step. -/
theorem utf8Step_append (b : UInt8) (a : Bytes) (x : UInt8) (hx : x.toNat < 0x80) (t : Bytes) :
    (utf8Step b (a ++ x :: t)).value = (utf8Step b a).value ∧
      (utf8Step b (a ++ x :: t)).rest = (utf8Step b a).rest ++ x :: t := by
  have hc : isCont x = false := by
    rw [Bool.eq_false_iff, Ne, isCont_iff]; omega
  unfold utf8Step
  simp only
  split
  · exact ⟨rfl, rfl⟩
  · split
    · rcases a with _ | ⟨c1, a⟩
      · simp [hc, Utf8Step.value, Utf8Step.rest]
      · simp only [List.cons_append]
        split <;> exact ⟨rfl, rfl⟩
    · split
      · rcases a with _ | ⟨c1, a⟩
        · simp only [List.nil_append]
          rw [if_neg (by omega)]
          exact ⟨rfl, rfl⟩
        · simp only [List.cons_append]
          split
          · rcases a with _ | ⟨c2, a⟩
            · simp [hc, Utf8Step.value, Utf8Step.rest]
            · simp only [List.cons_append]
              split <;> exact ⟨rfl, rfl⟩
          · exact ⟨rfl, rfl⟩
      · split
        · rcases a with _ | ⟨c1, a⟩
          · simp only [List.nil_append]
            rw [if_neg (by omega)]
            exact ⟨rfl, rfl⟩
          · simp only [List.cons_append]
            split
            · rcases a with _ | ⟨c2, a⟩
              · simp [hc, Utf8Step.value, Utf8Step.rest]
              · simp only [List.cons_append]
                split
                · rcases a with _ | ⟨c3, a⟩
                  · simp [hc, Utf8Step.value, Utf8Step.rest]
                  · simp only [List.cons_append]
                    split <;> exact ⟨rfl, rfl⟩
                · exact ⟨rfl, rfl⟩
            · exact ⟨rfl, rfl⟩
        · exact ⟨rfl, rfl⟩

theorem decodeLossy_append (a : Bytes) (x : UInt8) (hx : x.toNat < 0x80) (t : Bytes) :
    decodeLossy (a ++ x :: t) = decodeLossy a ++ x.toNat :: decodeLossy t := by
  induction a using lossy_induction with
  | hnil => exact decodeLossy_low hx t
  | hlow b a hb ih => rw [List.cons_append, decodeLossy_low hb, decodeLossy_low hb, ih]; rfl
  | hhigh b a hb ih =>
    obtain ⟨h1, h2⟩ := utf8Step_append b a x hx t
    rw [List.cons_append, decodeLossy_cons, h1, h2, ih, decodeLossy_cons b a]; rfl

theorem decodeLossy_ascii (p t : Bytes) (hp : Ascii p) : decodeLossy (p ++ t) = asciiStr p ++ decodeLossy t := by
  induction p with
  | nil => rfl
  | cons x p ih =>
    rw [List.cons_append, decodeLossy_low (hp x (by simp)), ih (fun y hy => hp y (by simp [hy]))]; rfl

theorem decodeLossy_around (a p t : Bytes) (hp : Ascii p) (hne : p ≠ []) :
    decodeLossy (a ++ (p ++ t)) = decodeLossy a ++ (asciiStr p ++ decodeLossy t) := by
  cases p with
  | nil => exact absurd rfl hne
  | cons x p =>
    rw [List.cons_append, decodeLossy_append a x (hp x (by simp)), decodeLossy_ascii p t (fun y hy => hp y (by simp [hy]))]
    rfl

/-! ## Patterns -/

theorem asciiStr_cons_ne_high {x : UInt8} {p : Bytes} (hp : Ascii (x :: p)) {v : Nat} (hv : 0x80 ≤ v) : x.toNat ≠ v := by
  have := hp x (by simp)
  omega

theorem lossy_eq (p : Bytes) (hp : Ascii p) (s : Bytes) : decodeLossy s = asciiStr p ↔ s = p := by
  constructor
  · induction p generalizing s with
    | nil =>
      intro h
      cases s with
      | nil => rfl
      | cons b t => rw [decodeLossy_cons] at h; cases h
    | cons x p ih =>
      intro h
      cases s with
      | nil => cases h
      | cons b t =>
        by_cases hb : b.toNat < 0x80
        · rw [decodeLossy_low hb] at h
          simp only [asciiStr, List.map_cons, List.cons.injEq] at h
          rw [ih (fun y hy => hp y (by simp [hy])) t h.2, UInt8.toNat_inj.mp h.1]
        · rw [decodeLossy_cons] at h
          simp only [asciiStr, List.map_cons, List.cons.injEq] at h
          exact absurd h.1.symm (asciiStr_cons_ne_high hp (utf8Step_high (by omega) t).1)
  · rintro rfl
    have := decodeLossy_ascii s [] hp
    rwa [List.append_nil, decodeLossy_nil, List.append_nil] at this

theorem lossy_prefix (p : Bytes) (hp : Ascii p) (s : Bytes) : asciiStr p <+: decodeLossy s ↔ p <+: s := by
  constructor
  · induction p generalizing s with
    | nil => exact fun _ => List.nil_prefix
    | cons x p ih =>
      intro h
      cases s with
      | nil => rw [decodeLossy_nil, List.prefix_nil] at h; cases h
      | cons b t =>
        by_cases hb : b.toNat < 0x80
        · rw [decodeLossy_low hb] at h
          simp only [asciiStr, List.map_cons, List.cons_prefix_cons] at h
          rw [List.cons_prefix_cons]
          exact ⟨UInt8.toNat_inj.mp h.1, ih (fun y hy => hp y (by simp [hy])) t h.2⟩
        · rw [decodeLossy_cons] at h
          simp only [asciiStr, List.map_cons, List.cons_prefix_cons] at h
          exact absurd h.1 (asciiStr_cons_ne_high hp (utf8Step_high (by omega) t).1)
  · rintro ⟨r, rfl⟩
    rw [decodeLossy_ascii p r hp]
    exact List.prefix_append _ _

theorem asciiStr_ne_cons {p : Bytes} (hp : Ascii p) {v : Nat} (hv : 0x80 ≤ v) (r : Str) : asciiStr p ≠ v :: r := by
  cases p with
  | nil => simp [asciiStr]
  | cons x p =>
    intro h
    simp only [asciiStr, List.map_cons, List.cons.injEq] at h
    exact asciiStr_cons_ne_high hp hv h.1

theorem lossy_suffix (p : Bytes) (hp : Ascii p) (s : Bytes) : asciiStr p <:+ decodeLossy s ↔ p <:+ s := by
  constructor
  · induction s using lossy_induction with
    | hnil =>
      intro h
      rw [decodeLossy_nil, List.suffix_nil] at h
      rw [(List.map_eq_nil_iff.mp h)]
      exact List.nil_suffix
    | hlow b t hb ih =>
      intro h
      rw [decodeLossy_low hb, List.suffix_cons_iff] at h
      rcases h with h | h
      · have : decodeLossy (b :: t) = asciiStr p := by rw [decodeLossy_low hb, h]
        rw [(lossy_eq p hp _).mp this]
        exact List.suffix_refl _
      · exact (ih h).trans (List.suffix_cons _ _)
    | hhigh b t hb ih =>
      intro h
      obtain ⟨hv, mid, hm⟩ := utf8Step_high hb t
      rw [decodeLossy_cons, List.suffix_cons_iff] at h
      rcases h with h | h
      · exact absurd h (asciiStr_ne_cons hp hv _)
      · refine (ih h).trans (List.IsSuffix.trans ⟨mid, hm.symm⟩ (List.suffix_cons _ _))
  · rintro ⟨r, rfl⟩
    by_cases hne : p = []
    · subst hne; exact List.nil_suffix
    · have := decodeLossy_around r p [] hp hne
      rw [List.append_nil, decodeLossy_nil, List.append_nil] at this
      rw [this]
      exact List.suffix_append _ _

theorem lossy_infix (p : Bytes) (hp : Ascii p) (s : Bytes) : asciiStr p <:+: decodeLossy s ↔ p <:+: s := by
  constructor
  · induction s using lossy_induction with
    | hnil =>
      intro h
      rw [decodeLossy_nil, List.infix_nil] at h
      rw [(List.map_eq_nil_iff.mp h)]
      exact List.nil_infix
    | hlow b t hb ih =>
      intro h
      rw [decodeLossy_low hb, List.infix_cons_iff] at h
      rcases h with h | h
      · exact ((lossy_prefix p hp _).mp (by rw [decodeLossy_low hb]; exact h)).isInfix
      · exact List.infix_cons (ih h)
    | hhigh b t hb ih =>
      intro h
      obtain ⟨hv, mid, hm⟩ := utf8Step_high hb t
      have h' := h
      rw [decodeLossy_cons, List.infix_cons_iff] at h
      rcases h with h | h
      · exact ((lossy_prefix p hp _).mp (by rw [decodeLossy_cons]; exact h)).isInfix
      · refine (ih h).trans (List.IsInfix.trans (List.IsSuffix.isInfix ⟨mid, hm.symm⟩) (List.suffix_cons _ _).isInfix)
  · rintro ⟨a, r, rfl⟩
    by_cases hne : p = []
    · subst hne; exact List.nil_infix
    · rw [List.append_assoc, decodeLossy_around a p r hp hne]
      exact ⟨decodeLossy a, decodeLossy r, by rw [List.append_assoc]⟩

theorem strContains_iff (s p : Str) : Str.contains s p = true ↔ p <:+: s := by
  induction s with
  | nil => simp [Str.contains, List.infix_nil]
  | cons c t ih => rw [Str.contains, Bool.or_eq_true, ih, List.isPrefixOf_iff_prefix, List.infix_cons_iff]

theorem lossy_mem (x : UInt8) (hx : x.toNat < 0x80) (s : Bytes) : x.toNat ∈ decodeLossy s ↔ x ∈ s := by
  have h := lossy_infix [x] (fun y hy => by rw [List.mem_singleton.mp hy]; exact hx) s
  have e : ∀ {α : Type} (a : α) (l : List α), [a] <:+: l ↔ a ∈ l := by
    intro α a l
    constructor
    · rintro ⟨u, v, rfl⟩; simp
    · intro hm
      obtain ⟨u, v, rfl⟩ := List.append_of_mem hm
      exact ⟨u, v, by simp⟩
  rw [e] at h
  rw [← h]
  exact (e _ _).symm

/-! ## Texts -/

theorem decodeLossy_utf8 (cs : List Char) (t : Bytes) : decodeLossy (utf8 cs ++ t) = cs.map Char.toNat ++ decodeLossy t := by
  induction cs with
  | nil => rfl
  | cons c cs ih =>
    obtain ⟨b, r, h1, h2⟩ := utf8Step_encode c (utf8 cs ++ t)
    rw [utf8_cons, List.append_assoc, h1, decodeLossy_cons, h2]
    simp only [Utf8Step.value, Utf8Step.rest]
    rw [ih]
    rfl

/-- If the result holds no U+FFFD, the bytes were well-formed. -/
theorem utf8_of_lossy (s : Bytes) (h : 0xFFFD ∉ decodeLossy s) : ∃ cs : List Char, s = utf8 cs ∧ decodeLossy s = cs.map Char.toNat := by
  induction s using lossy_induction with
  | hnil => exact ⟨[], rfl, rfl⟩
  | hlow b t hb ih =>
    rw [decodeLossy_low hb, List.mem_cons, not_or] at h
    obtain ⟨cs, h1, h2⟩ := ih h.2
    obtain ⟨c, hc, he⟩ := utf8Step_char (utf8Step_low hb t)
    refine ⟨c :: cs, ?_, ?_⟩
    · rw [he, utf8_cons, ← h1]
    · rw [decodeLossy_low hb, h2, List.map_cons, hc]
  | hhigh b t hb ih =>
    rw [decodeLossy_cons, List.mem_cons, not_or] at h
    cases hs : utf8Step b t with
    | bad r => rw [hs] at h; exact absurd rfl h.1
    | char cp r =>
      rw [hs] at h ih
      obtain ⟨cs, h1, h2⟩ := ih h.2
      obtain ⟨c, hc, he⟩ := utf8Step_char hs
      simp only [Utf8Step.rest] at h1 h2
      refine ⟨c :: cs, ?_, ?_⟩
      · rw [he, utf8_cons, ← h1]
      · rw [decodeLossy_cons, hs]; simp only [Utf8Step.value, Utf8Step.rest]; rw [h2, List.map_cons, hc]

end FF
