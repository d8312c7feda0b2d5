import Verif.Spec.Rare
import Verif.Spec.Text
import Verif.Spec.Magic
import Verif.Proofs.Utf8
/-!
# Counting byte strings
-/

namespace FF
open FF.Spec

/-! ## All strings -/

theorem mem_strings (n : Nat) (b : Bytes) : b ∈ strings n ↔ b.length = n := by
  induction n generalizing b with
  | zero => simp [strings]
  | succ n ih =>
    simp only [strings, List.mem_flatMap, List.mem_map, List.mem_range]
    constructor
    · rintro ⟨c, _, b', hb', rfl⟩
      simp [(ih b').mp hb']
    · intro h
      cases b with
      | nil => simp at h
      | cons x t =>
        refine ⟨x.toNat, x.toNat_lt, t, (ih t).mpr (by simpa using h), ?_⟩
        simp

theorem ofNat_inj {a b : Nat} (ha : a < 256) (hb : b < 256) (h : UInt8.ofNat a = UInt8.ofNat b) : a = b := by
  have := congrArg UInt8.toNat h
  rwa [toNat_ofNat_lt ha, toNat_ofNat_lt hb] at this

theorem nodup_strings (n : Nat) : (strings n).Nodup := by
  induction n with
  | zero => simp [strings]
  | succ n ih =>
    simp only [strings]
    unfold List.Nodup
    rw [List.pairwise_flatMap]
    refine ⟨fun c _ => ?_, ?_⟩
    · rw [List.pairwise_map]
      exact ih.imp fun h he => h (List.cons.inj he).2
    · refine List.Pairwise.imp_of_mem ?_ (List.nodup_range (n := 256))
      intro c d hc hd hcd x hx y hy hxy
      simp only [List.mem_map] at hx hy
      obtain ⟨x', _, rfl⟩ := hx
      obtain ⟨y', _, rfl⟩ := hy
      exact hcd (ofNat_inj (List.mem_range.mp hc) (List.mem_range.mp hd) (List.cons.inj hxy).1)

/-! ## Sums -/

theorem sum_const (m k : Nat) : ((List.range m).map fun _ => k).sum = m * k := by
  induction m with
  | zero => simp
  | succ m ih => rw [List.range_succ, List.map_append, List.sum_append, ih]; simp [Nat.succ_mul]

theorem sum_const_zero {α : Type} (l : List α) : (l.map fun _ => 0).sum = 0 := by
  induction l with
  | nil => rfl
  | cons a t ih => simp only [List.map_cons, List.sum_cons, ih]

theorem sum_range_single (m t k : Nat) :
    ((List.range m).map fun c => if c = t then k else 0).sum = if t < m then k else 0 := by
  induction m with
  | zero => simp
  | succ m ih =>
    rw [List.range_succ, List.map_append, List.sum_append, ih]
    simp only [List.map_cons, List.map_nil, List.sum_cons, List.sum_nil]
    by_cases h1 : t < m
    · rw [if_pos h1, if_neg (by omega), if_pos (by omega)]; omega
    · by_cases h2 : m = t
      · rw [if_neg h1, if_pos h2, if_pos (by omega)]; omega
      · rw [if_neg h1, if_neg h2, if_neg (by omega)]; omega

theorem sum_map_le {α : Type} (l : List α) (f g : α → Nat) (h : ∀ a ∈ l, f a ≤ g a) :
    (l.map f).sum ≤ (l.map g).sum := by
  induction l with
  | nil => simp
  | cons a t ih =>
    simp only [List.map_cons, List.sum_cons]
    have h1 := h a (by simp)
    have h2 := ih fun x hx => h x (by simp [hx])
    omega

theorem sum_map_mul {α : Type} (l : List α) (f : α → Nat) (k : Nat) :
    (l.map f).sum * k = (l.map fun a => f a * k).sum := by
  induction l with
  | nil => simp
  | cons a t ih => simp only [List.map_cons, List.sum_cons, Nat.add_mul, ih]

/-! ## Counting -/

/-- How many strings of length `n` pass a test. -/
def cnt (n : Nat) (p : Bytes → Bool) : Nat := (strings n).countP p

theorem cnt_zero (p : Bytes → Bool) : cnt 0 p = if p [] then 1 else 0 := by
  simp [cnt, strings, List.countP_cons]

theorem cnt_succ (n : Nat) (p : Bytes → Bool) :
    cnt (n + 1) p = ((List.range 256).map fun c => cnt n fun b => p (UInt8.ofNat c :: b)).sum := by
  unfold cnt
  rw [strings, List.countP_flatMap]
  congr 1
  apply List.map_congr_left
  intro c _
  simp only [Function.comp, List.countP_map]
  rfl

theorem cnt_mono {n : Nat} {p q : Bytes → Bool} (h : ∀ b, b.length = n → p b = true → q b = true) :
    cnt n p ≤ cnt n q :=
  List.countP_mono_left fun b hb => h b ((mem_strings n b).mp hb)

theorem cnt_congr {n : Nat} {p q : Bytes → Bool} (h : ∀ b, b.length = n → p b = q b) : cnt n p = cnt n q :=
  List.countP_congr fun b hb => by rw [h b ((mem_strings n b).mp hb)]

theorem cnt_false (n : Nat) : cnt n (fun _ => false) = 0 := by simp [cnt]

theorem length_strings (n : Nat) : (strings n).length = 256 ^ n := by
  induction n with
  | zero => simp [strings]
  | succ n ih =>
    rw [strings, List.length_flatMap]
    simp only [List.length_map, ih]
    rw [sum_const, Nat.pow_succ, Nat.mul_comm]

theorem cnt_true (n : Nat) : cnt n (fun _ => true) = 256 ^ n := by
  simp [cnt, length_strings]

theorem cnt_le (n : Nat) (p : Bytes → Bool) : cnt n p ≤ 256 ^ n := by
  rw [← cnt_true n]
  exact cnt_mono fun _ _ _ => rfl

theorem cnt_or (n : Nat) (p q : Bytes → Bool) : cnt n (fun b => p b || q b) ≤ cnt n p + cnt n q := by
  unfold cnt
  induction strings n with
  | nil => simp
  | cons a t ih =>
    simp only [List.countP_cons]
    cases p a <;> cases q a <;> simp <;> omega

theorem cnt_any {α : Type} (n : Nat) (l : List α) (p : α → Bytes → Bool) :
    cnt n (fun b => l.any fun x => p x b) ≤ (l.map fun x => cnt n (p x)).sum := by
  induction l with
  | nil => simp [cnt_false]
  | cons a t ih =>
    simp only [List.any_cons, List.map_cons, List.sum_cons]
    have := cnt_or n (p a) fun b => t.any fun x => p x b
    omega

theorem cnt_add_disjoint (n : Nat) (p q : Bytes → Bool) (h : ∀ b, p b = true → q b = false) :
    cnt n (fun b => p b || q b) = cnt n p + cnt n q := by
  unfold cnt
  induction strings n with
  | nil => simp
  | cons a t ih =>
    have ha := h a
    simp only [List.countP_cons]
    cases hp : p a <;> cases hq : q a
    · simp; omega
    · simp; omega
    · simp; omega
    · rw [ha hp] at hq; cases hq

/-- The first byte does not matter. -/
theorem cnt_tail (n : Nat) (p : Bytes → Bool) : cnt (n + 1) (fun b => p b.tail) = 256 * cnt n p := by
  rw [cnt_succ]
  simp only [List.tail_cons]
  exact sum_const 256 _

theorem cnt_drop (g n : Nat) (p : Bytes → Bool) : cnt (g + n) (fun b => p (b.drop g)) = 256 ^ g * cnt n p := by
  induction g with
  | zero => simp
  | succ g ih =>
    have h1 : cnt (g + 1 + n) (fun b => p (b.drop (g + 1))) = cnt ((g + n) + 1) (fun b => (fun c => p (c.drop g)) b.tail) := by
      rw [show g + 1 + n = (g + n) + 1 by omega]
      exact cnt_congr fun b _ => by show _ = p (b.tail.drop g); rw [List.drop_tail]
    rw [h1, cnt_tail (g + n) fun c => p (c.drop g), ih, Nat.pow_succ]
    rw [← Nat.mul_assoc, Nat.mul_comm 256]

/-- The first byte is given. -/
theorem cnt_cons (n : Nat) (x : UInt8) (p : Bytes → Bool) :
    cnt (n + 1) (fun b => match b with | [] => false | c :: t => c == x && p t) = cnt n p := by
  rw [cnt_succ]
  have h : ((List.range 256).map fun c => cnt n fun b => (UInt8.ofNat c == x && p b)) =
      (List.range 256).map fun c => if c = x.toNat then cnt n p else 0 := by
    apply List.map_congr_left
    intro c hc
    have hc' := List.mem_range.mp hc
    by_cases hx : c = x.toNat
    · rw [if_pos hx]
      refine cnt_congr fun b _ => ?_
      have : UInt8.ofNat c = x := by rw [hx]; simp
      simp [this]
    · rw [if_neg hx, ← cnt_false n]
      refine cnt_congr fun b _ => ?_
      have : (UInt8.ofNat c == x) = false := by
        rw [beq_eq_false_iff_ne]
        intro he
        apply hx
        rw [← he, toNat_ofNat_lt hc']
      rw [this, Bool.false_and]
  show ((List.range 256).map fun c => cnt n fun b => (UInt8.ofNat c == x && p b)).sum = _
  rw [h, sum_range_single, if_pos x.toNat_lt]

theorem cnt_prefix (v : Bytes) (n : Nat) (p : Bytes → Bool) :
    cnt (v.length + n) (fun b => v.isPrefixOf b && p (b.drop v.length)) = cnt n p := by
  induction v with
  | nil => simp [List.isPrefixOf]
  | cons x t ih =>
    rw [← ih, show (x :: t).length + n = (t.length + n) + 1 by simp; omega,
      ← cnt_cons (t.length + n) x fun b => t.isPrefixOf b && p (b.drop t.length)]
    refine cnt_congr fun b _ => ?_
    cases b with
    | nil => simp [List.isPrefixOf]
    | cons c s =>
      simp only [List.isPrefixOf, List.length_cons, List.drop_succ_cons]
      rw [Bool.and_assoc, show (x == c) = (c == x) from Bool.beq_comm]

/-! ## Magic numbers -/

/-- Gaps and the bytes after them. -/
def fits : List (Nat × Bytes) → Bytes → Bool
  | [], _ => true
  | (g, v) :: t, b => v.isPrefixOf (b.drop g) && fits t (b.drop (g + v.length))

def given : List (Nat × Bytes) → Nat
  | [] => 0
  | (_, v) :: t => v.length + given t

theorem isPrefixOf_length {v b : Bytes} (h : v.isPrefixOf b = true) : v.length ≤ b.length :=
  (List.isPrefixOf_iff_prefix.mp h).length_le

theorem cnt_fits (l : List (Nat × Bytes)) (hl : ∀ s ∈ l, s.2 ≠ []) (n : Nat) :
    cnt n (fits l) * 256 ^ given l ≤ 256 ^ n := by
  induction l generalizing n with
  | nil => simpa [given] using cnt_le n _
  | cons s t ih =>
    obtain ⟨g, v⟩ := s
    by_cases h : g + v.length ≤ n
    · obtain ⟨r, rfl⟩ : ∃ r, n = g + (v.length + r) := ⟨n - g - v.length, by omega⟩
      have e : cnt (g + (v.length + r)) (fits ((g, v) :: t)) = 256 ^ g * cnt r (fits t) := by
        rw [← cnt_prefix v r (fits t), ← cnt_drop g]
        refine cnt_congr fun b _ => ?_
        simp only [fits, List.drop_drop]
      have := ih (fun s hs => hl s (by simp [hs])) r
      rw [e, given, Nat.pow_add, Nat.pow_add, Nat.pow_add]
      calc 256 ^ g * cnt r (fits t) * (256 ^ v.length * 256 ^ given t)
          = 256 ^ g * (256 ^ v.length * (cnt r (fits t) * 256 ^ given t)) := by
            simp only [Nat.mul_assoc, Nat.mul_left_comm]
        _ ≤ _ := Nat.mul_le_mul_left _ (Nat.mul_le_mul_left _ this)
    · have e : cnt n (fits ((g, v) :: t)) = 0 := by
        rw [← cnt_false n]
        refine cnt_congr fun b hb => ?_
        cases hf : fits ((g, v) :: t) b with
        | false => rfl
        | true =>
          simp only [fits, Bool.and_eq_true] at hf
          have h1 := isPrefixOf_length hf.1
          have h2 : v ≠ [] := hl (g, v) (by simp)
          rw [List.length_drop] at h1
          have h3 : 0 < v.length := List.length_pos_iff.mpr h2
          omega
      rw [e]
      simp

/-- The gaps of a magic value. -/
def gaps : Nat → List Part → List (Nat × Bytes)
  | _, [] => []
  | pos, p :: t => (p.offset - pos, p.value) :: gaps (p.offset + p.value.length) t

/-- The parts follow one another and are not empty. -/
def orderly : Nat → List Part → Bool
  | _, [] => true
  | pos, p :: t => Nat.ble pos p.offset && !p.value.isEmpty && orderly (p.offset + p.value.length) t

theorem gaps_ne (parts : List Part) (pos : Nat) (h : orderly pos parts = true) : ∀ s ∈ gaps pos parts, s.2 ≠ [] := by
  induction parts generalizing pos with
  | nil => simp [gaps]
  | cons p t ih =>
    simp only [orderly, Bool.and_eq_true] at h
    intro s hs
    rcases List.mem_cons.mp hs with rfl | hs
    · intro he
      have h1 : p.value = [] := he
      simp [h1] at h
    · exact ih _ h.2 s hs

theorem gaps_given (parts : List Part) (pos : Nat) : given (gaps pos parts) = (parts.map fun p => p.value.length).sum := by
  induction parts generalizing pos with
  | nil => rfl
  | cons p t ih => simp [gaps, given, ih]

theorem fits_gaps (parts : List Part) (pos : Nat) (h : orderly pos parts = true) (b : Bytes)
    (hm : ∀ p ∈ parts, MagicAt p.offset p.value b) : fits (gaps pos parts) (b.drop pos) = true := by
  induction parts generalizing pos with
  | nil => rfl
  | cons p t ih =>
    simp only [orderly, Bool.and_eq_true, Nat.ble_eq] at h
    obtain ⟨pre, suf, hb, hp⟩ := hm p (by simp)
    simp only [gaps, fits, Bool.and_eq_true, List.drop_drop]
    constructor
    · rw [List.isPrefixOf_iff_prefix, show pos + (p.offset - pos) = p.offset by omega, hb, ← hp, List.append_assoc,
        List.drop_left]
      exact List.prefix_append _ _
    · rw [show pos + (p.offset - pos + p.value.length) = p.offset + p.value.length by omega]
      exact ih _ h.2 fun q hq => hm q (by simp [hq])

/-! ## Text -/

/-- Bytes seen in text: `s` continuation bytes are to come. -/
def textual : Nat → Bytes → Bool
  | _, [] => true
  | 0, c :: t =>
    let x := c.toNat
    if (9 ≤ x ∧ x ≤ 13) ∨ (0x20 ≤ x ∧ x ≤ 0x7E) then textual 0 t
    else if 0xC2 ≤ x ∧ x ≤ 0xDF then textual 1 t
    else if 0xE0 ≤ x ∧ x ≤ 0xEF then textual 2 t
    else if 0xF0 ≤ x ∧ x ≤ 0xF4 then textual 3 t
    else false
  | s + 1, c :: t => if 0x80 ≤ c.toNat ∧ c.toNat ≤ 0xBF then textual s t else false

/-- The beginning of a string of length `m + r`. -/
theorem cnt_take (m r : Nat) (q : Bytes → Bool) : cnt (m + r) (fun b => q (b.take m)) = cnt m q * 256 ^ r := by
  induction m generalizing q with
  | zero =>
    rw [cnt_zero]
    cases h : q [] with
    | true => simp [h, cnt_true]
    | false => simp [h, cnt_false]
  | succ m ih =>
    rw [show m + 1 + r = (m + r) + 1 by omega, cnt_succ, cnt_succ, sum_map_mul]
    congr 1
    apply List.map_congr_left
    intro c _
    exact ih fun b => q (UInt8.ofNat c :: b)

theorem textual_take (s m : Nat) (b : Bytes) (h : textual s b = true) : textual s (b.take m) = true := by
  induction b generalizing s m with
  | nil => simpa using h
  | cons c t ih =>
    cases m with
    | zero => cases s <;> rfl
    | succ m =>
      cases s with
      | zero =>
        simp only [textual, List.take_succ_cons] at h ⊢
        split at h
        · rename_i hc; rw [if_pos hc]; exact ih _ _ h
        · rename_i hc
          rw [if_neg hc]
          split at h
          · rename_i hc; rw [if_pos hc]; exact ih _ _ h
          · rename_i hc
            rw [if_neg hc]
            split at h
            · rename_i hc; rw [if_pos hc]; exact ih _ _ h
            · rename_i hc
              rw [if_neg hc]
              split at h
              · rename_i hc; rw [if_pos hc]; exact ih _ _ h
              · cases h
      | succ s =>
        simp only [textual, List.take_succ_cons] at h ⊢
        split at h
        · rename_i hc; rw [if_pos hc]; exact ih _ _ h
        · cases h

theorem textual_char (c : Char) (hc : ¬ Forbidden c) (rest : Bytes) :
    textual 0 (String.utf8EncodeChar c ++ rest) = textual 0 rest := by
  have hr := char_range c
  have hv : c.val.toNat = c.toNat := rfl
  unfold Forbidden at hc
  unfold String.utf8EncodeChar
  simp only [hv]
  generalize c.toNat = v at hr hc
  by_cases h1 : v ≤ 127
  · rw [if_pos h1]
    show textual 0 (_ :: rest) = _
    simp only [textual]
    rw [toNat_ofNat_lt (by omega), if_pos (by omega)]
  · rw [if_neg h1]
    by_cases h2 : v ≤ 2047
    · rw [if_pos h2]
      show textual 0 (_ :: _ :: rest) = _
      simp only [textual]
      rw [toNat_ofNat_lt (by omega), toNat_ofNat_lt (n := v % 64 + 128) (by omega), if_neg (by omega), if_pos (by omega),
        if_pos (by omega)]
    · rw [if_neg h2]
      by_cases h3 : v ≤ 65535
      · rw [if_pos h3]
        show textual 0 (_ :: _ :: _ :: rest) = _
        simp only [textual]
        rw [toNat_ofNat_lt (by omega), toNat_ofNat_lt (n := v % 64 + 128) (by omega),
          toNat_ofNat_lt (n := v / 64 % 64 + 128) (by omega), if_neg (by omega), if_neg (by omega), if_pos (by omega),
          if_pos (by omega), if_pos (by omega)]
      · rw [if_neg h3]
        show textual 0 (_ :: _ :: _ :: _ :: rest) = _
        simp only [textual]
        rw [toNat_ofNat_lt (by omega), toNat_ofNat_lt (n := v % 64 + 128) (by omega),
          toNat_ofNat_lt (n := v / 64 % 64 + 128) (by omega), toNat_ofNat_lt (n := v / 4096 % 64 + 128) (by omega),
          if_neg (by omega), if_neg (by omega), if_neg (by omega), if_pos (by omega), if_pos (by omega), if_pos (by omega),
          if_pos (by omega)]

theorem textual_utf8 (cs : List Char) (h : ∀ c ∈ cs, ¬ Forbidden c) : textual 0 (utf8 cs) = true := by
  induction cs with
  | nil => rfl
  | cons c t ih =>
    rw [utf8_cons, textual_char c (h c (by simp))]
    exact ih fun d hd => h d (by simp [hd])

/-- The first lines hold the first bytes. -/
theorem firstLines_take_min (k : Nat) (b : Bytes) : (firstLines k b).take k = b.take k := by
  induction b generalizing k with
  | nil => cases k <;> simp [firstLines]
  | cons c t ih =>
    cases k with
    | zero => simp
    | succ k =>
      simp only [firstLines]
      split
      · simp [ih k]
      · rw [List.take_succ_cons, List.take_succ_cons]
        have := congrArg (List.take k) (ih (k + 1))
        rw [List.take_take, List.take_take, Nat.min_eq_left (Nat.le_succ k)] at this
        rw [this]

/-- The first bytes of text. -/
theorem textual_first {b : Bytes} (h : IsText (firstLines 16 (b.take 65536))) : textual 0 (b.take 16) = true := by
  obtain ⟨cs, hcs, hf⟩ := h
  have h1 := textual_take 0 16 _ (textual_utf8 cs hf)
  rw [← hcs, firstLines_take_min, List.take_take] at h1
  exact h1

theorem sum_ite {α : Type} (l : List α) (p : α → Bool) (k : Nat) (r : α → Nat) :
    (l.map fun c => if p c then k else r c).sum =
      (l.filter p).length * k + ((l.filter fun c => !p c).map r).sum := by
  induction l with
  | nil => simp
  | cons a t ih =>
    simp only [List.map_cons, List.sum_cons, ih]
    cases h : p a with
    | true => simp [List.filter_cons, h, Nat.succ_mul]; omega
    | false => simp [List.filter_cons, h]; omega

theorem sum_ite_n {α : Type} {l : List α} {p : α → Bool} {k : Nat} {r : α → Nat} {n : Nat}
    (h : (l.filter p).length = n) :
    (l.map fun c => if p c then k else r c).sum = n * k + ((l.filter fun c => !p c).map r).sum := by
  rw [sum_ite, h]

/-- How many strings of a length look like text, for each number of continuation bytes to come. -/
def texts : Nat → Nat × Nat × Nat × Nat
  | 0 => (1, 1, 1, 1)
  | n + 1 =>
    let (a, b, c, d) := texts n
    (100 * a + 30 * b + 16 * c + 5 * d, 64 * a, 64 * b, 64 * c)

theorem cnt_textual (n : Nat) :
    cnt n (textual 0) = (texts n).1 ∧ cnt n (textual 1) = (texts n).2.1 ∧ cnt n (textual 2) = (texts n).2.2.1 ∧
      cnt n (textual 3) = (texts n).2.2.2 := by
  induction n with
  | zero => simp [cnt_zero, textual, texts]
  | succ n ih =>
    obtain ⟨h0, h1, h2, h3⟩ := ih
    have hcont : ∀ s, cnt (n + 1) (textual (s + 1)) = 64 * cnt n (textual s) := by
      intro s
      rw [cnt_succ]
      have e : ((List.range 256).map fun c => cnt n fun b => textual (s + 1) (UInt8.ofNat c :: b)) =
          (List.range 256).map fun c => if (Nat.ble 0x80 c && Nat.ble c 0xBF) then cnt n (textual s) else 0 := by
        apply List.map_congr_left
        intro c hc
        have hc' := List.mem_range.mp hc
        simp only [textual, toNat_ofNat_lt hc', Bool.and_eq_true, Nat.ble_eq]
        split
        · rfl
        · exact cnt_false n
      rw [e, sum_ite, sum_const_zero]
      have : ((List.range 256).filter fun c => Nat.ble 0x80 c && Nat.ble c 0xBF).length = 64 := by decide +kernel
      rw [this]
      rfl
    refine ⟨?_, ?_, ?_, ?_⟩
    · rw [cnt_succ]
      have e : ((List.range 256).map fun c => cnt n fun b => textual 0 (UInt8.ofNat c :: b)) =
          (List.range 256).map fun c =>
            if ((Nat.ble 9 c && Nat.ble c 13) || (Nat.ble 0x20 c && Nat.ble c 0x7E)) then cnt n (textual 0)
            else if (Nat.ble 0xC2 c && Nat.ble c 0xDF) then cnt n (textual 1)
            else if (Nat.ble 0xE0 c && Nat.ble c 0xEF) then cnt n (textual 2)
            else if (Nat.ble 0xF0 c && Nat.ble c 0xF4) then cnt n (textual 3) else 0 := by
        apply List.map_congr_left
        intro c hc
        have hc' := List.mem_range.mp hc
        simp only [textual, toNat_ofNat_lt hc', Bool.and_eq_true, Bool.or_eq_true, Nat.ble_eq]
        split
        · rfl
        · split
          · rfl
          · split
            · rfl
            · split
              · rfl
              · exact cnt_false n
      rw [e, sum_ite_n (n := 100), sum_ite_n (n := 30), sum_ite_n (n := 16), sum_ite_n (n := 5), sum_const_zero, h0, h1, h2, h3]
      · show _ = 100 * (texts n).1 + 30 * (texts n).2.1 + 16 * (texts n).2.2.1 + 5 * (texts n).2.2.2
        omega
      all_goals decide +kernel
    · rw [hcont 0, h0]; rfl
    · rw [hcont 1, h1]; rfl
    · rw [hcont 2, h2]; rfl

end FF
