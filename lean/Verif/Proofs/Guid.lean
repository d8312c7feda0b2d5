import Verif.Spec.Guid
import Verif.Proofs.Parse
/-!
# GUID text
-/

namespace FF
open Spec FileFormat

theorem hexDigit_eq : ∀ n, n < 16 → hexDigit n =
    [48, 49, 50, 51, 52, 53, 54, 55, 56, 57, 97, 98, 99, 100, 101, 102].getD n 0 := by decide

theorem hexText_two (n v : Nat) : hexText (n + 2) v = hexText n (v / 256) ++ hex2 (UInt8.ofNat (v % 256)) := by
  rw [hexText, hexText, List.append_assoc, hex2, toNat_ofNat_lt (by omega), hexDigit_eq _ (by omega),
    hexDigit_eq _ (by omega), Nat.div_div_eq_div_mul]
  have h1 : v % 256 / 16 = v / 16 % 16 := by omega
  have h2 : v % 256 % 16 = v % 16 := by omega
  rw [h1, h2]
  rfl

/-- Text of 16 bytes, piece by piece. -/
theorem guidStr_eq (a0 a1 a2 a3 a4 a5 a6 a7 a8 a9 a10 a11 a12 a13 a14 a15 : UInt8) :
    guidStr [a0, a1, a2, a3, a4, a5, a6, a7, a8, a9, a10, a11, a12, a13, a14, a15] =
      hex2 a3 ++ hex2 a2 ++ hex2 a1 ++ hex2 a0 ++ [45] ++ hex2 a5 ++ hex2 a4 ++ [45] ++ hex2 a7 ++ hex2 a6 ++
      [45] ++ hex2 a8 ++ hex2 a9 ++ [45] ++ hex2 a10 ++ hex2 a11 ++ hex2 a12 ++ hex2 a13 ++ hex2 a14 ++
      hex2 a15 := by
  simp [guidStr, guidText, guidOrder, guidPiece, index, bind, Except.bind, pure, Except.pure,
    List.mapM_cons]

theorem hexDigit_inj : ∀ a, a < 16 → ∀ b, b < 16 → hexDigit a = hexDigit b → a = b := by decide

theorem hex2_inj {a b : UInt8} (h : hex2 a = hex2 b) : a = b := by
  simp only [hex2, List.cons.injEq, and_true] at h
  have ha := a.toNat_lt
  have hb := b.toNat_lt
  have h1 := hexDigit_inj _ (by omega) _ (by omega) h.1
  have h2 := hexDigit_inj _ (by omega) _ (by omega) h.2
  exact UInt8.toNat_inj.mp (by omega)

theorem guidStr_inj {x y : Bytes} (hx : x.length = 16) (hy : y.length = 16) (h : guidStr x = guidStr y) :
    x = y := by
  match x, hx, y, hy with
  | [a0, a1, a2, a3, a4, a5, a6, a7, a8, a9, a10, a11, a12, a13, a14, a15], _,
    [b0, b1, b2, b3, b4, b5, b6, b7, b8, b9, b10, b11, b12, b13, b14, b15], _ =>
    rw [guidStr_eq, guidStr_eq] at h
    simp only [hex2, List.cons_append, List.nil_append, List.append_assoc, List.cons.injEq, and_true, true_and] at h
    have key : ∀ {a b : UInt8}, hexDigit (a.toNat / 16) = hexDigit (b.toNat / 16) →
        hexDigit (a.toNat % 16) = hexDigit (b.toNat % 16) → a = b :=
      fun h1 h2 => hex2_inj (by rw [hex2, hex2, h1, h2])
    obtain ⟨p3, q3, p2, q2, p1, q1, p0, q0, p5, q5, p4, q4, p7, q7, p6, q6, p8, q8, p9, q9, p10, q10, p11, q11,
      p12, q12, p13, q13, p14, q14, p15, q15⟩ := h
    rw [key p0 q0, key p1 q1, key p2 q2, key p3 q3, key p4 q4, key p5 q5, key p6 q6, key p7 q7, key p8 q8,
      key p9 q9, key p10 q10, key p11 q11, key p12 q12, key p13 q13, key p14 q14, key p15 q15]

theorem length_guid (g : Guid) : g.bytes.length = 16 := by simp [Guid.bytes]

theorem guidText_bytes (g : Guid) : guidText g.bytes = .ok g.text := by
  rw [guidText_ok _ (length_guid g)]
  congr 1
  have h : g.bytes = leBytes 4 g.data1 ++ leBytes 2 g.data2 ++ leBytes 2 g.data3 ++ beBytes 2 g.data4 ++
    beBytes 6 g.data5 := rfl
  rw [h]
  simp only [beBytes, leBytes, List.reverse_cons, List.reverse_nil, List.nil_append, List.cons_append]
  rw [guidStr_eq]
  have t2 : ∀ v, hexText 4 v = hex2 (UInt8.ofNat (v / 256 % 256)) ++ hex2 (UInt8.ofNat (v % 256)) := by
    intro v
    rw [show (4 : Nat) = 0 + 2 + 2 from rfl, hexText_two, hexText_two]; rfl
  have t4 : ∀ v, hexText 8 v = hexText 4 (v / 256 / 256) ++ (hex2 (UInt8.ofNat (v / 256 % 256)) ++
      hex2 (UInt8.ofNat (v % 256))) := by
    intro v
    rw [show (8 : Nat) = 4 + 2 + 2 from rfl, hexText_two, hexText_two, List.append_assoc]
  have t6 : ∀ v, hexText 12 v = hexText 8 (v / 256 / 256) ++ (hex2 (UInt8.ofNat (v / 256 % 256)) ++
      hex2 (UInt8.ofNat (v % 256))) := by
    intro v
    rw [show (12 : Nat) = 8 + 2 + 2 from rfl, hexText_two, hexText_two, List.append_assoc]
  simp only [Guid.text, t6, t4, t2, List.append_assoc]

/-- Every 16 bytes are a GUID. -/
theorem guid_of_bytes (x : Bytes) (hx : x.length = 16) : ∃ g : Guid, g.Valid ∧ g.bytes = x := by
  match x, hx with
  | [a0, a1, a2, a3, a4, a5, a6, a7, a8, a9, a10, a11, a12, a13, a14, a15], _ =>
    refine ⟨⟨leNat [a0, a1, a2, a3], leNat [a4, a5], leNat [a6, a7], beNat [a8, a9],
      beNat [a10, a11, a12, a13, a14, a15]⟩, ?_, ?_⟩
    · have h1 := leNat_lt [a0, a1, a2, a3]
      have h2 := leNat_lt [a4, a5]
      have h3 := leNat_lt [a6, a7]
      have h4 := beNat_lt [a8, a9]
      have h5 := beNat_lt [a10, a11, a12, a13, a14, a15]
      simp only [List.length_cons, List.length_nil, Nat.zero_add, Nat.reduceAdd, Nat.reducePow] at h1 h2 h3 h4 h5
      exact ⟨by omega, by omega, by omega, by omega, by omega⟩
    have hle : ∀ l : Bytes, leBytes l.length (leNat l) = l := by
      intro l
      induction l with
      | nil => rfl
      | cons a l ih =>
        rw [List.length_cons, leBytes, leNat]
        have ha := a.toNat_lt
        have e1 : (a.toNat + 256 * leNat l) % 256 = a.toNat := by omega
        have e2 : (a.toNat + 256 * leNat l) / 256 = leNat l := by omega
        rw [e1, e2, ih, UInt8.ofNat_toNat]
    have hbe : ∀ l : Bytes, beBytes l.length (beNat l) = l := by
      intro l
      have := hle l.reverse
      rw [List.length_reverse] at this
      rw [beBytes, ← List.reverse_reverse l, beNat_reverse, List.length_reverse, List.length_reverse, this]
    have h1 := hle [a0, a1, a2, a3]
    have h2 := hle [a4, a5]
    have h3 := hle [a6, a7]
    have h4 := hbe [a8, a9]
    have h5 := hbe [a10, a11, a12, a13, a14, a15]
    simp only [List.length_cons, List.length_nil, Nat.zero_add, Nat.reduceAdd] at h1 h2 h3 h4 h5
    rw [Guid.bytes, h1, h2, h3, h4, h5]
    rfl

/-- Looking up a GUID by text is looking it up by bytes. -/
theorem lookup_guid (t : List (Guid × FileFormat)) (x : Bytes) (hx : x.length = 16) :
    (t.map fun r => (guidStr r.1.bytes, r.2)).lookup (guidStr x) =
      (t.map fun r => (r.1.bytes, r.2)).lookup x := by
  induction t with
  | nil => rfl
  | cons r t ih =>
    simp only [List.map_cons, List.lookup_cons]
    by_cases h : x = r.1.bytes
    · subst h
      simp
    · have h' : guidStr x ≠ guidStr r.1.bytes := fun e => h (guidStr_inj hx (length_guid _) e)
      rw [beq_eq_false_iff_ne.mpr h, beq_eq_false_iff_ne.mpr h', ih]

theorem cfbClsids_eq : cfbClsids = clsids.map fun r => (guidStr r.1.bytes, r.2) := by decide +kernel

end FF
