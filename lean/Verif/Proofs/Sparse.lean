import Verif.Proofs.Sig
import Verif.Proofs.SparseTable
/-!
# Evaluating signatures on zero-filled inputs without building them
-/

namespace FF
open FileFormat Spec

/-- The zero-filled input of length `len` that holds `parts`. -/
def fill (parts : List Part) (len : Nat) : Bytes := (List.range len).map (byteAt parts)

theorem length_fill (parts : List Part) (len : Nat) : (fill parts len).length = len := by simp [fill]

theorem slice_fill (parts : List Part) (len off n : Nat) (h : off + n ≤ len) :
    slice (fill parts len) off n = (List.range' off n).map (byteAt parts) := by
  unfold slice fill
  rw [← List.map_drop, ← List.map_take]
  congr 1
  apply List.ext_getElem
  · simp; omega
  · intro i h1 h2
    simp

theorem eqAt_iff (parts : List Part) (off : Nat) (v : Bytes) :
    eqAt parts off v = true ↔ (List.range' off v.length).map (byteAt parts) = v := by
  induction v generalizing off with
  | nil => simp [eqAt]
  | cons a v ih =>
    simp only [eqAt, Bool.and_eq_true, List.length_cons, List.range'_succ, List.map_cons,
      List.cons.injEq, ih]
    refine and_congr_left fun _ => ?_
    rw [Nat.beq_eq]
    exact UInt8.toNat_inj

theorem sparseMatches_eq (parts : List Part) (len : Nat) (p : Part) :
    sparseMatches parts len p = p.matches (fill parts len) := by
  unfold sparseMatches Part.matches
  rw [length_fill]
  by_cases h : p.offset + p.value.length ≤ len
  · have h1 : Nat.ble (p.offset + p.value.length) len = true := Nat.ble_eq.mpr h
    rw [h1, slice_fill _ _ _ _ h]
    simp only [Bool.true_and, ge_iff_le, h, decide_true]
    rw [Bool.eq_iff_iff, eqAt_iff, beq_iff_eq]
  · have h1 : Nat.ble (p.offset + p.value.length) len = false := by
      rw [Bool.eq_false_iff]; intro hc; exact h (Nat.ble_eq.mp hc)
    rw [h1]
    simp [h]

theorem sparseVerdict_eq (parts : List Part) (len : Nat) :
    sparseVerdict parts len = fromSignature (fill parts len) := by
  unfold sparseVerdict fromSignature SigEntry.matches
  simp only [sparseMatches_eq]

end FF
