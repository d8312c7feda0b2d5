import Verif.Model.Signatures
/-!
# Evaluating signatures on zero-filled inputs without building them: the table check
-/

namespace FF
open FileFormat

/-- Byte `i` of the zero-filled input that holds `parts`. -/
def byteAt : List Part → Nat → UInt8
  | [], _ => 0
  | p :: ps, i =>
    if p.offset ≤ i then
      match p.value[i - p.offset]? with
      | some b => b
      | none => byteAt ps i
    else byteAt ps i

/-- Does the zero-filled input hold `v` at `off`? -/
def eqAt (parts : List Part) : Nat → Bytes → Bool
  | _, [] => true
  | off, v :: vs => Nat.beq (byteAt parts off).toNat v.toNat && eqAt parts (off + 1) vs

/-- Matching on a zero-filled input. -/
def sparseMatches (parts : List Part) (len : Nat) (p : Part) : Bool :=
  Nat.ble (p.offset + p.value.length) len && eqAt parts p.offset p.value

/-- The signature verdict on a zero-filled input. -/
def sparseVerdict (parts : List Part) (len : Nat) : Option FileFormat :=
  (signatureTable.find? fun e => e.alts.any fun alt => alt.all fun p =>
    sparseMatches parts len p).map SigEntry.format

/-- End of the last part. -/
def partsEnd (parts : List Part) : Nat := parts.foldr (fun p n => max (p.offset + p.value.length) n) 0

/-- Every alternative of these entries, on the shortest zero-filled input that has it, is reported as
its own format. -/
def entriesLive (l : List SigEntry) : Bool := l.all (fun e => e.alts.all fun alt =>
    (sparseVerdict alt (partsEnd alt) == some e.format) &&
      alt.all (fun p => sparseMatches alt (partsEnd alt) p))

-- In pieces, to keep the kernel's memory small.
theorem table_live0 : entriesLive ((signatureTable.drop 0).take 49) = true := by decide +kernel
theorem table_live1 : entriesLive ((signatureTable.drop 49).take 49) = true := by decide +kernel
theorem table_live2 : entriesLive ((signatureTable.drop 98).take 49) = true := by decide +kernel
theorem table_live3 : entriesLive ((signatureTable.drop 147).take 49) = true := by decide +kernel
theorem table_live4 : entriesLive ((signatureTable.drop 196).take 49) = true := by decide +kernel
theorem table_live5 : entriesLive ((signatureTable.drop 245).take 49) = true := by decide +kernel
theorem table_live6 : entriesLive ((signatureTable.drop 294).take 49) = true := by decide +kernel

theorem entriesLive_split (k n : Nat) (h1 : entriesLive ((signatureTable.drop k).take n) = true)
    (h2 : entriesLive (signatureTable.drop (k + n)) = true) :
    entriesLive (signatureTable.drop k) = true := by
  rw [← List.take_append_drop n (signatureTable.drop k), List.drop_drop, entriesLive, List.all_append]
  exact Bool.and_eq_true_iff.mpr ⟨h1, h2⟩

theorem table_live : signatureTable.all (fun e => e.alts.all fun alt =>
    (sparseVerdict alt (partsEnd alt) == some e.format) &&
      alt.all (fun p => sparseMatches alt (partsEnd alt) p)) = true := by
  have h := entriesLive_split 0 49 table_live0
    (entriesLive_split 49 49 table_live1
    (entriesLive_split 98 49 table_live2
    (entriesLive_split 147 49 table_live3
    (entriesLive_split 196 49 table_live4
    (entriesLive_split 245 49 table_live5
    (entriesLive_split 294 49 table_live6
    (by decide +kernel)))))))
  exact h

end FF
