import Verif.Spec.Basic
/-!
# Specification: the positions that signatures look at
-/

namespace FF.Spec

/-- Ranges of byte offsets, both ends included. -/
def signatureRanges : List (Nat × Nat) := [
  (0, 58), (60, 67), (72, 80), (82, 82), (102, 126), (128, 131), (138, 141), (188, 188), (192, 199), (256, 270),
  (323, 323), (1080, 1083), (32752, 32759), (32767, 32767), (32769, 32773), (34817, 34821), (36865, 36869)]

/-- Position `i` is in one of these ranges. -/
def SignaturePosition (i : Nat) : Prop := ∃ r ∈ signatureRanges, r.1 ≤ i ∧ i ≤ r.2

/-- The contents are the same at position `i`: the same byte, or both end before. -/
def SameAt (i : Nat) (b b' : Bytes) : Prop := b[i]? = b'[i]?

end FF.Spec
