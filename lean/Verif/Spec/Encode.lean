import Verif.Model.Bytes
/-!
# Specification: integers in files
-/

namespace FF.Spec

/-- `v` in `n` bytes, least significant byte first. -/
def leBytes : Nat → Nat → Bytes
  | 0, _ => []
  | n + 1, v => UInt8.ofNat (v % 256) :: leBytes n (v / 256)

/-- `v` in `n` bytes, most significant byte first. -/
def beBytes (n v : Nat) : Bytes := (leBytes n v).reverse

example : leBytes 4 0x01020304 = [4, 3, 2, 1] := by decide
example : beBytes 4 0x01020304 = [1, 2, 3, 4] := by decide

end FF.Spec
