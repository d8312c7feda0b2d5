import Verif.Model.Bytes
/-!
# Specification: fields at fixed offsets
-/

namespace FF.Spec

/-- The byte at offset `p` (0 beyond the end). -/
def byteAt (b : Bytes) (p : Nat) : Nat := (b.getD p 0).toNat

/-- The little-endian 16-bit number at offset `p`. -/
def u16At (b : Bytes) (p : Nat) : Nat := byteAt b p + 2 ^ 8 * byteAt b (p + 1)

/-- The little-endian 32-bit number at offset `p`. -/
def u32At (b : Bytes) (p : Nat) : Nat := u16At b p + 2 ^ 16 * u16At b (p + 2)

example : u32At [0, 4, 3, 2, 1] 1 = 0x01020304 := by decide

end FF.Spec
