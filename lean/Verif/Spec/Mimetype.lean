import Verif.Spec.Basic
/-!
# Specification: what a ZIP archive says about the size of its `mimetype`
-/

namespace FF.Spec

/-- There is something like a central directory entry at `p`: a file of the name `mimetype`, of equal compressed and
uncompressed sizes of `size` bytes. -/
structure MimetypeAt (b : Bytes) (p size : Nat) : Prop where
  nameLength : leNat (slice b (p + 28) 2) = 8
  name : slice b (p + 46) 8 = b!"mimetype"
  compressed : leNat (slice b (p + 20) 4) = size
  uncompressed : leNat (slice b (p + 24) 4) = size

end FF.Spec
