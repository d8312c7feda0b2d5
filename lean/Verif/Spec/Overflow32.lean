import Verif.Spec.Overflow
import Verif.Spec.Walk32
/-!
# Specification: which contents make the arithmetic overflow on targets with 32-bit pointers

As `Spec/Overflow.lean`, but the archive reader finds the end record and the locator as `Spec/Walk32.lean` says.
-/

namespace FF.Spec
open FileFormat

/-- ZIP: the locator in front of the end record gives an offset that is too large to add 32. -/
def ZipOverflow32 (b : Bytes) : Prop :=
  ∃ e, EndAt32 b e ∧ 20 ≤ e % 2 ^ 32 ∧ MagicAt (e - 20) b!"PK\x06\x07" b ∧ 2 ^ 64 ≤ leAt b (e - 12) 8 + 32

/-- The reader of the feature comes to a result that does not fit into 64 bits. -/
def ReaderOverflows32 (b : Bytes) (top : Nat) : Feature → Prop
  | .zip => ZipOverflow32 b
  | g => ReaderOverflows b top g

/-- The reader of an enabled feature does that on the content `b`, if the magic numbers are looked for in `w`. -/
def OverflowOn32 (ft : Features) (w b : Bytes) (top : Nat) : Prop :=
  ∃ g : Feature, g.enabled ft = true ∧ SignatureSays w g.base ∧ ReaderOverflows32 b top g

end FF.Spec
