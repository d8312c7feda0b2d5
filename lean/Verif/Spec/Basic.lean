import Verif.Model.Detect
/-!
# Vocabulary shared by the statements
-/

namespace FF

deriving instance DecidableEq for Except

namespace Spec

/-- Rust byte slices are at most `isize::MAX` bytes long. -/
def IsSlice (b : Bytes) : Prop := b.length < 2 ^ 63

instance (b : Bytes) : Decidable (IsSlice b) := inferInstanceAs (Decidable (_ < _))

/-- The call returned normally: `Ok` or `Err`, no panic, and it terminated. -/
def Returns {α : Type} (r : Except Fail α) : Prop :=
  (∃ a, r = .ok a) ∨ (∃ e, r = .error (.err e))

/-- The input holds a known magic of `f` that decides the signature verdict: this is what
`from_bytes` reports when no reader feature is enabled. -/
def Recognised (b : Bytes) (f : FileFormat) : Prop :=
  fromBytes Cfg.release Features.none b = .ok f

end Spec
end FF
