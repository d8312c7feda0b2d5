import Verif.Spec.Basic
/-!
# Specification: what it means for an input to carry a format's magic

Only the table of magic values (data) and the entry points are used; nothing of the matching code.
-/

namespace FF.Spec

/-- `b` holds `magic` at offset `off`. -/
def MagicAt (off : Nat) (magic b : Bytes) : Prop :=
  ∃ pre suf, b = pre ++ magic ++ suf ∧ pre.length = off

/-- `b` holds every part of a magic value. -/
def Carries (b : Bytes) (parts : List Part) : Prop :=
  ∀ p ∈ parts, MagicAt p.offset p.value b

/-- `b` holds one of the magic values of format `f`. -/
def HasMagic (f : FileFormat) (b : Bytes) : Prop :=
  ∃ e ∈ signatureTable, e.format = f ∧ ∃ alt ∈ e.alts, Carries b alt

/-- Format `g` is listed before format `f` in the table. -/
def ListedBefore (g f : FileFormat) : Prop :=
  ∃ l1 e l2 e' l3, signatureTable = l1 ++ e :: l2 ++ e' :: l3 ∧ e.format = g ∧ e'.format = f

end FF.Spec
