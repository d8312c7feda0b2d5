import Verif.Model.Bytes
/-!
# Specification: UTF-8 text

Well-formed UTF-8 is what Lean's own encoder `String.utf8EncodeChar` produces from a list of
characters (Unicode scalar values). Nothing of the model's decoder is used.
-/

namespace FF.Spec

/-- The UTF-8 encoding of a text. -/
def utf8 (cs : List Char) : Bytes := cs.flatMap String.utf8EncodeChar

/-- A control character (general category Cc) that is not white space: U+0000-U+001F and
U+007F-U+009F without TAB, LF, VT, FF, CR (U+0009-U+000D) and NEL (U+0085). -/
def Forbidden (c : Char) : Prop :=
  (c.toNat ≤ 0x1F ∨ (0x7F ≤ c.toNat ∧ c.toNat ≤ 0x9F)) ∧
    ¬ (0x9 ≤ c.toNat ∧ c.toNat ≤ 0xD) ∧ c.toNat ≠ 0x85

instance (c : Char) : Decidable (Forbidden c) := inferInstanceAs (Decidable (_ ∧ _ ∧ _))

/-- The bytes are the UTF-8 encoding of a text without forbidden characters. -/
def IsText (bs : Bytes) : Prop := ∃ cs : List Char, bs = utf8 cs ∧ ∀ c ∈ cs, ¬ Forbidden c

/-- The first `n` lines (each with its line feed) of a byte string. -/
def firstLines : Nat → Bytes → Bytes
  | 0, _ => []
  | _ + 1, [] => []
  | n + 1, b :: t => if b = 0x0A then b :: firstLines n t else b :: firstLines (n + 1) t

end FF.Spec
