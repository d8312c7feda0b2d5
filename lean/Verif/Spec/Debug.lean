import Verif.Spec.Meta
/-!
# Specification: names of variants

Texts are taken as their UTF-8 bytes.
-/

namespace FF.Spec

/-- The bytes of a text. -/
def bytesOf (s : String) : List UInt8 := s.toByteArray.data.toList

/-- ASCII upper-case letters. -/
def isUpperByte (c : Nat) : Bool := Nat.ble 65 c && Nat.ble c 90

/-- ASCII letters and digits. -/
def isAlnumByte (c : Nat) : Bool :=
  isUpperByte c || (Nat.ble 97 c && Nat.ble c 122) || (Nat.ble 48 c && Nat.ble c 57)

/-- ASCII lower case. -/
def lowerByte (c : Nat) : Nat := bif isUpperByte c then c + 32 else c

/-- The letters and digits of a text, in lower case. -/
def lettersOf (s : List UInt8) : List Nat := ((s.map UInt8.toNat).filter isAlnumByte).map lowerByte

/-- An identifier cannot begin with a digit: the numbers some names begin with are spelled out
(`3D`, `3rd`, `7`, `8`). -/
def spelledOut (s : List UInt8) : List UInt8 :=
  match s with
  | 51 :: 68 :: t => bytesOf "three dimensional" ++ t
  | 51 :: 114 :: 100 :: t => bytesOf "third" ++ t
  | 55 :: t => bytesOf "seven" ++ t
  | 56 :: t => bytesOf "eight" ++ t
  | s => s

/-- An identifier in UpperCamelCase: letters and digits, the first one an upper-case letter. -/
def CamelCase (s : List UInt8) : Prop :=
  (∃ c t, s = c :: t ∧ isUpperByte c.toNat = true) ∧ ∀ c ∈ s, isAlnumByte c.toNat = true

/-- ASCII upper case. -/
def upperByte (c : Nat) : Nat := bif Nat.ble 97 c && Nat.ble c 122 then c - 32 else c

/-- A text in UpperCamelCase: the words, each with a capital and the rest in lower case, without what
is between them. An apostrophe or a full stop does not end a word. `start` tells whether the next
character begins a word. -/
def upperCamel (start : Bool) : List UInt8 → List Nat
  | [] => []
  | c :: t =>
    bif isAlnumByte c.toNat then
      (bif start then upperByte c.toNat else lowerByte c.toNat) :: upperCamel false t
    else upperCamel (start || !(c == 39 || c == 46)) t

end FF.Spec
