import re
src=open('/repo/src/readers.rs').read().split('\n')
rows=[]
for l in src[190:240]:
    m=re.match(r'\s*"([0-9a-f-]{36})" => Self::(\w+),',l)
    if m:
        a,b,c,d,e=m[1].split('-')
        rows.append(f"  (⟨0x{a}, 0x{b}, 0x{c}, 0x{d}, 0x{e}⟩, {m[2]})")
assert len(rows)==46,len(rows)
open('/verif/lean/Verif/Spec/Guid.lean','w').write('''import Verif.Model.Format
import Verif.Spec.Encode
/-!
# Specification: GUIDs

A GUID by its five fields, its layout in memory and in files, and its text.
-/

namespace FF.Spec
open FileFormat

/-- A GUID, written `xxxxxxxx-xxxx-xxxx-xxxx-xxxxxxxxxxxx`. -/
structure Guid where
  data1 : Nat
  data2 : Nat
  data3 : Nat
  data4 : Nat
  data5 : Nat
  deriving DecidableEq, Repr

/-- The fields have 32, 16, 16, 16 and 48 bits. -/
def Guid.Valid (g : Guid) : Prop :=
  g.data1 < 2 ^ 32 ∧ g.data2 < 2 ^ 16 ∧ g.data3 < 2 ^ 16 ∧ g.data4 < 2 ^ 16 ∧ g.data5 < 2 ^ 48

instance (g : Guid) : Decidable g.Valid := inferInstanceAs (Decidable (_ ∧ _))

/-- The 16 bytes: the first three fields are little-endian, the rest is in reading order. -/
def Guid.bytes (g : Guid) : Bytes :=
  leBytes 4 g.data1 ++ leBytes 2 g.data2 ++ leBytes 2 g.data3 ++ beBytes 2 g.data4 ++ beBytes 6 g.data5

/-- `v` in `n` lower-case hexadecimal digits, as code points. -/
def hexText : Nat → Nat → List Nat
  | 0, _ => []
  | n + 1, v =>
    hexText n (v / 16) ++
      [[48, 49, 50, 51, 52, 53, 54, 55, 56, 57, 97, 98, 99, 100, 101, 102].getD (v % 16) 0]

/-- The standard text of a GUID, in lower case. -/
def Guid.text (g : Guid) : List Nat :=
  hexText 8 g.data1 ++ [45] ++ hexText 4 g.data2 ++ [45] ++ hexText 4 g.data3 ++ [45] ++
    hexText 4 g.data4 ++ [45] ++ hexText 12 g.data5

/-- The CLSIDs of the applications that store compound files, with the format of their documents
(`src/readers.rs` 192-237, as numbers). -/
def clsids : List (Guid × FileFormat) := [
'''+',\n'.join(rows)+''']

end FF.Spec
''')
