import Lean
/-!
# Byte strings

`[u8]` is modelled as `List UInt8`; unsigned Rust integers as `Nat`.
-/

namespace FF

/-- A Rust `&[u8]` / `Vec<u8>` (the parameter of `from_bytes`, `src/lib.rs` 257). -/
abbrev Bytes := List UInt8

open Lean in
/-- `b!"PK\x03\x04"` is the byte string literal `b"PK\x03\x04"` of Rust: every character of the
literal (all below U+0100) is one byte. It expands to the plain list of numerals. -/
macro:max "b!" s:str : term => do
  let elems := s.getString.toList.toArray.map fun c => Syntax.mkNumLit (toString c.toNat)
  `(([ $elems,* ] : List UInt8))

/-- `data[pos .. pos + n]`, cut at the end of the data
(what a read delivers, `src/lib.rs` 295; `src/readers.rs` 634, 737, 787). -/
def slice (d : Bytes) (pos n : Nat) : Bytes := (d.drop pos).take n

/-- Value of a little-endian byte string (`u16/u32/u64::from_le_bytes`;
`src/readers.rs` 1144-1148, 1160-1164, 1176-1180). -/
def leNat : Bytes → Nat
  | [] => 0
  | b :: bs => b.toNat + 256 * leNat bs

/-- Value of a big-endian byte string (`u32/u64::from_be_bytes`;
`src/readers.rs` 1152-1156, 1168-1172). -/
def beNat (bs : Bytes) : Nat := bs.foldl (fun acc b => acc * 256 + b.toNat) 0

/-- `slice.starts_with(prefix)` (`src/readers.rs` 134, 244, 253, 364-384, 702-704). -/
def startsWith (s p : Bytes) : Bool := p.isPrefixOf s

end FF
