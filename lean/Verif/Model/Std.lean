import Verif.Model.Bytes
/-!
# The fragment of Rust and its standard library used by the crate (pure part)

Outcomes, integer arithmetic, UTF-8 and strings. None of this is in `/repo`; the definitions follow
the documentation (and the published source) of Rust's `core`/`std`, and say which call in `/repo`
uses them.
-/

namespace FF

/-- `std::io::ErrorKind`, restricted to the kinds the crate and std's readers produce; `other n`
stands for any further kind a stream may report (`src/readers.rs` 325, 341, 773 and every `?`). -/
inductive ErrKind where
  | unexpectedEof
  | invalidInput
  | invalidData
  | interrupted
  | other (code : Nat)
  deriving DecidableEq, Repr

/-- Ways in which a computation can end without a value: `Err(e)`, a panic, or not at all
(the `Result` of `src/lib.rs` 292 and of every function of `src/readers.rs`). -/
inductive Fail where
  | err (e : ErrKind)
  | panic
  | diverge
  deriving DecidableEq, Repr

/-- Build profile. `overflowChecks = true` is `cargo build`/`cargo test` (debug), `false` is
`--release` (profiles of `Cargo.toml`). -/
structure Cfg where
  overflowChecks : Bool
  deriving DecidableEq, Repr

/-- The release profile: integer arithmetic wraps (profiles of `Cargo.toml`). -/
def Cfg.release : Cfg := ⟨false⟩
/-- The debug profile: integer overflow panics (profiles of `Cargo.toml`). -/
def Cfg.debug : Cfg := ⟨true⟩

/-- `n as i64` for a `u64` (or smaller unsigned) value `n`
(`src/readers.rs` 115, 142-154, 372, 390, 404, 585, 589, 693, 713, 994, 1094). -/
def asI64 (n : Nat) : Int := if n < 2 ^ 63 then (n : Int) else (n : Int) - 2 ^ 64

/-- `a - b` on `i64` (`src/readers.rs` 115, 154, 585, 589, 713). -/
def i64Sub (cfg : Cfg) (a b : Int) : Except Fail Int :=
  if -2 ^ 63 ≤ a - b ∧ a - b < 2 ^ 63 then .ok (a - b)
  else if cfg.overflowChecks then .error .panic
  else .ok ((a - b).bmod (2 ^ 64))

/-- `a + b` on `u64` (`src/readers.rs` 150, 912). -/
def u64Add (cfg : Cfg) (a b : Nat) : Except Fail Nat :=
  if a + b < 2 ^ 64 then .ok (a + b)
  else if cfg.overflowChecks then .error .panic
  else .ok ((a + b) % 2 ^ 64)

/-- `a - b` on `u64` (`src/readers.rs` 150, 894). -/
def u64Sub (cfg : Cfg) (a b : Nat) : Except Fail Nat :=
  if b ≤ a then .ok (a - b)
  else if cfg.overflowChecks then .error .panic
  else .ok ((a + 2 ^ 64 - b) % 2 ^ 64)

/-- `bytes[i]`: panics when out of bounds (`src/readers.rs` 481-484, 1212-1263). -/
def index (bs : Bytes) (i : Nat) : Except Fail UInt8 :=
  match bs[i]? with
  | some b => .ok b
  | none => .error .panic

/-- `&bytes[lo..hi]`: panics when out of bounds (`src/readers.rs` 643, 648, 740, 791-849). -/
def sliceIdx (bs : Bytes) (lo hi : Nat) : Except Fail Bytes :=
  if lo ≤ hi ∧ hi ≤ bs.length then .ok ((bs.take hi).drop lo) else .error .panic

/-- `u8::leading_zeros` (`src/readers.rs` 323, 339, 345). -/
def leadingZeros8 (b : UInt8) : Nat :=
  let n := b.toNat
  if n ≥ 128 then 0 else if n ≥ 64 then 1 else if n ≥ 32 then 2 else if n ≥ 16 then 3
  else if n ≥ 8 then 4 else if n ≥ 4 then 5 else if n ≥ 2 then 6 else if n ≥ 1 then 7 else 8

/-! ## Strings -/

/-- A Rust string as the list of its Unicode scalar values (`src/readers.rs` 767, 963, 1131). -/
abbrev Str := List Nat

open Lean in
/-- `s!!"abc"`: a string literal as the list of its scalar values. -/
macro:max "s!!" s:str : term => do
  let elems := s.getString.toList.toArray.map fun c => Syntax.mkNumLit (toString c.toNat)
  `(([ $elems,* ] : List Nat))

/-- A continuation byte: `byte & 192 == 128` (std, for `src/readers.rs` 767 and 1131). -/
def isCont (b : UInt8) : Bool := 0x80 ≤ b.toNat && b.toNat ≤ 0xBF

/-- One step of the UTF-8 automaton shared by `str::from_utf8` and `String::from_utf8_lossy`:
either a scalar value, or a maximal ill-formed piece, together with the rest of the input
(std, for `src/readers.rs` 767 and 1131). -/
inductive Utf8Step where
  | char (cp : Nat) (rest : Bytes)
  | bad (rest : Bytes)

/-- `core::str::lossy::Utf8Chunks::next`, one iteration of its loop (the same table decides
`core::str::validations::run_utf8_validation`). Called with the first byte and the remaining
input; running out of input acts like a non-continuation byte (`safe_get` returns 0)
(for `src/readers.rs` 767 and 1131). -/
def utf8Step (b : UInt8) (t : Bytes) : Utf8Step :=
  let x := b.toNat
  if x < 0x80 then .char x t
  else if 0xC2 ≤ x ∧ x ≤ 0xDF then
    match t with
    | c1 :: t1 =>
      if isCont c1 then .char ((x - 0xC0) * 64 + (c1.toNat - 0x80)) t1 else .bad t
    | [] => .bad []
  else if 0xE0 ≤ x ∧ x ≤ 0xEF then
    match t with
    | c1 :: t1 =>
      let y := c1.toNat
      if (x = 0xE0 ∧ 0xA0 ≤ y ∧ y ≤ 0xBF) ∨ (0xE1 ≤ x ∧ x ≤ 0xEC ∧ 0x80 ≤ y ∧ y ≤ 0xBF) ∨
          (x = 0xED ∧ 0x80 ≤ y ∧ y ≤ 0x9F) ∨ (0xEE ≤ x ∧ 0x80 ≤ y ∧ y ≤ 0xBF) then
        match t1 with
        | c2 :: t2 =>
          if isCont c2 then
            .char ((x - 0xE0) * 4096 + (y - 0x80) * 64 + (c2.toNat - 0x80)) t2
          else .bad t1
        | [] => .bad []
      else .bad t
    | [] => .bad []
  else if 0xF0 ≤ x ∧ x ≤ 0xF4 then
    match t with
    | c1 :: t1 =>
      let y := c1.toNat
      if (x = 0xF0 ∧ 0x90 ≤ y ∧ y ≤ 0xBF) ∨ (0xF1 ≤ x ∧ x ≤ 0xF3 ∧ 0x80 ≤ y ∧ y ≤ 0xBF) ∨
          (x = 0xF4 ∧ 0x80 ≤ y ∧ y ≤ 0x8F) then
        match t1 with
        | c2 :: t2 =>
          if isCont c2 then
            match t2 with
            | c3 :: t3 =>
              if isCont c3 then
                .char ((x - 0xF0) * 262144 + (y - 0x80) * 4096 + (c2.toNat - 0x80) * 64 +
                  (c3.toNat - 0x80)) t3
              else .bad t2
            | [] => .bad []
          else .bad t1
        | [] => .bad []
      else .bad t
    | [] => .bad []
  else .bad t

/-- Loop of `str::from_utf8`; `fuel` bounds the number of characters (for `src/readers.rs` 767). -/
def decodeUtf8Aux : Nat → Bytes → Option Str
  | _, [] => some []
  | 0, _ :: _ => none
  | fuel + 1, b :: t =>
    match utf8Step b t with
    | .char cp rest => (decodeUtf8Aux fuel rest).map (cp :: ·)
    | .bad _ => none

/-- `str::from_utf8(bytes).ok()` (used by `BufRead::lines`, `src/readers.rs` 767). -/
def decodeUtf8 (bs : Bytes) : Option Str := decodeUtf8Aux bs.length bs

/-- Loop of `String::from_utf8_lossy` (for `src/readers.rs` 1131). -/
def decodeLossyAux : Nat → Bytes → Str
  | _, [] => []
  | 0, _ :: _ => []
  | fuel + 1, b :: t =>
    match utf8Step b t with
    | .char cp rest => cp :: decodeLossyAux fuel rest
    | .bad rest => 0xFFFD :: decodeLossyAux fuel rest

/-- `String::from_utf8_lossy(bytes).to_string()` (`src/readers.rs` 1131). -/
def decodeLossy (bs : Bytes) : Str := decodeLossyAux bs.length bs

/-- `char::is_control`: general category Cc (`src/readers.rs` 772). -/
def isControl (c : Nat) : Bool := c ≤ 0x1F || (0x7F ≤ c && c ≤ 0x9F)

/-- `char::is_whitespace`: property White_Space (`src/readers.rs` 772; also used by `str::trim`). -/
def isWhitespace (c : Nat) : Bool :=
  (0x9 ≤ c && c ≤ 0xD) || c == 0x20 || c == 0x85 || c == 0xA0 || c == 0x1680 ||
  (0x2000 ≤ c && c ≤ 0x200A) || c == 0x2028 || c == 0x2029 || c == 0x202F || c == 0x205F ||
  c == 0x3000

/-- `str::trim` (`src/readers.rs` 1001). -/
def trim (s : Str) : Str := ((s.dropWhile isWhitespace).reverse.dropWhile isWhitespace).reverse

/-- `str::starts_with(&str)` (`src/readers.rs` 1056-1080). -/
def Str.startsWith (s p : Str) : Bool := p.isPrefixOf s

/-- `str::ends_with(&str)` (`src/readers.rs` 1062, 1076-1084). -/
def Str.endsWith (s p : Str) : Bool := p.isSuffixOf s

/-- `str::contains(&str)` (`src/readers.rs` 1066). -/
def Str.contains (s p : Str) : Bool :=
  match s with
  | [] => p.isEmpty
  | c :: t => p.isPrefixOf (c :: t) || Str.contains t p

/-- `str::contains(char)` (`src/readers.rs` 1062, 1085). -/
def Str.containsChar (s : Str) (c : Nat) : Bool := s.any (· == c)

end FF
