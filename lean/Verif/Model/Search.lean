import Verif.Model.Std
/-!
# `FindBytes`: byte pattern search (`src/readers.rs` 1187-1274)

Boyer-Moore-Horspool, forward and backward. Index operations are explicit: an index out of bounds
is a panic. The outer loops take fuel; running out of it is divergence.
-/

namespace FF

/-- `shift_table[byte] = value`. The table `[usize; 256]` is modelled as a function
(`src/readers.rs` 1207-1210, 1249-1252). -/
def setShift (t : UInt8 → Nat) (byte : UInt8) (v : Nat) : UInt8 → Nat :=
  fun b => if b = byte then v else t b

/-- Forward shift table (`src/readers.rs` 1208-1211):
`for (index, &byte) in pat.iter().enumerate().take(pat.len() - 1)`. -/
def shiftTable (pat : Bytes) : UInt8 → Nat :=
  (pat.zipIdx.take (pat.length - 1)).foldl
    (fun t (byte, index) => setShift t byte (pat.length - 1 - index)) (fun _ => pat.length)

/-- `a - b` on `usize`, for index computations: an underflow panics with overflow checks, and
without them wraps to an index that is out of bounds and panics there (`src/readers.rs` 1212-1218). -/
def usizeSub (a b : Nat) : Except Fail Nat := if b ≤ a then .ok (a - b) else .error .panic

/-- Inner loop of `find` (`src/readers.rs` 1214-1220), from `pat_index` down; `true` is
the `return Some(..)` exit. -/
def matchBack (data pat : Bytes) (dataIndex : Nat) : Nat → Except Fail Bool
  | 0 => do
    let p ← index pat 0
    let back ← usizeSub dataIndex (pat.length - 1 - 0)
    let x ← index data back
    pure (p == x)
  | patIndex + 1 => do
    let p ← index pat (patIndex + 1)
    let back ← usizeSub dataIndex (pat.length - 1 - (patIndex + 1))
    let x ← index data back
    if p == x then matchBack data pat dataIndex patIndex else pure false

/-- Outer loop of `find` (`src/readers.rs` 1212-1223). -/
def findLoop (data pat : Bytes) : Nat → Nat → Except Fail (Option Nat)
  | 0, _ => .error .diverge
  | fuel + 1, dataIndex =>
    if dataIndex < data.length then do
      if ← matchBack data pat dataIndex (pat.length - 1) then
        let i ← usizeSub dataIndex (pat.length - 1)
        pure (some i)
      else
        let b ← index data dataIndex
        findLoop data pat fuel (dataIndex + shiftTable pat b)
    else pure none

/-- `FindBytes::find` (`src/readers.rs` 1191-1224). -/
def findBytes (data pat : Bytes) : Except Fail (Option Nat) :=
  if pat.isEmpty then .ok (some 0)
  else if data.length < pat.length then .ok none
  else findLoop data pat (data.length + 1) (pat.length - 1)

/-- `FindBytes::holds` (`src/readers.rs` 1228-1230). -/
def holdsBytes (data pat : Bytes) : Except Fail Bool := do
  let r ← findBytes data pat
  pure r.isSome

/-- Backward shift table (`src/readers.rs` 1250-1253):
`for (index, &byte) in pat.iter().rev().enumerate().take(pat.len() - 1)`. -/
def rshiftTable (pat : Bytes) : UInt8 → Nat :=
  (pat.reverse.zipIdx.take (pat.length - 1)).foldl
    (fun t (byte, index) => setShift t byte (pat.length - 1 - index)) (fun _ => pat.length)

/-- Inner loop of `rfind` (`src/readers.rs` 1256-1262); `left` counts the pattern bytes after
`pat_index`. -/
def matchFwd (data pat : Bytes) (dataIndex : Nat) : Nat → Nat → Except Fail Bool
  | patIndex, left => do
    let p ← index pat patIndex
    let x ← index data (dataIndex + patIndex)
    if p == x then
      match left with
      | 0 => pure true
      | left + 1 => matchFwd data pat dataIndex (patIndex + 1) left
    else pure false

/-- Outer loop of `rfind` (`src/readers.rs` 1254-1268); `checked_sub` failing ends the search. -/
def rfindLoop (data pat : Bytes) : Nat → Nat → Except Fail (Option Nat)
  | 0, _ => .error .diverge
  | fuel + 1, dataIndex => do
    if ← matchFwd data pat dataIndex 0 (pat.length - 1) then pure (some dataIndex)
    else
      let b ← index data dataIndex
      if rshiftTable pat b ≤ dataIndex then rfindLoop data pat fuel (dataIndex - rshiftTable pat b)
      else pure none

/-- `FindBytes::rfind` (`src/readers.rs` 1233-1269). -/
def rfindBytes (data pat : Bytes) : Except Fail (Option Nat) :=
  if pat.isEmpty then .ok (some data.length)
  else if data.length < pat.length then .ok none
  else rfindLoop data pat (data.length + 1) (data.length - pat.length)

end FF
