import Verif.Spec.Serve
/-!
# Specification: one file, many handles
-/

namespace FF

/-- A file with content `data` that is open more than once; `positions j` is the position of handle `j`, and `top` the
largest position. The device is handle `i`. Before the `t`-th call on it others, e.g. other threads, use their handles:
`others t` is what that does to the positions. The state is the number of calls and the positions. -/
def handle (data : Bytes) (top i : Nat) (others : Nat → (Nat → Nat) → Nat → Nat) : Device (Nat × (Nat → Nat)) where
  read := fun s n =>
    let positions := others s.1 s.2
    let bytes := slice data (positions i) n
    (.ok bytes, (s.1 + 1, fun j => if j = i then positions i + bytes.length else positions j))
  seek := fun s p =>
    let positions := others s.1 s.2
    match seekTarget data.length top (positions i) p with
    | some q => (.ok q, (s.1 + 1, fun j => if j = i then q else positions j))
    | none => (.error .invalidInput, (s.1 + 1, positions))
  tell := fun s =>
    let positions := others s.1 s.2
    (.ok (positions i), (s.1 + 1, positions))
  patience := fun _ => 0

/-- The others leave handle `i` alone. -/
def OwnHandle (i : Nat) (others : Nat → (Nat → Nat) → Nat → Nat) : Prop := ∀ t positions, others t positions i = positions i

end FF
