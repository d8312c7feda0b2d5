import Verif.Spec.Serve
/-!
# Specification: a file that notes which of its bytes were delivered
-/

namespace FF

/-- A file with the content `data`, positions in which go up to `top`, that notes which of its bytes it has delivered. The
state is the position and the note. -/
def traced (data : Bytes) (top : Nat) : Device (Nat × (Nat → Bool)) where
  read := fun s n =>
    (.ok (slice data s.1 n),
      (s.1 + (slice data s.1 n).length, fun i => s.2 i || (decide (s.1 ≤ i) && decide (i < s.1 + (slice data s.1 n).length))))
  seek := fun s p =>
    match seekTarget data.length top s.1 p with
    | some q => (.ok q, (q, s.2))
    | none => (.error .invalidInput, s)
  tell := fun s => (.ok s.1, s)
  patience := fun _ => 0

namespace Spec

/-- The bytes that a detection on the content, from the position `p` on, gets to see. -/
def seenBytes (cfg : Cfg) (ft : Features) (data : Bytes) (top p : Nat) : Nat → Bool :=
  (fromDevice (traced data top) cfg ft (p, fun _ => false)).2.2

/-- The contents have the same length and agree in the bytes at the given positions. -/
def SameWhereSeen (here : Nat → Bool) (data data' : Bytes) : Prop :=
  data'.length = data.length ∧ ∀ i, here i = true → data'[i]? = data[i]?

end Spec
end FF
