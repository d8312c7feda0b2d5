import Verif.Spec.Serve
/-!
# Specification: media on which some bytes cannot be read
-/

namespace FF

/-- How many of the `n` bytes from position `p` on come before the first bad one. -/
def goodRun (bad : Nat → Bool) (p : Nat) : Nat → Nat
  | 0 => 0
  | n + 1 => if bad p then 0 else goodRun bad (p + 1) n + 1

/-- A medium with the content `data`, on which the bytes at the positions `bad` cannot be read. A read delivers the bytes up
to the next bad one, and fails with the error `e` at a bad one. The state is the position. -/
def damaged (bad : Nat → Bool) (e : ErrKind) (data : Bytes) (top : Nat) : Device Nat where
  read := fun p n =>
    if n = 0 ∨ data.length ≤ p ∨ bad p = false then
      (.ok (slice data p (goodRun bad p (min n (data.length - p)))), p + goodRun bad p (min n (data.length - p)))
    else (.error e, p)
  seek := fun p s =>
    match seekTarget data.length top p s with
    | some q => (.ok q, q)
    | none => (.error .invalidInput, p)
  tell := fun p => (.ok p, p)
  patience := fun _ => 0

namespace Spec

/-- The contents have the same length and differ at most in bytes that cannot be read. -/
def SameReadable (bad : Nat → Bool) (data data' : Bytes) : Prop :=
  data'.length = data.length ∧ ∀ i, bad i = false → data'[i]? = data[i]?

end Spec
end FF
