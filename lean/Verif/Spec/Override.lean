import Verif.Model.Override
import Verif.Spec.Serve
import Verif.Spec.Buffered
/-!
# Specification: `read_exact` of an implementation of `Read + Seek`
-/

namespace FF

/-- `own` does what the documentation of `Read::read_exact` asks for on the content `data`: if it succeeds, it has delivered
exactly `n` bytes from the position on and moved by `n`. If it fails, nothing is known about the position. Reading no bytes
does not fail. -/
structure Device.ServesExact {σ : Type} (own : σ → Nat → Except ErrKind Bytes × σ) (data : Bytes) (position : σ → Nat)
    (I : σ → Prop) : Prop where
  ok : ∀ s n bs s', I s → own s n = (.ok bs, s') →
    bs.length = n ∧ bs = slice data (position s) n ∧ position s' = position s + n
  error : ∀ s n e s', I s → own s n = (.error e, s') → n ≠ 0
  inv : ∀ s n, I s → I (own s n).2

/-- It only fails, with `UnexpectedEof`, when there are not `n` bytes left. -/
def Device.ReliableExact {σ : Type} (own : σ → Nat → Except ErrKind Bytes × σ) (data : Bytes) (position : σ → Nat)
    (I : σ → Prop) : Prop :=
  ∀ s n e s', I s → own s n = (.error e, s') → e = .unexpectedEof ∧ data.length < position s + n

/-- `read_exact` as std's `Cursor` has it: all bytes at once, or the position moves to the end. The state is the position. -/
def cursorExact (data : Bytes) (p n : Nat) : Except ErrKind Bytes × Nat :=
  if p + n ≤ data.length ∨ n = 0 then (.ok (slice data p n), p + n)
  else (.error .unexpectedEof, data.length)

/-- std's `Cursor` on the bytes: all reads are served in full. The state is the position. -/
def cursorDevice (data : Bytes) : Device Nat where
  read := fun p n => (.ok (slice data p n), p + (slice data p n).length)
  seek := fun p s =>
    match seekTarget data.length (2 ^ 64 - 1) p s with
    | some q => (.ok q, q)
    | none => (.error .invalidInput, p)
  tell := fun p => (.ok p, p)
  patience := fun _ => 0

/-- `read_exact` as std's `BufReader` has it: from the buffer if it has enough bytes, else with the default body. (The default
body does not run forever, so the last case does not occur.) -/
def bufReadExact {σ : Type} (cap : Nat) (D : Device σ) (s : σ × Bytes) (n : Nat) : Except ErrKind Bytes × (σ × Bytes) :=
  if n ≤ s.2.length then (.ok (s.2.take n), (s.1, s.2.drop n))
  else
    match DRd.readExactLoop (bufReader cap D) (n + D.patience s.1 + 1) ⟨s, false, []⟩ n [] with
    | (.ok bs, r) => (.ok bs, r.st)
    | (.error (.err e), r) => (.error e, r.st)
    | (.error _, r) => (.error .unexpectedEof, r.st)

end FF
