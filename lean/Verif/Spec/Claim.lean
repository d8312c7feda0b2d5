import Verif.Spec.Device
/-!
# Specification: a device that is watched
-/

namespace FF

/-- The device, except that it never returns more bytes than asked for, and that it remembers whether it would have. -/
def watched {σ : Type} (D : Device σ) : Device (σ × Bool) where
  read := fun (s, b) n =>
    match D.read s n with
    | (.ok bs, s') => (.ok (bs.take n), (s', b || decide (n < bs.length)))
    | (.error e, s') => (.error e, (s', b))
  seek := fun (s, b) p => ((D.seek s p).1, ((D.seek s p).2, b))
  tell := fun (s, b) => ((D.tell s).1, ((D.tell s).2, b))
  patience := fun s => D.patience s.1

/-- The laws of a device, except that on the number of bytes. -/
structure Device.Patient {σ : Type} (D : Device σ) : Prop where
  read_patience : ∀ s n r s', D.read s n = (r, s') → D.patience s' ≤ D.patience s
  interrupted : ∀ s n s', D.read s n = (.error .interrupted, s') → D.patience s' < D.patience s
  seek_patience : ∀ s p r s', D.seek s p = (r, s') → D.patience s' ≤ D.patience s
  tell_patience : ∀ s r s', D.tell s = (r, s') → D.patience s' ≤ D.patience s

/-- The device, with a record of its calls: whether one of them claimed more bytes than asked for, and how many calls came
after that one. -/
def tallied {σ : Type} (D : Device σ) : Device (σ × Bool × Nat) where
  read := fun (s, b, k) n =>
    match D.read s n with
    | (.ok bs, s') => (.ok bs, (s', b || decide (n < bs.length), if b then k + 1 else k))
    | (.error e, s') => (.error e, (s', b, if b then k + 1 else k))
  seek := fun (s, b, k) p => ((D.seek s p).1, ((D.seek s p).2, b, if b then k + 1 else k))
  tell := fun (s, b, k) => ((D.tell s).1, ((D.tell s).2, b, if b then k + 1 else k))
  patience := fun s => D.patience s.1

/-- A file with content `data` that claims to have read one byte more than asked for, from the `k`-th call of `read` on. The
state is the number of these calls made, and the position. -/
def boasting (data : Bytes) (k : Nat) : Device (Nat × Nat) where
  read := fun (t, p) n =>
    if k ≤ t then (.ok (List.replicate (n + 1) 0), (t + 1, p + n + 1))
    else (.ok (slice data p n), (t + 1, p + (slice data p n).length))
  seek := fun (t, p) s =>
    match seekTarget data.length (2 ^ 63 - 1) p s with
    | some q => (.ok q, (t, q))
    | none => (.error .invalidInput, (t, p))
  tell := fun (t, p) => (.ok p, (t, p))
  patience := fun _ => 0

end FF
