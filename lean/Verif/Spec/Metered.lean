import Verif.Spec.Device
/-!
# Specification: counting the calls on a device
-/

namespace FF

/-- `calls` counts the calls that the device has seen: no call adds more than one to it. -/
structure Device.Meter {σ : Type} (D : Device σ) (calls : σ → Nat) : Prop where
  read : ∀ s n, calls (D.read s n).2 ≤ calls s + 1
  seek : ∀ s p, calls (D.seek s p).2 ≤ calls s + 1
  tell : ∀ s, calls (D.tell s).2 ≤ calls s + 1

/-- The device, with a counter for its calls. -/
def counted {σ : Type} (D : Device σ) : Device (σ × Nat) where
  read := fun s n => ((D.read s.1 n).1, ((D.read s.1 n).2, s.2 + 1))
  seek := fun s p => ((D.seek s.1 p).1, ((D.seek s.1 p).2, s.2 + 1))
  tell := fun s => ((D.tell s.1).1, ((D.tell s.1).2, s.2 + 1))
  patience := fun s => D.patience s.1

/-- Reads for at most `limit` bytes, seeks and questions for the position keep `ok`. -/
structure Device.Keeps {σ : Type} (D : Device σ) (limit : Nat) (ok : σ → Prop) : Prop where
  read : ∀ s n, n ≤ limit → ok s → ok (D.read s n).2
  seek : ∀ s p, ok s → ok (D.seek s p).2
  tell : ∀ s, ok s → ok (D.tell s).2

/-- The device, with a note of the largest read that was asked for. -/
def largest {σ : Type} (D : Device σ) : Device (σ × Nat) where
  read := fun s n => ((D.read s.1 n).1, ((D.read s.1 n).2, max s.2 n))
  seek := fun s p => ((D.seek s.1 p).1, ((D.seek s.1 p).2, s.2))
  tell := fun s => ((D.tell s.1).1, ((D.tell s.1).2, s.2))
  patience := fun s => D.patience s.1

/-- A file without an end, all bytes of which are zero (as `/dev/zero`): the state is the position. -/
def zeros : Device Nat where
  read := fun p n => (.ok (List.replicate n 0), p + n)
  seek := fun p s =>
    match s with
    | .start n => (.ok n, n)
    | .current i => if 0 ≤ (p : Int) + i then (.ok ((p : Int) + i).toNat, ((p : Int) + i).toNat) else (.error .invalidInput, p)
    | .fromEnd _ => (.ok 0, 0)
  tell := fun p => (.ok p, p)
  patience := fun _ => 0

end FF
