import Verif.Model.Device
import Verif.Spec.Basic
/-!
# Specification: laws of `Read + Seek` implementations, and some of them
-/

namespace FF

/-- The contract of `Read::read` (the number of bytes is at most the length of the buffer) and the
meaning of `patience`. -/
structure Device.Lawful {σ : Type} (D : Device σ) : Prop where
  read_le : ∀ s n bs s', D.read s n = (.ok bs, s') → bs.length ≤ n
  read_patience : ∀ s n r s', D.read s n = (r, s') → D.patience s' ≤ D.patience s
  interrupted : ∀ s n s', D.read s n = (.error .interrupted, s') → D.patience s' < D.patience s
  seek_patience : ∀ s p r s', D.seek s p = (r, s') → D.patience s' ≤ D.patience s
  tell_patience : ∀ s r s', D.tell s = (r, s') → D.patience s' ≤ D.patience s

/-- The device has a position of its own: reading moves it by the number of bytes read, asking for
it returns it and leaves it alone. (Nobody else moves it, as happens to a file descriptor that is
shared; nothing is said about the position after failures.) -/
structure Device.Positioned {σ : Type} (D : Device σ) (position : σ → Nat) : Prop where
  read : ∀ s n bs s', D.read s n = (.ok bs, s') → position s' = position s + bs.length
  tell : ∀ s q s', D.tell s = (.ok q, s') → q = position s ∧ position s' = position s

/-- A device with a position of its own and at most `len` bytes, however they change: interrupted
reads leave the position alone, seeking from the start goes where it says, and no read gets bytes
beyond `len`. -/
structure Device.Ending {σ : Type} (D : Device σ) (position : σ → Nat) (len : Nat) : Prop where
  positioned : D.Positioned position
  interrupted : ∀ s n s', D.read s n = (.error .interrupted, s') → position s' = position s
  start : ∀ s n q s', D.seek s (.start n) = (.ok q, s') → position s' = n
  bounded : ∀ s n bs s', D.read s n = (.ok bs, s') → bs ≠ [] → position s + bs.length ≤ len

/-- A file that changes while it is examined: `contents t` is what it holds when the `t`-th call is
made (the state is the number of calls made and the position). `limit` is the largest offset that
can be sought. -/
def changing (contents : Nat → Bytes) (limit : Nat) : Device (Nat × Nat) where
  read := fun (t, p) n =>
    (.ok (slice (contents t) p n), (t + 1, p + (slice (contents t) p n).length))
  seek := fun (t, p) s =>
    match seekTarget (contents t).length limit p s with
    | some q => (.ok q, (t + 1, q))
    | none => (.error .invalidInput, (t + 1, p))
  tell := fun (t, p) => (.ok p, (t + 1, p))
  patience := fun _ => 0

/-- A file with content `data` whose position is shared with somebody who goes back to its start
after every read. -/
def rewound (data : Bytes) : Device Nat where
  read := fun p n => (.ok (slice data p n), 0)
  seek := fun p s =>
    match seekTarget data.length (2 ^ 63 - 1) p s with
    | some q => (.ok q, q)
    | none => (.error .invalidInput, p)
  tell := fun p => (.ok p, p)
  patience := fun _ => 0

/-- A file with content `data` whose position is shared with somebody who goes back to its start once, after the `k`-th
read (counted from 0). The state is the number of reads made, and the position. -/
def disturbed (data : Bytes) (k : Nat) : Device (Nat × Nat) where
  read := fun (t, p) n =>
    (.ok (slice data p n), (t + 1, if t = k then 0 else p + (slice data p n).length))
  seek := fun (t, p) s =>
    match seekTarget data.length (2 ^ 63 - 1) p s with
    | some q => (.ok q, (t, q))
    | none => (.error .invalidInput, (t, p))
  tell := fun (t, p) => (.ok p, (t, p))
  patience := fun _ => 0

/-- A device without an end: at every position it holds the beginning of an empty ID3v2 tag. -/
def endlessTags : Device Nat where
  read := fun p n =>
    (.ok ((b!"ID3\x04\x00\x00\x00\x00\x00\x00").take n), p + min n 10)
  seek := fun p s =>
    match s with
    | .start n => (.ok n, n)
    | _ => (.error .invalidInput, p)
  tell := fun p => (.ok p, p)
  patience := fun _ => 0

end FF
