import Verif.Spec.Device
/-!
# Specification: implementations of `Read + Seek` that serve a fixed content
-/

namespace FF

/-- The device serves the content `data`, positions in which go up to `top`, as the documentation of `Read` and `Seek`
asks for. `position` is where it is. It may deliver fewer bytes than asked for, but none only at the end; any call may
fail, and leaves it where it is. `I` are the states in which all this holds; no call leaves them. -/
structure Device.Serves {σ : Type} (D : Device σ) (data : Bytes) (top : Nat) (position : σ → Nat) (I : σ → Prop) : Prop where
  read_ok : ∀ s n bs s', I s → D.read s n = (.ok bs, s') →
    bs.length ≤ n ∧ bs = slice data (position s) bs.length ∧ (bs = [] → n = 0 ∨ data.length ≤ position s) ∧
      position s' = position s + bs.length
  seek_ok : ∀ s p q s', I s → D.seek s p = (.ok q, s') →
    seekTarget data.length top (position s) p = some q ∧ position s' = q
  tell_ok : ∀ s q s', I s → D.tell s = (.ok q, s') → q = position s ∧ position s' = position s
  read_error : ∀ s n e s', I s → D.read s n = (.error e, s') → position s' = position s
  seek_error : ∀ s p e s', I s → D.seek s p = (.error e, s') → position s' = position s
  tell_error : ∀ s e s', I s → D.tell s = (.error e, s') → position s' = position s
  read_inv : ∀ s n, I s → I (D.read s n).2
  seek_inv : ∀ s p, I s → I (D.seek s p).2
  tell_inv : ∀ s, I s → I (D.tell s).2

/-- No call fails, except that seeking to where no position is is refused, and that a read may fail with one of `may`. -/
structure Device.Reliable {σ : Type} (D : Device σ) (data : Bytes) (top : Nat) (position : σ → Nat) (I : σ → Prop)
    (may : ErrKind → Prop) : Prop where
  read : ∀ s n e s', I s → D.read s n = (.error e, s') → may e
  seek : ∀ s p e s', I s → D.seek s p = (.error e, s') →
    e = .invalidInput ∧ seekTarget data.length top (position s) p = none
  tell : ∀ s e s', I s → D.tell s ≠ (.error e, s')

/-- Every read that succeeds is served in full: it delivers all that was asked for and is there. -/
def Device.Full {σ : Type} (D : Device σ) (data : Bytes) (position : σ → Nat) (I : σ → Prop) : Prop :=
  ∀ s n bs s', I s → D.read s n = (.ok bs, s') → bs = slice data (position s) n

/-- A content kept in blocks of `k` bytes: a read gets bytes of one block. The state is the position. -/
def blocks (k : Nat) (data : Bytes) (top : Nat) : Device Nat where
  read := fun p n => (.ok (slice data p (min n (k - p % k))), p + (slice data p (min n (k - p % k))).length)
  seek := fun p s =>
    match seekTarget data.length top p s with
    | some q => (.ok q, q)
    | none => (.error .invalidInput, p)
  tell := fun p => (.ok p, p)
  patience := fun _ => 0

end FF
