import Verif.Spec.Serve
/-!
# Specification: `std::io::BufReader`

What a user has who passes `BufReader::with_capacity(cap, r)`, or `BufReader::new(r)` with a capacity of 8192, to
`from_reader`.
-/

namespace FF

/-- `BufReader`: the state is the state of the reader inside, and the bytes that were read from it and not handed out yet.
(`read` goes past an empty buffer if at least `cap` bytes are asked for. Seeking discards the buffer. `stream_position` of
the real one panics if the reader inside is at a position before its buffer's length; that is not expressed here, and does
not happen to readers that know where they are.) -/
def bufReader {σ : Type} (cap : Nat) (D : Device σ) : Device (σ × Bytes) where
  read := fun (st, buf) n =>
    if buf = [] then
      if cap ≤ n then ((D.read st n).1, ((D.read st n).2, []))
      else
        match D.read st cap with
        | (.ok bs, st) => (.ok (bs.take n), (st, bs.drop n))
        | (.error e, st) => (.error e, (st, []))
    else (.ok (buf.take n), (st, buf.drop n))
  seek := fun (st, buf) p =>
    match p with
    | .current i =>
      if -2 ^ 63 ≤ i - buf.length then
        match D.seek st (.current (i - buf.length)) with
        | (.ok q, st) => (.ok q, (st, []))
        | (.error e, st) => (.error e, (st, buf))
      else
        match D.seek st (.current (-buf.length)) with
        | (.ok _, st) => ((D.seek st (.current i)).1, ((D.seek st (.current i)).2, []))
        | (.error e, st) => (.error e, (st, buf))
    | p =>
      match D.seek st p with
      | (.ok q, st) => (.ok q, (st, []))
      | (.error e, st) => (.error e, (st, buf))
  tell := fun (st, buf) =>
    match D.tell st with
    | (.ok q, st) => (.ok (q - buf.length), (st, buf))
    | (.error e, st) => (.error e, (st, buf))
  patience := fun (st, _) => D.patience st

/-- What the buffer holds was read from the content, up to where the reader inside is. -/
def Buffered {σ : Type} (data : Bytes) (top : Nat) (position : σ → Nat) (I : σ → Prop) (s : σ × Bytes) : Prop :=
  I s.1 ∧ position s.1 ≤ top ∧ s.2.length ≤ position s.1 ∧ s.2 = slice data (position s.1 - s.2.length) s.2.length

/-- Where a `BufReader` is: at the first byte it has not handed out. -/
def bufPosition {σ : Type} (position : σ → Nat) (s : σ × Bytes) : Nat := position s.1 - s.2.length

/-- What the first read on a `BufReader` delivers: what is left in its buffer, or else what is asked for. -/
def bufWindow {σ : Type} (data : Bytes) (position : σ → Nat) (s : σ × Bytes) : Bytes :=
  if s.2 = [] then slice data (position s.1) 36870 else s.2.take 36870

end FF
