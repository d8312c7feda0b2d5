import Verif.Model.Device
/-!
# Detection on implementations of `Read` that break its contract

`Read::read` returns how many bytes it has stored. Nothing but documentation keeps this number below the length of the
buffer. Here the device may return any number: the bytes of the answer of `Device.read` are what it claims to have stored,
also if they are more than asked for. Everything that uses the number checks it: indexing, `split_at_mut` or the
assertion of `BorrowedCursor::advance` panic. The definitions repeat those of `Model.Device` with that check.

(A device that claims to have stored more than it has, but no more than asked for, leaves old bytes in the buffer: this is
a device that returns these bytes.)
-/

namespace FF
open FileFormat

variable {σ : Type} (D : Device σ)

/-- A call of `Read::read` and the use of its answer: `&buf[..nread]` (`src/lib.rs` 298), `buf[..nread]`
(`src/readers.rs` 740, 788), `&mut buf[n..]` in `default_read_exact`, `advance(n)` in `BufReader::fill_buf`;
`buf[start..OVERLAP_SIZE + nread]` and `rotate_right` (`src/readers.rs` 643, 648: where the sum wraps in release builds it is
below `OVERLAP_SIZE`, and one of the two panics). -/
def claimRead (st : σ) (n : Nat) : Except Fail Bytes × σ :=
  match D.read st n with
  | (.ok bs, st) => if bs.length ≤ n then (.ok bs, st) else (.error .panic, st)
  | (.error e, st) => (.error (.err e), st)

/-- `BufReader::fill_buf` (`DRd.fillBuf`) (std, for `src/readers.rs` 80, 303, 539, 665, 758, 876). -/
def DRd.claimFillBuf (s : DRd σ) : Except Fail Bytes × DRd σ :=
  if s.buf.isEmpty then
    match claimRead D s.st bufCapacity with
    | (.ok bs, st) => (.ok bs, { s with st := st, buf := bs })
    | (.error e, st) => (.error e, { s with st := st })
  else (.ok s.buf, s)

/-- `Read::read` (`DRd.read`) (`src/readers.rs` 634, 737, 787). -/
def DRd.claimRead (s : DRd σ) (n : Nat) : Except Fail Bytes × DRd σ :=
  if s.buffered = false then
    match FF.claimRead D s.st n with
    | (r, st) => (r, { s with st := st })
  else if s.buf.isEmpty ∧ bufCapacity ≤ n then
    match FF.claimRead D s.st n with
    | (r, st) => (r, { s with st := st })
  else
    match s.claimFillBuf D with
    | (.ok avail, s) => (.ok (avail.take n), s.consume (min n avail.length))
    | (.error e, s) => (.error e, s)

/-- `std::io::default_read_exact` (`DRd.readExactLoop`) (std, for `src/readers.rs` 1108-1178). -/
def DRd.claimExactLoop : Nat → DRd σ → Nat → Bytes → Except Fail Bytes × DRd σ
  | _, s, 0, acc => (.ok acc, s)
  | 0, s, _ + 1, _ => (.error .diverge, s)
  | fuel + 1, s, n + 1, acc =>
    match s.claimRead D (n + 1) with
    | (.ok bs, s) =>
      if bs.length = 0 then (.error (.err .unexpectedEof), s)
      else DRd.claimExactLoop fuel s (n + 1 - bs.length) (acc ++ bs)
    | (.error f, s) =>
      if f = .err .interrupted then DRd.claimExactLoop fuel s (n + 1) acc else (.error f, s)

/-- `Read::read_exact` (`DRd.readExact`) (`src/readers.rs` 1108-1178). -/
def DRd.claimExact (s : DRd σ) (n : Nat) : Except Fail Bytes × DRd σ :=
  if s.buffered ∧ n ≤ s.buf.length then (.ok (s.buf.take n), s.consume n)
  else DRd.claimExactLoop D (n + D.patience s.st + 1) s n []

/-- `std::io::read_until` on `take(limit)` (`DRd.readUntilLoop`) (std, for `src/readers.rs` 766-768). -/
def DRd.claimUntilLoop : Nat → DRd σ → Nat → Bytes → Except Fail Bytes × DRd σ
  | _, s, 0, acc => (.ok acc, s)
  | 0, s, _ + 1, _ => (.error .diverge, s)
  | fuel + 1, s, limit + 1, acc =>
    match s.claimFillBuf D with
    | (.error f, s) =>
      if f = .err .interrupted then DRd.claimUntilLoop fuel s (limit + 1) acc else (.error f, s)
    | (.ok buf, s) =>
      let avail := buf.take (limit + 1)
      let used := uptoNewline avail
      if used.length = 0 then (.ok acc, s)
      else if used.getLast? = some 10 then (.ok (acc ++ used), s.consume used.length)
      else DRd.claimUntilLoop fuel (s.consume used.length) (limit + 1 - used.length) (acc ++ used)

/-- One line read through `take` (`DRd.readUntil`) (`src/readers.rs` 766-768). -/
def DRd.claimUntil (s : DRd σ) (limit : Nat) : Except Fail Bytes × DRd σ :=
  DRd.claimUntilLoop D (limit + D.patience s.st + 1) s limit []

/-- Meaning of a program on a device (`execD`) (the functions of `src/readers.rs` on the stream of `src/lib.rs` 292). -/
def execC {α : Type} : Prog α → DRd σ → Except Fail α × DRd σ
  | .pure a, s => (.ok a, s)
  | .fail f, s => (.error f, s)
  | .readExact n k, s =>
    match s.claimExact D n with
    | (.ok bs, s) => execC (k bs) s
    | (.error f, s) => (.error f, s)
  | .read n k, s =>
    match s.claimRead D n with
    | (.ok bs, s) => execC (k bs) s
    | (.error f, s) => (.error f, s)
  | .seek p k, s =>
    match s.seek D p with
    | (.ok q, s) => execC (k q) s
    | (.error e, s) => (.error (.err e), s)
  | .tell k, s =>
    match s.tell D with
    | (.ok q, s) => execC (k q) s
    | (.error f, s) => (.error f, s)
  | .readUntil l k, s =>
    match s.claimUntil D l with
    | (.ok bs, s) => execC (k bs) s
    | (.error f, s) => (.error f, s)

/-- Runs a reader function on `&mut device`, directly or through a `BufReader` (`execOnD`) (`src/readers.rs` 12-36). -/
def execOnC {α : Type} (buffered : Bool) (p : Prog α) (st : σ) : Except Fail α × σ :=
  match execC D p { st := st, buffered := buffered, buf := [] } with
  | (r, s) => (r, s.st)

/-- `FileFormat::from_fmt_reader` (`src/readers.rs` 8-37). -/
def fromFmtReaderC (cfg : Cfg) (ft : Features) (fmt : FileFormat) (st : σ) : Except Fail FileFormat × σ :=
  match fmtReader cfg ft fmt with
  | some (buffered, prog) => execOnC D buffered prog st
  | none => (.ok fmt, st)

/-- `FileFormat::from_generic_reader` (`src/readers.rs` 41-52). -/
def fromGenericReaderC (ft : Features) (st : σ) : Except Fail FileFormat × σ :=
  if ft.txt then
    match execOnC D true txtReader st with
    | (.ok f, st) => (.ok f, st)
    | (.error (.err _), st) => (.ok FileFormat.default, st)
    | (.error f, st) => (.error f, st)
  else (.ok FileFormat.default, st)

/-- `FileFormat::from_reader` (`src/lib.rs` 292-306) on a device whose claims are not trusted. -/
def fromClaims (cfg : Cfg) (ft : Features) (st : σ) : Except Fail FileFormat × σ :=
  match claimRead D st bufferSize with
  | (.error f, st) => (.error f, st)
  | (.ok buf, st) =>
    if buf.length = 0 then (.ok FileFormat.Empty, st)
    else
      match fromSignature buf with
      | some fmt =>
        match fromFmtReaderC D cfg ft fmt st with
        | (.ok f, st) => (.ok f, st)
        | (.error (.err _), st) => fromGenericReaderC D ft st
        | (.error f, st) => (.error f, st)
      | none => fromGenericReaderC D ft st

end FF
