import Verif.Model.Detect
/-!
# Detection on any implementation of `Read + Seek`

`FileFormat::from_reader` is generic in `R: Read + Seek` (`src/lib.rs` 292). `Model.IO` runs it on
streams with a fixed content; here it runs on an arbitrary state machine: each call may depend on
everything that happened before, so a file may change, grow or be truncated between two calls. The
definitions repeat those of `Model.IO` and `Model.Detect` with the calls on the stream replaced by
those of the device; `Props.Device` proves that on a stream with a fixed content they give the same.
-/

namespace FF
open FileFormat

/-- An implementation of `Read + Seek` with states `σ`. `patience` is a ghost bound on the number
of interruptions still to come (the `R: Read + Seek` of `src/lib.rs` 292). -/
structure Device (σ : Type) where
  /-- `Read::read` with a buffer of `n` bytes: the bytes it stored, or the error. -/
  read : σ → Nat → Except ErrKind Bytes × σ
  /-- `Seek::seek`. -/
  seek : σ → SeekFrom → Except ErrKind Nat × σ
  /-- `Seek::stream_position`. -/
  tell : σ → Except ErrKind Nat × σ
  /-- How many calls may still be interrupted. -/
  patience : σ → Nat

/-- The object the readers work on: the device or `BufReader::new(device)` (`Rd`)
(`src/readers.rs` 80, 303, 539, 665, 758, 876). -/
structure DRd (σ : Type) where
  st : σ
  buffered : Bool
  buf : Bytes

variable {σ : Type} (D : Device σ)

/-- `BufReader::fill_buf` (`Rd.fillBuf`) (std, for the same lines). -/
def DRd.fillBuf (s : DRd σ) : Except ErrKind Bytes × DRd σ :=
  if s.buf.isEmpty then
    match D.read s.st bufCapacity with
    | (.ok bs, st) => (.ok bs, { s with st := st, buf := bs })
    | (.error e, st) => (.error e, { s with st := st })
  else (.ok s.buf, s)

/-- `BufRead::consume` (`Rd.consume`) (std, for the same lines). -/
def DRd.consume (s : DRd σ) (n : Nat) : DRd σ := { s with buf := s.buf.drop n }

/-- `Read::read` (`Rd.read`) (`src/readers.rs` 634, 737, 787). -/
def DRd.read (s : DRd σ) (n : Nat) : Except ErrKind Bytes × DRd σ :=
  if s.buffered = false then
    match D.read s.st n with
    | (r, st) => (r, { s with st := st })
  else if s.buf.isEmpty ∧ bufCapacity ≤ n then
    match D.read s.st n with
    | (r, st) => (r, { s with st := st })
  else
    match s.fillBuf D with
    | (.ok avail, s) => (.ok (avail.take n), s.consume (min n avail.length))
    | (.error e, s) => (.error e, s)

/-- `std::io::default_read_exact` (`Rd.readExactLoop`). Every round reads a byte or is an
interruption (std, for `src/readers.rs` 1108-1178). -/
def DRd.readExactLoop : Nat → DRd σ → Nat → Bytes → Except Fail Bytes × DRd σ
  | _, s, 0, acc => (.ok acc, s)
  | 0, s, _ + 1, _ => (.error .diverge, s)
  | fuel + 1, s, n + 1, acc =>
    match s.read D (n + 1) with
    | (.ok bs, s) =>
      if bs.length = 0 then (.error (.err .unexpectedEof), s)
      else DRd.readExactLoop fuel s (n + 1 - bs.length) (acc ++ bs)
    | (.error e, s) =>
      if e = .interrupted then DRd.readExactLoop fuel s (n + 1) acc else (.error (.err e), s)

/-- `Read::read_exact` (`Rd.readExact`) (`src/readers.rs` 1108-1178). -/
def DRd.readExact (s : DRd σ) (n : Nat) : Except Fail Bytes × DRd σ :=
  if s.buffered ∧ n ≤ s.buf.length then (.ok (s.buf.take n), s.consume n)
  else DRd.readExactLoop D (n + D.patience s.st + 1) s n []

/-- `Seek::seek` (`Rd.seek`) (`src/readers.rs` 83-1095). -/
def DRd.seek (s : DRd σ) (p : SeekFrom) : Except ErrKind Nat × DRd σ :=
  if s.buffered = false then
    match D.seek s.st p with
    | (r, st) => (r, { s with st := st })
  else
    match p with
    | .current i =>
      if -2 ^ 63 ≤ i - s.buf.length then
        match D.seek s.st (.current (i - s.buf.length)) with
        | (.ok q, st) => (.ok q, { s with st := st, buf := [] })
        | (.error e, st) => (.error e, { s with st := st })
      else
        match D.seek s.st (.current (-s.buf.length)) with
        | (.error e, st) => (.error e, { s with st := st })
        | (.ok _, st) =>
          match D.seek st (.current i) with
          | (.ok q, st) => (.ok q, { s with st := st, buf := [] })
          | (.error e, st) => (.error e, { s with st := st, buf := [] })
    | p =>
      match D.seek s.st p with
      | (.ok q, st) => (.ok q, { s with st := st, buf := [] })
      | (.error e, st) => (.error e, { s with st := st })

/-- `Seek::stream_position` (`Rd.tell`) (`src/readers.rs` 122, 318, 554, 686). -/
def DRd.tell (s : DRd σ) : Except Fail Nat × DRd σ :=
  match D.tell s.st with
  | (.error e, st) => (.error (.err e), { s with st := st })
  | (.ok q, st) =>
    if s.buffered = false then (.ok q, { s with st := st })
    else if s.buf.length ≤ q then (.ok (q - s.buf.length), { s with st := st })
    else (.error .panic, { s with st := st })

/-- `std::io::read_until` on `take(limit)` (`Rd.readUntilLoop`) (std, for `src/readers.rs` 766-768). -/
def DRd.readUntilLoop : Nat → DRd σ → Nat → Bytes → Except Fail Bytes × DRd σ
  | _, s, 0, acc => (.ok acc, s)
  | 0, s, _ + 1, _ => (.error .diverge, s)
  | fuel + 1, s, limit + 1, acc =>
    match s.fillBuf D with
    | (.error e, s) =>
      if e = .interrupted then DRd.readUntilLoop fuel s (limit + 1) acc else (.error (.err e), s)
    | (.ok buf, s) =>
      let avail := buf.take (limit + 1)
      let used := uptoNewline avail
      if used.length = 0 then (.ok acc, s)
      else if used.getLast? = some 10 then (.ok (acc ++ used), s.consume used.length)
      else DRd.readUntilLoop fuel (s.consume used.length) (limit + 1 - used.length) (acc ++ used)

/-- One line read through `take` (`Rd.readUntil`) (`src/readers.rs` 766-768). -/
def DRd.readUntil (s : DRd σ) (limit : Nat) : Except Fail Bytes × DRd σ :=
  DRd.readUntilLoop D (limit + D.patience s.st + 1) s limit []

/-- Meaning of a program on a device (`exec`)
(the functions of `src/readers.rs` on the stream of `src/lib.rs` 292). -/
def execD {α : Type} : Prog α → DRd σ → Except Fail α × DRd σ
  | .pure a, s => (.ok a, s)
  | .fail f, s => (.error f, s)
  | .readExact n k, s =>
    match s.readExact D n with
    | (.ok bs, s) => execD (k bs) s
    | (.error f, s) => (.error f, s)
  | .read n k, s =>
    match s.read D n with
    | (.ok bs, s) => execD (k bs) s
    | (.error e, s) => (.error (.err e), s)
  | .seek p k, s =>
    match s.seek D p with
    | (.ok q, s) => execD (k q) s
    | (.error e, s) => (.error (.err e), s)
  | .tell k, s =>
    match s.tell D with
    | (.ok q, s) => execD (k q) s
    | (.error f, s) => (.error f, s)
  | .readUntil l k, s =>
    match s.readUntil D l with
    | (.ok bs, s) => execD (k bs) s
    | (.error f, s) => (.error f, s)

/-- Runs a reader function on `&mut device`, directly or through a `BufReader` (`execOn`) (`src/readers.rs` 12-36). -/
def execOnD {α : Type} (buffered : Bool) (p : Prog α) (st : σ) : Except Fail α × σ :=
  match execD D p { st := st, buffered := buffered, buf := [] } with
  | (r, s) => (r, s.st)

/-- `FileFormat::from_fmt_reader` (`src/readers.rs` 8-37). -/
def fromFmtReaderD (cfg : Cfg) (ft : Features) (fmt : FileFormat) (st : σ) :
    Except Fail FileFormat × σ :=
  match fmtReader cfg ft fmt with
  | some (buffered, prog) => execOnD D buffered prog st
  | none => (.ok fmt, st)

/-- `FileFormat::from_generic_reader` (`src/readers.rs` 41-52). -/
def fromGenericReaderD (ft : Features) (st : σ) : Except Fail FileFormat × σ :=
  if ft.txt then
    match execOnD D true txtReader st with
    | (.ok f, st) => (.ok f, st)
    | (.error (.err _), st) => (.ok FileFormat.default, st)
    | (.error f, st) => (.error f, st)
  else (.ok FileFormat.default, st)

/-- `FileFormat::from_reader` (`src/lib.rs` 292-306) on a device. -/
def fromDevice (cfg : Cfg) (ft : Features) (st : σ) : Except Fail FileFormat × σ :=
  match D.read st bufferSize with
  | (.error e, st) => (.error (.err e), st)
  | (.ok buf, st) =>
    if buf.length = 0 then (.ok Empty, st)
    else
      match fromSignature buf with
      | some fmt =>
        match fromFmtReaderD D cfg ft fmt st with
        | (.ok f, st) => (.ok f, st)
        | (.error (.err _), st) => fromGenericReaderD D ft st
        | (.error f, st) => (.error f, st)
      | none => fromGenericReaderD D ft st

/-- A stream with a fixed content and a schedule, as a device (one `R` of `src/lib.rs` 292). -/
def srcDevice : Device Src where
  read := Src.read
  seek := Src.seek
  tell := Src.tell
  patience := fun s => s.revs.length

end FF
