import Verif.Model.Device
/-!
# Detection on implementations of `Read + Seek` that bring their own `read_exact`

`Read::read_exact` has a default body (`DRd.readExactLoop` on the bare device), but a type may replace it, as `Cursor` and
`&[u8]` do. `BufReader` never calls the one of the wrapped object (its own is `default_read_exact` around its own `read`), so
only the readers without `BufReader` are concerned. The other provided methods: `stream_position` is `Device.tell` already;
`rewind` is only called on a `BufReader`, which does not pass it on (`src/readers.rs` 306, 542, 761); `read_buf`, through which
`BufReader` fills its buffer, cannot be replaced outside std, and is taken to be `read`.
-/

namespace FF
open FileFormat

variable {σ : Type} (D : Device σ) (own : σ → Nat → Except ErrKind Bytes × σ)

/-- `Read::read_exact` on the object itself, or on a `BufReader` around it (`src/readers.rs` 1108-1178). -/
def DRd.readExactO (s : DRd σ) (n : Nat) : Except Fail Bytes × DRd σ :=
  if s.buffered = true then s.readExact D n
  else
    match own s.st n with
    | (.ok bs, st) => (.ok bs, { s with st := st })
    | (.error e, st) => (.error (.err e), { s with st := st })

/-- Meaning of a program (`execD` with `read_exact` replaced) (the functions of `src/readers.rs` on the stream of
`src/lib.rs` 292). -/
def execO {α : Type} : Prog α → DRd σ → Except Fail α × DRd σ
  | .pure a, s => (.ok a, s)
  | .fail f, s => (.error f, s)
  | .readExact n k, s =>
    match s.readExactO D own n with
    | (.ok bs, s) => execO (k bs) s
    | (.error f, s) => (.error f, s)
  | .read n k, s =>
    match s.read D n with
    | (.ok bs, s) => execO (k bs) s
    | (.error e, s) => (.error (.err e), s)
  | .seek p k, s =>
    match s.seek D p with
    | (.ok q, s) => execO (k q) s
    | (.error e, s) => (.error (.err e), s)
  | .tell k, s =>
    match s.tell D with
    | (.ok q, s) => execO (k q) s
    | (.error f, s) => (.error f, s)
  | .readUntil l k, s =>
    match s.readUntil D l with
    | (.ok bs, s) => execO (k bs) s
    | (.error f, s) => (.error f, s)

/-- Runs a reader function on `&mut device`, directly or through a `BufReader` (`execOnD`) (`src/readers.rs` 12-36). -/
def execOnO {α : Type} (buffered : Bool) (p : Prog α) (st : σ) : Except Fail α × σ :=
  match execO D own p { st := st, buffered := buffered, buf := [] } with
  | (r, s) => (r, s.st)

/-- `FileFormat::from_fmt_reader` (`src/readers.rs` 8-37). -/
def fromFmtReaderO (cfg : Cfg) (ft : Features) (fmt : FileFormat) (st : σ) : Except Fail FileFormat × σ :=
  match fmtReader cfg ft fmt with
  | some (buffered, prog) => execOnO D own buffered prog st
  | none => (.ok fmt, st)

/-- `FileFormat::from_generic_reader` (`src/readers.rs` 41-52). -/
def fromGenericReaderO (ft : Features) (st : σ) : Except Fail FileFormat × σ :=
  if ft.txt then
    match execOnO D own true txtReader st with
    | (.ok f, st) => (.ok f, st)
    | (.error (.err _), st) => (.ok FileFormat.default, st)
    | (.error f, st) => (.error f, st)
  else (.ok FileFormat.default, st)

/-- `FileFormat::from_reader` (`src/lib.rs` 292-306) on a device with a `read_exact` of its own. -/
def fromOwn (cfg : Cfg) (ft : Features) (st : σ) : Except Fail FileFormat × σ :=
  match D.read st bufferSize with
  | (.error e, st) => (.error (.err e), st)
  | (.ok buf, st) =>
    if buf.length = 0 then (.ok Empty, st)
    else
      match fromSignature buf with
      | some fmt =>
        match fromFmtReaderO D own cfg ft fmt st with
        | (.ok f, st) => (.ok f, st)
        | (.error (.err _), st) => fromGenericReaderO D own ft st
        | (.error f, st) => (.error f, st)
      | none => fromGenericReaderO D own ft st

end FF
