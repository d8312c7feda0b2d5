import Verif.Model.Std
/-!
# Streams and I/O programs

`Prog` is the syntax of the code that runs on a `Read + Seek` stream; `run` is its ideal meaning on
a byte string with a position, `exec` its meaning on a stream that may return short counts,
interrupt or fail, directly or through `std::io::BufReader`.
-/

namespace FF

/-- `std::io::SeekFrom`; the payloads are `u64`, `i64`, `i64` (`src/readers.rs` 83-1095, every `seek`). -/
inductive SeekFrom where
  | start (n : Nat)
  | fromEnd (i : Int)
  | current (i : Int)

/-- A computation on a stream. Every stream operation of `src/readers.rs` is followed by `?`, so
an error of the operation ends the program with that error; continuations only see successes. -/
inductive Prog (α : Type) where
  /-- finish with a value -/
  | pure (a : α)
  /-- finish with `Err(e)`, a panic or divergence -/
  | fail (f : Fail)
  /-- `reader.read_exact(&mut buf)?` with a buffer of `n` bytes (`src/readers.rs` 1106-1180) -/
  | readExact (n : Nat) (k : Bytes → Prog α)
  /-- `reader.read(&mut buf)?` with a buffer of `n` bytes; the continuation gets `buf[..nread]` -/
  | read (n : Nat) (k : Bytes → Prog α)
  /-- `reader.seek(pos)?`; the continuation gets the new position -/
  | seek (p : SeekFrom) (k : Nat → Prog α)
  /-- `reader.stream_position()?` -/
  | tell (k : Nat → Prog α)
  /-- `BufRead::read_until(b'\n')` on `reader.take(limit)` (one `lines()` step,
  `src/readers.rs` 766-768) -/
  | readUntil (limit : Nat) (k : Bytes → Prog α)

namespace Prog

/-- Sequencing (the `?` operator, `src/readers.rs` throughout). -/
def bind {α β : Type} : Prog α → (α → Prog β) → Prog β
  | pure a, f => f a
  | fail e, _ => fail e
  | readExact n k, f => readExact n fun x => (k x).bind f
  | read n k, f => read n fun x => (k x).bind f
  | seek p k, f => seek p fun x => (k x).bind f
  | tell k, f => tell fun x => (k x).bind f
  | readUntil l k, f => readUntil l fun x => (k x).bind f

instance : Monad Prog where
  pure := Prog.pure
  bind := Prog.bind

/-- Embeds a pure computation that may panic (index operations of `src/readers.rs`). -/
def lift {α : Type} : Except Fail α → Prog α
  | .ok a => .pure a
  | .error f => .fail f

/-- `read_exact` as an action (`src/readers.rs` 1108-1178). -/
def rdExact (n : Nat) : Prog Bytes := .readExact n .pure
/-- `read` as an action (`src/readers.rs` 634, 737, 787). -/
def rd (n : Nat) : Prog Bytes := .read n .pure
/-- `seek` as an action (`src/readers.rs` 83-1095). -/
def sk (p : SeekFrom) : Prog Nat := .seek p .pure
/-- `stream_position` as an action (`src/readers.rs` 122, 318, 554, 686). -/
def pos : Prog Nat := .tell .pure
/-- `read_until` as an action (`src/readers.rs` 766-768). -/
def rdUntil (limit : Nat) : Prog Bytes := .readUntil limit .pure
/-- `Err(..)` (`src/readers.rs` 325, 341, 773). -/
def throwErr {α : Type} (e : ErrKind) : Prog α := .fail (.err e)

end Prog

/-! ## Ideal semantics -/

/-- Where a seek leads in a stream of length `len` that supports offsets up to `maxPos`;
`none` is an `InvalidInput` error (`Cursor::seek`: overflow or negative position; files: `lseek`
rejects offsets beyond the maximum) (std, for every `seek` of `src/readers.rs`). -/
def seekTarget (len maxPos pos : Nat) : SeekFrom → Option Nat
  | .start n => if n ≤ maxPos then some n else none
  | .fromEnd i =>
    if 0 ≤ (len : Int) + i ∧ (len : Int) + i ≤ maxPos then some ((len : Int) + i).toNat else none
  | .current i =>
    if 0 ≤ (pos : Int) + i ∧ (pos : Int) + i ≤ maxPos then some ((pos : Int) + i).toNat else none

/-- The bytes up to and including the first `\n`, or all of them (std, for `src/readers.rs` 767). -/
def uptoNewline : Bytes → Bytes
  | [] => []
  | b :: t => if b = 10 then [b] else b :: uptoNewline t

/-- Ideal meaning of a program on content `d` from position `p`: result and final position
(not in `/repo`: the specification side of the stream operations of `src/readers.rs`). -/
def run {α : Type} (d : Bytes) (maxPos : Nat) : Prog α → Nat → Except Fail (α × Nat)
  | .pure a, p => .ok (a, p)
  | .fail f, _ => .error f
  | .readExact n k, p =>
    if n = 0 ∨ p + n ≤ d.length then run d maxPos (k (slice d p n)) (p + n)
    else .error (.err .unexpectedEof)
  | .read n k, p => run d maxPos (k (slice d p n)) (p + (slice d p n).length)
  | .seek s k, p =>
    match seekTarget d.length maxPos p s with
    | some q => run d maxPos (k q) q
    | none => .error (.err .invalidInput)
  | .tell k, p => run d maxPos (k p) p
  | .readUntil l k, p =>
    run d maxPos (k (uptoNewline (slice d p l))) (p + (uptoNewline (slice d p l)).length)

/-! ## Streams with a schedule -/

/-- What the operating system does to one `read` call: serve it in full, serve at most `k + 1`
bytes, or return an error (the `R: Read` of `src/lib.rs` 292). -/
inductive Ev where
  | full
  | short (k : Nat)
  | error (e : ErrKind)
  deriving DecidableEq, Repr

/-- A call the stream has served: `read` with a buffer of `n` bytes, or `seek`/`stream_position`
(ghost; the calls of `src/lib.rs` 295 and `src/readers.rs`). -/
inductive Call where
  | read (n : Nat)
  | seek
  deriving DecidableEq, Repr

/-- A seekable stream: content, position, largest supported offset, the events for its next `read`
calls and for its next `seek`/`stream_position` calls (`some e`: the call fails with `e`). When a
list is used up, calls are served in full. `log` lists the calls made so far, the latest first; it
is ghost state that nothing reads (the `R: Read + Seek` of `src/lib.rs` 292). -/
structure Src where
  data : Bytes
  pos : Nat
  maxPos : Nat
  revs : List Ev
  sevs : List (Option ErrKind)
  log : List Call := []

/-- `Read::read` with a buffer of `n` bytes (called at `src/lib.rs` 295, `src/readers.rs` 634, 737, 787). -/
def Src.read (s : Src) (n : Nat) : Except ErrKind Bytes × Src :=
  match s.revs with
  | [] =>
    (.ok (slice s.data s.pos n),
      { s with pos := s.pos + (slice s.data s.pos n).length, log := .read n :: s.log })
  | .full :: es =>
    (.ok (slice s.data s.pos n),
      { s with pos := s.pos + (slice s.data s.pos n).length, revs := es, log := .read n :: s.log })
  | .short k :: es =>
    (.ok (slice s.data s.pos (min n (k + 1))),
      { s with pos := s.pos + (slice s.data s.pos (min n (k + 1))).length, revs := es,
               log := .read n :: s.log })
  | .error e :: es => (.error e, { s with revs := es, log := .read n :: s.log })

/-- `Seek::seek` (called at `src/readers.rs` 83-1095). -/
def Src.seek (s : Src) (p : SeekFrom) : Except ErrKind Nat × Src :=
  match s.sevs with
  | some e :: es => (.error e, { s with sevs := es, log := .seek :: s.log })
  | es =>
    match seekTarget s.data.length s.maxPos s.pos p with
    | some q => (.ok q, { s with pos := q, sevs := es.tail, log := .seek :: s.log })
    | none => (.error .invalidInput, { s with sevs := es.tail, log := .seek :: s.log })

/-- `Seek::stream_position` (called at `src/readers.rs` 122, 318, 554, 686). -/
def Src.tell (s : Src) : Except ErrKind Nat × Src :=
  match s.sevs with
  | some e :: es => (.error e, { s with sevs := es, log := .seek :: s.log })
  | es => (.ok s.pos, { s with sevs := es.tail, log := .seek :: s.log })

/-- The object the readers work on: the stream itself or `BufReader::new(stream)`; `buf` is the
part of the internal buffer that has not been consumed
(`src/readers.rs` 80, 303, 539, 665, 758, 876; the other readers use the stream itself). -/
structure Rd where
  src : Src
  buffered : Bool
  buf : Bytes

/-- `DEFAULT_BUF_SIZE` of `BufReader::new` (std, for `src/readers.rs` 80, 303, 539, 665, 758, 876). -/
def bufCapacity : Nat := 8192

/-- `BufReader::fill_buf`: refills the buffer when it is empty (std, for the same lines). -/
def Rd.fillBuf (s : Rd) : Except ErrKind Bytes × Rd :=
  if s.buf.isEmpty then
    match s.src.read bufCapacity with
    | (.ok bs, src) => (.ok bs, { s with src := src, buf := bs })
    | (.error e, src) => (.error e, { s with src := src })
  else (.ok s.buf, s)

/-- `BufRead::consume` (std, for the same lines). -/
def Rd.consume (s : Rd) (n : Nat) : Rd := { s with buf := s.buf.drop n }

/-- `Read::read` of the stream, or of `BufReader` (which bypasses its empty buffer for requests of
at least its capacity) (`src/readers.rs` 634, 737, 787). -/
def Rd.read (s : Rd) (n : Nat) : Except ErrKind Bytes × Rd :=
  if s.buffered = false then
    match s.src.read n with
    | (r, src) => (r, { s with src := src })
  else if s.buf.isEmpty ∧ bufCapacity ≤ n then
    match s.src.read n with
    | (r, src) => (r, { s with src := src })
  else
    match s.fillBuf with
    | (.ok avail, s) => (.ok (avail.take n), s.consume (min n avail.length))
    | (.error e, s) => (.error e, s)

/-- `std::io::default_read_exact`: loop until the buffer is full, retrying on `Interrupted`;
a read of 0 bytes is `UnexpectedEof`. Every round reads a byte or uses up an event, so
`n + revs.length + 1` rounds suffice (std, for `src/readers.rs` 1108-1178). -/
def Rd.readExactLoop : Nat → Rd → Nat → Bytes → Except Fail Bytes × Rd
  | _, s, 0, acc => (.ok acc, s)
  | 0, s, _ + 1, _ => (.error .diverge, s)
  | fuel + 1, s, n + 1, acc =>
    match s.read (n + 1) with
    | (.ok bs, s) =>
      if bs.length = 0 then (.error (.err .unexpectedEof), s)
      else Rd.readExactLoop fuel s (n + 1 - bs.length) (acc ++ bs)
    | (.error e, s) =>
      if e = .interrupted then Rd.readExactLoop fuel s (n + 1) acc else (.error (.err e), s)

/-- `Read::read_exact` (`BufReader` first tries to serve it from its buffer) (`src/readers.rs` 1108-1178). -/
def Rd.readExact (s : Rd) (n : Nat) : Except Fail Bytes × Rd :=
  if s.buffered ∧ n ≤ s.buf.length then (.ok (s.buf.take n), s.consume n)
  else Rd.readExactLoop (n + s.src.revs.length + 1) s n []

/-- `Seek::seek` of the stream, or of `BufReader` (which translates relative seeks by the number of
unconsumed bytes, in two steps if that would overflow, and then drops its buffer) (`src/readers.rs` 83-1095). -/
def Rd.seek (s : Rd) (p : SeekFrom) : Except ErrKind Nat × Rd :=
  if s.buffered = false then
    match s.src.seek p with
    | (r, src) => (r, { s with src := src })
  else
    match p with
    | .current i =>
      if -2 ^ 63 ≤ i - s.buf.length then
        match s.src.seek (.current (i - s.buf.length)) with
        | (.ok q, src) => (.ok q, { s with src := src, buf := [] })
        | (.error e, src) => (.error e, { s with src := src })
      else
        match s.src.seek (.current (-s.buf.length)) with
        | (.error e, src) => (.error e, { s with src := src })
        | (.ok _, src) =>
          match src.seek (.current i) with
          | (.ok q, src) => (.ok q, { s with src := src, buf := [] })
          | (.error e, src) => (.error e, { s with src := src, buf := [] })
    | p =>
      match s.src.seek p with
      | (.ok q, src) => (.ok q, { s with src := src, buf := [] })
      | (.error e, src) => (.error e, { s with src := src })

/-- `Seek::stream_position` of the stream, or of `BufReader` (which panics if more bytes are
buffered than the stream's position allows) (`src/readers.rs` 122, 318, 554, 686). -/
def Rd.tell (s : Rd) : Except Fail Nat × Rd :=
  match s.src.tell with
  | (.error e, src) => (.error (.err e), { s with src := src })
  | (.ok q, src) =>
    if s.buffered = false then (.ok q, { s with src := src })
    else if s.buf.length ≤ q then (.ok (q - s.buf.length), { s with src := src })
    else (.error .panic, { s with src := src })

/-- `std::io::read_until` with delimiter `\n` on `Take { inner: self, limit }`. Every round
consumes a byte or uses up an event, so `limit + revs.length + 1` rounds suffice
(std, for `src/readers.rs` 766-768). -/
def Rd.readUntilLoop : Nat → Rd → Nat → Bytes → Except Fail Bytes × Rd
  | _, s, 0, acc => (.ok acc, s)            -- `Take::fill_buf` returns an empty slice: `used == 0`
  | 0, s, _ + 1, _ => (.error .diverge, s)
  | fuel + 1, s, limit + 1, acc =>
    match s.fillBuf with
    | (.error e, s) =>
      if e = .interrupted then Rd.readUntilLoop fuel s (limit + 1) acc else (.error (.err e), s)
    | (.ok buf, s) =>
      let avail := buf.take (limit + 1)
      let used := uptoNewline avail
      if used.length = 0 then (.ok acc, s)
      else if used.getLast? = some 10 then (.ok (acc ++ used), s.consume used.length)
      else Rd.readUntilLoop fuel (s.consume used.length) (limit + 1 - used.length) (acc ++ used)

/-- One line read through `take` (`src/readers.rs` 766-768). -/
def Rd.readUntil (s : Rd) (limit : Nat) : Except Fail Bytes × Rd :=
  Rd.readUntilLoop (limit + s.src.revs.length + 1) s limit []

/-- Meaning of a program on a stream (the functions of `src/readers.rs` on the stream of `src/lib.rs` 292). -/
def exec {α : Type} : Prog α → Rd → Except Fail α × Rd
  | .pure a, s => (.ok a, s)
  | .fail f, s => (.error f, s)
  | .readExact n k, s =>
    match s.readExact n with
    | (.ok bs, s) => exec (k bs) s
    | (.error f, s) => (.error f, s)
  | .read n k, s =>
    match s.read n with
    | (.ok bs, s) => exec (k bs) s
    | (.error e, s) => (.error (.err e), s)
  | .seek p k, s =>
    match s.seek p with
    | (.ok q, s) => exec (k q) s
    | (.error e, s) => (.error (.err e), s)
  | .tell k, s =>
    match s.tell with
    | (.ok q, s) => exec (k q) s
    | (.error f, s) => (.error f, s)
  | .readUntil l k, s =>
    match s.readUntil l with
    | (.ok bs, s) => exec (k bs) s
    | (.error f, s) => (.error f, s)

/-- Runs a reader function on `&mut stream`: directly, or wrapped in a `BufReader` that is dropped
(with whatever it has buffered) when the function returns
(`src/readers.rs` 12-36; `BufReader::new(reader)` at 80, 303, 539, 665, 758, 876). -/
def execOn {α : Type} (buffered : Bool) (p : Prog α) (src : Src) : Except Fail α × Src :=
  match exec p { src := src, buffered := buffered, buf := [] } with
  | (r, s) => (r, s.src)

end FF
