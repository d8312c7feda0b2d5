import Verif.Model.Signatures
import Verif.Model.Readers
/-!
# Detection (`src/lib.rs` 231-330, `src/readers.rs` 6-52)
-/

namespace FF
open FileFormat

/-- The reader features of `Cargo.toml` (17-45). -/
structure Features where
  asf : Bool := false
  cfb : Bool := false
  ebml : Bool := false
  exe : Bool := false
  id3v2 : Bool := false
  mp4 : Bool := false
  pdf : Bool := false
  rm : Bool := false
  sqlite3 : Bool := false
  txt : Bool := false
  xml : Bool := false
  zip : Bool := false
  deriving DecidableEq, Repr

/-- Default features: none (`Cargo.toml` 17). -/
def Features.none : Features := {}

/-- Feature `reader`: all of them (`Cargo.toml` 19-32). -/
def Features.all : Features :=
  ⟨true, true, true, true, true, true, true, true, true, true, true, true⟩

/-- The reader that `from_fmt_reader` runs for a signature verdict, if its feature is enabled, and
whether it wraps the stream in a `BufReader` (`src/readers.rs` 12-36; `BufReader::new` at 80, 303,
539, 665, 876). -/
def fmtReader (cfg : Cfg) (ft : Features) (fmt : FileFormat) : Option (Bool × Prog FileFormat) :=
  match fmt with
  | AdvancedSystemsFormat => if ft.asf then some (true, asfReader cfg) else none
  | CompoundFileBinary => if ft.cfb then some (false, cfbReader) else none
  | ExtensibleBinaryMetaLanguage => if ft.ebml then some (true, ebmlReader) else none
  | MsDosExecutable => if ft.exe then some (false, exeReader) else none
  | Id3v2 => if ft.id3v2 then some (false, id3v2Reader cfg) else none
  | Mpeg4Part14 => if ft.mp4 then some (true, mp4Reader cfg) else none
  | PortableDocumentFormat => if ft.pdf then some (false, pdfReader) else none
  | Realmedia => if ft.rm then some (true, rmReader) else none
  | Sqlite3 => if ft.sqlite3 then some (false, sqlite3Reader) else none
  | ExtensibleMarkupLanguage => if ft.xml then some (false, xmlReader) else none
  | Zip => if ft.zip then some (true, zipReader cfg) else none
  | _ => none

/-- `FileFormat::from_fmt_reader` (`src/readers.rs` 8-37). -/
def fromFmtReader (cfg : Cfg) (ft : Features) (fmt : FileFormat) (src : Src) :
    Except Fail FileFormat × Src :=
  match fmtReader cfg ft fmt with
  | some (buffered, prog) => execOn buffered prog src
  | none => (.ok fmt, src)

/-- `FileFormat::from_generic_reader` (`src/readers.rs` 41-52): `unwrap_or_default` turns `Err`
into the default format; panics and divergence are not caught. -/
def fromGenericReader (ft : Features) (src : Src) : Except Fail FileFormat × Src :=
  if ft.txt then
    match execOn true txtReader src with
    | (.ok f, src) => (.ok f, src)
    | (.error (.err _), src) => (.ok FileFormat.default, src)
    | (.error f, src) => (.error f, src)
  else (.ok FileFormat.default, src)

/-- Size of the signature buffer (`src/lib.rs` 294). -/
def bufferSize : Nat := 36870

/-- `FileFormat::from_reader` (`src/lib.rs` 292-306). -/
def fromReader (cfg : Cfg) (ft : Features) (src : Src) : Except Fail FileFormat × Src :=
  match src.read bufferSize with
  | (.error e, src) => (.error (.err e), src)
  | (.ok buf, src) =>
    if buf.length = 0 then (.ok Empty, src)
    else
      match fromSignature buf with
      | some fmt =>
        match fromFmtReader cfg ft fmt src with
        | (.ok f, src) => (.ok f, src)
        | (.error (.err _), src) => fromGenericReader ft src
        | (.error f, src) => (.error f, src)
      | none => fromGenericReader ft src

/-- `Cursor::new(bytes)`: position 0, any `u64` offset can be sought, calls never fail or fall
short (`src/lib.rs` 328). -/
def cursor (bytes : Bytes) : Src :=
  { data := bytes, pos := 0, maxPos := 2 ^ 64 - 1, revs := [], sevs := [] }

/-- `impl From<&[u8]> for FileFormat` (`src/lib.rs` 325-330): `unwrap_or_default`. -/
def fromSlice (cfg : Cfg) (ft : Features) (bytes : Bytes) : Except Fail FileFormat :=
  match (fromReader cfg ft (cursor bytes)).1 with
  | .ok f => .ok f
  | .error (.err _) => .ok FileFormat.default
  | .error f => .error f

/-- `FileFormat::from_bytes` (`src/lib.rs` 256-259). -/
def fromBytes (cfg : Cfg) (ft : Features) (bytes : Bytes) : Except Fail FileFormat :=
  fromSlice cfg ft bytes

/-- What opening a path gives: an error or a fresh stream (content, offset limit, schedule);
`File::open` positions it at 0 (`src/lib.rs` 276). -/
abbrev FileSystem (Path : Type) := Path → Except ErrKind Src

/-- `FileFormat::from_file` (`src/lib.rs` 274-277). -/
def fromFile {Path : Type} (cfg : Cfg) (ft : Features) (fs : FileSystem Path) (path : Path) :
    Except Fail FileFormat :=
  match fs path with
  | .error e => .error (.err e)
  | .ok src => (fromReader cfg ft src).1

end FF
