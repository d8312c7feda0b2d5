import Verif.Model.Detect
/-!
# The crate on targets with 32-bit pointers

On such targets (`i686`, `armv7`, `wasm32`, ...) `as usize` keeps the lower 32 bits, and `vec![0; n]` panics with
"capacity overflow" from `isize::MAX + 1 = 2^31` bytes on. Only the functions below are affected; all other `as usize`
conversions in `src/readers.rs` start from at most 32 bits and end in a `min` with a small constant or are at most
65535 (94, 125, 131, 676, 699, 963). Not modelled: allocations that fail although they are below 2^31 bytes, and the
growth of the `String` that `from_utf8_lossy` makes of an ill-formed text.
-/

namespace FF.Target32
open FileFormat
open Prog (sk rd rdExact pos lift throwErr)

/-- `n as usize` (`src/readers.rs` 361, 377, 885, 892, 920, 931, 998). -/
def asUsize (n : Nat) : Nat := n % 2 ^ 32

/-- `read_bytes` (`src/readers.rs` 1106-1110): `vec![0; size]` panics from 2^31 bytes on. -/
def readBytes (size : Nat) : Prog Bytes :=
  if size < 2 ^ 31 then FF.readBytes size else .fail .panic

/-- `read_string` (`src/readers.rs` 1130-1132). -/
def readString (size : Nat) : Prog Str := do
  let buf ← readBytes size
  pure (decodeLossy buf)

/-! ## EBML -/

/-- The element loop (`src/readers.rs` 316-410): `size as usize` at 361 and 377. -/
def ebmlLoop (len : Nat) : Nat → Tracks → Prog FileFormat
  | 0, t => pure (ebmlVerdict t)
  | n + 1, t => do
    let p ← pos
    if p < len then
      let id ← ebmlId
      let size ← ebmlSize
      if id = ebmlEbmlId ∨ id = ebmlSegmentId ∨ id = ebmlTracksId ∨ id = ebmlTrackEntryId ∨
          id = ebmlVideoId then
        ebmlLoop len n t
      else if id = ebmlDocTypeId then
        let docType ← readBytes (min ebmlDocTypeLimit (asUsize size))
        if startsWith docType b!"webm" then pure Webm
        else if ¬ startsWith docType b!"matroska" then pure ExtensibleBinaryMetaLanguage
        else
          let _ ← sk (.current (asI64 (size - ebmlDocTypeLimit)))
          ebmlLoop len n t
      else if id = ebmlCodecIdId then
        let codecId ← readBytes (min ebmlCodecIdLimit (asUsize size))
        let _ ← sk (.current (asI64 (size - ebmlCodecIdLimit)))
        ebmlLoop len n (ebmlCodec codecId t)
      else if id = ebmlStereoModeId then
        let stereoMode ← readU8
        if stereoMode.toNat > 0 then pure Matroska3dVideo
        else ebmlLoop len n t
      else if id = ebmlClusterId then pure (ebmlVerdict t)
      else
        let _ ← sk (.current (asI64 size))
        ebmlLoop len n t
    else pure (ebmlVerdict t)

/-- `from_ebml_reader` (`src/readers.rs` 265-422). -/
def ebmlReader : Prog FileFormat := do
  let len ← sk (.fromEnd 0)
  let _ ← sk (.start 0)
  ebmlLoop len ebmlElementLimit Tracks.none

/-! ## ZIP -/

/-- The `mimetype` arm (`src/readers.rs` 982-1054): `read_string(compressed_size as usize)` at 998. -/
def zipMimetype (compressedSize offset : Nat) : Prog FileFormat := do
  let _ ← sk (.start (offset + 26))
  let filenameLen ← readU16le
  let extraFieldLen ← readU16le
  let _ ← sk (.current ((filenameLen : Int) + extraFieldLen))
  let data ← readString (asUsize compressedSize)
  match zipMimetypes.lookup (trim data) with
  | some f => pure f
  | none => pure Zip

/-- The central directory loop (`src/readers.rs` 941-1097). -/
def zipEntries : Nat → FileFormat → Prog FileFormat
  | 0, fmt => pure fmt
  | n + 1, fmt => do
    let _ ← sk (.current 20)
    let compressedSize ← readU32le
    let uncompressedSize ← readU32le
    let filenameLen ← readU16le
    let extraFieldLen ← readU16le
    let fileCommentLen ← readU16le
    let _ ← sk (.current 8)
    let offset ← readU32le
    let filename ← readString (asUsize filenameLen)
    match zipNames.lookup filename with
    | some f => pure f
    | none =>
      if filename = s!!"META-INF/MANIFEST.MF" then do
        let _ ← sk (.current ((extraFieldLen : Int) + fileCommentLen))
        zipEntries n JavaArchive
      else if filename = s!!"mimetype" ∧ compressedSize = uncompressedSize then
        zipMimetype compressedSize offset
      else
        match zipPatterns filename with
        | some f => pure f
        | none => do
          let _ ← sk (.current ((extraFieldLen : Int) + fileCommentLen))
          zipEntries n fmt

/-- `eocd_offset as usize >= EOCD64_LOCATOR_SIZE` (`src/readers.rs` 890-903). -/
def zipIsZip64 (eocdOffset : Nat) : Prog Bool :=
  if asUsize eocdOffset ≥ zipEocd64LocatorSize then do
    let _ ← sk (.start (eocdOffset - zipEocd64LocatorSize))
    let signature ← readBytes 4
    pure (signature == zipEocd64LocatorSignature)
  else pure false

/-- `number_of_entries as usize` (`src/readers.rs` 906-933). -/
def zipEnd (cfg : Cfg) (zip64 : Bool) (eocdOffset : Nat) : Prog (Nat × Nat) := do
  let dir ← FF.zipEnd cfg zip64 eocdOffset
  pure (asUsize dir.1, dir.2)

/-- `from_zip_reader` (`src/readers.rs` 856-1098): `len as usize` at 885. -/
def zipReader (cfg : Cfg) : Prog FileFormat := do
  let len ← sk (.fromEnd 0)
  let offset := len - zipEocdMaxSize
  let _ ← sk (.start offset)
  let buf ← readBytes (max zipEocdMinSize (min (asUsize len) zipEocdMaxSize))
  let found ← lift (rfindBytes buf zipEocdSignature)
  match found with
  | none => throwErr .invalidData
  | some bufIndex => do
    let eocdOffset ← lift (u64Add cfg offset bufIndex)
    let zip64 ← zipIsZip64 eocdOffset
    let dir ← zipEnd cfg zip64 eocdOffset
    let _ ← sk (.start dir.2)
    zipEntries (min zipEntryLimit dir.1) Zip

/-! ## Detection -/

/-- The reader `from_fmt_reader` runs (`src/readers.rs` 12-36). -/
def fmtReader (cfg : Cfg) (ft : Features) (fmt : FileFormat) : Option (Bool × Prog FileFormat) :=
  match fmt with
  | ExtensibleBinaryMetaLanguage => if ft.ebml then some (true, ebmlReader) else none
  | Zip => if ft.zip then some (true, zipReader cfg) else none
  | fmt => FF.fmtReader cfg ft fmt

/-- `FileFormat::from_fmt_reader` (`src/readers.rs` 8-37). -/
def fromFmtReader (cfg : Cfg) (ft : Features) (fmt : FileFormat) (src : Src) :
    Except Fail FileFormat × Src :=
  match fmtReader cfg ft fmt with
  | some (buffered, prog) => execOn buffered prog src
  | none => (.ok fmt, src)

/-- `FileFormat::from_reader` (`src/lib.rs` 294-305) after the first read. -/
def afterRead (cfg : Cfg) (ft : Features) (buf : Bytes) (src : Src) : Except Fail FileFormat × Src :=
  if buf.length = 0 then (.ok FileFormat.Empty, src)
  else
    match fromSignature buf with
    | some fmt =>
      match fromFmtReader cfg ft fmt src with
      | (.ok f, src) => (.ok f, src)
      | (.error (.err _), src) => fromGenericReader ft src
      | (.error f, src) => (.error f, src)
    | none => fromGenericReader ft src

/-- `FileFormat::from_reader` (`src/lib.rs` 292-306). -/
def fromReader (cfg : Cfg) (ft : Features) (src : Src) : Except Fail FileFormat × Src :=
  match src.read bufferSize with
  | (.error e, src) => (.error (.err e), src)
  | (.ok buf, src) => afterRead cfg ft buf src

/-- `FileFormat::from_bytes` (`src/lib.rs` 256-259, 325-330). A slice has fewer than 2^31 bytes. -/
def fromBytes (cfg : Cfg) (ft : Features) (bytes : Bytes) : Except Fail FileFormat :=
  match (fromReader cfg ft (cursor bytes)).1 with
  | .ok f => .ok f
  | .error (.err _) => .ok FileFormat.default
  | .error f => .error f

/-- `FileFormat::from_file` (`src/lib.rs` 274-277). -/
def fromFile {Path : Type} (cfg : Cfg) (ft : Features) (fs : FileSystem Path) (path : Path) :
    Except Fail FileFormat :=
  match fs path with
  | .error e => .error (.err e)
  | .ok src => (fromReader cfg ft src).1

end FF.Target32
