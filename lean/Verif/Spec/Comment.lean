import Verif.Spec.Zip
/-!
# Specification: the end records and the comment of a ZIP archive (C59)
-/

namespace FF.Spec

/-- An archive without its end records: the local headers and stored files, then the central directory. `disks` (disk
numbers and the count on this disk) and `size` (size of the directory) are fields of the end record that do not matter. -/
structure ZipBody where
  locals : Bytes
  entries : List ZipEntry
  disks : Bytes
  size : Bytes

/-- The local part and the directory. -/
def ZipBody.body (z : ZipBody) : Bytes := z.locals ++ z.entries.flatMap ZipEntry.encode

/-- The archive with a classic end record and a comment. -/
def ZipBody.classic (z : ZipBody) (comment : Bytes) : Bytes :=
  z.body ++ (b!"PK\x05\x06" ++ (z.disks ++ (leBytes 2 z.entries.length ++ (z.size ++ (leBytes 4 z.locals.length ++
    (leBytes 2 comment.length ++ comment))))))

/-- The archive with ZIP64 end records and a comment: the ZIP64 end record, the locator, the end record with its fields
set to all ones. -/
def ZipBody.zip64 (z : ZipBody) (comment : Bytes) : Bytes :=
  z.body ++ (b!"PK\x06\x06" ++ leBytes 8 44 ++ List.replicate 20 0 ++ (leBytes 8 z.entries.length ++ (List.replicate 8 0 ++
    leBytes 8 z.locals.length))) ++
    (b!"PK\x06\x07" ++ (List.replicate 4 0 ++ (leBytes 8 z.body.length ++ ([1, 0, 0, 0] ++
      (b!"PK\x05\x06" ++ (List.replicate 16 0xff ++ (leBytes 2 comment.length ++ comment)))))))

/-- Everything fits, the directory does not look like a ZIP64 locator at its end, and the contents of uncompressed
`mimetype` entries are where the directory says. -/
structure ZipBody.Valid (z : ZipBody) : Prop where
  entries : ∀ e ∈ z.entries, e.Valid
  count : z.entries.length ≤ 1024
  place : z.locals.length < 2 ^ 32
  disks : z.disks.length = 6
  size : z.size.length = 4
  locator : ∀ a b, z.body = a ++ b → b.length = 20 → ¬ b!"PK\x06\x07" <+: b
  stored : ∀ e ∈ z.entries, e.IsMimetype → ∃ content, content.length = e.compressed ∧ StoredAt e.offset content z.locals

end FF.Spec
