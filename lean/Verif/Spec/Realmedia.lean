import Verif.Spec.Encode
/-!
# Specification: RealMedia files

A file header (18 bytes) that ends with the number of headers, followed by chunks: a 4-byte type, the
chunk size (including the 8 bytes of type and size) and the body. A media properties chunk (`MDPR`)
holds the MIME type of a stream.
-/

namespace FF.Spec

/-- A chunk. -/
inductive RmChunk where
  /-- a media properties chunk: version, stream number and rates (32 bytes), stream name, MIME type,
  further data -/
  | mediaProperties (fixed name mime tail : Bytes)
  /-- a chunk of another type -/
  | other (type body : Bytes)

/-- Body of a chunk. -/
def RmChunk.body : RmChunk → Bytes
  | .mediaProperties fixed name mime tail =>
    fixed ++ (leBytes 1 name.length ++ (name ++ (leBytes 1 mime.length ++ (mime ++ tail))))
  | .other _ body => body

/-- Type of a chunk. -/
def RmChunk.type : RmChunk → Bytes
  | .mediaProperties .. => b!"MDPR"
  | .other t _ => t

/-- Bytes of a chunk. -/
def RmChunk.encode (c : RmChunk) : Bytes := c.type ++ (beBytes 4 (8 + c.body.length) ++ c.body)

/-- The lengths fit their fields, and the types are told apart. -/
def RmChunk.Valid (c : RmChunk) : Prop :=
  8 + c.body.length < 2 ^ 32 ∧
  match c with
  | .mediaProperties fixed name mime _ => fixed.length = 32 ∧ name.length < 256 ∧ mime.length < 256
  | .other t _ => t.length = 4 ∧ t ≠ b!"MDPR"

/-- The chunk describes a stream whose MIME type starts with `pre`. -/
def RmChunk.HasMime (pre : Bytes) : RmChunk → Prop
  | .mediaProperties _ _ mime _ => pre <+: mime
  | .other .. => False

/-- A RealMedia file: 14 header bytes, the number of headers, the chunks, anything after them. -/
def rmFile (header : Bytes) (numberOfHeaders : Nat) (chunks : List RmChunk) (rest : Bytes) : Bytes :=
  header ++ (beBytes 4 numberOfHeaders ++ (chunks.flatMap RmChunk.encode ++ rest))

end FF.Spec
