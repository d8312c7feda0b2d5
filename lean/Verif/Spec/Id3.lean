import Verif.Spec.Encode
/-!
# Specification: ID3v2 tags

A header of 10 bytes (`ID3`, version, flags, size), an optional extended header, frames and padding,
and an optional footer. The size counts the extended header, the frames and the padding. Flag bit 6
announces the extended header, bit 4 the footer.
-/

namespace FF.Spec

/-- A 28-bit number in four bytes of seven bits. -/
def synchsafe (v : Nat) : Bytes :=
  [UInt8.ofNat (v / 2 ^ 21 % 128), UInt8.ofNat (v / 2 ^ 14 % 128), UInt8.ofNat (v / 2 ^ 7 % 128), UInt8.ofNat (v % 128)]

/-- A tag. -/
structure Id3Tag where
  /-- major version and revision -/
  major : UInt8
  revision : UInt8
  flags : UInt8
  /-- the extended header, including its four size bytes; empty if there is none -/
  extended : Bytes
  /-- frames and padding -/
  frames : Bytes
  /-- the footer; empty if there is none -/
  footer : Bytes

/-- Bytes of a tag. -/
def Id3Tag.encode (t : Id3Tag) : Bytes :=
  b!"ID3" ++ [t.major, t.revision, t.flags] ++ synchsafe (t.extended.length + t.frames.length) ++
    t.extended ++ t.frames ++ t.footer

/-- Does the tag have an extended header (flag bit 6)? -/
def Id3Tag.hasExtended (t : Id3Tag) : Bool := t.flags.toNat.testBit 6

/-- Does the tag have a footer (flag bit 4)? -/
def Id3Tag.hasFooter (t : Id3Tag) : Bool := t.flags.toNat.testBit 4

/-- The size fits its field, extended header and footer are present as announced, and the extended
header starts with its size: all of it in version 2.4 (synchsafe), without the four size bytes in
version 2.3. -/
def Id3Tag.Valid (t : Id3Tag) : Prop :=
  t.extended.length + t.frames.length < 2 ^ 28 ∧
  t.footer.length = (if t.hasFooter = true then 10 else 0) ∧
  (t.hasExtended = false → t.extended = []) ∧
  (t.hasExtended = true → 4 ≤ t.extended.length ∧
    (t.extended.take 4 = synchsafe t.extended.length ∨ t.extended.take 4 = beBytes 4 (t.extended.length - 4)))

instance decidableId3TagValid (t : Id3Tag) : Decidable t.Valid := inferInstanceAs (Decidable (_ ∧ _ ∧ _ ∧ _))

/-- The second byte of an MPEG audio frame header, after `0xFF`: the remaining sync bits, a version
other than the reserved one, and layer III. -/
def IsLayer3 (b : UInt8) : Prop :=
  b.toNat / 32 = 7 ∧ b.toNat / 8 % 4 ≠ 1 ∧ b.toNat / 2 % 4 = 1

/-- The data starts with an MPEG layer III frame. -/
def StartsLayer3 (d : Bytes) : Prop := ∃ b rest, d = 0xFF :: b :: rest ∧ IsLayer3 b

end FF.Spec
