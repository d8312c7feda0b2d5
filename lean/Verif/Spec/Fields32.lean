import Verif.Spec.Basic
/-!
# Fields that do not fit into 32 bits

As in `Spec/Causes.lean`, in terms of the content alone.
-/

namespace FF.Spec

/-! ## EBML -/

/-- Length of the variable-length integer at `p`: the number of leading zero bits of its first byte, plus one. -/
def vintLength (b : Bytes) (p : Nat) : Nat :=
  if beNat (slice b p 1) = 0 then 9 else 8 - Nat.log2 (beNat (slice b p 1))

/-- Its value without the marker bit. -/
def vintValue (b : Bytes) (p : Nat) : Nat := beNat (slice b p (vintLength b p)) % 2 ^ (7 * vintLength b p)

/-- The ID of the element at `p`, with its marker bit. -/
def ebmlIdAt (b : Bytes) (p : Nat) : Nat := beNat (slice b p (vintLength b p))

/-- The declared size of the element at `p`. -/
def ebmlSizeAt (b : Bytes) (p : Nat) : Nat := vintValue b (p + vintLength b p)

/-- Where the contents of the element at `p` begin. -/
def ebmlBodyAt (b : Bytes) (p : Nat) : Nat := p + vintLength b p + vintLength b (p + vintLength b p)

/-- Where the element after the one at `p` is looked for: at the start of the contents of EBML, Segment, Tracks,
TrackEntry and Video, one byte behind it for StereoMode, otherwise behind the contents. -/
def ebmlNext (b : Bytes) (p : Nat) : Nat :=
  if ebmlIdAt b p ∈ [0x1A45DFA3, 0x18538067, 0x1654AE6B, 0xAE, 0xE0] then ebmlBodyAt b p
  else if ebmlIdAt b p = 0x53B8 then ebmlBodyAt b p + 1
  else ebmlBodyAt b p + ebmlSizeAt b p

/-- Offsets at which elements are looked for. -/
inductive EbmlAt (b : Bytes) : Nat → Prop where
  | first : EbmlAt b 0
  | next {p : Nat} : EbmlAt b p → EbmlAt b (ebmlNext b p)

/-- DocType and CodecID elements declare sizes below 2^32. -/
def Elements32 (b : Bytes) : Prop :=
  ∀ p, EbmlAt b p → ebmlIdAt b p ∈ [0x4282, 0x86] → ebmlSizeAt b p < 2 ^ 32

/-! ## ZIP -/

/-- ZIP64 end records, where there is a locator 20 bytes before an end record, count fewer than 2^32 entries. -/
def Entries32 (b : Bytes) : Prop :=
  ∀ p, slice b p 4 = b!"PK\x06\x07" → slice b (p + 20) 4 = b!"PK\x05\x06" →
    leNat (slice b ((leNat (slice b (p + 8) 8) + 32) % 2 ^ 64) 8) < 2 ^ 32

/-- Directory entries for a file `mimetype` declare compressed sizes below 2^31. -/
def Mimetypes31 (b : Bytes) : Prop :=
  ∀ p, leNat (slice b (p + 28) 2) = 8 → slice b (p + 46) 8 = b!"mimetype" → leNat (slice b (p + 20) 4) < 2 ^ 31

/-- The fields met by the EBML or ZIP detection of `b`, if that detection runs at all. -/
structure Fields32 (ft : Features) (b : Bytes) : Prop where
  ebml : ft.ebml = true → Recognised b .ExtensibleBinaryMetaLanguage → Elements32 b
  zip : ft.zip = true → Recognised b .Zip → Entries32 b ∧ Mimetypes31 b

end FF.Spec
