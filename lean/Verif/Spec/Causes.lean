import Verif.Spec.Basic
/-!
# Size and offset fields that can make a computation leave its range

Each definition speaks of the fields a detection may come across, in terms of the content alone.
-/

namespace FF.Spec

/-! ## ASF -/

/-- Offsets at which header objects are looked for: the first one is at offset 30, the next one begins
where the declared size (the 64-bit little-endian field at offset 16 of an object) of the last one ends. -/
inductive AsfObjectAt (b : Bytes) : Nat → Prop where
  | first : AsfObjectAt b 30
  | next {p : Nat} : AsfObjectAt b p → AsfObjectAt b (p + leNat (slice b (p + 16) 8))

/-- No header object declares a size of 2^62 bytes or more. -/
def SmallObjects (b : Bytes) : Prop :=
  ∀ p, AsfObjectAt b p → p + 24 ≤ b.length → leNat (slice b (p + 16) 8) < 2 ^ 62

/-! ## MP4 -/

/-- A box with the 32-bit size 1 has a 64-bit size behind its type. -/
def mp4Wide (b : Bytes) (p : Nat) : Prop := beNat (slice b p 4) = 1

instance (b : Bytes) (p : Nat) : Decidable (mp4Wide b p) := inferInstanceAs (Decidable (_ = _))

/-- Where the box after the one at `p` is looked for: behind the header of a `moov`, `trak` or `mdia` box (their
children are visited), otherwise `size - 8` bytes behind the header, whatever the length of that header. -/
def mp4Next (b : Bytes) (p : Nat) : Nat :=
  let header := if mp4Wide b p then 16 else 8
  let size := if mp4Wide b p then beNat (slice b (p + 8) 8) else beNat (slice b p 4)
  if slice b (p + 4) 4 ∈ [b!"moov", b!"trak", b!"mdia"] then p + header else p + header + size - 8

/-- Offsets at which boxes are looked for. -/
inductive Mp4BoxAt (b : Bytes) : Nat → Prop where
  | first : Mp4BoxAt b 0
  | next {p : Nat} : Mp4BoxAt b p → Mp4BoxAt b (mp4Next b p)

/-- No box declares a 64-bit size of 2^62 bytes or more. -/
def SmallBoxes (b : Bytes) : Prop :=
  ∀ p, Mp4BoxAt b p → p + 16 ≤ b.length → mp4Wide b p → beNat (slice b (p + 8) 8) < 2 ^ 62

/-! ## ZIP -/

/-- Where there is a ZIP64 locator 20 bytes before an end record, the offset it gives for the ZIP64 end
record and the directory offset found there are below 2^62. -/
def SmallZip64 (b : Bytes) : Prop :=
  ∀ p, slice b p 4 = b!"PK\x06\x07" → slice b (p + 20) 4 = b!"PK\x05\x06" →
    leNat (slice b (p + 8) 8) < 2 ^ 62 ∧ leNat (slice b (leNat (slice b (p + 8) 8) + 48) 8) < 2 ^ 62

/-- Every size or offset field met by the ASF, MP4 or ZIP detection of `b`, if that detection runs at all, is
below 2^62. -/
structure ModestFields (ft : Features) (b : Bytes) : Prop where
  asf : ft.asf = true → Recognised b .AdvancedSystemsFormat → SmallObjects b
  mp4 : ft.mp4 = true → Recognised b .Mpeg4Part14 → SmallBoxes b
  zip : ft.zip = true → Recognised b .Zip → SmallZip64 b

end FF.Spec
