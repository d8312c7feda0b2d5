import Verif.Model.Format
import Verif.Spec.Encode
/-!
# Specification: GUIDs

A GUID by its five fields, its layout in memory and in files, and its text.
-/

namespace FF.Spec
open FileFormat

/-- A GUID, written `xxxxxxxx-xxxx-xxxx-xxxx-xxxxxxxxxxxx`. -/
structure Guid where
  data1 : Nat
  data2 : Nat
  data3 : Nat
  data4 : Nat
  data5 : Nat
  deriving DecidableEq, Repr

/-- The fields have 32, 16, 16, 16 and 48 bits. -/
def Guid.Valid (g : Guid) : Prop :=
  g.data1 < 2 ^ 32 ∧ g.data2 < 2 ^ 16 ∧ g.data3 < 2 ^ 16 ∧ g.data4 < 2 ^ 16 ∧ g.data5 < 2 ^ 48

instance decidableGuidValid (g : Guid) : Decidable g.Valid := inferInstanceAs (Decidable (_ ∧ _))

/-- The 16 bytes: the first three fields are little-endian, the rest is in reading order. -/
def Guid.bytes (g : Guid) : Bytes :=
  leBytes 4 g.data1 ++ leBytes 2 g.data2 ++ leBytes 2 g.data3 ++ beBytes 2 g.data4 ++ beBytes 6 g.data5

/-- `v` in `n` lower-case hexadecimal digits, as code points. -/
def hexText : Nat → Nat → List Nat
  | 0, _ => []
  | n + 1, v =>
    hexText n (v / 16) ++
      [[48, 49, 50, 51, 52, 53, 54, 55, 56, 57, 97, 98, 99, 100, 101, 102].getD (v % 16) 0]

/-- The standard text of a GUID, in lower case. -/
def Guid.text (g : Guid) : List Nat :=
  hexText 8 g.data1 ++ [45] ++ hexText 4 g.data2 ++ [45] ++ hexText 4 g.data3 ++ [45] ++
    hexText 4 g.data4 ++ [45] ++ hexText 12 g.data5

/-- The CLSIDs of the applications that store compound files, with the format of their documents
(`src/readers.rs` 192-237, as numbers). -/
def clsids : List (Guid × FileFormat) := [
  (⟨0xe60f81e1, 0x49b3, 0x11d0, 0x93c3, 0x7e0706000000⟩, AutodeskInventorAssembly),
  (⟨0xbbf9fdf1, 0x52dc, 0x11d0, 0x8c04, 0x0800090be8ec⟩, AutodeskInventorDrawing),
  (⟨0x4d29b490, 0x49b2, 0x11d0, 0x93c3, 0x7e0706000000⟩, AutodeskInventorPart),
  (⟨0x76283a80, 0x50dd, 0x11d3, 0xa7e3, 0x00c04f79d7bc⟩, AutodeskInventorPresentation),
  (⟨0x402efe62, 0x1999, 0x101b, 0x99ae, 0x04021c007002⟩, CorelPresentations7),
  (⟨0x597caa70, 0x72aa, 0x11cf, 0x831e, 0x524153480000⟩, FlashProject),
  (⟨0xb4f235fe, 0xdca6, 0x4803, 0xb7b2, 0xc25a453c836b⟩, FlashProject),
  (⟨0x00020810, 0x0000, 0x0000, 0xc000, 0x000000000046⟩, MicrosoftExcelSpreadsheet),
  (⟨0x00020820, 0x0000, 0x0000, 0xc000, 0x000000000046⟩, MicrosoftExcelSpreadsheet),
  (⟨0x00044851, 0x0000, 0x0000, 0xc000, 0x000000000046⟩, MicrosoftPowerpointPresentation),
  (⟨0x64818d10, 0x4f9b, 0x11cf, 0x86ea, 0x00aa00b929e8⟩, MicrosoftPowerpointPresentation),
  (⟨0xea7bae70, 0xfb3b, 0x11cd, 0xa903, 0x00aa00510ea3⟩, MicrosoftPowerpointPresentation),
  (⟨0x74b78f3a, 0xc8c8, 0x11d1, 0xbe11, 0x00c04fb6faf1⟩, MicrosoftProjectPlan),
  (⟨0x00021201, 0x0000, 0x0000, 0x00c0, 0x000000000046⟩, MicrosoftPublisherDocument),
  (⟨0x000c1084, 0x0000, 0x0000, 0xc000, 0x000000000046⟩, MicrosoftSoftwareInstaller),
  (⟨0x00021a13, 0x0000, 0x0000, 0xc000, 0x000000000046⟩, MicrosoftVisioDrawing),
  (⟨0x00021a14, 0x0000, 0x0000, 0xc000, 0x000000000046⟩, MicrosoftVisioDrawing),
  (⟨0x00020900, 0x0000, 0x0000, 0xc000, 0x000000000046⟩, MicrosoftWordDocument),
  (⟨0x00020906, 0x0000, 0x0000, 0xc000, 0x000000000046⟩, MicrosoftWordDocument),
  (⟨0x00021303, 0x0000, 0x0000, 0xc000, 0x000000000046⟩, MicrosoftWorksDatabase),
  (⟨0x28cddbc3, 0x0ae2, 0x11ce, 0xa29a, 0x00aa004a1a72⟩, MicrosoftWorksDatabase),
  (⟨0x00021302, 0x0000, 0x0000, 0xc000, 0x000000000046⟩, MicrosoftWorksWordProcessor),
  (⟨0x0ea45ab2, 0x9e0a, 0x11d1, 0xa407, 0x00c04fb932ba⟩, MicrosoftWorksWordProcessor),
  (⟨0x28cddbc2, 0x0ae2, 0x11ce, 0xa29a, 0x00aa004a1a72⟩, MicrosoftWorksWordProcessor),
  (⟨0x83a33d36, 0x27c5, 0x11ce, 0xbfd4, 0x00400513bb57⟩, SolidworksAssembly),
  (⟨0x83a33d34, 0x27c5, 0x11ce, 0xbfd4, 0x00400513bb57⟩, SolidworksDrawing),
  (⟨0x83a33d30, 0x27c5, 0x11ce, 0xbfd4, 0x00400513bb57⟩, SolidworksPart),
  (⟨0x3f543fa0, 0xb6a6, 0x101b, 0x9961, 0x04021c007002⟩, Starcalc),
  (⟨0x6361d441, 0x4235, 0x11d0, 0x89cb, 0x008029e4b0b1⟩, Starcalc),
  (⟨0xc6a5b861, 0x85d6, 0x11d1, 0x89cb, 0x008029e4b0b1⟩, Starcalc),
  (⟨0x02b3b7e0, 0x4225, 0x11d0, 0x89ca, 0x008029e4b0b1⟩, Starchart),
  (⟨0xbf884321, 0x85dd, 0x11d1, 0x89d0, 0x008029e4b0b1⟩, Starchart),
  (⟨0xfb9c99e0, 0x2c6d, 0x101c, 0x8e2c, 0x00001b4cc711⟩, Starchart),
  (⟨0x2e8905a0, 0x85bd, 0x11d1, 0x89d0, 0x008029e4b0b1⟩, Stardraw),
  (⟨0xaf10aae0, 0xb36d, 0x101b, 0x9961, 0x04021c007002⟩, Stardraw),
  (⟨0x012d3cc0, 0x4216, 0x11d0, 0x89cb, 0x008029e4b0b1⟩, Starimpress),
  (⟨0x565c7221, 0x85bc, 0x11d1, 0x89d0, 0x008029e4b0b1⟩, Starimpress),
  (⟨0x02b3b7e1, 0x4225, 0x11d0, 0x89ca, 0x008029e4b0b1⟩, Starmath),
  (⟨0xd4590460, 0x35fd, 0x101c, 0xb12a, 0x04021c007002⟩, Starmath),
  (⟨0xffb5e640, 0x85de, 0x11d1, 0x89d0, 0x008029e4b0b1⟩, Starmath),
  (⟨0x8b04e9b0, 0x420e, 0x11d0, 0xa45e, 0x00a0249d57b1⟩, Starwriter),
  (⟨0xc20cf9d1, 0x85ae, 0x11d1, 0xaab4, 0x006097da561a⟩, Starwriter),
  (⟨0xdc5c7e40, 0xb35c, 0x101b, 0x9961, 0x04021c007002⟩, Starwriter),
  (⟨0x1cdd8c7b, 0x81c0, 0x45a0, 0x9fed, 0x04143144cc1e⟩, ThreeDimensionalStudioMax),
  (⟨0x519873ff, 0x2dad, 0x0220, 0x1937, 0x0000929679cd⟩, WordperfectDocument),
  (⟨0x402efe60, 0x1999, 0x101b, 0x99ae, 0x04021c007002⟩, WordperfectGraphics)]

end FF.Spec
