import Verif.Spec.Verdict
/-!
# Specification: the verdict on targets with 32-bit pointers

What differs from `Spec/Walk.lean` and `Spec/Verdict.lean`: sizes of EBML elements, the length of an archive, the place of
its end record and its number of entries count modulo 2^32 where the program takes them for a `usize`, and a stored
`mimetype` entry from 2^31 bytes on ends the walk in a panic, for no buffer can be that large.
-/

namespace FF.Spec
open FileFormat

/-- `EbmlWalk` if the number of bytes to read of a DocType or CodecID is that of the size modulo 2^32. What is skipped
behind these bytes is taken from the whole size. -/
inductive EbmlWalk32 (b : Bytes) (top : Nat) : (n p : Nat) → (seen : List Bytes) → FileFormat → Prop where
  | limit {p seen} : EbmlWalk32 b top 0 p seen (ebmlOf seen)
  | finish {n p seen} (h : b.length ≤ p) : EbmlWalk32 b top (n + 1) p seen (ebmlOf seen)
  | enter {n p id size q seen f} (hh : HeaderAt b p id size q) (hi : id ∈ ebmlMasters)
      (hw : EbmlWalk32 b top n q seen f) : EbmlWalk32 b top (n + 1) p seen f
  | webm {n p size q x seen} (hh : HeaderAt b p [0x42, 0x82] size q) (hx : MagicAt q x b)
      (hl : x.length = min 8 (size % 2 ^ 32)) (hm : b!"webm" <+: x) : EbmlWalk32 b top (n + 1) p seen Webm
  | foreign {n p size q x seen} (hh : HeaderAt b p [0x42, 0x82] size q) (hx : MagicAt q x b)
      (hl : x.length = min 8 (size % 2 ^ 32)) (hm : ¬ b!"webm" <+: x) (hn : x ≠ b!"matroska") :
    EbmlWalk32 b top (n + 1) p seen ExtensibleBinaryMetaLanguage
  | matroska {n p size q r seen f} (hh : HeaderAt b p [0x42, 0x82] size q) (hm : MagicAt q b!"matroska" b)
      (hs : 8 ≤ size % 2 ^ 32) (hg : Goes top q size r) (hw : EbmlWalk32 b top n r seen f) :
    EbmlWalk32 b top (n + 1) p seen f
  /-- the walk goes on behind the bytes read and as many as the size has beyond 64 -/
  | codec {n p size q x r seen f} (hh : HeaderAt b p [0x86] size q) (hx : MagicAt q x b)
      (hl : x.length = min 64 (size % 2 ^ 32)) (hr : r = q + x.length + (size - 64)) (ht : r ≤ top)
      (hw : EbmlWalk32 b top n r (x :: seen) f) : EbmlWalk32 b top (n + 1) p seen f
  | mono {n p size q seen f} (hh : HeaderAt b p [0x53, 0xB8] size q) (hx : MagicAt q [0] b)
      (hw : EbmlWalk32 b top n (q + 1) seen f) : EbmlWalk32 b top (n + 1) p seen f
  | stereo {n p size q x seen} (hh : HeaderAt b p [0x53, 0xB8] size q) (hx : MagicAt q [x] b) (hn : x ≠ 0) :
    EbmlWalk32 b top (n + 1) p seen Matroska3dVideo
  | cluster {n p size q seen} (hh : HeaderAt b p [0x1F, 0x43, 0xB6, 0x75] size q) :
    EbmlWalk32 b top (n + 1) p seen (ebmlOf seen)
  | skip {n p id size q r seen f} (hh : HeaderAt b p id size q)
      (hi : id ∉ ebmlMasters ++ [[0x42, 0x82], [0x86], [0x53, 0xB8], [0x1F, 0x43, 0xB6, 0x75]])
      (hg : Goes top q size r) (hw : EbmlWalk32 b top n r seen f) : EbmlWalk32 b top (n + 1) p seen f

/-- The end record: the last one in the first `max 22 (min (length mod 2^32) 65557)` of the last 65557 bytes. -/
def EndAt32 (b : Bytes) (e : Nat) : Prop :=
  ∃ lo hi, 22 ≤ b.length ∧ lo = b.length - 65557 ∧ hi = lo + max 22 (min (b.length % 2 ^ 32) 65557) ∧
    lo ≤ e ∧ e + 4 ≤ hi ∧ MagicAt e b!"PK\x05\x06" b ∧ ∀ e', e < e' → e' + 4 ≤ hi → ¬ MagicAt e' b!"PK\x05\x06" b

/-- `DirectoryAt`, but a ZIP64 locator is looked for where the offset of the end record modulo 2^32 is at least 20, and
its number of entries counts modulo 2^32. -/
inductive DirectoryAt32 (b : Bytes) (e : Nat) : (count offset : Nat) → Prop where
  | classic (hz : ¬ (20 ≤ e % 2 ^ 32 ∧ MagicAt (e - 20) b!"PK\x06\x07" b)) (hl : e + 20 ≤ b.length) :
    DirectoryAt32 b e (leAt b (e + 10) 2) (leAt b (e + 16) 4)
  | zip64 {z} (he : 20 ≤ e % 2 ^ 32) (hz : MagicAt (e - 20) b!"PK\x06\x07" b)
      (hd : z = (leAt b (e - 12) 8 + 32) % 2 ^ 64) (hl : z + 24 ≤ b.length) :
    DirectoryAt32 b e (leAt b z 8 % 2 ^ 32) (leAt b (z + 16) 8)

/-- `ZipWalk`, the stored `mimetype` entry being of less than 2^31 bytes. -/
inductive ZipWalk32 (b : Bytes) (top : Nat) : (n p : Nat) → (g f : FileFormat) → Prop where
  | limit {p g} : ZipWalk32 b top 0 p g g
  | decisive {n p name next g f} (he : ZipEntryAt b p name next) (hn : NameMeans name f) : ZipWalk32 b top (n + 1) p g f
  | manifest {n p next g f} (he : ZipEntryAt b p b!"META-INF/MANIFEST.MF" next) (ht : next ≤ top)
      (hw : ZipWalk32 b top n next JavaArchive f) : ZipWalk32 b top (n + 1) p g f
  | media {n p next content g f} (he : ZipEntryAt b p b!"mimetype" next) (hs : leAt b (p + 20) 4 = leAt b (p + 24) 4)
      (hl : leAt b (p + 20) 4 < 2 ^ 31) (hc : StoredFor b top p content) (hm : MimeMeans content f) :
    ZipWalk32 b top (n + 1) p g f
  | unknown {n p next content g} (he : ZipEntryAt b p b!"mimetype" next) (hs : leAt b (p + 20) 4 = leAt b (p + 24) 4)
      (hl : leAt b (p + 20) 4 < 2 ^ 31) (hc : StoredFor b top p content) (hm : ∀ f, ¬ MimeMeans content f) :
    ZipWalk32 b top (n + 1) p g Zip
  | skip {n p name next g f} (he : ZipEntryAt b p name next) (hn : ∀ f, ¬ NameMeans name f)
      (hm : name ≠ b!"META-INF/MANIFEST.MF")
      (ht : ¬ (name = b!"mimetype" ∧ leAt b (p + 20) 4 = leAt b (p + 24) 4)) (hg : next ≤ top)
      (hw : ZipWalk32 b top n next g f) : ZipWalk32 b top (n + 1) p g f

/-- From the entry at `p`, with `n` more entries, the walk gets to a stored `mimetype` entry of 2^31 bytes or more, before any
entry that decides; the local header of that entry is there, whether its content is or not. -/
inductive ZipAborts (b : Bytes) (top : Nat) : (n p : Nat) → Prop where
  | here {n p next h} (he : ZipEntryAt b p b!"mimetype" next) (hs : leAt b (p + 20) 4 = leAt b (p + 24) 4)
      (hl : 2 ^ 31 ≤ leAt b (p + 20) 4) (hh : h = leAt b (p + 42) 4) (hb : h + 30 ≤ b.length)
      (ht : h + 30 + leAt b (h + 26) 2 + leAt b (h + 28) 2 ≤ top) : ZipAborts b top (n + 1) p
  | manifest {n p next} (he : ZipEntryAt b p b!"META-INF/MANIFEST.MF" next) (ht : next ≤ top)
      (hw : ZipAborts b top n next) : ZipAborts b top (n + 1) p
  | skip {n p name next} (he : ZipEntryAt b p name next) (hn : ∀ f, ¬ NameMeans name f)
      (hm : name ≠ b!"META-INF/MANIFEST.MF")
      (ht : ¬ (name = b!"mimetype" ∧ leAt b (p + 20) 4 = leAt b (p + 24) 4)) (hg : next ≤ top)
      (hw : ZipAborts b top n next) : ZipAborts b top (n + 1) p

/-- The entries of the central directory. -/
def ZipContent32 (b : Bytes) (top : Nat) (f : FileFormat) : Prop :=
  ∃ e count offset, EndAt32 b e ∧ DirectoryAt32 b e count offset ∧ offset ≤ top ∧
    ZipWalk32 b top (min 1024 count) offset Zip f

/-- The archive has a stored `mimetype` entry that is too large. -/
def ZipTooLarge (b : Bytes) (top : Nat) : Prop :=
  ∃ e count offset, EndAt32 b e ∧ DirectoryAt32 b e count offset ∧ offset ≤ top ∧ ZipAborts b top (min 1024 count) offset

/-- What the reader of a feature finds. -/
def ReaderSays32 (b : Bytes) (top : Nat) (rd : Reads) : Feature → FileFormat → Prop
  | .ebml, f => EbmlWalk32 b top 256 0 [] f
  | .zip, f => ZipContent32 b top f
  | g, f => ReaderSays b top rd g f

/-- The content makes the program panic. -/
def PanicOn32 (ft : Features) (w b : Bytes) (top : Nat) : Prop := ft.zip = true ∧ SignatureSays w Zip ∧ ZipTooLarge b top

/-- The verdict, as `VerdictOn`. -/
inductive VerdictOn32 (ft : Features) (w b : Bytes) (top : Nat) (rd : Reads) : FileFormat → Prop where
  | signature {f} (hs : SignatureSays w f) (hn : ∀ g : Feature, g.enabled ft = true → g.base ≠ f) : VerdictOn32 ft w b top rd f
  | reader {g : Feature} {f} (he : g.enabled ft = true) (hs : SignatureSays w g.base) (h : ReaderSays32 b top rd g f) :
    VerdictOn32 ft w b top rd f
  | text {g : Feature} {f} (he : g.enabled ft = true) (hs : SignatureSays w g.base) (hn : ∀ x, ¬ ReaderSays32 b top rd g x)
      (hp : ¬ PanicOn32 ft w b top) (ht : ft.txt = true) (h : ReaderSays32 b top rd .txt f) : VerdictOn32 ft w b top rd f
  | default {g : Feature} (he : g.enabled ft = true) (hs : SignatureSays w g.base) (hn : ∀ x, ¬ ReaderSays32 b top rd g x)
      (hp : ¬ PanicOn32 ft w b top) (ht : ¬ (ft.txt = true ∧ ∃ f, ReaderSays32 b top rd .txt f)) :
    VerdictOn32 ft w b top rd ArbitraryBinaryData

end FF.Spec
