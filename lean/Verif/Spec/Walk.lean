import Verif.Spec.Magic
import Verif.Spec.Asf
import Verif.Spec.Offsets
import Verif.Spec.Zip
/-!
# Specification: how the content of a container leads to the verdict

The verdict on any content, well-formed or not, described by the offsets at which something is looked up. A walk may
lead nowhere (a header that is cut off, a size that leads to a place in front of the content): then there is none, and
no derivation of the relations below. `top` is the largest offset to which the content can be positioned.
-/

namespace FF.Spec
open FileFormat

/-- The big-endian number of `n` bytes at offset `p`. -/
def beAt (b : Bytes) (p : Nat) : Nat → Nat
  | 0 => 0
  | n + 1 => 256 * beAt b p n + byteAt b (p + n)

/-- The little-endian number of `n` bytes at offset `p`. -/
def leAt (b : Bytes) (p : Nat) : Nat → Nat
  | 0 => 0
  | n + 1 => byteAt b p + 256 * leAt b (p + 1) n

/-- A distance in 64 bits, two's complement. -/
def wrapped (d : Int) : Int := d.bmod (2 ^ 64)

/-- A step by the distance `d` from `p` leads to `q`. -/
def Goes (top p : Nat) (d : Int) (q : Nat) : Prop := (q : Int) = p + d ∧ q ≤ top

/-- The bytes `x` are at `p`. -/
def Holds (b : Bytes) (p : Nat) (x : Bytes) : Prop := x = [] ∨ MagicAt p x b

/-! ## MP4 -/

/-- The header of a box at `p`: its type, its size, and where the header ends. -/
def BoxAt (b : Bytes) (p : Nat) (type : Bytes) (size q : Nat) : Prop :=
  MagicAt (p + 4) type b ∧ type.length = 4 ∧
    ((beAt b p 4 ≠ 1 ∧ size = beAt b p 4 ∧ q = p + 8) ∨
     (beAt b p 4 = 1 ∧ p + 16 ≤ b.length ∧ size = beAt b (p + 8) 8 ∧ q = p + 16))

/-- The verdict on the handler types seen. -/
def mp4Of (seen : List Bytes) : FileFormat :=
  if b!"vide" ∈ seen then Mpeg4Part14Video
  else if b!"soun" ∈ seen then Mpeg4Part14Audio
  else if b!"sbtl" ∈ seen ∨ b!"subt" ∈ seen ∨ b!"text" ∈ seen then Mpeg4Part14Subtitles
  else Mpeg4Part14

/-- From `p`, with `n` more boxes and after the handler types `seen`, the verdict is `f`. -/
inductive Mp4Walk (b : Bytes) (top : Nat) : (n p : Nat) → (seen : List Bytes) → FileFormat → Prop where
  | limit {p seen} : Mp4Walk b top 0 p seen (mp4Of seen)
  | finish {n p seen} (h : b.length ≤ p) : Mp4Walk b top (n + 1) p seen (mp4Of seen)
  /-- movie, track and media boxes: what is in them comes next -/
  | enter {n p type size q seen f} (hb : BoxAt b p type size q) (ht : type ∈ [b!"moov", b!"trak", b!"mdia"])
      (hw : Mp4Walk b top n q seen f) : Mp4Walk b top (n + 1) p seen f
  | handler {n p size q x r seen f} (hb : BoxAt b p b!"hdlr" size q) (hx : MagicAt (q + 8) x b) (hl : x.length = 4)
      (hg : Goes top (q + 12) (wrapped (size - 20)) r) (hw : Mp4Walk b top n r (x :: seen) f) :
    Mp4Walk b top (n + 1) p seen f
  | skip {n p type size q r seen f} (hb : BoxAt b p type size q)
      (ht : type ∉ [b!"moov", b!"trak", b!"mdia", b!"hdlr"]) (hg : Goes top q (wrapped (size - 8)) r)
      (hw : Mp4Walk b top n r seen f) : Mp4Walk b top (n + 1) p seen f

/-! ## EBML -/

/-- A number of `k` bytes at `p` as EBML writes it: the zero bits in front of the first byte tell `k`. -/
def VintAt (b : Bytes) (p k : Nat) : Prop :=
  1 ≤ k ∧ k ≤ 8 ∧ p + k ≤ b.length ∧ 2 ^ (8 - k) ≤ byteAt b p ∧ byteAt b p < 2 ^ (9 - k)

/-- The header of an element at `p`: its ID, its size, and where the header ends. -/
def HeaderAt (b : Bytes) (p : Nat) (id : Bytes) (size q : Nat) : Prop :=
  ∃ k j, VintAt b p k ∧ k ≤ 4 ∧ MagicAt p id b ∧ id.length = k ∧ VintAt b (p + k) j ∧
    size + 2 ^ (7 * j) = beAt b (p + k) j ∧ q = p + k + j

/-- EBML, Segment, Tracks, TrackEntry, Video. -/
def ebmlMasters : List Bytes :=
  [[0x1A, 0x45, 0xDF, 0xA3], [0x18, 0x53, 0x80, 0x67], [0x16, 0x54, 0xAE, 0x6B], [0xAE], [0xE0]]

/-- The verdict on the beginnings of the codec IDs seen. -/
def ebmlOf (seen : List Bytes) : FileFormat :=
  if ∃ c ∈ seen, b!"V_" <+: c then MatroskaVideo
  else if ∃ c ∈ seen, b!"A_" <+: c then MatroskaAudio
  else if ∃ c ∈ seen, b!"S_" <+: c then MatroskaSubtitles
  else ExtensibleBinaryMetaLanguage

/-- From `p`, with `n` more elements and after the codec IDs `seen`, the verdict is `f`. -/
inductive EbmlWalk (b : Bytes) (top : Nat) : (n p : Nat) → (seen : List Bytes) → FileFormat → Prop where
  | limit {p seen} : EbmlWalk b top 0 p seen (ebmlOf seen)
  | finish {n p seen} (h : b.length ≤ p) : EbmlWalk b top (n + 1) p seen (ebmlOf seen)
  | enter {n p id size q seen f} (hh : HeaderAt b p id size q) (hi : id ∈ ebmlMasters)
      (hw : EbmlWalk b top n q seen f) : EbmlWalk b top (n + 1) p seen f
  /-- DocType: only the first eight bytes count -/
  | webm {n p size q x seen} (hh : HeaderAt b p [0x42, 0x82] size q) (hx : MagicAt q x b) (hl : x.length = min 8 size)
      (hm : b!"webm" <+: x) : EbmlWalk b top (n + 1) p seen Webm
  | foreign {n p size q x seen} (hh : HeaderAt b p [0x42, 0x82] size q) (hx : MagicAt q x b) (hl : x.length = min 8 size)
      (hm : ¬ b!"webm" <+: x) (hn : x ≠ b!"matroska") : EbmlWalk b top (n + 1) p seen ExtensibleBinaryMetaLanguage
  | matroska {n p size q r seen f} (hh : HeaderAt b p [0x42, 0x82] size q) (hm : MagicAt q b!"matroska" b)
      (hs : 8 ≤ size) (hg : Goes top q size r) (hw : EbmlWalk b top n r seen f) : EbmlWalk b top (n + 1) p seen f
  /-- CodecID: only the first 64 bytes are read -/
  | codec {n p size q x r seen f} (hh : HeaderAt b p [0x86] size q) (hx : MagicAt q x b) (hl : x.length = min 64 size)
      (hg : Goes top q size r) (hw : EbmlWalk b top n r (x :: seen) f) : EbmlWalk b top (n + 1) p seen f
  | mono {n p size q seen f} (hh : HeaderAt b p [0x53, 0xB8] size q) (hx : MagicAt q [0] b)
      (hw : EbmlWalk b top n (q + 1) seen f) : EbmlWalk b top (n + 1) p seen f
  | stereo {n p size q x seen} (hh : HeaderAt b p [0x53, 0xB8] size q) (hx : MagicAt q [x] b) (hn : x ≠ 0) :
    EbmlWalk b top (n + 1) p seen Matroska3dVideo
  | cluster {n p size q seen} (hh : HeaderAt b p [0x1F, 0x43, 0xB6, 0x75] size q) :
    EbmlWalk b top (n + 1) p seen (ebmlOf seen)
  | skip {n p id size q r seen f} (hh : HeaderAt b p id size q)
      (hi : id ∉ ebmlMasters ++ [[0x42, 0x82], [0x86], [0x53, 0xB8], [0x1F, 0x43, 0xB6, 0x75]])
      (hg : Goes top q size r) (hw : EbmlWalk b top n r seen f) : EbmlWalk b top (n + 1) p seen f

/-! ## ASF -/

/-- The content descriptors from `p`, `n` of them: is there a name that starts with `DVR File Version`? -/
inductive DescriptorsAt (b : Bytes) (top : Nat) : (n p : Nat) → Bool → Prop where
  | none {p} : DescriptorsAt b top 0 p false
  | found {n p x} (hx : MagicAt (p + 2) x b) (hl : x.length = min 64 (leAt b p 2))
      (hd : utf16le b!"DVR File Version" <+: x) : DescriptorsAt b top (n + 1) p true
  | next {n p x q r} (hx : MagicAt (p + 2) x b) (hl : x.length = min 64 (leAt b p 2))
      (hd : ¬ utf16le b!"DVR File Version" <+: x) (hq : q = p + 4 + leAt b p 2) (hv : q + 2 ≤ b.length)
      (ht : q + 2 + leAt b q 2 ≤ top) (hn : DescriptorsAt b top n (q + 2 + leAt b q 2) r) : DescriptorsAt b top (n + 1) p r

/-- The verdict on the kinds of the streams seen. -/
def asfOf (seen : List Bytes) : FileFormat :=
  if asfVideoMedia.bytes ∈ seen then WindowsMediaVideo
  else if asfAudioMedia.bytes ∈ seen then WindowsMediaAudio
  else AdvancedSystemsFormat

/-- From `p`, with `n` more objects and after the kinds of streams `seen`, the verdict is `f`. -/
inductive AsfWalk (b : Bytes) (top : Nat) : (n p : Nat) → (seen : List Bytes) → FileFormat → Prop where
  | limit {p seen} : AsfWalk b top 0 p seen (asfOf seen)
  | stream {n p kind r seen f} (hm : MagicAt p asfStreamProperties.bytes b) (hk : MagicAt (p + 24) kind b)
      (hl : kind.length = 16) (hg : Goes top (p + 40) (wrapped (leAt b (p + 16) 8 - 40)) r)
      (hw : AsfWalk b top n r (kind :: seen) f) : AsfWalk b top (n + 1) p seen f
  | recording {n p seen} (hm : MagicAt p asfExtendedContent.bytes b) (hl : p + 26 ≤ b.length)
      (hd : DescriptorsAt b top (min 32 (leAt b (p + 24) 2)) (p + 26) true) :
    AsfWalk b top (n + 1) p seen MicrosoftDigitalVideoRecording
  | content {n p r seen f} (hm : MagicAt p asfExtendedContent.bytes b) (hl : p + 26 ≤ b.length)
      (hd : DescriptorsAt b top (min 32 (leAt b (p + 24) 2)) (p + 26) false)
      (hr : r = (p + leAt b (p + 16) 8) % 2 ^ 64) (ht : r ≤ top) (hw : AsfWalk b top n r seen f) :
    AsfWalk b top (n + 1) p seen f
  | skip {n p r seen f} (hl : p + 24 ≤ b.length) (hs : ¬ MagicAt p asfStreamProperties.bytes b)
      (he : ¬ MagicAt p asfExtendedContent.bytes b) (hg : Goes top (p + 24) (wrapped (leAt b (p + 16) 8 - 24)) r)
      (hw : AsfWalk b top n r seen f) : AsfWalk b top (n + 1) p seen f

/-- The objects of the header. -/
def AsfContent (b : Bytes) (top : Nat) (f : FileFormat) : Prop :=
  28 ≤ b.length ∧ 30 ≤ top ∧ AsfWalk b top (min 256 (leAt b 24 4)) 30 [] f

/-! ## RealMedia -/

/-- The verdict on the MIME types seen. -/
def rmOf (seen : List Bytes) : FileFormat :=
  if ∃ c ∈ seen, b!"video/" <+: c then Realvideo
  else if ∃ c ∈ seen, b!"audio/" <+: c then Realaudio
  else Realmedia

/-- From `p`, with `n` more chunks and after the MIME types `seen`, the verdict is `f`. -/
inductive RmWalk (b : Bytes) (top : Nat) : (n p : Nat) → (seen : List Bytes) → FileFormat → Prop where
  | limit {p seen} : RmWalk b top 0 p seen (rmOf seen)
  | media {n p k x r seen f} (hm : MagicAt p b!"MDPR" b) (hk : k = byteAt b (p + 40))
      (hx : MagicAt (p + 42 + k) x b) (hl : x.length = byteAt b (p + 41 + k)) (hg : Goes top p (beAt b (p + 4) 4) r)
      (hw : RmWalk b top n r (x :: seen) f) : RmWalk b top (n + 1) p seen f
  | skip {n p r seen f} (hl : p + 8 ≤ b.length) (hm : ¬ MagicAt p b!"MDPR" b) (hg : Goes top p (beAt b (p + 4) 4) r)
      (hw : RmWalk b top n r seen f) : RmWalk b top (n + 1) p seen f

/-- The chunks behind the file header. -/
def RmContent (b : Bytes) (top : Nat) (f : FileFormat) : Prop :=
  18 ≤ b.length ∧ RmWalk b top (min 64 (beAt b 14 4 - 1)) 18 [] f

/-! ## ID3v2 -/

/-- The size of a tag, 28 bits in four bytes. -/
def synchsafeAt (b : Bytes) (p : Nat) : Nat :=
  byteAt b p % 128 * 2 ^ 21 + byteAt b (p + 1) % 128 * 2 ^ 14 + byteAt b (p + 2) % 128 * 2 ^ 7 + byteAt b (p + 3) % 128

/-- From `p` the verdict is `f`. Ten bytes are always read. -/
inductive Id3Walk (b : Bytes) (top : Nat) : (p : Nat) → FileFormat → Prop where
  /-- a tag: with flag 6 the extended header comes on top, with flag 4 a footer of ten bytes -/
  | tag {p ext foot f} (hm : MagicAt p b!"ID3" b) (hl : p + 10 ≤ b.length)
      (he : ((byteAt b (p + 5)).testBit 6 = true ∧ p + 14 ≤ b.length ∧ ext = beAt b (p + 10) 4) ∨
        ((byteAt b (p + 5)).testBit 6 = false ∧ ext = 0))
      (hf : foot = if (byteAt b (p + 5)).testBit 4 then 10 else 0)
      (hg : p + 10 + synchsafeAt b (p + 6) + ext + foot ≤ top)
      (hw : Id3Walk b top (p + 10 + synchsafeAt b (p + 6) + ext + foot) f) : Id3Walk b top p f
  | flac {p} (hl : p + 10 ≤ b.length) (hm : MagicAt p b!"fLaC" b) : Id3Walk b top p FreeLosslessAudioCodec
  | mp3 {p c} (hl : p + 10 ≤ b.length) (hc : c ∈ [0xE2, 0xE3, 0xF2, 0xF3, 0xFA, 0xFB]) (hm : MagicAt p [0xFF, c] b) :
    Id3Walk b top p Mpeg12AudioLayer3
  | other {p} (hl : p + 10 ≤ b.length) (ht : ¬ MagicAt p b!"ID3" b) (hm : ¬ MagicAt p b!"fLaC" b)
      (hc : ∀ c ∈ [0xE2, 0xE3, 0xF2, 0xF3, 0xFA, 0xFB], ¬ MagicAt p [0xFF, c] b) : Id3Walk b top p Id3v2

/-! ## ZIP -/

/-- The last end record: in the last 65557 bytes, and none behind it. -/
def EndAt (b : Bytes) (e : Nat) : Prop :=
  22 ≤ b.length ∧ b.length ≤ e + 65557 ∧ MagicAt e b!"PK\x05\x06" b ∧ ∀ e', e < e' → ¬ MagicAt e' b!"PK\x05\x06" b

/-- Number of entries and offset of the central directory, from the ZIP64 end record if there is a locator in front of
the end record at `e`. -/
inductive DirectoryAt (b : Bytes) (top e : Nat) : (count offset : Nat) → Prop where
  | classic (hz : ¬ (20 ≤ e ∧ MagicAt (e - 20) b!"PK\x06\x07" b)) (hl : e + 20 ≤ b.length) :
    DirectoryAt b top e (leAt b (e + 10) 2) (leAt b (e + 16) 4)
  | zip64 {z} (he : 20 ≤ e) (hz : MagicAt (e - 20) b!"PK\x06\x07" b) (hd : z = (leAt b (e - 12) 8 + 32) % 2 ^ 64)
      (hl : z + 24 ≤ b.length) : DirectoryAt b top e (leAt b z 8) (leAt b (z + 16) 8)

/-- A directory entry at `p`: its name and where the next one is. -/
def ZipEntryAt (b : Bytes) (p : Nat) (name : Bytes) (next : Nat) : Prop :=
  p + 46 ≤ b.length ∧ MagicAt (p + 46) name b ∧ name.length = leAt b (p + 28) 2 ∧
    next = p + 46 + name.length + leAt b (p + 30) 2 + leAt b (p + 32) 2

/-- The content of the entry at `p`, stored, behind its local header. -/
def StoredFor (b : Bytes) (top p : Nat) (content : Bytes) : Prop :=
  ∃ h q, h = leAt b (p + 42) 4 ∧ h + 30 ≤ b.length ∧ q = h + 30 + leAt b (h + 26) 2 + leAt b (h + 28) 2 ∧ q ≤ top ∧
    content.length = leAt b (p + 20) 4 ∧ Holds b q content

/-- From the entry at `p`, with `n` more entries and the verdict `g` so far, the verdict is `f`. -/
inductive ZipWalk (b : Bytes) (top : Nat) : (n p : Nat) → (g f : FileFormat) → Prop where
  | limit {p g} : ZipWalk b top 0 p g g
  | decisive {n p name next g f} (he : ZipEntryAt b p name next) (hn : NameMeans name f) : ZipWalk b top (n + 1) p g f
  | manifest {n p next g f} (he : ZipEntryAt b p b!"META-INF/MANIFEST.MF" next) (ht : next ≤ top)
      (hw : ZipWalk b top n next JavaArchive f) : ZipWalk b top (n + 1) p g f
  | media {n p next content g f} (he : ZipEntryAt b p b!"mimetype" next) (hs : leAt b (p + 20) 4 = leAt b (p + 24) 4)
      (hc : StoredFor b top p content) (hm : MimeMeans content f) : ZipWalk b top (n + 1) p g f
  | unknown {n p next content g} (he : ZipEntryAt b p b!"mimetype" next) (hs : leAt b (p + 20) 4 = leAt b (p + 24) 4)
      (hc : StoredFor b top p content) (hm : ∀ f, ¬ MimeMeans content f) : ZipWalk b top (n + 1) p g Zip
  | skip {n p name next g f} (he : ZipEntryAt b p name next) (hn : ∀ f, ¬ NameMeans name f)
      (hm : name ≠ b!"META-INF/MANIFEST.MF")
      (ht : ¬ (name = b!"mimetype" ∧ leAt b (p + 20) 4 = leAt b (p + 24) 4)) (hg : next ≤ top)
      (hw : ZipWalk b top n next g f) : ZipWalk b top (n + 1) p g f

/-- The entries of the central directory. -/
def ZipContent (b : Bytes) (top : Nat) (f : FileFormat) : Prop :=
  ∃ e count offset, EndAt b e ∧ DirectoryAt b top e count offset ∧ offset ≤ top ∧
    ZipWalk b top (min 1024 count) offset Zip f

end FF.Spec
