import Verif.Spec.Encode
import Verif.Model.Format
/-!
# Specification: EBML (Matroska, WebM) files

An element is an ID, a size and the contents. IDs and sizes are variable-length integers: the number
of leading zero bits of the first byte, plus one, is the number of bytes. The elements EBML, Segment,
Tracks, TrackEntry and Video contain elements; a file is described here by its elements in file
order, where such a container is followed by its contents.
-/

namespace FF.Spec

/-- `v` as a variable-length integer of `w` bytes: a marker bit in front of `7 * w` bits. -/
def vint (w v : Nat) : Bytes := beBytes w (2 ^ (7 * w) + v)

/-- The integer fits. -/
def FitsVint (w v : Nat) : Prop := 1 ≤ w ∧ w ≤ 8 ∧ v < 2 ^ (7 * w)

instance decidableFitsVint (w v : Nat) : Decidable (FitsVint w v) := inferInstanceAs (Decidable (_ ∧ _ ∧ _))

/-- IDs are written with their marker: an ID of `w` bytes has its marker at bit `7 * w`. -/
def IsId (w id : Nat) : Prop := 1 ≤ w ∧ w ≤ 4 ∧ 2 ^ (7 * w) ≤ id ∧ id < 2 ^ (7 * w + 1)

instance decidableIsId (w id : Nat) : Decidable (IsId w id) := inferInstanceAs (Decidable (_ ∧ _ ∧ _ ∧ _))

/-- EBML, Segment, Tracks, TrackEntry, Video: their IDs and the length of these. -/
def ebmlContainers : List (Nat × Nat) :=
  [(4, 0x1A45DFA3), (4, 0x18538067), (4, 0x1654AE6B), (1, 0xAE), (1, 0xE0)]

/-- An element. `sw` is the number of bytes of its size. -/
inductive EbmlElement where
  /-- the header of a container; its declared size does not matter -/
  | container (w id : Nat) (sw size : Nat)
  /-- DocType (0x4282) -/
  | docType (sw : Nat) (value : Bytes)
  /-- CodecID (0x86) -/
  | codecId (sw : Nat) (value : Bytes)
  /-- StereoMode (0x53B8), one byte -/
  | stereoMode (sw : Nat) (value : UInt8)
  /-- the header of a Cluster (0x1F43B675) -/
  | cluster (sw size : Nat)
  /-- any other element -/
  | other (w id : Nat) (sw : Nat) (body : Bytes)

/-- Bytes of an element (of its header, for containers and clusters). -/
def EbmlElement.encode : EbmlElement → Bytes
  | .container w id sw size => beBytes w id ++ vint sw size
  | .docType sw value => beBytes 2 0x4282 ++ vint sw value.length ++ value
  | .codecId sw value => beBytes 1 0x86 ++ vint sw value.length ++ value
  | .stereoMode sw value => beBytes 2 0x53B8 ++ vint sw 1 ++ [value]
  | .cluster sw size => beBytes 4 0x1F43B675 ++ vint sw size
  | .other w id sw body => beBytes w id ++ vint sw body.length ++ body

/-- IDs and sizes fit, and other elements do not have one of the IDs above. -/
def EbmlElement.Valid : EbmlElement → Prop
  | .container w id sw size => (w, id) ∈ ebmlContainers ∧ FitsVint sw size
  | .docType sw value => FitsVint sw value.length
  | .codecId sw value => FitsVint sw value.length
  | .stereoMode sw _ => FitsVint sw 1
  | .cluster sw size => FitsVint sw size
  | .other w id sw body =>
    IsId w id ∧ FitsVint sw body.length ∧
      id ∉ ebmlContainers.map (·.2) ++ [0x4282, 0x86, 0x53B8, 0x1F43B675]

/-- Is it a cluster? -/
def EbmlElement.isCluster : EbmlElement → Bool
  | .cluster .. => true
  | _ => false

/-- The element settles the format: a DocType `webm...`, a DocType that is not `matroska...`, or a
non-zero StereoMode. -/
inductive EbmlElement.Settles : EbmlElement → FileFormat → Prop where
  | webm (sw value) (h : b!"webm" <+: value) : Settles (.docType sw value) .Webm
  | foreign (sw value) (h : ¬ b!"webm" <+: value) (h' : ¬ b!"matroska" <+: value) :
    Settles (.docType sw value) .ExtensibleBinaryMetaLanguage
  | stereo (sw value) (h : value ≠ 0) : Settles (.stereoMode sw value) .Matroska3dVideo

/-- Nothing behind the element matters: it is a cluster or settles the format. -/
def EbmlElement.Stops (e : EbmlElement) : Prop := e.isCluster = true ∨ ∃ f, e.Settles f

/-- What may stand behind the complete elements of a file: nothing, or a last element without a meaning that
declares as many bytes as there are or more, because the file is cut off. -/
inductive EbmlTail : Bytes → Prop where
  | nothing : EbmlTail []
  | cut (w id sw size : Nat) (body : Bytes) (hi : IsId w id) (hs : FitsVint sw size)
      (hn : id ∉ ebmlContainers.map (·.2) ++ [0x4282, 0x86, 0x53B8, 0x1F43B675]) (hl : body.length ≤ size) :
    EbmlTail (beBytes w id ++ (vint sw size ++ body))

/-- The element is a CodecID that starts with `pre`. -/
def EbmlElement.Codec (pre : Bytes) : EbmlElement → Prop
  | .codecId _ value => pre <+: value
  | _ => False

/-- The elements that are looked at: at most 256, up to the first cluster. -/
def ebmlSeen (es : List EbmlElement) : List EbmlElement := (es.take 256).takeWhile fun e => !e.isCluster

end FF.Spec
