import Verif.Spec.Guid
/-!
# Specification: ASF files (Windows Media)

An ASF file starts with a header object: 24 bytes (GUID and size), the number of objects in it, two
reserved bytes, and these objects. An object is a GUID, a 64-bit size that counts the 24 bytes of GUID
and size, and the contents.
-/

namespace FF.Spec

/-- Stream Properties Object, `b7dc0791-a9b7-11cf-8ee6-00c00c205365`. -/
def asfStreamProperties : Guid := ⟨0xb7dc0791, 0xa9b7, 0x11cf, 0x8ee6, 0x00c00c205365⟩
/-- Extended Content Description Object, `d2d0a440-e307-11d2-97f0-00a0c95ea850`. -/
def asfExtendedContent : Guid := ⟨0xd2d0a440, 0xe307, 0x11d2, 0x97f0, 0x00a0c95ea850⟩
/-- Audio media, `f8699e40-5b4d-11cf-a8fd-00805f5c442b`. -/
def asfAudioMedia : Guid := ⟨0xf8699e40, 0x5b4d, 0x11cf, 0xa8fd, 0x00805f5c442b⟩
/-- Video media, `bc19efc0-5b4d-11cf-a8fd-00805f5c442b`. -/
def asfVideoMedia : Guid := ⟨0xbc19efc0, 0x5b4d, 0x11cf, 0xa8fd, 0x00805f5c442b⟩

/-- A content descriptor: a name in UTF-16, a type of two bytes, a value. -/
structure AsfDescriptor where
  name : Bytes
  type : Bytes
  value : Bytes

/-- Bytes of a descriptor. -/
def AsfDescriptor.encode (d : AsfDescriptor) : Bytes :=
  leBytes 2 d.name.length ++ d.name ++ d.type ++ leBytes 2 d.value.length ++ d.value

/-- The lengths fit. -/
def AsfDescriptor.Valid (d : AsfDescriptor) : Prop :=
  d.name.length < 2 ^ 16 ∧ d.type.length = 2 ∧ d.value.length < 2 ^ 16

/-- ASCII text in UTF-16, little-endian. -/
def utf16le (s : Bytes) : Bytes := s.flatMap fun b => [b, 0]

/-- The name starts with `DVR File Version`. -/
def AsfDescriptor.IsDvr (d : AsfDescriptor) : Prop := utf16le b!"DVR File Version" <+: d.name

/-- A header object. -/
inductive AsfObject where
  /-- the properties of a stream: the GUID of its type and the rest -/
  | stream (type : Bytes) (data : Bytes)
  /-- content descriptors; `tail` is whatever else the object contains -/
  | content (descriptors : List AsfDescriptor) (tail : Bytes)
  /-- any other object -/
  | other (guid : Bytes) (data : Bytes)

/-- The GUID of an object, 16 bytes. -/
def AsfObject.guid : AsfObject → Bytes
  | .stream .. => asfStreamProperties.bytes
  | .content .. => asfExtendedContent.bytes
  | .other guid _ => guid

/-- The contents of an object. -/
def AsfObject.body : AsfObject → Bytes
  | .stream type data => type ++ data
  | .content ds tail => leBytes 2 ds.length ++ ds.flatMap AsfDescriptor.encode ++ tail
  | .other _ data => data

/-- Bytes of an object. -/
def AsfObject.encode (o : AsfObject) : Bytes := o.guid ++ leBytes 8 (24 + o.body.length) ++ o.body

/-- GUIDs have 16 bytes, lengths and counts fit, and other objects are neither of the two kinds above. -/
def AsfObject.Valid : AsfObject → Prop
  | .stream type _ => type.length = 16
  | .content ds _ => ds.length < 2 ^ 16 ∧ ∀ d ∈ ds, d.Valid
  | .other guid _ => guid.length = 16 ∧ guid ≠ asfStreamProperties.bytes ∧ guid ≠ asfExtendedContent.bytes

/-- The object describes a stream of the given type. -/
def AsfObject.StreamOf (g : Guid) : AsfObject → Prop
  | .stream type _ => type = g.bytes
  | _ => False

/-- One of the first 32 descriptors of the object says that this is a TV recording. -/
def AsfObject.Dvr : AsfObject → Prop
  | .content ds _ => ∃ d ∈ ds.take 32, d.IsDvr
  | _ => False

/-- A file: the first 24 bytes, the number of objects, two bytes, the objects, the rest. -/
def asfFile (head : Bytes) (count : Nat) (reserved : Bytes) (objects : List AsfObject) (rest : Bytes) : Bytes :=
  head ++ (leBytes 4 count ++ (reserved ++ (objects.flatMap AsfObject.encode ++ rest)))

end FF.Spec
