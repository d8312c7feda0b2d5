import Verif.Spec.Mp4
import Verif.Spec.Ebml
import Verif.Spec.Asf
import Verif.Spec.Realmedia
import Verif.Spec.Zip
/-!
# Specification: what matters in a file (C45)

For each structured format, the part of an element that may matter. Everything else is payload: it may be
replaced, also by something of another length.
-/

namespace FF.Spec

/-- Of a box, the handler type matters. -/
def Mp4Box.essence : Mp4Box → Option Bytes
  | .handler _ _ handlerType _ => some handlerType
  | _ => none

/-- What may matter of an EBML element. -/
inductive EbmlEssence where
  | docType (value : Bytes)
  | codecId (value : Bytes)
  | stereoMode (value : UInt8)
  | cluster
  | nothing
  deriving DecidableEq

/-- Of an EBML element, DocType, CodecID and StereoMode matter, and where the first cluster is. -/
def EbmlElement.essence : EbmlElement → EbmlEssence
  | .docType _ value => .docType value
  | .codecId _ value => .codecId value
  | .stereoMode _ value => .stereoMode value
  | .cluster .. => .cluster
  | _ => .nothing

/-- What may matter of an ASF object. -/
inductive AsfEssence where
  | stream (type : Bytes)
  | content (names : List Bytes)
  | nothing
  deriving DecidableEq

/-- Of an ASF object, the stream type or the names of the descriptors matter. -/
def AsfObject.essence : AsfObject → AsfEssence
  | .stream type _ => .stream type
  | .content ds _ => .content (ds.map AsfDescriptor.name)
  | .other .. => .nothing

/-- Of a RealMedia chunk, the MIME type matters. -/
def RmChunk.essence : RmChunk → Option Bytes
  | .mediaProperties _ _ mime _ => some mime
  | .other .. => none

/-- Two entries of two archives are alike: they have the same name, and if one is a stored `mimetype` entry,
then so is the other, with the same contents. -/
structure ZipEntry.Alike (file file' : Bytes) (e e' : ZipEntry) : Prop where
  name : e.name = e'.name
  stored : e.IsMimetype ↔ e'.IsMimetype
  contents : e.IsMimetype → ∃ content, content.length = e.compressed ∧ content.length = e'.compressed ∧
    StoredAt e.offset content file ∧ StoredAt e'.offset content file'

/-- Two directories are alike, entry by entry. -/
inductive ZipAlike (file file' : Bytes) : List ZipEntry → List ZipEntry → Prop where
  | nil : ZipAlike file file' [] []
  | cons {e e' es es'} (h : e.Alike file file' e') (ht : ZipAlike file file' es es') :
    ZipAlike file file' (e :: es) (e' :: es')

end FF.Spec
