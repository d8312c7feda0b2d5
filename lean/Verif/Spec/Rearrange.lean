import Verif.Spec.Mp4
import Verif.Spec.Ebml
import Verif.Spec.Asf
import Verif.Spec.Realmedia
import Verif.Spec.Zip
/-!
# Specification: rearranged files (C53, C54)

When two files have the same parts in another order, with other padding.
-/

namespace FF.Spec

/-- One list becomes the other by exchanging neighbours that are `Free` to change places and by inserting and
removing elements that are `Inert`, any number of times. -/
inductive Rearranged {α : Type} (Free : α → α → Prop) (Inert : α → Prop) : List α → List α → Prop where
  | refl (l) : Rearranged Free Inert l l
  | swap (x y l) (h : Free x y) : Rearranged Free Inert (x :: y :: l) (y :: x :: l)
  | insert (x l) (h : Inert x) : Rearranged Free Inert l (x :: l)
  | cons (x) {l l'} (h : Rearranged Free Inert l l') : Rearranged Free Inert (x :: l) (x :: l')
  | symm {l l'} (h : Rearranged Free Inert l l') : Rearranged Free Inert l' l
  | trans {l l' l''} (h : Rearranged Free Inert l l') (h' : Rearranged Free Inert l' l'') : Rearranged Free Inert l l''

/-- The same for boxes, at all levels: boxes change places, and boxes other than containers and handlers (such as
`free`) are inserted and removed. -/
inductive Mp4Rearranged : List Mp4Box → List Mp4Box → Prop where
  | refl (l) : Mp4Rearranged l l
  | swap (x y l) : Mp4Rearranged (x :: y :: l) (y :: x :: l)
  | insert (wide type body l) : Mp4Rearranged l (.other wide type body :: l)
  | cons (x) {l l'} (h : Mp4Rearranged l l') : Mp4Rearranged (x :: l) (x :: l')
  | inside (wide wide' type l) {cs cs'} (h : Mp4Rearranged cs cs') :
    Mp4Rearranged (.container wide type cs :: l) (.container wide' type cs' :: l)
  | symm {l l'} (h : Mp4Rearranged l l') : Mp4Rearranged l' l
  | trans {l l' l''} (h : Mp4Rearranged l l') (h' : Mp4Rearranged l' l'') : Mp4Rearranged l l''

/-- The element is part of the description of the tracks, or has no meaning: neither a DocType nor a cluster. -/
def EbmlElement.Movable : EbmlElement → Prop
  | .docType .. => False
  | .cluster .. => False
  | _ => True

/-- The element has no meaning, such as a Void element. -/
def EbmlElement.IsOther : EbmlElement → Prop
  | .other .. => True
  | _ => False

/-- The object has no meaning, such as a padding object. -/
def AsfObject.IsOther : AsfObject → Prop
  | .other .. => True
  | _ => False

/-- The chunk does not describe a stream. -/
def RmChunk.IsOther : RmChunk → Prop
  | .other .. => True
  | _ => False

end FF.Spec
