import Verif.Spec.Encode
/-!
# Specification: MP4 files

A file is a sequence of boxes: a size (32 bits, or 64 bits announced by the size 1), a 4-byte type and
the contents. The boxes `moov`, `trak` and `mdia` contain further boxes; `hdlr` names the kind of
media of a track.
-/

namespace FF.Spec

/-- A box. `wide` boxes have a 64-bit size. -/
inductive Mp4Box where
  /-- `moov`, `trak` or `mdia` -/
  | container (wide : Bool) (type : Bytes) (children : List Mp4Box)
  /-- `hdlr`: 8 bytes (version, flags, predefined), the handler type, the rest -/
  | handler (wide : Bool) (fixed handlerType tail : Bytes)
  /-- any other box -/
  | other (wide : Bool) (type body : Bytes)

/-- Size and type of a box with a payload of `n` bytes. -/
def mp4Header (wide : Bool) (type : Bytes) (n : Nat) : Bytes :=
  if wide = true then beBytes 4 1 ++ type ++ beBytes 8 (16 + n) else beBytes 4 (8 + n) ++ type

mutual
/-- Bytes of a box. -/
def Mp4Box.encode : Mp4Box → Bytes
  | .container wide type children =>
    mp4Header wide type (Mp4Box.encodeAll children).length ++ Mp4Box.encodeAll children
  | .handler wide fixed handlerType tail =>
    mp4Header wide b!"hdlr" (fixed ++ handlerType ++ tail).length ++ (fixed ++ handlerType ++ tail)
  | .other wide type body => mp4Header wide type body.length ++ body
/-- Bytes of a sequence of boxes. -/
def Mp4Box.encodeAll : List Mp4Box → Bytes
  | [] => []
  | b :: bs => b.encode ++ Mp4Box.encodeAll bs
end

mutual
/-- A box and all boxes in it, in file order. -/
def Mp4Box.visit : Mp4Box → List Mp4Box
  | .container wide type children => .container wide type children :: Mp4Box.visitAll children
  | b => [b]
/-- All boxes, in file order. -/
def Mp4Box.visitAll : List Mp4Box → List Mp4Box
  | [] => []
  | b :: bs => b.visit ++ Mp4Box.visitAll bs
end

/-- The types of the boxes that contain boxes. -/
def mp4Containers : List Bytes := [b!"moov", b!"trak", b!"mdia"]

/-- The types fit and are told apart, and the sizes fit their fields. -/
def Mp4Box.WellFormed : Mp4Box → Prop
  | .container wide type children =>
    type ∈ mp4Containers ∧ (wide = false → 8 + (Mp4Box.encodeAll children).length < 2 ^ 32)
  | .handler wide fixed handlerType tail =>
    fixed.length = 8 ∧ handlerType.length = 4 ∧ (wide = false → 20 + tail.length < 2 ^ 32)
  | .other wide type body =>
    type.length = 4 ∧ type ∉ mp4Containers ∧ type ≠ b!"hdlr" ∧ (wide = false → 8 + body.length < 2 ^ 32)

/-- What may stand behind the complete boxes of a file: nothing, or a last box, neither a container nor a handler,
that extends to the end of the file or beyond. -/
inductive Mp4Tail : Bytes → Prop where
  | nothing : Mp4Tail []
  /-- size 0: the box extends to the end of the file, wherever that is -/
  | toEnd (type body : Bytes) (ht : type.length = 4) (hc : type ∉ mp4Containers) (hh : type ≠ b!"hdlr") :
    Mp4Tail (beBytes 4 0 ++ (type ++ body))
  /-- the box declares as many bytes as there are, or more, if the file is cut off -/
  | cut (size : Nat) (type body : Bytes) (ht : type.length = 4) (hc : type ∉ mp4Containers) (hh : type ≠ b!"hdlr")
      (hs : size < 2 ^ 32) (hl : 8 + body.length ≤ size) : Mp4Tail (beBytes 4 size ++ (type ++ body))
  /-- the same with a 64-bit size -/
  | cutWide (size : Nat) (type body : Bytes) (ht : type.length = 4) (hc : type ∉ mp4Containers) (hh : type ≠ b!"hdlr")
      (hs : size < 2 ^ 63) (hl : 16 + body.length ≤ size) :
    Mp4Tail (beBytes 4 1 ++ (type ++ (beBytes 8 size ++ body)))

/-- The box is a handler of one of the given types. -/
def Mp4Box.HandlerOf (types : List Bytes) : Mp4Box → Prop
  | .handler _ _ handlerType _ => handlerType ∈ types
  | _ => False

/-- The box has a 32-bit size. -/
def Mp4Box.Narrow : Mp4Box → Prop
  | .container wide _ _ => wide = false
  | .handler wide _ _ _ => wide = false
  | .other wide _ _ => wide = false

/-- The box has a 32-bit size or contains boxes. -/
def Mp4Box.NarrowOrContainer : Mp4Box → Prop
  | .container _ _ _ => True
  | .handler wide _ _ _ => wide = false
  | .other wide _ _ => wide = false

mutual
/-- The same box, with 32-bit sizes throughout. -/
def Mp4Box.narrow : Mp4Box → Mp4Box
  | .container _ type children => .container false type (Mp4Box.narrowAll children)
  | .handler _ fixed handlerType tail => .handler false fixed handlerType tail
  | .other _ type body => .other false type body
/-- The same boxes, with 32-bit sizes throughout. -/
def Mp4Box.narrowAll : List Mp4Box → List Mp4Box
  | [] => []
  | b :: bs => b.narrow :: Mp4Box.narrowAll bs
end

/-- The box has a 64-bit size and contains no boxes. -/
def Mp4Box.WideLeaf : Mp4Box → Prop
  | .container _ _ _ => False
  | .handler wide _ _ _ => wide = true
  | .other wide _ _ => wide = true

mutual
/-- Bytes of a box, with `stray b` behind every box `b` without boxes in it. -/
def Mp4Box.encodeStray (stray : Mp4Box → Bytes) : Mp4Box → Bytes
  | .container wide type children =>
    mp4Header wide type (Mp4Box.encodeAllStray stray children).length ++ Mp4Box.encodeAllStray stray children
  | .handler wide fixed handlerType tail =>
    (Mp4Box.handler wide fixed handlerType tail).encode ++ stray (.handler wide fixed handlerType tail)
  | .other wide type body => (Mp4Box.other wide type body).encode ++ stray (.other wide type body)
/-- Bytes of a sequence of boxes. -/
def Mp4Box.encodeAllStray (stray : Mp4Box → Bytes) : List Mp4Box → Bytes
  | [] => []
  | b :: bs => b.encodeStray stray ++ Mp4Box.encodeAllStray stray bs
end

/-- Eight stray bytes behind boxes with 64-bit sizes, none behind the others. -/
def Mp4StrayOk (stray : Mp4Box → Bytes) (b : Mp4Box) : Prop :=
  (b.WideLeaf → (stray b).length = 8) ∧ (b.NarrowOrContainer → stray b = [])

/-- The types fit, and the sizes fit their fields. -/
def Mp4WellFormedStray (stray : Mp4Box → Bytes) : Mp4Box → Prop
  | .container wide type children =>
    type ∈ mp4Containers ∧ (wide = false → 8 + (Mp4Box.encodeAllStray stray children).length < 2 ^ 32)
  | b => b.WellFormed

end FF.Spec
