import Verif.Model.Display
/-!
# Specification: padded text

The documentation of `std::fmt` on the fill, alignment, width and precision of strings.
-/

namespace FF.Spec

/-- `out` is `text` under these options: the first `precision` characters of it, and around them as many fill characters
as it takes to make `width` characters; all of them behind the text if it is left-aligned, as strings are by default,
all before it if it is right-aligned, and half of them (rounded down) before it if it is centred. -/
def Padded (o : FmtOptions) (text out : List Char) : Prop :=
  ∃ shown before behind, (match o.precision with | some p => shown = text.take p | none => shown = text) ∧
    out = List.replicate before o.fill ++ shown ++ List.replicate behind o.fill ∧
    before + behind = (match o.width with | some w => w - shown.length | none => 0) ∧
    (match o.align with
      | none | some .left => before = 0
      | some .right => behind = 0
      | some .center => before = (before + behind) / 2)

end FF.Spec
