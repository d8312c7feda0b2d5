import Verif.Model.IO
/-!
# Specification: a stream without its failures
-/

namespace FF

/-- The events without the failures: an interrupted call is made again, a call that failed is served in full. -/
def mendEvents (es : List Ev) : List Ev :=
  es.filterMap fun e => match e with
    | .error .interrupted => none
    | .error _ => some .full
    | e => some e

/-- The same stream (content, position, cut reads), except that none of its calls fails. -/
def Src.mended (s : Src) : Src := { s with revs := mendEvents s.revs, sevs := s.sevs.map fun _ => none }

example : mendEvents [.short 3, .error .interrupted, .error (.other 5), .full] = [.short 3, .full, .full] := rfl

end FF
