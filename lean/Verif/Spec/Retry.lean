import Verif.Model.IO
/-!
# Specification: a stream without its interruptions
-/

namespace FF

/-- The events without the interruptions. -/
def calmEvents (es : List Ev) : List Ev := es.filter (fun e => decide (e ≠ .error .interrupted))

/-- The same stream (content, position, cut reads, failures of all other kinds), except that no `read`
call answers `Err(Interrupted)`: each such answer is taken out of the schedule. -/
def Src.uninterrupted (s : Src) : Src := { s with revs := calmEvents s.revs }

end FF
