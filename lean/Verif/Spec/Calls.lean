import Verif.Spec.Stream
/-!
# Specification: counting calls

The stream logs every call made on it (`Src.log`); its schedule (`Src.revs`) lists what the next
`read` calls do.
-/

namespace FF

/-- The number of events of a kind. -/
def load (bad : Ev → Bool) (l : List Ev) : Nat := l.countP bad

/-- A read served short or refused. -/
def Ev.disturbed : Ev → Bool
  | .full => false
  | _ => true

/-- A read that was interrupted. -/
def Ev.isInterrupt : Ev → Bool
  | .error e => e = .interrupted
  | _ => false

/-- How many of the scheduled reads fall short or fail. -/
def Src.disturbances (s : Src) : Nat := load Ev.disturbed s.revs

/-- How many of the scheduled reads are interrupted. -/
def Src.interruptions (s : Src) : Nat := load Ev.isInterrupt s.revs

/-- `calls` are the calls made on the stream between `s` and `s'`, the latest first. -/
def CallsBetween (s s' : Src) (calls : List Call) : Prop := s'.log = calls ++ s.log

end FF
