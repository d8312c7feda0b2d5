import Verif.Model.IO
/-!
# Specification: kinds of streams

Hypotheses on streams used in the statements.
-/

namespace FF

/-- No read event is a failure other than `Interrupted`, and no seek fails. -/
structure Src.Benign (s : Src) : Prop where
  reads : ∀ e, Ev.error e ∈ s.revs → e = .interrupted
  seeks : ∀ e, e ∈ s.sevs → e = none

/-- The stream supports every offset within its content, and its position. -/
structure Src.WF (s : Src) : Prop where
  len : s.data.length ≤ s.maxPos
  pos : s.pos ≤ s.maxPos

/-- All calls are served in full. -/
structure Src.Calm (s : Src) : Prop where
  reads : ∀ e, e ∈ s.revs → e = .full
  seeks : ∀ e, e ∈ s.sevs → e = none

/-- The stream's calls never fail; reads may return any non-zero number of bytes. -/
structure Src.NoFail (s : Src) : Prop where
  reads : ∀ e, Ev.error e ∉ s.revs
  seeks : ∀ e, e ∈ s.sevs → e = none

/-- The very first `read` call on the stream is served in full. -/
def Src.FirstReadFull (s : Src) : Prop := s.revs.head? = none ∨ s.revs.head? = some .full

end FF
