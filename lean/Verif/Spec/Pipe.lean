import Verif.Spec.Device
import Verif.Spec.Families
/-!
# Specification: inputs that cannot seek

Pipes, FIFOs, sockets and terminals: `from_file("/dev/stdin")` or `from_file` of a FIFO succeeds in
opening them, and every `lseek` on them fails (`ESPIPE`).
-/

namespace FF.Spec

/-- Every seek fails. -/
def Unseekable {σ : Type} (D : Device σ) : Prop :=
  ∀ st p, ∃ e st', D.seek st p = (.error e, st')

/-- `st'` is reached from `st` by seeks alone: nothing is read. -/
inductive OnlySeeks {σ : Type} (D : Device σ) : σ → σ → Prop
  | refl (st : σ) : OnlySeeks D st st
  | step (st : σ) (p : SeekFrom) {st' : σ} (h : OnlySeeks D (D.seek st p).2 st') : OnlySeeks D st st'

/-- A pipe: the chunks its writer has still to deliver. A read gets bytes of one chunk. A seek fails
and leaves the pipe as it is. -/
def pipe : Device (List Bytes) where
  read := fun chunks n =>
    match chunks with
    | [] => (.ok [], [])
    | c :: cs => if c.length ≤ n then (.ok c, cs) else (.ok (c.take n), c.drop n :: cs)
  seek := fun chunks _ => (.error (.other 29), chunks)
  tell := fun chunks => (.error (.other 29), chunks)
  patience := fun _ => 0

open FileFormat in
/-- The verdict on an input that cannot seek: the reader of the signature verdict, if there is one
enabled, spoils it. -/
inductive PipeVerdict (ft : Features) (buf : Bytes) : FileFormat → Prop
  /-- No enabled reader takes part: the signature verdict. -/
  | signature {f : FileFormat} (hf : Recognised buf f)
      (h : ∀ g ∈ Feature.structured, g.enabled ft = true → f ≠ g.base) : PipeVerdict ft buf f
  /-- The reader that takes part cannot even begin. -/
  | spoilt (g : Feature) (hg : g ∈ Feature.structured) (he : g.enabled ft = true)
      (hf : Recognised buf g.base) : PipeVerdict ft buf ArbitraryBinaryData

end FF.Spec
