import Verif.Proofs.Profile
import Verif.Props.Total
/-!
# Debug and release builds (C46)
-/

namespace FF.Props
open FF FileFormat Spec

/-- C46. On every stream (any content, position, offset limit, short reads, interruptions, failures) a build
with overflow checks either panics, or returns what the release build returns and leaves the stream in the
same state, having made the same calls. -/
theorem C46_stream (ft : Features) (s : Src) :
    (fromReader Cfg.debug ft s).1 = .error .panic ∨ fromReader Cfg.debug ft s = fromReader Cfg.release ft s :=
  fromReader_profile ft s

/-- C46 for `from_bytes`. -/
theorem C46_bytes (ft : Features) (b : Bytes) :
    fromBytes Cfg.debug ft b = .error .panic ∨ fromBytes Cfg.debug ft b = fromBytes Cfg.release ft b := by
  unfold fromBytes fromSlice
  rcases fromReader_profile ft (cursor b) with h | h
  · left; rw [h]
  · right; rw [h]

/-- C46 for `from_file`. -/
theorem C46_file {Path : Type} (ft : Features) (fs : FileSystem Path) (p : Path) :
    fromFile Cfg.debug ft fs p = .error .panic ∨ fromFile Cfg.debug ft fs p = fromFile Cfg.release ft fs p := by
  unfold fromFile
  cases fs p with
  | error e => exact .inr rfl
  | ok s =>
    rcases fromReader_profile ft s with h | h
    · exact .inl h
    · exact .inr (by simp only [h])

/-- C46. So a verdict of a debug build is the verdict of the release build. -/
theorem C46_verdict (ft : Features) (b : Bytes) (f : FileFormat) (h : fromBytes Cfg.debug ft b = .ok f) :
    fromBytes Cfg.release ft b = .ok f := by
  rcases C46_bytes ft b with h' | h'
  · rw [h] at h'; cases h'
  · rw [← h', h]

-- Both cases occur: a panic, and the same verdict.
example : fromBytes Cfg.debug { zip := true } zipOverflow = .error .panic := C02_zip_panics
example : fromBytes Cfg.debug { xml := true } (b!"<?xml version=\"1.0\"?><svg>") = .ok ScalableVectorGraphics ∧
    fromBytes Cfg.release { xml := true } (b!"<?xml version=\"1.0\"?><svg>") = .ok ScalableVectorGraphics := by
  decide +kernel

end FF.Props
