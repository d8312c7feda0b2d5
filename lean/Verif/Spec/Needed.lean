import Verif.Spec.Longest
/-!
# Specification: magic values that are needed
-/

namespace FF.Spec
open FileFormat

/-- The magic value `alt` of `f` is needed: some input is reported as `f` (no reader enabled) and holds no other magic
value of `f`. Without `alt` in the table this input would be reported as something else (`C04`). -/
def NeededMagic (cfg : Cfg) (f : FileFormat) (alt : List Part) : Prop :=
  ∃ b, IsSlice b ∧ fromBytes cfg Features.none b = .ok f ∧ Carries b alt ∧
    ∀ alt', IsMagicOf f alt' → Carries b alt' → alt' = alt

/-- `alt` adds nothing to `alt'`: every input with `alt` has `alt'`. -/
def ImpliesMagic (alt alt' : List Part) : Prop := ∀ b, Carries b alt → Carries b alt'

/-- The magic values that are listed although a shorter one of the same format covers them:
`src/signatures.rs`, with the shorter one. -/
def coveredMagic : List (FileFormat × List Part × List Part) := [
  (ToolCommandLanguageScript, [⟨0, b!"#!/usr/local/bin/tclsh"⟩], [⟨0, b!"#!/usr/local/bin/tcl"⟩]),
  (ToolCommandLanguageScript, [⟨0, b!"#!/usr/bin/env tclsh"⟩], [⟨0, b!"#!/usr/bin/env tcl"⟩]),
  (ToolCommandLanguageScript, [⟨0, b!"#!/usr/bin/tclsh"⟩], [⟨0, b!"#!/usr/bin/tcl"⟩]),
  (ShoutcastPlaylist, [⟨0, b!"[playlist]\r\n"⟩], [⟨0, b!"[playlist]\r"⟩]),
  (InitialGraphicsExchangeSpecification, [⟨72, b!"S      1\r\n"⟩], [⟨72, b!"S      1\r"⟩]),
  (InitialGraphicsExchangeSpecification, [⟨72, b!"S0000001\r\n"⟩], [⟨72, b!"S0000001\r"⟩])]

end FF.Spec
