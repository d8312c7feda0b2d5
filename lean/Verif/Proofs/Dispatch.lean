import Verif.Props.Family
/-!
# From a recognised base format to the run of its reader
-/

namespace FF
open Spec FileFormat FF.Props

theorem recognised_reader (cfg : Cfg) (ft : Features) (b : Bytes) (hb : IsSlice b) (g : Feature)
    (hg : g ∈ Feature.structured) (he : g.enabled ft = true) (hr : Recognised b g.base) :
    fromBytes cfg ft b =
      orDefault (val (run b (2 ^ 64 - 1) (readerOf cfg g).2 0)) (idealGeneric ft b (2 ^ 64 - 1)) := by
  have hb' : b.length < 2 ^ 63 := hb
  exact fromBytes_reader cfg ft b (by omega) g hg he (signature_of_recognised (by omega) hg hr)

/-- The reader's verdict is the verdict. -/
theorem recognised_verdict (cfg : Cfg) (ft : Features) (b : Bytes) (hb : IsSlice b) (g : Feature)
    (hg : g ∈ Feature.structured) (he : g.enabled ft = true) (hr : Recognised b g.base) (f : FileFormat)
    (hv : val (run b (2 ^ 64 - 1) (readerOf cfg g).2 0) = .ok f) : fromBytes cfg ft b = .ok f := by
  rw [recognised_reader cfg ft b hb g hg he hr, hv]; rfl

/-- Without the feature the signature verdict stays. -/
theorem recognised_disabled (cfg : Cfg) (ft : Features) (b : Bytes) (hb : IsSlice b) (g : Feature)
    (hg : g ∈ Feature.structured) (he : g.enabled ft = false) (hr : Recognised b g.base) :
    fromBytes cfg ft b = .ok g.base := by
  have hb' : b.length < 2 ^ 63 := hb
  have hs := signature_of_recognised (by omega) hg hr
  cases fromBytes_outcome cfg ft b (by omega) with
  | empty hd hr' =>
    subst hd
    have hn : fromSignature [] = none := by decide +kernel
    rw [hn] at hs; cases hs
  | unknown hd hs' hr' => rw [hs'] at hs; cases hs
  | plain hd f hs' hn hr' => rw [hs'] at hs; cases hs; exact hr'
  | refined hd g' hg' he' hs' f hv hf hr' =>
    rw [hs'] at hs
    injection hs with hs
    rw [base_inj g' hg' g hg hs, he] at he'
    cases he'
  | failed hd g' hg' he' hs' e hv hr' =>
    rw [hs'] at hs
    injection hs with hs
    rw [base_inj g' hg' g hg hs, he] at he'
    cases he'
  | crashed hd g' hg' he' hs' x hx hv hr' =>
    rw [hs'] at hs
    injection hs with hs
    rw [base_inj g' hg' g hg hs, he] at he'
    cases he'

/-- The first 36870 bytes decide which base format is recognised. -/
theorem recognised_take {b b' : Bytes} (hb : IsSlice b) (hb' : IsSlice b')
    (h : b.take 36870 = b'.take 36870) (g : Feature) (hg : g ∈ Feature.structured)
    (hr : Recognised b g.base) : Recognised b' g.base := by
  have h1 : b.length < 2 ^ 63 := hb
  have h2 : b'.length < 2 ^ 63 := hb'
  have hs := signature_of_recognised (by omega) hg hr
  refine recognised_of_signature (by omega) ?_
  rw [← fromSignature_take b' 36870 (by decide), ← h, fromSignature_take b 36870 (by decide), hs]

end FF
