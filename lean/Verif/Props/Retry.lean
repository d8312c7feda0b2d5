import Verif.Proofs.Retry
import Verif.Props.Stream
/-!
# C65: an interrupted call is retried
-/

namespace FF.Props
open FileFormat Spec

/-- C65 as one would wish it: `ErrorKind::Interrupted` means "try again", so a stream and the same
stream without its interruptions give the same outcome. -/
def C65_statement : Prop :=
  ∀ (cfg : Cfg) (ft : Features) (s : Src), s.WF → IsSlice s.data →
    (fromReader cfg ft s).1 = (fromReader cfg ft s.uninterrupted).1

/-- C65 does not hold: an interruption of the very first call is handed to the caller. -/
theorem C65_fails : ¬ C65_statement := by
  intro h
  have := h Cfg.release Features.none
    { cursor (b!"\x89PNG\r\n\x1a\n") with revs := [.error .interrupted] }
    ⟨by decide, by decide⟩ (by decide)
  revert this
  decide +kernel

/-- Nor does it for the later calls: the PDF, SQLite and XML readers give up on an interruption, and
another verdict comes out. -/
theorem C65_interrupted_readers :
    (fromReader Cfg.release { xml := true }
      { cursor (b!"<?xml version=\"1.0\"?><svg>") with revs := [.full, .error .interrupted] }).1 =
        .ok ArbitraryBinaryData ∧
    (fromReader Cfg.release { xml := true } (cursor (b!"<?xml version=\"1.0\"?><svg>"))).1 =
        .ok ScalableVectorGraphics ∧
    (fromReader Cfg.release Features.all
      { cursor (b!"%PDF-1.4\n") with revs := [.full, .error .interrupted] }).1 = .ok PlainText ∧
    (fromReader Cfg.release Features.all (cursor (b!"%PDF-1.4\n"))).1 = .ok PortableDocumentFormat ∧
    (fromReader Cfg.release { sqlite3 := true }
      { cursor (b!"SQLite format 3\x00" ++ List.replicate 84 0 ++ b!"com.bohemiancoding.sketch3") with
        revs := [.full, .error .interrupted] }).1 = .ok ArbitraryBinaryData ∧
    (fromReader Cfg.release { sqlite3 := true }
      (cursor (b!"SQLite format 3\x00" ++ List.replicate 84 0 ++ b!"com.bohemiancoding.sketch3"))).1 = .ok Sketch := by
  decide +kernel

/-- C65, the part that holds: on every stream (its other calls may be cut short or fail in any way,
at any point) whose first call is not the one interrupted, the interruptions do not change the
outcome, unless the first call delivers the magic of PDF, SQLite or XML and the reader of that format
is enabled. -/
theorem C65_interruptions_retried_partial (cfg : Cfg) (ft : Features) (s : Src) (hs : s.WF)
    (hl : IsSlice s.data) (hfirst : s.revs.head? ≠ some (.error .interrupted))
    (hf : ∀ buf, (s.read 36870).1 = .ok buf →
      ∀ f ∈ [Feature.pdf, .sqlite3, .xml], f.enabled ft = true → ¬ Recognised buf f.base) :
    (fromReader cfg ft s).1 = (fromReader cfg ft s.uninterrupted).1 := by
  have hl' : s.data.length < 2 ^ 63 := hl
  have hc : s.Calmed s.uninterrupted := ⟨rfl, rfl, rfl, rfl, rfl⟩
  rw [fromReader_eq2, fromReader_eq2]
  obtain ⟨hle, hwf, hr⟩ := Src.read_spec s 36870 hs
  rcases Src.read_calmed hc 36870 with ⟨x, h1, _, _⟩ | ⟨r, x, y, h1, h2, h3, _⟩
  · exfalso
    apply hfirst
    obtain ⟨data, pos, maxPos, revs, sevs, log⟩ := s
    rcases revs with _ | ⟨_ | _ | e, es⟩
    · cases h1
    · cases h1
    · cases h1
    · cases h1; rfl
  · rw [h1] at hle hwf hr hf
    rw [h1, h2]
    simp only at hwf hr hf
    cases r with
    | error e => rfl
    | ok buf =>
      simp only
      refine (afterRead_calmed cfg ft buf hwf h3 ?_).symm
      intro f hfs he hsig
      by_cases hb : f.bareRead = true
      · exfalso
        have hlen : buf.length < 2 ^ 64 := by
          have h7 : buf.length ≤ 36870 := by
            have := (Src.read_calmed hc 36870)
            rcases this with ⟨x', h1', _⟩ | ⟨r', x', y', h1', _, _, _, _, _, h7⟩
            · rw [h1] at h1'; cases h1'
            · rw [h1] at h1'; cases h1'; exact h7 _ rfl
          omega
        refine bareRead_iff (ft := ft) (d := buf) hlen (hf buf rfl) ⟨f, hfs, hb, he, ?_⟩
        rw [fromSignature_take buf _ (Nat.le_refl _)]
        exact hsig
      · exact Bool.eq_false_iff.mpr hb

/-- An ID3v2 tag before FLAC data on a stream that interrupts, cuts short, and whose fourth answer
is a failure. -/
def brokenDrip : Src :=
  { cursor (b!"ID3\x04\x00\x00\x00\x00\x00\x00fLaC\x00\x00\x00\x00\x00\x00\x00") with
    revs := [.full, .error .interrupted, .short 0, .error .interrupted, .error (.other 5),
      .error .interrupted, .short 0] }

-- Non-vacuity: the hypotheses hold of `brokenDrip`, where the failure (not the interruptions) has the
-- last word, and of `drip`, where the interruptions go unnoticed.
example : brokenDrip.WF ∧ IsSlice brokenDrip.data ∧
    brokenDrip.revs.head? ≠ some (.error .interrupted) ∧
    (∀ buf, (brokenDrip.read 36870).1 = .ok buf →
      ∀ f ∈ [Feature.pdf, .sqlite3, .xml], f.enabled Features.all = true → ¬ Recognised buf f.base) := by
  refine ⟨⟨by decide, by decide⟩, by decide, by decide, ?_⟩
  intro buf h
  have : (brokenDrip.read 36870).1 = .ok brokenDrip.data := by decide +kernel
  rw [this] at h
  cases h
  unfold Recognised
  decide +kernel
example : (fromReader Cfg.release Features.all brokenDrip).1 = .ok ArbitraryBinaryData ∧
    (fromReader Cfg.release Features.all brokenDrip.uninterrupted).1 = .ok ArbitraryBinaryData ∧
    (fromReader Cfg.release Features.all drip).1 = .ok FreeLosslessAudioCodec ∧
    (fromReader Cfg.release Features.all drip.uninterrupted).1 = .ok FreeLosslessAudioCodec := by
  decide +kernel

end FF.Props
