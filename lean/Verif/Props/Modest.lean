import Verif.Proofs.Same2
import Verif.Props.Family
import Verif.Props.Stream
import Verif.Props.Total
/-!
# C02, C42: what remains when declared sizes stay below 2^62
-/

namespace FF.Props
open FF FileFormat Spec

theorem same_reader (cfg cfg' : Cfg) (ft : Features) {b : Bytes} {m m' : Nat} (hb : b.length < 2 ^ 62) (hmod : ModestFields ft b)
    (h1 : 2 ^ 63 - 1 ≤ m) (h2 : 2 ^ 63 - 1 ≤ m') (g : Feature) (he : g.enabled ft = true) (hr : Recognised b g.base) :
    Same b m m' (readerOf cfg g).2 (readerOf cfg' g).2 0 := by
  cases g with
  | asf => exact same_asf cfg cfg' hb (hmod.asf he hr) h1 h2 _
  | cfb => exact same_cfb (by omega) (by omega) _
  | ebml => exact same_ebml hb (by omega) (by omega) _
  | exe => exact same_exe (by omega) (by omega) _
  | id3v2 => exact same_id3v2 cfg cfg' (by omega) (by omega) (by omega) _
  | mp4 => exact same_mp4 cfg cfg' hb (hmod.mp4 he hr) h1 h2 _
  | pdf => exact same_pdf (by omega) (by omega) _
  | rm => exact same_rm (by omega) (by omega) _
  | sqlite3 => exact same_sqlite3 (by omega) (by omega) _
  | txt => exact FF.same_txt _
  | xml => exact same_xml (by omega) (by omega) _
  | zip => exact same_zip cfg cfg' hb (hmod.zip he hr) h1 h2 _

/-- Neither the offset limit of the stream nor the build profile matters. -/
theorem ideal_same (cfg cfg' : Cfg) (ft : Features) {b : Bytes} {m m' : Nat} (hb : b.length < 2 ^ 62) (hmod : ModestFields ft b)
    (h1 : 2 ^ 63 - 1 ≤ m) (h2 : 2 ^ 63 - 1 ≤ m') : ideal cfg ft b m = ideal cfg' ft b m' := by
  have hg : idealGeneric ft b m = idealGeneric ft b m' := by
    unfold idealGeneric
    rw [show run b m txtReader 0 = run b m' txtReader 0 from FF.same_txt 0]
  unfold ideal
  split
  · rfl
  · rw [fromSignature_take b bufferSize (Nat.le_refl _)]
    cases hs : fromSignature b with
    | none => exact hg
    | some fmt =>
      simp only
      by_cases h : ∃ f ∈ Feature.structured, fmt = f.base
      · obtain ⟨f, hf, rfl⟩ := h
        rw [fmtReader_base _ _ _ hf, fmtReader_base _ _ _ hf]
        by_cases he : f.enabled ft = true
        · have hsm := same_reader cfg cfg' ft hb hmod h1 h2 f he (recognised_of_signature (by omega) hs)
          unfold Same at hsm
          rw [if_pos he, if_pos he]
          simp only [hsm, hg]
        · rw [if_neg he, if_neg he]
      · have hn : ∀ c, fmtReader c ft fmt = none := by
          intro c
          rcases fmtReader_cases c ft fmt with hn | ⟨f, hf, _, hfmt, _⟩
          · exact hn
          · exact absurd ⟨f, hf, hfmt⟩ h
        rw [hn, hn]

/-- C02, all but fields of 2^62 and more: a build with overflow checks returns the format the release build returns. -/
theorem C02_modest_partial (ft : Features) (b : Bytes) (hb : b.length < 2 ^ 62) (hmod : ModestFields ft b) :
    ∃ f, fromBytes Cfg.debug ft b = .ok f ∧ fromBytes Cfg.release ft b = .ok f := by
  obtain ⟨f, hf⟩ := C01_from_bytes_total ft b (by unfold IsSlice; omega)
  refine ⟨f, ?_, hf⟩
  rw [← hf, fromBytes_ideal _ _ _ (by omega), fromBytes_ideal _ _ _ (by omega)]
  exact ideal_same _ _ _ hb hmod (by omega) (by omega)

/-- C42, all but fields of 2^62 and more: the verdict on a regular file is the one on its content in memory. -/
theorem C42_modest_partial {Path : Type} (cfg : Cfg) (ft : Features) (b : Bytes) (hb : b.length < 2 ^ 62) (hmod : ModestFields ft b)
    (s : Src) (hs : RegularFile s b) (fs : FileSystem Path) (p : Path) (hfs : fs p = .ok s) :
    fromFile cfg ft fs p = fromBytes cfg ft b := by
  have hm := hs.maxPos
  have hd := hs.data
  unfold fromFile
  rw [hfs]
  show (fromReader cfg ft s).1 = _
  rw [fromReader_window cfg ft s ⟨by rw [hd, hm]; omega, by rw [hs.pos]; omega⟩ hs.calm.benign (perfect_window hs.pos hs.calm _)
    (fun _ => hs.calm), fromBytes_ideal _ _ _ (by omega), hd]
  exact ideal_same _ _ _ hb hmod (by omega) (by omega)

/-! ## Non-vacuity -/

/-- An MP4 file with a box that has a 64-bit size. -/
def mp4WideBox : Bytes := [0, 0, 0, 12] ++ b!"ftypisom" ++ [0, 0, 0, 1] ++ b!"free" ++ [0, 0, 0, 0, 0, 0, 0, 16]

theorem mp4WideBox_small : SmallBoxes mp4WideBox := by
  have h : ∀ p, Mp4BoxAt mp4WideBox p → p = 0 ∨ p = 12 ∨ p = 36 := by
    intro p hp
    induction hp with
    | first => exact Or.inl rfl
    | next _ ih =>
      rcases ih with rfl | rfl | rfl
      · exact Or.inr (Or.inl (by decide))
      · exact Or.inr (Or.inr (by decide))
      · exact Or.inr (Or.inr (by decide))
  intro p hp hl hw
  rcases h p hp with rfl | rfl | rfl
  · exact absurd hw (by decide)
  · decide
  · exact absurd hl (by decide)

example : ModestFields Features.all mp4WideBox :=
  ⟨fun _ hr => absurd hr (by unfold Recognised; decide +kernel), fun _ _ => mp4WideBox_small,
    fun _ hr => absurd hr (by unfold Recognised; decide +kernel)⟩
example : fromBytes Cfg.debug Features.all mp4WideBox = .ok Mpeg4Part14 := by decide +kernel

-- The witnesses of the violations do not have modest fields.
example : ¬ SmallBoxes mp4Overflow := fun h => absurd (h 12 (Mp4BoxAt.next (p := 0) .first) (by decide) (by decide)) (by decide)
example : ¬ SmallObjects asfOverflow := fun h => absurd (h 30 .first (by decide)) (by decide)
example : ¬ SmallZip64 zipOverflow := fun h => absurd (h 4 (by decide) (by decide)).1 (by decide)

end FF.Props
