import Verif.Proofs.Realmedia
/-!
# RealMedia (C32)
-/

namespace FF.Props
open FF Spec FileFormat

/-- C32. With `reader-rm`, a RealMedia file is `Realvideo` if one of its first
`min 64 (numberOfHeaders - 1)` chunks describes a `video/` stream, else `Realaudio` if one describes
an `audio/` stream, else `Realmedia`; whatever the file header, the other chunks and the data after
these chunks contain. -/
theorem C32_realmedia (cfg : Cfg) (ft : Features) (header : Bytes) (n : Nat) (chunks : List RmChunk)
    (rest : Bytes) (hh : header.length = 14) (hn : n < 2 ^ 32) (hc : ∀ c ∈ chunks, c.Valid)
    (hk : chunks.length = min 64 (n - 1)) (hb : IsSlice (rmFile header n chunks rest))
    (hr : Recognised (rmFile header n chunks rest) Realmedia) (he : ft.rm = true) :
    ((∃ c ∈ chunks, c.HasMime b!"video/") →
      fromBytes cfg ft (rmFile header n chunks rest) = .ok Realvideo) ∧
    ((∃ c ∈ chunks, c.HasMime b!"audio/") → (∀ c ∈ chunks, ¬ c.HasMime b!"video/") →
      fromBytes cfg ft (rmFile header n chunks rest) = .ok Realaudio) ∧
    ((∀ c ∈ chunks, ¬ c.HasMime b!"audio/" ∧ ¬ c.HasMime b!"video/") →
      fromBytes cfg ft (rmFile header n chunks rest) = .ok Realmedia) := by
  classical
  have hb' : (rmFile header n chunks rest).length < 2 ^ 63 := hb
  have hrun := rmReader_run (2 ^ 64 - 1) header n chunks rest hh hn hk hc (by omega) 0
  have hv := recognised_verdict cfg ft _ hb .rm (by decide) he hr _ hrun
  rw [hv]
  unfold rmVerdict
  refine ⟨fun h => ?_, fun h1 h2 => ?_, fun h => ?_⟩
  · rw [if_pos (decide_eq_true h)]
  · rw [if_neg, if_pos (decide_eq_true h1)]
    rw [decide_eq_true_iff]
    rintro ⟨c, hc, h⟩
    exact h2 c hc h
  · rw [if_neg, if_neg]
    · rw [decide_eq_true_iff]
      rintro ⟨c, hc, h'⟩
      exact (h c hc).1 h'
    · rw [decide_eq_true_iff]
      rintro ⟨c, hc, h'⟩
      exact (h c hc).2 h'

/-- A properties chunk and an audio stream. -/
def sampleRm : List RmChunk :=
  [.other b!"PROP" (List.replicate 12 7),
   .mediaProperties (List.replicate 32 1) b!"stream" b!"audio/x-pn-realaudio" [1, 2, 3]]

-- Non-vacuity: hypotheses and conclusion.
example : (∀ c ∈ sampleRm, c.Valid) ∧ (∃ c ∈ sampleRm, c.HasMime b!"audio/") ∧
    (∀ c ∈ sampleRm, ¬ c.HasMime b!"video/") ∧
    Recognised (rmFile (b!".RMF\x00\x00\x00\x12" ++ List.replicate 6 0) 3 sampleRm [0]) Realmedia := by
  refine ⟨?_, ?_, ?_, by unfold Recognised; decide +kernel⟩
  rotate_left
  · exact ⟨.mediaProperties (List.replicate 32 1) b!"stream" b!"audio/x-pn-realaudio" [1, 2, 3],
      by simp [sampleRm], ⟨b!"x-pn-realaudio", rfl⟩⟩
  rotate_left
  · intro c hc
    simp only [sampleRm, List.mem_cons, List.not_mem_nil, or_false] at hc
    rcases hc with rfl | rfl
    · exact ⟨by decide, by decide, by decide⟩
    · exact ⟨by decide, by decide, by decide, by decide⟩
  · intro c hc
    simp only [sampleRm, List.mem_cons, List.not_mem_nil, or_false] at hc
    rcases hc with rfl | rfl
    · exact id
    · rintro ⟨r, hr⟩; simp at hr
example : fromBytes Cfg.release { rm := true } (rmFile (b!".RMF\x00\x00\x00\x12" ++ List.replicate 6 0) 3 sampleRm [0]) =
    .ok Realaudio := by decide +kernel

end FF.Props
