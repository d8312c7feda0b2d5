import Verif.Proofs.Mp4
import Verif.Proofs.Mp4Stray
/-!
# MP4 files (C28, C29)
-/

namespace FF.Props
open FF Spec FileFormat

/-- The verdict that the handlers among the visited boxes call for. -/
def Mp4Expected (r : Except Fail FileFormat) (visited : List Mp4Box) : Prop :=
  ((∃ b ∈ visited, b.HandlerOf [b!"vide"]) → r = .ok Mpeg4Part14Video) ∧
  ((∃ b ∈ visited, b.HandlerOf [b!"soun"]) → (∀ b ∈ visited, ¬ b.HandlerOf [b!"vide"]) → r = .ok Mpeg4Part14Audio) ∧
  ((∃ b ∈ visited, b.HandlerOf [b!"sbtl", b!"subt", b!"text"]) →
    (∀ b ∈ visited, ¬ b.HandlerOf [b!"vide", b!"soun"]) → r = .ok Mpeg4Part14Subtitles) ∧
  ((∀ b ∈ visited, ¬ b.HandlerOf [b!"vide", b!"soun", b!"sbtl", b!"subt", b!"text"]) → r = .ok Mpeg4Part14)

theorem handlerOf_mono {l l' : List Bytes} (h : ∀ x ∈ l, x ∈ l') {b : Mp4Box} (hb : b.HandlerOf l) : b.HandlerOf l' := by
  cases b with
  | handler => exact h _ hb
  | container => exact hb
  | other => exact hb

theorem mp4Expected_verdict (bs : List Mp4Box) :
    Mp4Expected (.ok (mp4Verdict (bs.foldl mp4Step Tracks.none))) bs := by
  obtain ⟨hv, ha, hs⟩ := mp4_flags bs Tracks.none
  have e1 : Tracks.none.video = false := rfl
  have e2 : Tracks.none.audio = false := rfl
  have e3 : Tracks.none.subtitle = false := rfl
  rw [e1, Bool.false_eq_true, false_or] at hv
  rw [e2, Bool.false_eq_true, false_or] at ha
  rw [e3, Bool.false_eq_true, false_or] at hs
  unfold mp4Verdict
  refine ⟨fun h => ?_, fun h h1 => ?_, fun h h1 => ?_, fun h => ?_⟩
  · rw [if_pos (hv.mpr h)]
  · rw [if_neg (fun hc => by obtain ⟨b, hb, hh⟩ := hv.mp hc; exact h1 b hb hh), if_pos (ha.mpr h)]
  · rw [if_neg (fun hc => by obtain ⟨b, hb, hh⟩ := hv.mp hc; exact h1 b hb (handlerOf_mono (by simp) hh)),
      if_neg (fun hc => by obtain ⟨b, hb, hh⟩ := ha.mp hc; exact h1 b hb (handlerOf_mono (by simp) hh)),
      if_pos (hs.mpr h)]
  · rw [if_neg (fun hc => by obtain ⟨b, hb, hh⟩ := hv.mp hc; exact h b hb (handlerOf_mono (by simp) hh)),
      if_neg (fun hc => by obtain ⟨b, hb, hh⟩ := ha.mp hc; exact h b hb (handlerOf_mono (by simp) hh)),
      if_neg (fun hc => by obtain ⟨b, hb, hh⟩ := hs.mp hc; exact h b hb (handlerOf_mono (by
        intro x hx; simp only [List.mem_cons, List.not_mem_nil, or_false] at hx ⊢; exact Or.inr (Or.inr hx)) hh))]

theorem mp4_verdict (cfg : Cfg) (ft : Features) (boxes : List Mp4Box) (rest : Bytes)
    (hb : ∀ b ∈ Mp4Box.visitAll boxes, b.WellFormed ∧ b.NarrowOrContainer)
    (hr : 256 ≤ (Mp4Box.visitAll boxes).length ∨ Mp4Tail rest)
    (hs : IsSlice (Mp4Box.encodeAll boxes ++ rest)) (he : ft.mp4 = true)
    (hrec : Recognised (Mp4Box.encodeAll boxes ++ rest) Mpeg4Part14) :
    fromBytes cfg ft (Mp4Box.encodeAll boxes ++ rest) =
      .ok (mp4Verdict (((Mp4Box.visitAll boxes).take 256).foldl mp4Step Tracks.none)) :=
  recognised_verdict cfg ft _ hs .mp4 (by decide) he hrec _ (mp4Reader_run cfg boxes rest hb hs hr 0)

/-- C28. With `reader-mp4`, for every file made of boxes with 32-bit sizes, nested to any depth, the first
256 boxes in file order decide: video if one of them is a handler of type `vide`, else audio if one is
`soun`, else subtitles if one is `sbtl`, `subt` or `text`, else plain MP4; whatever all other boxes
contain. Behind these boxes there may be a last box that extends to the end of the file or, in a file that is cut
off, beyond it; if there are more than 256 boxes, anything may follow them. -/
theorem C28_handlers (cfg : Cfg) (ft : Features) (boxes : List Mp4Box) (rest : Bytes)
    (hb : ∀ b ∈ Mp4Box.visitAll boxes, b.WellFormed ∧ b.Narrow)
    (hr : 256 ≤ (Mp4Box.visitAll boxes).length ∨ Mp4Tail rest)
    (hs : IsSlice (Mp4Box.encodeAll boxes ++ rest)) (he : ft.mp4 = true)
    (hrec : Recognised (Mp4Box.encodeAll boxes ++ rest) Mpeg4Part14) :
    Mp4Expected (fromBytes cfg ft (Mp4Box.encodeAll boxes ++ rest)) ((Mp4Box.visitAll boxes).take 256) := by
  rw [mp4_verdict cfg ft boxes rest (fun b h => ⟨(hb b h).1, by
    have := (hb b h).2
    cases b with
    | container => exact trivial
    | handler => exact this
    | other => exact this⟩) hr hs he hrec]
  exact mp4Expected_verdict _

/-- A file type box, two free boxes and a movie with an audio track. -/
def sampleMp4 (wideMovie wideFree : Bool) : List Mp4Box :=
  [.other false b!"ftyp" b!"isom\x00\x00\x02\x00isomiso2",
   .other wideFree b!"free" b!"........",
   .other false b!"free" b!"........",
   .container wideMovie b!"moov"
    [.container wideMovie b!"trak" [.container false b!"mdia" [.handler false (List.replicate 8 0) b!"soun" b!"............Snd"]]]]

theorem sampleMp4_wellFormed (w : Bool) : ∀ b ∈ Mp4Box.visitAll (sampleMp4 w false), b.WellFormed ∧ b.NarrowOrContainer := by
  intro b hb
  simp only [sampleMp4, Mp4Box.visitAll, Mp4Box.visit, List.append_nil, List.cons_append, List.nil_append,
    List.mem_cons, List.not_mem_nil, or_false] at hb
  cases w
  all_goals
    rcases hb with rfl | rfl | rfl | rfl | rfl | rfl | rfl
    · exact ⟨⟨by decide, by decide, by decide, by decide⟩, rfl⟩
    · exact ⟨⟨by decide, by decide, by decide, by decide⟩, rfl⟩
    · exact ⟨⟨by decide, by decide, by decide, by decide⟩, rfl⟩
    · exact ⟨⟨by decide, fun _ => by decide +kernel⟩, trivial⟩
    · exact ⟨⟨by decide, fun _ => by decide +kernel⟩, trivial⟩
    · exact ⟨⟨by decide, fun _ => by decide +kernel⟩, trivial⟩
    · exact ⟨⟨by decide, by decide, fun _ => by decide +kernel⟩, rfl⟩

-- Non-vacuity.
example : ∀ b ∈ Mp4Box.visitAll (sampleMp4 false false), b.WellFormed ∧ b.Narrow := by
  intro b hb
  refine ⟨(sampleMp4_wellFormed false b hb).1, ?_⟩
  simp only [sampleMp4, Mp4Box.visitAll, Mp4Box.visit, List.append_nil, List.cons_append, List.nil_append,
    List.mem_cons, List.not_mem_nil, or_false] at hb
  rcases hb with rfl | rfl | rfl | rfl | rfl | rfl | rfl <;> rfl
example : Recognised (Mp4Box.encodeAll (sampleMp4 false false)) Mpeg4Part14 ∧
    fromBytes Cfg.release { mp4 := true } (Mp4Box.encodeAll (sampleMp4 false false)) = .ok Mpeg4Part14Audio := by
  unfold Recognised; decide +kernel
example : ∃ b ∈ (Mp4Box.visitAll (sampleMp4 false false)).take 256, b.HandlerOf [b!"soun"] :=
  ⟨.handler false (List.replicate 8 0) b!"soun" b!"............Snd", by
    simp [sampleMp4, Mp4Box.visitAll, Mp4Box.visit], by simp [Mp4Box.HandlerOf]⟩

-- A last box of size 0, one that is cut off after three bytes, and one with a 64-bit size that is not.
example : Mp4Tail ([0, 0, 0, 0] ++ b!"mdatabc") ∧ Mp4Tail ([0, 0, 0, 200] ++ b!"mdatabc") ∧
    Mp4Tail ([0, 0, 0, 1] ++ b!"mdat" ++ [0, 0, 0, 0, 0, 0, 0, 19] ++ b!"abc") :=
  ⟨.toEnd b!"mdat" b!"abc" rfl (by decide) (by decide), .cut 200 b!"mdat" b!"abc" rfl (by decide) (by decide) (by decide) (by decide),
    .cutWide 19 b!"mdat" b!"abc" rfl (by decide) (by decide) (by decide) (by decide)⟩
example : Recognised (Mp4Box.encodeAll (sampleMp4 false false) ++ ([0, 0, 0, 0] ++ b!"mdatabc")) Mpeg4Part14 ∧
    fromBytes Cfg.release { mp4 := true } (Mp4Box.encodeAll (sampleMp4 false false) ++ ([0, 0, 0, 0] ++ b!"mdatabc")) =
      .ok Mpeg4Part14Audio := by
  unfold Recognised; decide +kernel

/-! ## C29 -/

/-- C29, the full statement: the encoding of the sizes does not matter. -/
def C29_statement : Prop :=
  ∀ (cfg : Cfg) (ft : Features) (boxes : List Mp4Box),
    (∀ b ∈ Mp4Box.visitAll boxes, b.WellFormed) → (∀ b ∈ Mp4Box.visitAll (Mp4Box.narrowAll boxes), b.WellFormed) →
    IsSlice (Mp4Box.encodeAll boxes) → ft.mp4 = true →
    Recognised (Mp4Box.encodeAll boxes) Mpeg4Part14 →
    Recognised (Mp4Box.encodeAll (Mp4Box.narrowAll boxes)) Mpeg4Part14 →
    fromBytes cfg ft (Mp4Box.encodeAll boxes) = fromBytes cfg ft (Mp4Box.encodeAll (Mp4Box.narrowAll boxes))

theorem sampleMp4_wide (w : Bool) : ∀ b ∈ Mp4Box.visitAll (sampleMp4 false w), b.WellFormed := by
  intro b hb
  simp only [sampleMp4, Mp4Box.visitAll, Mp4Box.visit, List.append_nil, List.cons_append, List.nil_append,
    List.mem_cons, List.not_mem_nil, or_false] at hb
  rcases hb with rfl | rfl | rfl | rfl | rfl | rfl | rfl
  · exact ⟨by decide, by decide, by decide, by decide⟩
  · exact ⟨by decide, by decide, by decide, fun _ => by decide⟩
  · exact ⟨by decide, by decide, by decide, by decide⟩
  · exact ⟨by decide, fun _ => by decide +kernel⟩
  · exact ⟨by decide, fun _ => by decide +kernel⟩
  · exact ⟨by decide, fun _ => by decide +kernel⟩
  · exact ⟨by decide, by decide, fun _ => by decide +kernel⟩

/-- C29 is violated: behind a box with a 64-bit size (other than `moov`, `trak` and `mdia`) 8 bytes too
many are skipped. With a 64-bit size on its first `free` box the audio file above is no longer
recognised as such. -/
theorem C29_fails : ¬ C29_statement := by
  intro h
  have := h Cfg.release { mp4 := true } (sampleMp4 false true) (sampleMp4_wide true) (by
      have : Mp4Box.narrowAll (sampleMp4 false true) = sampleMp4 false false := by
        simp [sampleMp4, Mp4Box.narrowAll, Mp4Box.narrow]
      rw [this]
      exact sampleMp4_wide false) (by decide +kernel) rfl
    (by unfold Recognised; decide +kernel) (by unfold Recognised; decide +kernel)
  have h2 : fromBytes Cfg.release { mp4 := true } (Mp4Box.encodeAll (sampleMp4 false true)) ≠
      fromBytes Cfg.release { mp4 := true } (Mp4Box.encodeAll (Mp4Box.narrowAll (sampleMp4 false true))) := by
    decide +kernel
  exact h2 this

mutual
theorem visit_narrow : ∀ b : Mp4Box, b.narrow.visit = b.visit.map Mp4Box.narrow
  | .container _ _ children => by
    simp [Mp4Box.narrow, Mp4Box.visit, visitAll_narrowAll children]
  | .handler .. => by simp [Mp4Box.narrow, Mp4Box.visit]
  | .other .. => by simp [Mp4Box.narrow, Mp4Box.visit]
theorem visitAll_narrowAll : ∀ bs : List Mp4Box,
    Mp4Box.visitAll (Mp4Box.narrowAll bs) = (Mp4Box.visitAll bs).map Mp4Box.narrow
  | [] => by simp [Mp4Box.narrowAll, Mp4Box.visitAll]
  | b :: bs => by
    simp [Mp4Box.narrowAll, Mp4Box.visitAll, visit_narrow b, visitAll_narrowAll bs]
end

theorem mp4Step_narrow (t : Tracks) (b : Mp4Box) : mp4Step t b.narrow = mp4Step t b := by
  cases b <;> simp [Mp4Box.narrow, mp4Step]

/-- C29, as far as it holds: with 64-bit sizes only on `moov`, `trak` and `mdia` boxes, the verdict is the
one for the file with 32-bit sizes. -/
theorem C29_containers_partial (cfg : Cfg) (ft : Features) (boxes : List Mp4Box)
    (hb : ∀ b ∈ Mp4Box.visitAll boxes, b.WellFormed ∧ b.NarrowOrContainer)
    (hb' : ∀ b ∈ Mp4Box.visitAll (Mp4Box.narrowAll boxes), b.WellFormed)
    (hs : IsSlice (Mp4Box.encodeAll boxes)) (hs' : IsSlice (Mp4Box.encodeAll (Mp4Box.narrowAll boxes)))
    (he : ft.mp4 = true) (hrec : Recognised (Mp4Box.encodeAll boxes) Mpeg4Part14)
    (hrec' : Recognised (Mp4Box.encodeAll (Mp4Box.narrowAll boxes)) Mpeg4Part14) :
    fromBytes cfg ft (Mp4Box.encodeAll boxes) = fromBytes cfg ft (Mp4Box.encodeAll (Mp4Box.narrowAll boxes)) := by
  have h1 := mp4_verdict cfg ft boxes [] hb (Or.inr .nothing) (by rwa [List.append_nil]) he (by rwa [List.append_nil])
  have h2 := mp4_verdict cfg ft (Mp4Box.narrowAll boxes) [] (fun b h => ⟨hb' b h, by
      rw [visitAll_narrowAll] at h
      obtain ⟨b', _, rfl⟩ := List.mem_map.mp h
      cases b' <;> simp [Mp4Box.narrow, Mp4Box.NarrowOrContainer]⟩) (Or.inr .nothing) (by rwa [List.append_nil]) he
    (by rwa [List.append_nil])
  rw [List.append_nil] at h1 h2
  rw [h1, h2, visitAll_narrowAll, ← List.map_take, List.foldl_map]
  simp only [mp4Step_narrow]

/-- C29 for the usual case, a last box (`mdat`, say) with a 64-bit size: the verdict is the one for the file with a
32-bit size. -/
theorem C29_last_partial (cfg : Cfg) (ft : Features) (boxes : List Mp4Box) (type body : Bytes)
    (hb : ∀ b ∈ Mp4Box.visitAll boxes, b.WellFormed ∧ b.NarrowOrContainer)
    (hw : (Mp4Box.other false type body).WellFormed)
    (hs : IsSlice (Mp4Box.encodeAll boxes ++ (Mp4Box.other true type body).encode))
    (he : ft.mp4 = true) (hrec : Recognised (Mp4Box.encodeAll boxes ++ (Mp4Box.other true type body).encode) Mpeg4Part14)
    (hrec' : Recognised (Mp4Box.encodeAll boxes ++ (Mp4Box.other false type body).encode) Mpeg4Part14) :
    fromBytes cfg ft (Mp4Box.encodeAll boxes ++ (Mp4Box.other true type body).encode) =
      fromBytes cfg ft (Mp4Box.encodeAll boxes ++ (Mp4Box.other false type body).encode) := by
  obtain ⟨ht, hc, hh, hl⟩ := hw
  have hs1 : (Mp4Box.encodeAll boxes ++ (Mp4Box.other true type body).encode).length < 2 ^ 63 := hs
  have e1 : (Mp4Box.other true type body).encode = beBytes 4 1 ++ (type ++ (beBytes 8 (16 + body.length) ++ body)) := by
    simp only [Mp4Box.encode, mp4Header, if_true, List.append_assoc]
  have e2 : (Mp4Box.other false type body).encode = beBytes 4 (8 + body.length) ++ (type ++ body) := by
    simp only [Mp4Box.encode, mp4Header, Bool.false_eq_true, if_false, List.append_assoc]
  rw [mp4_verdict cfg ft boxes _ hb (.inr ?_) hs he hrec, mp4_verdict cfg ft boxes _ hb (.inr ?_) ?_ he hrec']
  · rw [e2]; exact .cut _ type body ht hc hh (hl rfl) (Nat.le_refl _)
  · show (_ : Bytes).length < 2 ^ 63
    rw [e1] at hs1
    rw [e2]
    simp only [List.length_append, length_beBytes] at hs1 ⊢
    omega
  · have := hl rfl
    rw [e1]; exact .cutWide _ type body ht hc hh (by omega) (Nat.le_refl _)

-- Non-vacuity.
example : Recognised (Mp4Box.encodeAll (sampleMp4 false false) ++ (Mp4Box.other true b!"mdat" b!"abc").encode) Mpeg4Part14 ∧
    fromBytes Cfg.release { mp4 := true } (Mp4Box.encodeAll (sampleMp4 false false) ++
      (Mp4Box.other true b!"mdat" b!"abc").encode) = .ok Mpeg4Part14Audio := by
  unfold Recognised; decide +kernel

-- Non-vacuity: 64-bit sizes on `moov` and `trak`.
example : (∀ b ∈ Mp4Box.visitAll (sampleMp4 true false), b.WellFormed ∧ b.NarrowOrContainer) ∧
    Recognised (Mp4Box.encodeAll (sampleMp4 true false)) Mpeg4Part14 ∧
    fromBytes Cfg.release { mp4 := true } (Mp4Box.encodeAll (sampleMp4 true false)) = .ok Mpeg4Part14Audio := by
  refine ⟨sampleMp4_wellFormed true, ?_⟩
  unfold Recognised; decide +kernel

/-- C29, what the code does with 64-bit sizes instead: exactly 8 bytes behind such a box (other than `moov`, `trak` and
`mdia`) are skipped as if they belonged to it. A file made of boxes with sizes of both kinds, nested to any depth, with
eight stray bytes behind each box with a 64-bit size, is classified by its handlers as C28 says. -/
theorem C29_stray_partial (cfg : Cfg) (ft : Features) (stray : Mp4Box → Bytes) (boxes : List Mp4Box) (rest : Bytes)
    (hb : ∀ b ∈ Mp4Box.visitAll boxes, Mp4WellFormedStray stray b ∧ Mp4StrayOk stray b)
    (hr : 256 ≤ (Mp4Box.visitAll boxes).length ∨ Mp4Tail rest)
    (hs : IsSlice (Mp4Box.encodeAllStray stray boxes ++ rest)) (he : ft.mp4 = true)
    (hrec : Recognised (Mp4Box.encodeAllStray stray boxes ++ rest) Mpeg4Part14) :
    Mp4Expected (fromBytes cfg ft (Mp4Box.encodeAllStray stray boxes ++ rest)) ((Mp4Box.visitAll boxes).take 256) := by
  rw [recognised_verdict cfg ft _ hs .mp4 (by decide) he hrec _ (mp4Reader_stray cfg boxes rest hb hs hr 0)]
  exact mp4Expected_verdict _

/-- Eight bytes behind boxes with 64-bit sizes. -/
def eightStray : Mp4Box → Bytes
  | .container _ _ _ => []
  | .handler wide _ _ _ => if wide = true then b!"8 stray!" else []
  | .other wide _ _ => if wide = true then b!"8 stray!" else []

theorem eightStray_ok (b : Mp4Box) : Mp4StrayOk eightStray b := by
  cases b with
  | container => exact ⟨fun h => h.elim, fun _ => rfl⟩
  | handler wide => cases wide <;> exact ⟨fun h => by cases h <;> rfl, fun h => by cases h <;> rfl⟩
  | other wide => cases wide <;> exact ⟨fun h => by cases h <;> rfl, fun h => by cases h <;> rfl⟩

-- Non-vacuity: the file of `C29_fails`, with eight more bytes behind its `free` box, is an audio file.
example : (∀ b ∈ Mp4Box.visitAll (sampleMp4 true true), Mp4WellFormedStray eightStray b ∧ Mp4StrayOk eightStray b) ∧
    Recognised (Mp4Box.encodeAllStray eightStray (sampleMp4 true true)) Mpeg4Part14 ∧
    fromBytes Cfg.release { mp4 := true } (Mp4Box.encodeAllStray eightStray (sampleMp4 true true)) = .ok Mpeg4Part14Audio := by
  refine ⟨?_, ?_⟩
  · intro b hb
    refine ⟨?_, eightStray_ok b⟩
    simp only [sampleMp4, Mp4Box.visitAll, Mp4Box.visit, List.append_nil, List.cons_append, List.nil_append,
      List.mem_cons, List.not_mem_nil, or_false] at hb
    rcases hb with rfl | rfl | rfl | rfl | rfl | rfl | rfl
    · exact ⟨by decide, by decide, by decide, by decide⟩
    · exact ⟨by decide, by decide, by decide, fun h => by cases h⟩
    · exact ⟨by decide, by decide, by decide, by decide⟩
    · exact ⟨by decide, fun h => by cases h⟩
    · exact ⟨by decide, fun h => by cases h⟩
    · exact ⟨by decide, fun _ => by decide +kernel⟩
    · exact ⟨by decide, by decide, fun _ => by decide +kernel⟩
  · unfold Recognised; decide +kernel

end FF.Props
