import Verif.Spec.Rearrange
import Verif.Props.Payload
/-!
# C53, C54: the order of the parts of a file, and padding
-/

namespace FF.Props
open FF Spec FileFormat

/-! ## C53: tracks and streams -/

theorem mp4_rearranged {bs bs' : List Mp4Box} (h : Mp4Rearranged bs bs') (ts : List Bytes) :
    (∃ b ∈ Mp4Box.visitAll bs, b.HandlerOf ts) ↔ ∃ b ∈ Mp4Box.visitAll bs', b.HandlerOf ts := by
  have app : ∀ l l' : List Mp4Box, (∃ b ∈ l ++ l', b.HandlerOf ts) ↔ (∃ b ∈ l, b.HandlerOf ts) ∨ ∃ b ∈ l', b.HandlerOf ts := by
    intro l l'
    constructor
    · rintro ⟨b, hb, hh⟩
      rcases List.mem_append.mp hb with hb | hb
      · exact Or.inl ⟨b, hb, hh⟩
      · exact Or.inr ⟨b, hb, hh⟩
    · rintro (⟨b, hb, hh⟩ | ⟨b, hb, hh⟩)
      · exact ⟨b, List.mem_append_left _ hb, hh⟩
      · exact ⟨b, List.mem_append_right _ hb, hh⟩
  induction h with
  | refl => exact Iff.rfl
  | swap x y l =>
    simp only [Mp4Box.visitAll, app]
    exact ⟨fun h => by rcases h with h | h | h <;> simp [h], fun h => by rcases h with h | h | h <;> simp [h]⟩
  | insert wide type body l =>
    simp only [Mp4Box.visitAll, Mp4Box.visit, app]
    exact ⟨Or.inr, fun h => h.elim (fun ⟨b, hb, hh⟩ => by rw [List.mem_singleton.mp hb] at hh; exact hh.elim) id⟩
  | cons x h ih => simp only [Mp4Box.visitAll, app, ih]
  | @inside wide wide' type l cs cs' h ih =>
    have key : ∀ w (cs : List Mp4Box), (∃ b ∈ (Mp4Box.container w type cs).visit, b.HandlerOf ts) ↔
        ∃ b ∈ Mp4Box.visitAll cs, b.HandlerOf ts := by
      intro w cs
      simp only [Mp4Box.visit, List.mem_cons]
      constructor
      · rintro ⟨b, rfl | hb, hh⟩
        · exact hh.elim
        · exact ⟨b, hb, hh⟩
      · rintro ⟨b, hb, hh⟩; exact ⟨b, Or.inr hb, hh⟩
    simp only [Mp4Box.visitAll, app, key, ih]
  | symm h ih => exact ih.symm
  | trans h h' ih ih' => exact ih.trans ih'

/-- C53 for MP4: for files of at most 256 boxes, the order of boxes and tracks, at all levels, and boxes without a
meaning, such as `free`, make no difference. -/
theorem C53_mp4 (cfg cfg' : Cfg) (ft ft' : Features) (boxes boxes' : List Mp4Box) (rest rest' : Bytes)
    (hb : ∀ b ∈ Mp4Box.visitAll boxes, b.WellFormed ∧ b.NarrowOrContainer)
    (hb' : ∀ b ∈ Mp4Box.visitAll boxes', b.WellFormed ∧ b.NarrowOrContainer)
    (hn : (Mp4Box.visitAll boxes).length ≤ 256) (hn' : (Mp4Box.visitAll boxes').length ≤ 256)
    (hr : Mp4Tail rest) (hr' : Mp4Tail rest')
    (hs : IsSlice (Mp4Box.encodeAll boxes ++ rest)) (hs' : IsSlice (Mp4Box.encodeAll boxes' ++ rest'))
    (he : ft.mp4 = true) (he' : ft'.mp4 = true)
    (hrec : Recognised (Mp4Box.encodeAll boxes ++ rest) Mpeg4Part14)
    (hrec' : Recognised (Mp4Box.encodeAll boxes' ++ rest') Mpeg4Part14)
    (h : Mp4Rearranged boxes boxes') :
    fromBytes cfg ft (Mp4Box.encodeAll boxes ++ rest) = fromBytes cfg' ft' (Mp4Box.encodeAll boxes' ++ rest') := by
  rw [mp4_verdict cfg ft boxes rest hb (Or.inr hr) hs he hrec, mp4_verdict cfg' ft' boxes' rest' hb' (Or.inr hr') hs' he' hrec',
    List.take_of_length_le hn, List.take_of_length_le hn']
  have h1 := mp4_flags (Mp4Box.visitAll boxes) Tracks.none
  have h2 := mp4_flags (Mp4Box.visitAll boxes') Tracks.none
  simp only [mp4_rearranged h] at h1
  have : (Mp4Box.visitAll boxes).foldl mp4Step Tracks.none = (Mp4Box.visitAll boxes').foldl mp4Step Tracks.none := by
    generalize (Mp4Box.visitAll boxes).foldl mp4Step Tracks.none = t at *
    generalize (Mp4Box.visitAll boxes').foldl mp4Step Tracks.none = t' at *
    obtain ⟨a, v, s⟩ := t
    obtain ⟨a', v', s'⟩ := t'
    rw [Tracks.mk.injEq]
    exact ⟨Bool.eq_iff_iff.mpr (h1.2.1.trans h2.2.1.symm), Bool.eq_iff_iff.mpr (h1.1.trans h2.1.symm),
      Bool.eq_iff_iff.mpr (h1.2.2.trans h2.2.2.symm)⟩
  rw [this]

theorem ebmlCodec_comm (u v : Bytes) (t : Tracks) : ebmlCodec u (ebmlCodec v t) = ebmlCodec v (ebmlCodec u t) := by
  unfold ebmlCodec
  cases startsWith u b!"A_" <;> cases startsWith u b!"V_" <;> cases startsWith u b!"S_" <;>
    cases startsWith v b!"A_" <;> cases startsWith v b!"V_" <;> cases startsWith v b!"S_" <;> rfl

theorem ebml_rearranged {es es' : List EbmlElement}
    (h : Rearranged (fun x y => x.Movable ∧ y.Movable) EbmlElement.IsOther es es') (t : Tracks) :
    ebmlEval es t = ebmlEval es' t := by
  induction h generalizing t with
  | refl => rfl
  | swap x y l h =>
    obtain ⟨hx, hy⟩ := h
    cases x <;> cases y <;> first | exact hx.elim | exact hy.elim | skip
    all_goals simp only [ebmlEval]
    case codecId.codecId => rw [ebmlCodec_comm]
    case stereoMode.stereoMode =>
      split <;> split <;> rfl
  | insert x l h =>
    cases x <;> first | exact h.elim | rfl
  | cons x h ih => cases x <;> simp only [ebmlEval, ih]
  | symm h ih => exact (ih t).symm
  | trans h h' ih ih' => exact (ih t).trans (ih' t)

/-- C53 for Matroska: for files of at most 256 elements, the order of the elements other than DocType and clusters
(so the order of the tracks), and elements without a meaning, such as Void, make no difference. -/
theorem C53_ebml (cfg cfg' : Cfg) (ft ft' : Features) (es es' : List EbmlElement) (rest rest' : Bytes)
    (hv : ∀ e ∈ es, e.Valid) (hv' : ∀ e ∈ es', e.Valid) (hn : es.length ≤ 256) (hn' : es'.length ≤ 256)
    (hr : EbmlTail rest ∨ ∃ e ∈ es, e.Stops) (hr' : EbmlTail rest' ∨ ∃ e ∈ es', e.Stops)
    (hs : IsSlice (es.flatMap EbmlElement.encode ++ rest)) (hs' : IsSlice (es'.flatMap EbmlElement.encode ++ rest'))
    (he : ft.ebml = true) (he' : ft'.ebml = true)
    (hrec : Recognised (es.flatMap EbmlElement.encode ++ rest) ExtensibleBinaryMetaLanguage)
    (hrec' : Recognised (es'.flatMap EbmlElement.encode ++ rest') ExtensibleBinaryMetaLanguage)
    (h : Rearranged (fun x y => x.Movable ∧ y.Movable) EbmlElement.IsOther es es') :
    fromBytes cfg ft (es.flatMap EbmlElement.encode ++ rest) =
      fromBytes cfg' ft' (es'.flatMap EbmlElement.encode ++ rest') := by
  have h1 : (es.flatMap EbmlElement.encode ++ rest).length < 2 ^ 63 := hs
  have h2 : (es'.flatMap EbmlElement.encode ++ rest').length < 2 ^ 63 := hs'
  rw [recognised_verdict cfg ft _ hs .ebml (by decide) he hrec _ (ebmlReader_run es rest hv h1 (Or.inr hr) 0),
    recognised_verdict cfg' ft' _ hs' .ebml (by decide) he' hrec' _
      (ebmlReader_run es' rest' hv' h2 (Or.inr hr') 0), List.take_of_length_le hn, List.take_of_length_le hn',
    ebml_rearranged h]

/-- What some element has is not changed by a rearrangement. -/
theorem rearranged_exists {α : Type} {Free : α → α → Prop} {Inert Q : α → Prop} (hi : ∀ x, Inert x → ¬ Q x) {l l' : List α}
    (h : Rearranged Free Inert l l') : (∃ a ∈ l, Q a) ↔ ∃ a ∈ l', Q a := by
  induction h with
  | refl => exact Iff.rfl
  | swap x y l h => simp only [List.mem_cons, exists_eq_or_imp]; exact or_left_comm
  | insert x l h => simp only [List.mem_cons, exists_eq_or_imp]; exact ⟨Or.inr, fun h' => h'.elim (fun hq => (hi x h hq).elim) id⟩
  | cons x h ih => simp only [List.mem_cons, exists_eq_or_imp, ih]
  | symm h ih => exact ih.symm
  | trans h h' ih ih' => exact ih.trans ih'

/-- C53 for ASF: for headers of at most 256 objects, their order, and objects without a meaning, such as padding
objects, make no difference. -/
theorem C53_asf (cfg cfg' : Cfg) (ft ft' : Features) (head head' reserved reserved' : Bytes)
    (os os' : List AsfObject) (rest rest' : Bytes) (hh : head.length = 24) (hh' : head'.length = 24)
    (hres : reserved.length = 2) (hres' : reserved'.length = 2) (hn : os.length ≤ 256) (hn' : os'.length ≤ 256)
    (hv : ∀ o ∈ os, o.Valid) (hv' : ∀ o ∈ os', o.Valid)
    (hs : IsSlice (asfFile head os.length reserved os rest)) (hs' : IsSlice (asfFile head' os'.length reserved' os' rest'))
    (he : ft.asf = true) (he' : ft'.asf = true)
    (hrec : Recognised (asfFile head os.length reserved os rest) AdvancedSystemsFormat)
    (hrec' : Recognised (asfFile head' os'.length reserved' os' rest') AdvancedSystemsFormat)
    (h : Rearranged (fun _ _ => True) AsfObject.IsOther os os') :
    fromBytes cfg ft (asfFile head os.length reserved os rest) =
      fromBytes cfg' ft' (asfFile head' os'.length reserved' os' rest') := by
  obtain ⟨a1, a2⟩ := C31_header_objects cfg ft head _ reserved os rest hh (by omega) hres (by omega) hv hs he hrec
  obtain ⟨b1, b2⟩ := C31_header_objects cfg' ft' head' _ reserved' os' rest' hh' (by omega) hres' (by omega) hv' hs' he' hrec'
  have hdvr := rearranged_exists (Q := AsfObject.Dvr) (fun x hx => by cases x <;> first | exact hx.elim | exact id) h
  have hstream := fun g => rearranged_exists (Q := AsfObject.StreamOf g) (fun x hx => by cases x <;> first | exact hx.elim | exact id) h
  by_cases hd : ∃ o ∈ os, o.Dvr
  · rw [a1 hd, b1 (hdvr.mp hd)]
  · obtain ⟨a3, a4, a5⟩ := a2 (forall_not.mpr hd)
    obtain ⟨b3, b4, b5⟩ := b2 (forall_not.mpr (fun hc => hd (hdvr.mpr hc)))
    by_cases hvid : ∃ o ∈ os, o.StreamOf asfVideoMedia
    · rw [a3 hvid, b3 ((hstream _).mp hvid)]
    · have hvid' : ¬ ∃ o ∈ os', o.StreamOf asfVideoMedia := fun hc => hvid ((hstream _).mpr hc)
      by_cases haud : ∃ o ∈ os, o.StreamOf asfAudioMedia
      · rw [a4 haud (forall_not.mpr hvid), b4 ((hstream _).mp haud) (forall_not.mpr hvid')]
      · have haud' : ¬ ∃ o ∈ os', o.StreamOf asfAudioMedia := fun hc => haud ((hstream _).mpr hc)
        rw [a5 (fun o ho => ⟨forall_not.mpr hvid o ho, forall_not.mpr haud o ho⟩),
          b5 (fun o ho => ⟨forall_not.mpr hvid' o ho, forall_not.mpr haud' o ho⟩)]

/-- C53 for RealMedia: for files of at most 64 chunks behind the file header, their order, and chunks that do not
describe a stream, make no difference. -/
theorem C53_realmedia (cfg cfg' : Cfg) (ft ft' : Features) (header header' : Bytes)
    (chunks chunks' : List RmChunk) (rest rest' : Bytes) (hh : header.length = 14) (hh' : header'.length = 14)
    (hc : ∀ c ∈ chunks, c.Valid) (hc' : ∀ c ∈ chunks', c.Valid) (hn : chunks.length ≤ 64) (hn' : chunks'.length ≤ 64)
    (hs : IsSlice (rmFile header (1 + chunks.length) chunks rest))
    (hs' : IsSlice (rmFile header' (1 + chunks'.length) chunks' rest'))
    (he : ft.rm = true) (he' : ft'.rm = true) (hrec : Recognised (rmFile header (1 + chunks.length) chunks rest) Realmedia)
    (hrec' : Recognised (rmFile header' (1 + chunks'.length) chunks' rest') Realmedia)
    (h : Rearranged (fun _ _ => True) RmChunk.IsOther chunks chunks') :
    fromBytes cfg ft (rmFile header (1 + chunks.length) chunks rest) =
      fromBytes cfg' ft' (rmFile header' (1 + chunks'.length) chunks' rest') := by
  obtain ⟨a1, a2, a3⟩ := C32_realmedia cfg ft header _ chunks rest hh (by omega) hc (by omega) hs hrec he
  obtain ⟨b1, b2, b3⟩ := C32_realmedia cfg' ft' header' _ chunks' rest' hh' (by omega) hc' (by omega) hs' hrec' he'
  have hm := fun p => rearranged_exists (Q := RmChunk.HasMime p) (fun x hx => by cases x <;> first | exact hx.elim | exact id) h
  by_cases hv : ∃ c ∈ chunks, c.HasMime b!"video/"
  · rw [a1 hv, b1 ((hm _).mp hv)]
  · have hv' : ¬ ∃ c ∈ chunks', c.HasMime b!"video/" := fun hc => hv ((hm _).mpr hc)
    by_cases ha : ∃ c ∈ chunks, c.HasMime b!"audio/"
    · rw [a2 ha (forall_not.mpr hv), b2 ((hm _).mp ha) (forall_not.mpr hv')]
    · have ha' : ¬ ∃ c ∈ chunks', c.HasMime b!"audio/" := fun hc => ha ((hm _).mpr hc)
      rw [a3 (fun c h => ⟨forall_not.mpr ha c h, forall_not.mpr hv c h⟩),
        b3 (fun c h => ⟨forall_not.mpr ha' c h, forall_not.mpr hv' c h⟩)]

/-! ### Non-vacuity -/

/-- A movie with a sound and a text track, in this order or the other one. -/
def twoTracks (swapped padded : Bool) : List Mp4Box :=
  let track := fun t => Mp4Box.container false b!"trak" [.container false b!"mdia" [.handler false (List.replicate 8 0) t b!"...."]]
  [.other false b!"ftyp" b!"isom\x00\x00\x02\x00isomiso2"] ++ (if padded then [.other false b!"free" b!"hdlr"] else []) ++
  [.container false b!"moov" (if swapped then [track b!"text", track b!"soun"] else [track b!"soun", track b!"text"])]

example : (∀ s p, ∀ b ∈ Mp4Box.visitAll (twoTracks s p), b.WellFormed ∧ b.NarrowOrContainer) ∧
    (∀ s p, (Mp4Box.visitAll (twoTracks s p)).length ≤ 256) ∧
    (∀ s p, Recognised (Mp4Box.encodeAll (twoTracks s p) ++ []) Mpeg4Part14) ∧
    Mp4Rearranged (twoTracks false false) (twoTracks true true) ∧
    fromBytes Cfg.release { mp4 := true } (Mp4Box.encodeAll (twoTracks true true)) = .ok Mpeg4Part14Audio := by
  refine ⟨?_, ?_, ?_, .cons _ ((Mp4Rearranged.insert false b!"free" b!"hdlr" _).trans (.cons _ (.inside _ _ _ _ (.swap _ _ _)))),
    by decide +kernel⟩
  · intro s p b hb
    cases s <;> cases p <;>
    · simp only [twoTracks, Mp4Box.visitAll, Mp4Box.visit, List.append_nil, List.cons_append, List.nil_append,
        List.mem_cons, List.not_mem_nil, or_false, if_true, Bool.false_eq_true, if_false] at hb
      rcases hb with rfl | hb
      · exact ⟨⟨by decide, by decide, by decide, by decide⟩, rfl⟩
      repeat' (rcases hb with rfl | hb)
      all_goals first
        | exact ⟨⟨by decide, by decide, by decide, by decide⟩, rfl⟩
        | exact ⟨⟨by decide, by decide +kernel⟩, trivial⟩
        | exact ⟨⟨by decide, by decide, by decide⟩, rfl⟩
        | (subst hb; exact ⟨⟨by decide, by decide, by decide⟩, rfl⟩)
  · intro s p; cases s <;> cases p <;> decide +kernel
  · intro s p; unfold Recognised; cases s <;> cases p <;> decide +kernel

-- The tracks of a Matroska file, in another order and with a Void element (0xEC).
example : Rearranged (fun x y => x.Movable ∧ y.Movable) EbmlElement.IsOther
    [.container 4 0x1A45DFA3 1 11, .docType 1 b!"matroska", .codecId 1 b!"A_VORBIS", .codecId 1 b!"V_VP9", .cluster 1 5]
    [.container 4 0x1A45DFA3 1 11, .docType 1 b!"matroska", .other 1 0xEC 1 b!"....", .codecId 1 b!"V_VP9",
      .codecId 1 b!"A_VORBIS", .cluster 1 5] :=
  .cons _ (.cons _ ((Rearranged.insert _ _ trivial).trans (.cons _ (.swap _ _ _ ⟨trivial, trivial⟩))))

-- The objects of an ASF header.
example : Rearranged (fun _ _ => True) AsfObject.IsOther
    [.stream asfAudioMedia.bytes b!"1", .stream asfVideoMedia.bytes b!"2"]
    [.stream asfVideoMedia.bytes b!"2", .other (List.replicate 16 7) b!"padding", .stream asfAudioMedia.bytes b!"1"] :=
  (Rearranged.swap _ _ _ trivial).trans (.cons _ (.insert _ _ trivial))

-- The chunks of a RealMedia file.
example : Rearranged (fun _ _ => True) RmChunk.IsOther sampleRm sampleRm.tail :=
  (Rearranged.insert _ _ trivial).symm

/-! ## C54: entries of an archive -/

open Classical in
theorem zip_rearranged {es es' : List ZipEntry} (h : Rearranged (fun x y => ¬ (x.Decisive ∧ y.Decisive))
    (fun x => ¬ x.Decisive ∧ x.name ≠ b!"META-INF/MANIFEST.MF") es es') :
    es.find? (fun e => e.Decisive) = es'.find? (fun e => e.Decisive) := by
  induction h with
  | refl => rfl
  | swap x y l h =>
    by_cases hx : x.Decisive <;> by_cases hy : y.Decisive
    · exact (h ⟨hx, hy⟩).elim
    all_goals simp [List.find?_cons, hx, hy]
  | insert x l h => simp [List.find?_cons, h.1]
  | cons x h ih => simp only [List.find?_cons, ih]
  | symm h ih => exact ih.symm
  | trans h h' ih ih' => exact ih.trans ih'

/-- C54. The English claim: the verdict does not depend on the order of the entries of an archive of at most 1024
entries. -/
def C54_statement : Prop :=
  ∀ (cfg : Cfg) (ft : Features) (file file' : Bytes) (es es₁ es' : List ZipEntry),
    IsArchive file es.length es → IsArchive file' es'.length es' → es.length ≤ 1024 → es'.length ≤ 1024 →
    ft.zip = true → Recognised file Zip → Recognised file' Zip →
    Rearranged (fun _ _ => True) (fun x => ¬ x.Decisive ∧ x.name ≠ b!"META-INF/MANIFEST.MF") es es₁ →
    ZipAlike file file' es₁ es' → fromBytes cfg ft file = fromBytes cfg ft file'

/-- C54. It holds if entries that settle the format, if there are several, keep their order. All other entries may
be inserted (but for a Java manifest), removed and moved, and the archive may be rewritten around them (`ZipAlike`). -/
theorem C54_order_partial (cfg cfg' : Cfg) (ft ft' : Features) (file file' : Bytes) (es es₁ es' : List ZipEntry)
    (ha : IsArchive file es.length es) (ha' : IsArchive file' es'.length es') (he : ft.zip = true) (he' : ft'.zip = true)
    (hrec : Recognised file Zip) (hrec' : Recognised file' Zip)
    (h : Rearranged (fun x y => ¬ (x.Decisive ∧ y.Decisive))
      (fun x => ¬ x.Decisive ∧ x.name ≠ b!"META-INF/MANIFEST.MF") es es₁) (h' : ZipAlike file file' es₁ es') :
    fromBytes cfg ft file = fromBytes cfg' ft' file' := by
  classical
  obtain ⟨a1, a2, a3⟩ := C25_first_decisive_entry cfg ft file _ es ha he hrec
  obtain ⟨b1, b2, b3⟩ := C25_first_decisive_entry cfg' ft' file' _ es' ha' he' hrec'
  have hf := zip_rearranged h
  rcases zipAlike_split h' with ⟨h1, h2⟩ | ⟨pre, y, post, pre', y', post', f, h1, h2, h3, h4, h5, h6⟩
  · have h0 : ∀ e ∈ es, ¬ e.Decisive := by
      rw [List.find?_eq_none (l := es₁).mpr (fun x hx => by simpa using h1 x hx)] at hf
      intro e hm hd
      have := List.find?_eq_none.mp hf e hm
      simp [hd] at this
    have hm : (∃ e ∈ es, e.name = b!"META-INF/MANIFEST.MF") ↔ ∃ e ∈ es', e.name = b!"META-INF/MANIFEST.MF" :=
      (rearranged_exists (Q := fun e => e.name = b!"META-INF/MANIFEST.MF") (fun x hx => hx.2) h).trans
      (exists_essence (ess := ZipEntry.name) (P := fun x => x = b!"META-INF/MANIFEST.MF") (fun _ => Iff.rfl) (zipAlike_names h'))
    by_cases hx : ∃ e ∈ es, e.name = b!"META-INF/MANIFEST.MF"
    · rw [a2 h0 hx, b2 h2 (hm.mp hx)]
    · rw [a3 h0 (forall_not.mpr hx), b3 h2 (forall_not.mpr (fun hc => hx (hm.mpr hc)))]
  · have hy : y.Decisive := by
      cases h5 with
      | name h => exact Or.inl ⟨_, h⟩
      | mime h => exact Or.inr h
      | otherMime h => exact Or.inr h
    have : es₁.find? (fun e => e.Decisive) = some y := by
      rw [h1, List.find?_eq_some_iff_append]
      exact ⟨by simpa using hy, pre, post, rfl, fun a ha => by simpa using h3 a ha⟩
    rw [this, List.find?_eq_some_iff_append] at hf
    obtain ⟨_, p, q, hpq, hp⟩ := hf
    rw [a1 p y q f hpq (fun x hx => by simpa using hp x hx) h5, b1 pre' y' post' f h2 h4 h6]

/-- An archive with two entries whose directory lists them in this order or the other. -/
def zipOfTwo (swapped : Bool) (first second : Bytes × Bytes) : List ZipEntry :=
  let a := sampleEntry first.1 first.2.length 0
  let b := sampleEntry second.1 second.2.length (sampleLocal first.1 first.2).length
  if swapped then [b, a] else [a, b]

/-- Its bytes. -/
def zipOfTwoFile (swapped : Bool) (first second : Bytes × Bytes) : Bytes :=
  let locals := sampleLocal first.1 first.2 ++ sampleLocal second.1 second.2
  locals ++ ((zipOfTwo swapped first second).flatMap ZipEntry.encode ++ (b!"PK\x05\x06" ++ (List.replicate 6 0 ++
    (leBytes 2 2 ++ (List.replicate 4 0 ++ (leBytes 4 locals.length ++ leBytes 2 0))))))

/-- The media type that Adobe AIR installers start with. -/
def airType : Bytes := b!"application/vnd.adobe.air-application-installer-package+zip"

/-- An Adobe AIR installer: a stored `mimetype` entry and the description of the application. -/
def airParts : (Bytes × Bytes) × (Bytes × Bytes) := ((b!"mimetype", airType), (b!"META-INF/AIR/application.xml", b!"<xml>"))

theorem air_archive (s : Bool) : IsArchive (zipOfTwoFile s airParts.1 airParts.2) 2 (zipOfTwo s airParts.1 airParts.2) := by
  refine ⟨by cases s <;> decide +kernel, ?_, by cases s <;> rfl, _, _, rfl, ?_⟩
  · intro e he
    cases s <;>
    · simp only [zipOfTwo, if_true, Bool.false_eq_true, if_false, List.mem_cons, List.not_mem_nil, or_false] at he
      rcases he with rfl | rfl <;>
      exact ⟨by decide, by decide, by decide, by decide, by decide +kernel, by decide, by decide, by decide⟩
  · have := ZipEnd.classic (sampleLocal airParts.1.1 airParts.1.2 ++ sampleLocal airParts.2.1 airParts.2.2 ++
        (zipOfTwo s airParts.1 airParts.2).flatMap ZipEntry.encode) (List.replicate 6 0)
      (List.replicate 4 0) (leBytes 2 0) 2 (sampleLocal airParts.1.1 airParts.1.2 ++ sampleLocal airParts.2.1 airParts.2.2).length
      (by decide) (by decide +kernel) rfl rfl (by decide) (by decide +kernel) (noLocator _ (by cases s <;> decide +kernel))
    rw [List.append_assoc] at this
    exact this

/-- C54 is false in general: an Adobe AIR installer is reported as a plain ZIP file if its `mimetype` entry is listed
first, as it should be, and as an installer if it is listed last. -/
theorem C54_fails : ¬ C54_statement := by
  intro h
  have halike : ∀ e e', e ∈ zipOfTwo false airParts.1 airParts.2 → e' = e →
      e.Alike (zipOfTwoFile false airParts.1 airParts.2) (zipOfTwoFile true airParts.1 airParts.2) e' := by
    rintro e _ he rfl
    refine ⟨rfl, Iff.rfl, fun hm => ⟨airType, ?_⟩⟩
    simp only [zipOfTwo, Bool.false_eq_true, if_false, List.mem_cons, List.not_mem_nil, or_false] at he
    rcases he with rfl | rfl
    · refine ⟨rfl, rfl, ?_⟩
      constructor
      · exact StoredAt.intro [] (b!"PK\x03\x04" ++ List.replicate 22 0) b!"mimetype" b!"xtra" _ rfl (by decide) (by decide) (by decide)
      · exact StoredAt.intro [] (b!"PK\x03\x04" ++ List.replicate 22 0) b!"mimetype" b!"xtra" _ rfl (by decide) (by decide) (by decide)
    · exact absurd hm.1 (by decide)
  have := h Cfg.release { zip := true } (zipOfTwoFile false airParts.1 airParts.2) (zipOfTwoFile true airParts.1 airParts.2)
    (zipOfTwo false airParts.1 airParts.2) (zipOfTwo true airParts.1 airParts.2) (zipOfTwo true airParts.1 airParts.2)
    (air_archive false) (air_archive true) (by decide) (by decide) rfl (by unfold Recognised; decide +kernel)
    (by unfold Recognised; decide +kernel) (.swap _ _ _ trivial)
    (.cons (halike _ _ (by simp [zipOfTwo]) rfl) (.cons (halike _ _ (by simp [zipOfTwo]) rfl) .nil))
  have h2 : fromBytes Cfg.release { zip := true } (zipOfTwoFile false airParts.1 airParts.2) = .ok Zip ∧
      fromBytes Cfg.release { zip := true } (zipOfTwoFile true airParts.1 airParts.2) = .ok AdobeIntegratedRuntime := by
    constructor <;> decide +kernel
  rw [h2.1, h2.2] at this
  cases this

-- Non-vacuity: an entry that settles the format and one that does not change places.
example : Rearranged (fun x y => ¬ (x.Decisive ∧ y.Decisive)) (fun x => ¬ x.Decisive ∧ x.name ≠ b!"META-INF/MANIFEST.MF")
    (zipOfTwo false (b!"META-INF/MANIFEST.MF", b!"1") (b!"doc.kml", b!"2"))
    (zipOfTwo true (b!"META-INF/MANIFEST.MF", b!"1") (b!"doc.kml", b!"2")) := by
  refine .swap _ _ _ (fun ⟨h, _⟩ => ?_)
  rcases h with ⟨f, hf⟩ | hm
  · have := (zipName_iff b!"META-INF/MANIFEST.MF" f).mpr hf
    rw [show zipName (decodeLossy b!"META-INF/MANIFEST.MF") = none by decide +kernel] at this
    cases this
  · exact absurd hm.1 (by decide)

end FF.Props
