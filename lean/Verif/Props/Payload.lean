import Verif.Spec.Payload
import Verif.Props.Realmedia
import Verif.Props.Mp4
import Verif.Props.Ebml
import Verif.Props.Asf
import Verif.Props.Zip
/-!
# C45: payloads do not matter

Two files whose elements agree in what matters have the same verdict, whatever the rest of them contains and
how long it is, and whatever else the two builds enable.
-/

namespace FF.Props
open FF Spec FileFormat

theorem mp4_essence (bs : List Mp4Box) (t : Tracks) :
    bs.foldl mp4Step t = (bs.map Mp4Box.essence).foldl (fun t x => x.elim t (fun h => mp4Handler h t)) t := by
  rw [List.foldl_map]
  congr 1
  funext t b
  cases b <;> rfl

/-- C45 for MP4. -/
theorem C45_mp4 (cfg cfg' : Cfg) (ft ft' : Features) (boxes boxes' : List Mp4Box) (rest rest' : Bytes)
    (hb : ∀ b ∈ Mp4Box.visitAll boxes, b.WellFormed ∧ b.NarrowOrContainer)
    (hb' : ∀ b ∈ Mp4Box.visitAll boxes', b.WellFormed ∧ b.NarrowOrContainer)
    (hr : 256 ≤ (Mp4Box.visitAll boxes).length ∨ Mp4Tail rest)
    (hr' : 256 ≤ (Mp4Box.visitAll boxes').length ∨ Mp4Tail rest')
    (hs : IsSlice (Mp4Box.encodeAll boxes ++ rest)) (hs' : IsSlice (Mp4Box.encodeAll boxes' ++ rest'))
    (he : ft.mp4 = true) (he' : ft'.mp4 = true)
    (hrec : Recognised (Mp4Box.encodeAll boxes ++ rest) Mpeg4Part14)
    (hrec' : Recognised (Mp4Box.encodeAll boxes' ++ rest') Mpeg4Part14)
    (h : ((Mp4Box.visitAll boxes).take 256).map Mp4Box.essence = ((Mp4Box.visitAll boxes').take 256).map Mp4Box.essence) :
    fromBytes cfg ft (Mp4Box.encodeAll boxes ++ rest) = fromBytes cfg' ft' (Mp4Box.encodeAll boxes' ++ rest') := by
  rw [mp4_verdict cfg ft boxes rest hb hr hs he hrec, mp4_verdict cfg' ft' boxes' rest' hb' hr' hs' he' hrec',
    mp4_essence, mp4_essence, h]

theorem ebml_essence (es es' : List EbmlElement) (h : es.map EbmlElement.essence = es'.map EbmlElement.essence)
    (t : Tracks) : ebmlEval es t = ebmlEval es' t := by
  induction es generalizing es' t with
  | nil =>
    cases es' with
    | nil => rfl
    | cons => cases h
  | cons e es ih =>
    cases es' with
    | nil => cases h
    | cons e' es' =>
      simp only [List.map_cons, List.cons.injEq] at h
      obtain ⟨h1, h2⟩ := h
      have ih' := fun t => ih es' h2 t
      cases e <;> cases e' <;> cases h1 <;> simp only [ebmlEval, ih']

/-- C45 for EBML. -/
theorem C45_ebml (cfg cfg' : Cfg) (ft ft' : Features) (es es' : List EbmlElement) (rest rest' : Bytes)
    (hv : ∀ e ∈ es, e.Valid) (hv' : ∀ e ∈ es', e.Valid)
    (hr : 256 ≤ es.length ∨ EbmlTail rest ∨ ∃ e ∈ es, e.Stops)
    (hr' : 256 ≤ es'.length ∨ EbmlTail rest' ∨ ∃ e ∈ es', e.Stops)
    (hs : IsSlice (es.flatMap EbmlElement.encode ++ rest)) (hs' : IsSlice (es'.flatMap EbmlElement.encode ++ rest'))
    (he : ft.ebml = true) (he' : ft'.ebml = true)
    (hrec : Recognised (es.flatMap EbmlElement.encode ++ rest) ExtensibleBinaryMetaLanguage)
    (hrec' : Recognised (es'.flatMap EbmlElement.encode ++ rest') ExtensibleBinaryMetaLanguage)
    (h : (es.take 256).map EbmlElement.essence = (es'.take 256).map EbmlElement.essence) :
    fromBytes cfg ft (es.flatMap EbmlElement.encode ++ rest) =
      fromBytes cfg' ft' (es'.flatMap EbmlElement.encode ++ rest') := by
  have h1 : (es.flatMap EbmlElement.encode ++ rest).length < 2 ^ 63 := hs
  have h2 : (es'.flatMap EbmlElement.encode ++ rest').length < 2 ^ 63 := hs'
  rw [recognised_verdict cfg ft _ hs .ebml (by decide) he hrec _ (ebmlReader_run es rest hv h1 hr 0),
    recognised_verdict cfg' ft' _ hs' .ebml (by decide) he' hrec' _
      (ebmlReader_run es' rest' hv' h2 hr' 0), ebml_essence _ _ h]

theorem exists_essence {α β : Type} {ess : α → β} {P : β → Prop} {Q : α → Prop} (hPQ : ∀ a, Q a ↔ P (ess a))
    {l l' : List α} (h : l.map ess = l'.map ess) : (∃ a ∈ l, Q a) ↔ ∃ a ∈ l', Q a := by
  have key : ∀ l : List α, (∃ a ∈ l, Q a) ↔ ∃ b ∈ l.map ess, P b := by
    intro l
    constructor
    · rintro ⟨a, ha, hq⟩; exact ⟨ess a, List.mem_map.mpr ⟨a, ha, rfl⟩, (hPQ a).mp hq⟩
    · rintro ⟨b, hb, hp⟩
      obtain ⟨a, ha, rfl⟩ := List.mem_map.mp hb
      exact ⟨a, ha, (hPQ a).mpr hp⟩
  rw [key l, key l', h]

theorem forall_not {α : Type} {Q : α → Prop} {l : List α} : (∀ a ∈ l, ¬ Q a) ↔ ¬ ∃ a ∈ l, Q a := by
  constructor
  · rintro h ⟨a, ha, hq⟩; exact h a ha hq
  · intro h a ha hq; exact h ⟨a, ha, hq⟩

/-- C45 for ASF. -/
theorem C45_asf (cfg cfg' : Cfg) (ft ft' : Features) (head head' : Bytes) (count count' : Nat) (reserved reserved' : Bytes)
    (os os' : List AsfObject) (rest rest' : Bytes) (hh : head.length = 24) (hh' : head'.length = 24)
    (hn : count < 2 ^ 32) (hn' : count' < 2 ^ 32) (hres : reserved.length = 2) (hres' : reserved'.length = 2)
    (hk : os.length = min 256 count) (hk' : os'.length = min 256 count') (hv : ∀ o ∈ os, o.Valid) (hv' : ∀ o ∈ os', o.Valid)
    (hs : IsSlice (asfFile head count reserved os rest)) (hs' : IsSlice (asfFile head' count' reserved' os' rest'))
    (he : ft.asf = true) (he' : ft'.asf = true)
    (hrec : Recognised (asfFile head count reserved os rest) AdvancedSystemsFormat)
    (hrec' : Recognised (asfFile head' count' reserved' os' rest') AdvancedSystemsFormat)
    (h : os.map AsfObject.essence = os'.map AsfObject.essence) :
    fromBytes cfg ft (asfFile head count reserved os rest) = fromBytes cfg' ft' (asfFile head' count' reserved' os' rest') := by
  obtain ⟨a1, a2⟩ := C31_header_objects cfg ft head count reserved os rest hh hn hres hk hv hs he hrec
  obtain ⟨b1, b2⟩ := C31_header_objects cfg' ft' head' count' reserved' os' rest' hh' hn' hres' hk' hv' hs' he' hrec'
  have hdvr : (∃ o ∈ os, o.Dvr) ↔ ∃ o ∈ os', o.Dvr := by
    refine exists_essence (ess := AsfObject.essence) (P := fun x => match x with
      | .content ns => ∃ n ∈ ns.take 32, utf16le b!"DVR File Version" <+: n
      | _ => False) (fun o => ?_) h
    cases o with
    | stream => exact Iff.rfl
    | other => exact Iff.rfl
    | content ds tail =>
      simp only [AsfObject.Dvr, AsfObject.essence, ← List.map_take, List.mem_map, AsfDescriptor.IsDvr]
      constructor
      · rintro ⟨d, hd, hp⟩; exact ⟨_, ⟨d, hd, rfl⟩, hp⟩
      · rintro ⟨_, ⟨d, hd, rfl⟩, hp⟩; exact ⟨d, hd, hp⟩
  have hstream : ∀ g, (∃ o ∈ os, o.StreamOf g) ↔ ∃ o ∈ os', o.StreamOf g := by
    intro g
    refine exists_essence (ess := AsfObject.essence) (P := fun x => match x with
      | .stream t => t = g.bytes
      | _ => False) (fun o => ?_) h
    cases o <;> exact Iff.rfl
  by_cases hd : ∃ o ∈ os, o.Dvr
  · rw [a1 hd, b1 (hdvr.mp hd)]
  · obtain ⟨a3, a4, a5⟩ := a2 (forall_not.mpr hd)
    obtain ⟨b3, b4, b5⟩ := b2 (forall_not.mpr (fun hc => hd (hdvr.mpr hc)))
    by_cases hvid : ∃ o ∈ os, o.StreamOf asfVideoMedia
    · rw [a3 hvid, b3 ((hstream _).mp hvid)]
    · have hvid' : ¬ ∃ o ∈ os', o.StreamOf asfVideoMedia := fun hc => hvid ((hstream _).mpr hc)
      by_cases haud : ∃ o ∈ os, o.StreamOf asfAudioMedia
      · rw [a4 haud (forall_not.mpr hvid), b4 ((hstream _).mp haud) (forall_not.mpr hvid')]
      · have haud' : ¬ ∃ o ∈ os', o.StreamOf asfAudioMedia := fun hc => haud ((hstream _).mpr hc)
        rw [a5 (fun o ho => ⟨forall_not.mpr hvid o ho, forall_not.mpr haud o ho⟩),
          b5 (fun o ho => ⟨forall_not.mpr hvid' o ho, forall_not.mpr haud' o ho⟩)]

/-- C45 for RealMedia. -/
theorem C45_realmedia (cfg cfg' : Cfg) (ft ft' : Features) (header header' : Bytes) (n n' : Nat)
    (chunks chunks' : List RmChunk) (rest rest' : Bytes) (hh : header.length = 14) (hh' : header'.length = 14)
    (hn : n < 2 ^ 32) (hn' : n' < 2 ^ 32) (hc : ∀ c ∈ chunks, c.Valid) (hc' : ∀ c ∈ chunks', c.Valid)
    (hk : chunks.length = min 64 (n - 1)) (hk' : chunks'.length = min 64 (n' - 1))
    (hs : IsSlice (rmFile header n chunks rest)) (hs' : IsSlice (rmFile header' n' chunks' rest'))
    (he : ft.rm = true) (he' : ft'.rm = true) (hrec : Recognised (rmFile header n chunks rest) Realmedia)
    (hrec' : Recognised (rmFile header' n' chunks' rest') Realmedia)
    (h : chunks.map RmChunk.essence = chunks'.map RmChunk.essence) :
    fromBytes cfg ft (rmFile header n chunks rest) = fromBytes cfg' ft' (rmFile header' n' chunks' rest') := by
  obtain ⟨a1, a2, a3⟩ := C32_realmedia cfg ft header n chunks rest hh hn hc hk hs hrec he
  obtain ⟨b1, b2, b3⟩ := C32_realmedia cfg' ft' header' n' chunks' rest' hh' hn' hc' hk' hs' hrec' he'
  have hm : ∀ p, (∃ c ∈ chunks, c.HasMime p) ↔ ∃ c ∈ chunks', c.HasMime p := by
    intro p
    refine exists_essence (ess := RmChunk.essence) (P := fun x => match x with
      | some m => p <+: m
      | none => False) (fun c => ?_) h
    cases c <;> exact Iff.rfl
  by_cases hv : ∃ c ∈ chunks, c.HasMime b!"video/"
  · rw [a1 hv, b1 ((hm _).mp hv)]
  · have hv' : ¬ ∃ c ∈ chunks', c.HasMime b!"video/" := fun hc => hv ((hm _).mpr hc)
    by_cases ha : ∃ c ∈ chunks, c.HasMime b!"audio/"
    · rw [a2 ha (forall_not.mpr hv), b2 ((hm _).mp ha) (forall_not.mpr hv')]
    · have ha' : ¬ ∃ c ∈ chunks', c.HasMime b!"audio/" := fun hc => ha ((hm _).mpr hc)
      rw [a3 (fun c h => ⟨forall_not.mpr ha c h, forall_not.mpr hv c h⟩),
        b3 (fun c h => ⟨forall_not.mpr ha' c h, forall_not.mpr hv' c h⟩)]

theorem alike_decisive {file file' : Bytes} {e e' : ZipEntry} (h : e.Alike file file' e') :
    e.Decisive ↔ e'.Decisive := by
  unfold ZipEntry.Decisive
  rw [h.name, h.stored]

theorem alike_decides {file file' : Bytes} {e e' : ZipEntry} (h : e.Alike file file' e') (hd : e.Decisive) :
    ∃ f, e.Decides file f ∧ e'.Decides file' f := by
  rcases hd with ⟨f, hf⟩ | hm
  · exact ⟨f, .name hf, .name (h.name ▸ hf)⟩
  · obtain ⟨content, h1, h2, h3, h4⟩ := h.contents hm
    have hm' := h.stored.mp hm
    by_cases hc : ∃ f, MimeMeans content f
    · obtain ⟨f, hf⟩ := hc
      exact ⟨f, .mime hm h1 h3 hf, .mime hm' h2 h4 hf⟩
    · have hc' : ∀ f, ¬ MimeMeans content f := fun f hf => hc ⟨f, hf⟩
      exact ⟨Zip, .otherMime hm h1 h3 hc', .otherMime hm' h2 h4 hc'⟩

theorem zipAlike_split {file file' : Bytes} {es es' : List ZipEntry} (h : ZipAlike file file' es es') :
    ((∀ e ∈ es, ¬ e.Decisive) ∧ (∀ e ∈ es', ¬ e.Decisive)) ∨
    ∃ pre e post pre' e' post' f, es = pre ++ e :: post ∧ es' = pre' ++ e' :: post' ∧ (∀ x ∈ pre, ¬ x.Decisive) ∧
      (∀ x ∈ pre', ¬ x.Decisive) ∧ e.Decides file f ∧ e'.Decides file' f := by
  induction h with
  | nil => exact Or.inl ⟨by simp, by simp⟩
  | @cons e e' es es' hx ht ih =>
    by_cases hd : e.Decisive
    · obtain ⟨f, h1, h2⟩ := alike_decides hx hd
      exact Or.inr ⟨[], e, es, [], e', es', f, rfl, rfl, by simp, by simp, h1, h2⟩
    · have hd' : ¬ e'.Decisive := fun hc => hd ((alike_decisive hx).mpr hc)
      rcases ih with ⟨h1, h2⟩ | ⟨pre, y, post, pre', y', post', f, h1, h2, h3, h4, h5, h6⟩
      · exact Or.inl ⟨by simpa using ⟨hd, h1⟩, by simpa using ⟨hd', h2⟩⟩
      · exact Or.inr ⟨e :: pre, y, post, e' :: pre', y', post', f, by rw [h1]; rfl, by rw [h2]; rfl,
          by simpa using ⟨hd, h3⟩, by simpa using ⟨hd', h4⟩, h5, h6⟩

theorem zipAlike_names {file file' : Bytes} {es es' : List ZipEntry} (h : ZipAlike file file' es es') :
    es.map ZipEntry.name = es'.map ZipEntry.name := by
  induction h with
  | nil => rfl
  | cons hx _ ih => simp [hx.name, ih]

/-- C45 for ZIP: the stored files (but for a `mimetype` entry), the local headers, the other fields of the
directory, extra fields, comments and the end records do not matter. -/
theorem C45_zip (cfg cfg' : Cfg) (ft ft' : Features) (file file' : Bytes) (count count' : Nat) (es es' : List ZipEntry)
    (ha : IsArchive file count es) (ha' : IsArchive file' count' es') (he : ft.zip = true) (he' : ft'.zip = true)
    (hrec : Recognised file Zip) (hrec' : Recognised file' Zip) (h : ZipAlike file file' es es') :
    fromBytes cfg ft file = fromBytes cfg' ft' file' := by
  obtain ⟨a1, a2, a3⟩ := C25_first_decisive_entry cfg ft file count es ha he hrec
  obtain ⟨b1, b2, b3⟩ := C25_first_decisive_entry cfg' ft' file' count' es' ha' he' hrec'
  rcases zipAlike_split h with ⟨h1, h2⟩ | ⟨pre, y, post, pre', y', post', f, h1, h2, h3, h4, h5, h6⟩
  · have hm : (∃ e ∈ es, e.name = b!"META-INF/MANIFEST.MF") ↔ ∃ e ∈ es', e.name = b!"META-INF/MANIFEST.MF" :=
      exists_essence (ess := ZipEntry.name) (P := fun x => x = b!"META-INF/MANIFEST.MF") (fun _ => Iff.rfl) (zipAlike_names h)
    by_cases hx : ∃ e ∈ es, e.name = b!"META-INF/MANIFEST.MF"
    · rw [a2 h1 hx, b2 h2 (hm.mp hx)]
    · rw [a3 h1 (forall_not.mpr hx), b3 h2 (forall_not.mpr (fun hc => hx (hm.mpr hc)))]
  · rw [a1 pre y post f h1 h3 h5, b1 pre' y' post' f h2 h4 h6]

/-! ## Non-vacuity -/

-- The same tracks in files with other payloads.
example : ((Mp4Box.visitAll (sampleMp4 false false)).take 256).map Mp4Box.essence =
    ((Mp4Box.visitAll [.other false b!"ftyp" b!"isom....", .other false b!"mdat" b!"hdlr....vide", .other false b!"uuid" [],
      .container true b!"moov" [.container false b!"trak" [.container false b!"mdia"
        [.handler false b!"xxxxyyyy" b!"soun" []]]]]).take 256).map Mp4Box.essence := by
  simp [sampleMp4, Mp4Box.visitAll, Mp4Box.visit, Mp4Box.essence]
example : (sampleEbml b!"matroska" b!"A_VORBIS" 0).map EbmlElement.essence =
    [.container 4 0x1A45DFA3 1 100, .other 2 0x4287 2 b!"B\x82V_", .docType 3 b!"matroska", .container 4 0x18538067 1 0,
     .other 1 0xEC 1 b!"void", .container 4 0x1654AE6B 2 7, .container 1 0xAE 1 9, .other 1 0x73 1 [],
     .codecId 1 b!"A_VORBIS", .container 1 0xE0 4 2, .stereoMode 8 0, .cluster 1 5].map EbmlElement.essence := by decide
example : (sampleAsf b!"Year").map AsfObject.essence =
    [.other (List.replicate 16 9) [], .content [⟨utf16le b!"WM/Genre", [1, 1], []⟩, ⟨utf16le b!"Year", [0, 0], b!"DVR"⟩] [],
     .stream asfAudioMedia.bytes []].map AsfObject.essence := by decide
example : sampleRm.map RmChunk.essence =
    [.other b!"CONT" b!"video/", .mediaProperties (List.replicate 32 9) b!"video/" b!"audio/x-pn-realaudio" []].map
      RmChunk.essence := by decide
example : ZipAlike (sampleZip b!"a" b!"data") (sampleZip b!"a" b!"other data, longer")
    [sampleEntry b!"a" 4 0] [⟨b!"PK\x01\x02" ++ List.replicate 16 9, 7, 18, List.replicate 8 7, 5, b!"a", [], b!"mimetype"⟩] :=
  .cons ⟨rfl, ⟨fun h => absurd h.1 (by decide), fun h => absurd h.1 (by decide)⟩, fun h => absurd h.1 (by decide)⟩ .nil

end FF.Props
