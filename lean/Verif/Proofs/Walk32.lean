import Verif.Spec.Walk32
import Verif.Proofs.Target32
import Verif.Proofs.Walk
import Verif.Proofs.Walk4
import Verif.Proofs.Panics
/-!
# The 32-bit readers walk as specified, on any content
-/

namespace FF.Target32
open FF Spec FileFormat

/-! ## EBML -/

theorem doc_small (z : Nat) : readBytes (min ebmlDocTypeLimit (asUsize z)) = FF.readBytes (min 8 (z % 2 ^ 32)) :=
  readBytes_small (show min 8 _ < 2 ^ 31 by omega)

theorem codec_small (z : Nat) : readBytes (min ebmlCodecIdLimit (asUsize z)) = FF.readBytes (min 64 (z % 2 ^ 32)) :=
  readBytes_small (show min 64 _ < 2 ^ 31 by omega)

/-- The rest of an element. -/
theorem goes_rest32 {m q size limit r : Nat} (hs : size < 2 ^ 56) :
    Goes m q (asI64 (size - limit)) r ↔ r = q + (size - limit) ∧ r ≤ m := by
  rw [asI64_small (by omega)]
  unfold Goes
  omega

theorem ebmlLoop_walk32 (d : Bytes) (m : Nat) (hm : d.length ≤ m) (n : Nat) (seen : List Bytes) (p : Nat) (f : FileFormat) :
    Ends d m (ebmlLoop d.length n (ebmlTracks seen)) p f ↔ EbmlWalk32 d m n p seen f := by
  induction n generalizing seen p with
  | zero =>
    unfold ebmlLoop
    rw [ends_pure, ebmlVerdict_tracks]
    exact ⟨fun h => h ▸ .limit, fun h => by cases h; rfl⟩
  | succ n ih =>
    have hmas : ∀ x, IdBytes x → ((beNat x = ebmlEbmlId ∨ beNat x = ebmlSegmentId ∨ beNat x = ebmlTracksId ∨
        beNat x = ebmlTrackEntryId ∨ beNat x = ebmlVideoId) ↔ x ∈ ebmlMasters) := by
      intro x hx
      rw [idConst hx ebmlEbmlId [0x1A, 0x45, 0xDF, 0xA3] (by decide) (by unfold IdBytes; decide),
        idConst hx ebmlSegmentId [0x18, 0x53, 0x80, 0x67] (by decide) (by unfold IdBytes; decide),
        idConst hx ebmlTracksId [0x16, 0x54, 0xAE, 0x6B] (by decide) (by unfold IdBytes; decide),
        idConst hx ebmlTrackEntryId [0xAE] (by decide) (by unfold IdBytes; decide),
        idConst hx ebmlVideoId [0xE0] (by decide) (by unfold IdBytes; decide)]
      simp only [ebmlMasters, List.mem_cons, List.not_mem_nil, or_false]
    have hdoc : ∀ x, IdBytes x → (beNat x = ebmlDocTypeId ↔ x = [0x42, 0x82]) :=
      fun x hx => idConst hx _ _ (by decide) (by unfold IdBytes; decide)
    have hcod : ∀ x, IdBytes x → (beNat x = ebmlCodecIdId ↔ x = [0x86]) :=
      fun x hx => idConst hx _ _ (by decide) (by unfold IdBytes; decide)
    have hste : ∀ x, IdBytes x → (beNat x = ebmlStereoModeId ↔ x = [0x53, 0xB8]) :=
      fun x hx => idConst hx _ _ (by decide) (by unfold IdBytes; decide)
    have hclu : ∀ x, IdBytes x → (beNat x = ebmlClusterId ↔ x = [0x1F, 0x43, 0xB6, 0x75]) :=
      fun x hx => idConst hx _ _ (by decide) (by unfold IdBytes; decide)
    unfold ebmlLoop
    simp only [doc_small, codec_small]
    rw [ends_pos]
    by_cases hp : p < d.length
    · rw [if_pos hp, ends_header]
      constructor
      · rintro ⟨x, z, q, hh, h⟩
        have hid := headerAt_id hh
        obtain ⟨_, hq, hz⟩ := headerAt_inside hh
        simp only [hmas x hid, hdoc x hid, hcod x hid, hste x hid, hclu x hid] at h
        split at h
        · rename_i hx
          exact .enter hh hx ((ih _ _).mp h)
        split at h
        · rename_i hx
          subst hx
          rw [ends_bytes] at h
          obtain ⟨hl, h⟩ := h
          have hv := magicAt_slice_iff.mpr ⟨show q + min 8 (z % 2 ^ 32) ≤ d.length by omega, rfl⟩
          simp only [startsWith_iff] at h
          split at h
          · rename_i hw
            rw [ends_pure] at h
            subst h
            exact .webm hh hv.1 hv.2 hw
          split at h
          · rename_i hw hk
            rw [ends_pure] at h
            subst h
            exact .foreign hh hv.1 hv.2 hw (fun e => hk (e ▸ List.prefix_rfl))
          · rename_i hw hk
            simp only [Classical.not_not] at hk
            rw [ends_current] at h
            obtain ⟨r, hr, h⟩ := h
            have h8 : 8 ≤ z % 2 ^ 32 := by
              have := hk.length_le
              rw [hv.2] at this
              have : b!"matroska".length = 8 := rfl
              omega
            refine .matroska hh (magicAt_prefix hk (by omega)) h8 ?_ ((ih _ _).mp h)
            obtain ⟨rfl, hr⟩ := (goes_rest32 hz).mp hr
            have e8 : ebmlDocTypeLimit = 8 := rfl
            rw [e8] at hr ⊢
            exact ⟨by omega, hr⟩
        split at h
        · rename_i hx
          subst hx
          rw [ends_bytes] at h
          obtain ⟨hl, h⟩ := h
          rw [ends_current] at h
          obtain ⟨r, hr, h⟩ := h
          rw [ebmlCodec_tracks] at h
          have hv := magicAt_slice_iff.mpr ⟨show q + min 64 (z % 2 ^ 32) ≤ d.length by omega, rfl⟩
          obtain ⟨h1, h2⟩ := (goes_rest32 hz).mp hr
          exact .codec hh hv.1 hv.2 (by rw [hv.2]; exact h1) h2 ((ih _ _).mp h)
        split at h
        · rename_i hx
          subst hx
          rw [ends_u8] at h
          obtain ⟨hl, h⟩ := h
          have hv := magicAt_slice_iff.mpr ⟨hl, (slice_one d q (by omega)).symm⟩
          split at h
          · rename_i h0
            rw [ends_pure] at h
            subst h
            refine .stereo hh hv.1 ?_
            intro e
            rw [e] at h0
            exact absurd h0 (by decide)
          · rename_i h0
            have : d.getD q 0 = 0 := UInt8.toNat_inj.mp (by simpa using h0)
            rw [this] at hv
            exact .mono hh hv.1 ((ih _ _).mp h)
        split at h
        · rename_i hx
          subst hx
          rw [ends_pure, ebmlVerdict_tracks] at h
          subst h
          exact .cluster hh
        · rename_i h1 h2 h3 h4 h5
          rw [ends_current] at h
          obtain ⟨r, hr, h⟩ := h
          rw [asI64_small (by omega)] at hr
          refine .skip hh ?_ hr ((ih _ _).mp h)
          rw [List.mem_append, not_or]
          exact ⟨h1, by simp [h2, h3, h4, h5]⟩
      · intro h
        cases h with
        | finish h => omega
        | enter hh hi hw =>
          have hid := headerAt_id hh
          refine ⟨_, _, _, hh, ?_⟩
          rw [if_pos ((hmas _ hid).mpr hi)]
          exact (ih _ _).mpr hw
        | webm hh hx hl hw =>
          refine ⟨_, _, _, hh, ?_⟩
          rw [if_neg (by decide), if_pos (by decide)]
          obtain ⟨h1, rfl⟩ := magicAt_slice_iff.mp ⟨hx, hl⟩
          rw [ends_bytes]
          refine ⟨Or.inr h1, ?_⟩
          rw [if_pos (startsWith_iff.mpr hw), ends_pure]
        | foreign hh hx hl hw hn =>
          refine ⟨_, _, _, hh, ?_⟩
          rw [if_neg (by decide), if_pos (by decide)]
          obtain ⟨h1, rfl⟩ := magicAt_slice_iff.mp ⟨hx, hl⟩
          rw [ends_bytes]
          refine ⟨Or.inr h1, ?_⟩
          rw [if_neg (fun h => hw (startsWith_iff.mp h)), if_pos, ends_pure]
          intro h
          have hk := startsWith_iff.mp h
          refine hn (hk.eq_of_length ?_).symm
          have h8 := hk.length_le
          have e : b!"matroska".length = 8 := rfl
          rw [hl] at h8 ⊢
          omega
        | @matroska _ _ z q r _ _ hh hk hs hg hw =>
          have hz := (headerAt_inside hh).2.2
          refine ⟨_, _, _, hh, ?_⟩
          rw [if_neg (by decide), if_pos (by decide)]
          have hk' := (magicAt_iff _ _ _).mp hk
          have e8 : min 8 (z % 2 ^ 32) = 8 := Nat.min_eq_left hs
          have hsl : slice d q (min 8 (z % 2 ^ 32)) = b!"matroska" := by rw [e8]; exact hk'.2
          rw [ends_bytes]
          refine ⟨Or.inr (by rw [e8]; exact hk'.1), ?_⟩
          rw [hsl, if_neg (by decide), if_neg (by decide), ends_current]
          have e8' : ebmlDocTypeLimit = 8 := rfl
          refine ⟨_, (goes_rest32 hz).mpr ?_, (ih _ _).mpr hw⟩
          unfold Goes at hg
          rw [e8, e8']
          omega
        | codec hh hx hl hr ht hw =>
          have hz := (headerAt_inside hh).2.2
          refine ⟨_, _, _, hh, ?_⟩
          rw [if_neg (by decide), if_neg (by decide), if_pos (by decide)]
          obtain ⟨h1, rfl⟩ := magicAt_slice_iff.mp ⟨hx, hl⟩
          rw [ends_bytes]
          refine ⟨Or.inr h1, ?_⟩
          rw [ends_current]
          rw [hl] at hr
          refine ⟨_, (goes_rest32 hz).mpr ⟨hr, ht⟩, ?_⟩
          rw [ebmlCodec_tracks]
          exact (ih _ _).mpr hw
        | mono hh hx hw =>
          refine ⟨_, _, _, hh, ?_⟩
          rw [if_neg (by decide), if_neg (by decide), if_neg (by decide), if_pos (by decide)]
          have h1 := magicAt_slice_iff.mp ⟨hx, rfl⟩
          have h2 := h1.2
          have hl : _ + 1 ≤ d.length := h1.1
          rw [show ([0] : Bytes).length = 1 from rfl, slice_one d _ (by omega)] at h2
          rw [ends_u8]
          refine ⟨hl, ?_⟩
          have h3 : d.getD _ 0 = 0 := (List.singleton_inj.mp h2).symm
          rw [h3, if_neg (by decide)]
          exact (ih _ _).mpr hw
        | stereo hh hx hn =>
          refine ⟨_, _, _, hh, ?_⟩
          rw [if_neg (by decide), if_neg (by decide), if_neg (by decide), if_pos (by decide)]
          have h1 := magicAt_slice_iff.mp ⟨hx, rfl⟩
          have h2 := h1.2
          have hl : _ + 1 ≤ d.length := h1.1
          rw [show ∀ x : UInt8, ([x] : Bytes).length = 1 from fun _ => rfl, slice_one d _ (by omega)] at h2
          rw [ends_u8]
          refine ⟨hl, ?_⟩
          have h3 : d.getD _ 0 = _ := (List.singleton_inj.mp h2).symm
          rw [h3, if_pos, ends_pure]
          rcases Nat.eq_zero_or_pos _ with h | h
          · exact absurd (UInt8.toNat_inj.mp h) hn
          · exact h
        | cluster hh =>
          refine ⟨_, _, _, hh, ?_⟩
          rw [if_neg (by decide), if_neg (by decide), if_neg (by decide), if_neg (by decide), if_pos (by decide), ends_pure,
            ebmlVerdict_tracks]
        | skip hh hi hg hw =>
          have hid := headerAt_id hh
          have hz := (headerAt_inside hh).2.2
          refine ⟨_, _, _, hh, ?_⟩
          rw [List.mem_append, not_or] at hi
          obtain ⟨h1, h2⟩ := hi
          simp only [List.mem_cons, List.not_mem_nil, or_false, not_or] at h2
          simp only [hmas _ hid, hdoc _ hid, hcod _ hid, hste _ hid, hclu _ hid, if_neg h1, if_neg h2.1, if_neg h2.2.1,
            if_neg h2.2.2.1, if_neg h2.2.2.2]
          rw [ends_current, asI64_small (by omega)]
          exact ⟨_, hg, (ih _ _).mpr hw⟩
    · rw [if_neg hp, ends_pure, ebmlVerdict_tracks]
      have no : ∀ {x z q}, HeaderAt d p x z q → False := fun hh => by have := headerAt_inside hh; omega
      constructor
      · rintro rfl
        exact .finish (by omega)
      · intro h
        cases h with
        | finish h => rfl
        | enter hh => exact (no hh).elim
        | webm hh => exact (no hh).elim
        | foreign hh => exact (no hh).elim
        | matroska hh => exact (no hh).elim
        | codec hh => exact (no hh).elim
        | mono hh => exact (no hh).elim
        | stereo hh => exact (no hh).elim
        | cluster hh => exact (no hh).elim
        | skip hh => exact (no hh).elim

theorem ebmlReader_walk32 (d : Bytes) (m : Nat) (hm : d.length ≤ m) (f : FileFormat) :
    Ends d m ebmlReader 0 f ↔ EbmlWalk32 d m 256 0 [] f := by
  unfold ebmlReader
  rw [ends_end hm, ends_start]
  exact (and_iff_right (Nat.zero_le _)).trans (ebmlLoop_walk32 d m hm 256 [] 0 f)

/-! ## ZIP -/

/-- What becomes of an entry. -/
def zipJudge (n : Nat) (fmt : FileFormat) (cs us el cl off : Nat) (filename : Str) : Prog FileFormat :=
  match zipNames.lookup filename with
  | some f => Pure.pure f
  | none =>
    if filename = s!!"META-INF/MANIFEST.MF" then do
      let _ ← Prog.sk (.current ((el : Int) + cl))
      zipEntries n JavaArchive
    else if filename = s!!"mimetype" ∧ cs = us then
      zipMimetype cs off
    else
      match zipPatterns filename with
      | some f => Pure.pure f
      | none => do
        let _ ← Prog.sk (.current ((el : Int) + cl))
        zipEntries n fmt

theorem name_small {d : Bytes} {p : Nat} : asUsize (leAt d p 2) = leAt d p 2 ∧ leAt d p 2 < 2 ^ 31 := by
  have := leAt_lt d p 2
  unfold asUsize
  omega

theorem ends_entry {d : Bytes} {m n p : Nat} {fmt f : FileFormat} (hm : d.length ≤ m) :
    Ends d m (zipEntries (n + 1) fmt) p f ↔
      p + 46 ≤ d.length ∧ p + 46 + leAt d (p + 28) 2 ≤ d.length ∧
        Ends d m (zipJudge n fmt (leAt d (p + 20) 4) (leAt d (p + 24) 4) (leAt d (p + 30) 2) (leAt d (p + 32) 2)
          (leAt d (p + 42) 4) (decodeLossy (slice d (p + 46) (leAt d (p + 28) 2)))) (p + 46 + leAt d (p + 28) 2) f := by
  change Ends d m (do
    let _ ← Prog.sk (.current 20)
    let compressedSize ← readU32le
    let uncompressedSize ← readU32le
    let filenameLen ← readU16le
    let extraFieldLen ← readU16le
    let fileCommentLen ← readU16le
    let _ ← Prog.sk (.current 8)
    let offset ← readU32le
    let filename ← readString (asUsize filenameLen)
    zipJudge n fmt compressedSize uncompressedSize extraFieldLen fileCommentLen offset filename) p f ↔ _
  rw [ends_skip 20 (i := 20) rfl, ends_u32le, ends_u32le, ends_u16le, ends_u16le, ends_u16le, ends_skip 8 (i := 8) rfl, ends_u32le, name_small.1,
    readString_small name_small.2, ends_string]
  constructor
  · rintro ⟨h1, h2, h3, h4, h5, h6, h7, h8, h9, h⟩
    have h9' : leAt d (p + 28) 2 = 0 ∨ p + 46 + leAt d (p + 28) 2 ≤ d.length := h9
    exact ⟨h8, by omega, h⟩
  · rintro ⟨h1, h2, h⟩
    exact ⟨by omega, by omega, by omega, by omega, by omega, by omega, by omega, h1, Or.inr h2, h⟩

theorem ends_mimetype {d : Bytes} {m p q : Nat} {f : FileFormat} (hm : d.length ≤ m) :
    Ends d m (zipMimetype (leAt d (p + 20) 4) (leAt d (p + 42) 4)) q f ↔ leAt d (p + 20) 4 < 2 ^ 31 ∧
      ∃ content, StoredFor d m p content ∧ (MimeMeans content f ∨ ((∀ g, ¬ MimeMeans content g) ∧ f = Zip)) := by
  unfold zipMimetype
  have hlt := leAt_lt d (p + 20) 4
  generalize hh : leAt d (p + 42) 4 = h
  generalize hc : leAt d (p + 20) 4 = c at hlt
  rw [show asUsize c = c from Nat.mod_eq_of_lt (by omega)]
  by_cases hbig : c < 2 ^ 31
  case neg =>
    rw [ends_start, ends_u16le, ends_u16le, ends_skip (leAt d (h + 26) 2 + leAt d (h + 26 + 2) 2) (by omega)]
    constructor
    · rintro ⟨_, _, _, _, q', hq⟩
      unfold readString readBytes at hq
      rw [if_neg hbig] at hq
      cases hq
    · rintro ⟨h, _⟩; exact absurd h hbig
  rw [and_iff_right hbig, readString_small hbig]
  rw [ends_start, ends_u16le, ends_u16le, ends_skip (leAt d (h + 26) 2 + leAt d (h + 26 + 2) 2) (by omega), ends_string]
  have hq : h + 26 + 2 + 2 + (leAt d (h + 26) 2 + leAt d (h + 26 + 2) 2) = h + 30 + leAt d (h + 26) 2 + leAt d (h + 28) 2 := by
    rw [show h + 26 + 2 = h + 28 from rfl]; omega
  rw [hq]
  generalize hqq : h + 30 + leAt d (h + 26) 2 + leAt d (h + 28) 2 = q'
  have hverdict : ∀ (x : Bytes) q, Ends d m (match zipMimetypes.lookup (trim (decodeLossy x)) with
      | some f => Pure.pure f
      | none => Pure.pure Zip : Prog FileFormat) q f ↔ (MimeMeans x f ∨ ((∀ g, ¬ MimeMeans x g) ∧ f = Zip)) := by
    intro x q
    split
    · rename_i g hg
      have hmg := (zipMime_iff _ _).mp hg
      rw [ends_pure]
      constructor
      · rintro rfl; exact Or.inl hmg
      · rintro (h | ⟨h, _⟩)
        · have := (zipMime_iff _ _).mpr h
          rw [hg] at this
          exact (Option.some.inj this).symm
        · exact absurd hmg (h g)
    · rename_i hg
      have hno : ∀ g, ¬ MimeMeans x g := by
        intro g h
        have := (zipMime_iff _ _).mpr h
        rw [hg] at this
        cases this
      rw [ends_pure]
      constructor
      · rintro rfl; exact Or.inr ⟨hno, rfl⟩
      · rintro (h | ⟨_, h⟩)
        · exact absurd h (hno f)
        · exact h
  constructor
  · rintro ⟨h1, h2, h3, h4, h5, h6⟩
    refine ⟨slice d q' c, ⟨h, q', hh.symm, h3, hqq.symm, h4, ?_, ?_⟩, (hverdict _ _).mp h6⟩
    · rcases h5 with rfl | h5
      · rw [slice_zero, hc]; rfl
      · rw [length_slice_eq _ _ _ h5, hc]
    · rcases h5 with rfl | h5
      · exact Or.inl (slice_zero _ _)
      · exact Or.inr (magicAt_slice_iff.mpr ⟨h5, rfl⟩).1
  · rintro ⟨x, ⟨h', q2, he, h3, rfl, h4, h5, h6⟩, h7⟩
    rw [hh] at he
    subst he
    rw [hqq] at h4 h6
    rw [hc] at h5
    have hx : (c = 0 ∨ q' + c ≤ d.length) ∧ x = slice d q' c := by
      rcases h6 with rfl | h6
      · obtain rfl : c = 0 := h5.symm
        exact ⟨Or.inl rfl, (slice_zero _ _).symm⟩
      · obtain ⟨h8, h9⟩ := magicAt_slice_iff.mp ⟨h6, h5⟩
        exact ⟨Or.inr h8, h9⟩
    obtain ⟨h8, rfl⟩ := hx
    exact ⟨by omega, by omega, by omega, h4, h8, (hverdict _ _).mpr h7⟩

theorem zipEntries_walk32 (d : Bytes) (m : Nat) (hm : d.length ≤ m) (n : Nat) (fmt : FileFormat) (p : Nat) (f : FileFormat) :
    Ends d m (zipEntries n fmt) p f ↔ ZipWalk32 d m n p fmt f := by
  induction n generalizing fmt p with
  | zero =>
    unfold zipEntries
    rw [ends_pure]
    exact ⟨fun h => h ▸ .limit, fun h => by cases h; rfl⟩
  | succ n ih =>
    rw [ends_entry hm]
    have hman : ∀ x : Bytes, decodeLossy x = s!!"META-INF/MANIFEST.MF" ↔ x = b!"META-INF/MANIFEST.MF" := by
      intro x
      rw [← lossy_eq b!"META-INF/MANIFEST.MF" (by decide), show asciiStr b!"META-INF/MANIFEST.MF" = s!!"META-INF/MANIFEST.MF" by decide]
    have hmim : ∀ x : Bytes, decodeLossy x = s!!"mimetype" ↔ x = b!"mimetype" := by
      intro x
      rw [← lossy_eq b!"mimetype" (by decide), show asciiStr b!"mimetype" = s!!"mimetype" by decide]
    generalize hcs : leAt d (p + 20) 4 = cs
    generalize hus : leAt d (p + 24) 4 = us
    constructor
    · rintro ⟨h1, h2, h⟩
      obtain ⟨hx, hlx⟩ := magicAt_slice_iff.mpr ⟨h2, rfl⟩
      generalize hnx : slice d (p + 46) (leAt d (p + 28) 2) = x at h hx hlx
      have hent : ZipEntryAt d p x (p + 46 + x.length + leAt d (p + 30) 2 + leAt d (p + 32) 2) := ⟨h1, hx, hlx, rfl⟩
      rw [← hlx] at h
      unfold zipJudge at h
      split at h
      · rename_i g hg
        rw [ends_pure] at h
        subst h
        refine .decisive hent ((zipName_iff _ _).mp ?_)
        unfold zipName
        rw [hg]
      · rename_i hnone
        split at h
        · rename_i hmf
          obtain rfl := (hman x).mp hmf
          rw [ends_skip (leAt d (p + 30) 2 + leAt d (p + 32) 2) (by omega), ← Nat.add_assoc] at h
          exact .manifest hent h.1 ((ih _ _).mp h.2)
        split at h
        · rename_i hmf hmi
          obtain rfl := (hmim x).mp hmi.1
          rw [← hcs, ends_mimetype hm] at h
          obtain ⟨hlt, c, hc, h | ⟨h, rfl⟩⟩ := h
          · exact .media hent (hcs.trans (hmi.2.trans hus.symm)) hlt hc h
          · exact .unknown hent (hcs.trans (hmi.2.trans hus.symm)) hlt hc h
        · rename_i hmf hmi
          split at h
          · rename_i g hg
            rw [ends_pure] at h
            subst h
            refine .decisive hent ((zipName_iff _ _).mp ?_)
            unfold zipName
            rw [hnone, hg]
          · rename_i hg
            rw [ends_skip (leAt d (p + 30) 2 + leAt d (p + 32) 2) (by omega), ← Nat.add_assoc] at h
            refine .skip hent ?_ (fun h => hmf ((hman x).mpr h)) (fun h => hmi ⟨(hmim x).mpr h.1, ?_⟩) h.1 ((ih _ _).mp h.2)
            · intro g hgm
              have := (zipName_iff _ _).mpr hgm
              unfold zipName at this
              rw [hnone, hg] at this
              cases this
            · rw [← hcs, ← hus]; exact h.2
    · have hpart : ∀ x next, ZipEntryAt d p x next → p + 46 ≤ d.length ∧ p + 46 + leAt d (p + 28) 2 ≤ d.length ∧
          slice d (p + 46) (leAt d (p + 28) 2) = x ∧ next = p + 46 + leAt d (p + 28) 2 + (leAt d (p + 30) 2 + leAt d (p + 32) 2) := by
        rintro x next ⟨h1, hx, hlx, rfl⟩
        obtain ⟨h2, h3⟩ := magicAt_slice_iff.mp ⟨hx, hlx⟩
        exact ⟨h1, h2, h3.symm, by rw [hlx]; omega⟩
      intro h
      cases h with
      | @decisive _ _ x next _ _ he hn =>
        obtain ⟨h1, h2, h3, h4⟩ := hpart _ _ he
        refine ⟨h1, h2, ?_⟩
        rw [h3]
        have hz := (zipName_iff _ _).mpr hn
        unfold zipName at hz
        unfold zipJudge
        split
        · rename_i g hg
          rw [hg] at hz
          rw [ends_pure]
          exact (Option.some.inj hz).symm
        · rename_i hg
          rw [hg] at hz
          dsimp only at hz
          rw [if_neg, if_neg, hz]
          · exact ends_pure.mpr rfl
          · rintro ⟨h, _⟩
            obtain rfl := (hmim x).mp h
            exact mimetype_plain _ hn
          · intro h
            obtain rfl := (hman x).mp h
            exact manifest_plain _ hn
      | manifest he ht hw =>
        obtain ⟨h1, h2, h3, rfl⟩ := hpart _ _ he
        refine ⟨h1, h2, ?_⟩
        rw [h3]
        unfold zipJudge
        rw [show zipNames.lookup (decodeLossy b!"META-INF/MANIFEST.MF") = none by decide +kernel]
        dsimp only
        rw [if_pos (by decide +kernel), ends_skip (leAt d (p + 30) 2 + leAt d (p + 32) 2) (by omega)]
        exact ⟨ht, (ih _ _).mpr hw⟩
      | media he hs hlt hc hmm =>
        obtain ⟨h1, h2, h3, rfl⟩ := hpart _ _ he
        refine ⟨h1, h2, ?_⟩
        rw [h3]
        unfold zipJudge
        rw [show zipNames.lookup (decodeLossy b!"mimetype") = none by decide +kernel]
        dsimp only
        rw [if_neg (by decide +kernel), if_pos ⟨by decide +kernel, by rw [← hcs, ← hus]; exact hs⟩, ← hcs, ends_mimetype hm]
        exact ⟨hlt, _, hc, Or.inl hmm⟩
      | unknown he hs hlt hc hmm =>
        obtain ⟨h1, h2, h3, rfl⟩ := hpart _ _ he
        refine ⟨h1, h2, ?_⟩
        rw [h3]
        unfold zipJudge
        rw [show zipNames.lookup (decodeLossy b!"mimetype") = none by decide +kernel]
        dsimp only
        rw [if_neg (by decide +kernel), if_pos ⟨by decide +kernel, by rw [← hcs, ← hus]; exact hs⟩, ← hcs, ends_mimetype hm]
        exact ⟨hlt, _, hc, Or.inr ⟨hmm, rfl⟩⟩
      | @skip _ _ x _ _ _ he hn hman' hmim' hg hw =>
        obtain ⟨h1, h2, h3, rfl⟩ := hpart _ _ he
        refine ⟨h1, h2, ?_⟩
        rw [h3]
        have hz : zipName (decodeLossy x) = none := by
          cases hz : zipName (decodeLossy x) with
          | none => rfl
          | some g => exact absurd ((zipName_iff _ _).mp hz) (hn g)
        unfold zipName at hz
        unfold zipJudge
        split at hz
        · cases hz
        · rename_i hl
          rw [hl]
          dsimp only
          rw [if_neg (fun h => hman' ((hman x).mp h)), if_neg, hz]
          · dsimp only
            rw [ends_skip (leAt d (p + 30) 2 + leAt d (p + 32) 2) (by omega)]
            exact ⟨hg, (ih _ _).mpr hw⟩
          · rintro ⟨h, h'⟩
            exact hmim' ⟨(hmim x).mp h, by rw [hcs, hus]; exact h'⟩

/-- Number of entries and offset of the directory. -/
theorem ends_directory {d : Bytes} {m e q : Nat} (hm : d.length ≤ m) (he : e + 4 ≤ d.length) (hd : d.length < 2 ^ 63) (c o : Nat) :
    Ends d m (zipIsZip64 e >>= fun z => zipEnd Cfg.release z e) q (c, o) ↔ DirectoryAt32 d e c o := by
  have hclassic : ∀ q, Ends d m (zipEnd Cfg.release false e) q (c, o) ↔
      e + 20 ≤ d.length ∧ (c, o) = (leAt d (e + 10) 2, leAt d (e + 16) 4) := by
    intro q
    unfold zipEnd FF.zipEnd zipDirectory
    rw [if_neg (by decide), ends_assoc, ends_lift (u64Add_release _ _), Nat.mod_eq_of_lt (by omega), ends_assoc, ends_start, ends_assoc,
      ends_u16le, ends_assoc, ends_skip 4 (i := 4) rfl, ends_assoc, ends_u32le,
      ends_ok (show run d m (Pure.pure (leAt d (e + 10) 2, leAt d (e + 10 + 2 + 4) 4) : Prog (Nat × Nat)) _ = .ok (_, _) from rfl),
      ends_pure]
    dsimp only
    rw [name_small.1]
    constructor
    · rintro ⟨_, _, _, h, h'⟩; exact ⟨h, h'⟩
    · rintro ⟨h, h'⟩; exact ⟨by omega, by omega, by omega, by omega, h'⟩
  have h64 : 20 ≤ e → (Ends d m (zipEnd Cfg.release true e) (e - 20 + 4) (c, o) ↔
      ∃ z, z = (leAt d (e - 12) 8 + 32) % 2 ^ 64 ∧ z + 24 ≤ d.length ∧ (c, o) = (leAt d z 8 % 2 ^ 32, leAt d (z + 16) 8)) := by
    intro h20
    unfold zipEnd FF.zipEnd zipDirectory64
    rw [if_pos rfl, ends_assoc, ends_skip 4 (i := 4) rfl, ends_assoc, ends_u64le, ends_assoc, ends_lift (u64Add_release _ _), ends_assoc, ends_start]
    rw [show e - 20 + 4 + 4 = e - 12 by omega]
    generalize hz : (leAt d (e - 12) 8 + 32) % 2 ^ 64 = z
    rw [ends_assoc, ends_u64le, ends_assoc, ends_skip 8 (i := 8) rfl, ends_assoc, ends_u64le,
      ends_ok (show run d m (Pure.pure (leAt d z 8, leAt d (z + 8 + 8) 8) : Prog (Nat × Nat)) _ = .ok (_, _) from rfl),
      ends_pure]
    constructor
    · rintro ⟨_, _, _, _, _, h, h'⟩; exact ⟨z, rfl, h, h'⟩
    · rintro ⟨z', rfl, h, h'⟩; exact ⟨by omega, by omega, by omega, by omega, by omega, by omega, h'⟩
  have hdir0 : ¬ (20 ≤ e % 2 ^ 32 ∧ MagicAt (e - 20) b!"PK\x06\x07" d) →
      (DirectoryAt32 d e c o ↔ e + 20 ≤ d.length ∧ (c, o) = (leAt d (e + 10) 2, leAt d (e + 16) 4)) := by
    intro hz
    constructor
    · intro h
      cases h with
      | classic _ hl => exact ⟨hl, rfl⟩
      | zip64 h1 h2 => exact absurd ⟨h1, h2⟩ hz
    · rintro ⟨h, he⟩
      injection he with h1 h2
      subst h1 h2
      exact .classic hz h
  unfold zipIsZip64
  have hs20 : zipEocd64LocatorSize = 20 := rfl
  have hsig : zipEocd64LocatorSignature = b!"PK\x06\x07" := rfl
  have ha : asUsize e = e % 2 ^ 32 := rfl
  rw [hs20, hsig, ha]
  split
  · rename_i h20
    have h20' : 20 ≤ e := by omega
    rw [readBytes_small (by decide), ends_assoc, ends_start, ends_assoc, ends_bytes,
      ends_ok (show run d m (Pure.pure _ : Prog Bool) _ = .ok (_, _) from rfl)]
    have hmag : (slice d (e - 20) 4 == b!"PK\x06\x07") = true ↔ MagicAt (e - 20) b!"PK\x06\x07" d := by
      rw [beq_iff_eq]; exact (magicAt_slice (by decide) (by omega)).symm
    rw [and_iff_right (by omega : e - 20 ≤ m), and_iff_right (Or.inr (by omega))]
    by_cases hmg : MagicAt (e - 20) b!"PK\x06\x07" d
    · rw [hmag.mpr hmg, h64 h20']
      constructor
      · rintro ⟨z, hz, hl, he⟩
        injection he with h1 h2
        subst h1 h2
        exact .zip64 h20 hmg hz hl
      · intro hdir
        cases hdir with
        | classic hz => exact absurd ⟨h20, hmg⟩ hz
        | zip64 _ _ hz hl => exact ⟨_, hz, hl, rfl⟩
    · rw [show (slice d (e - 20) 4 == b!"PK\x06\x07") = false by
        rw [Bool.eq_false_iff]; exact fun h => hmg (hmag.mp h), hclassic, hdir0 (fun h => hmg h.2)]
  · rename_i h20
    rw [ends_ok (show run d m (Pure.pure false : Prog Bool) _ = .ok (_, _) from rfl), hclassic, hdir0 (fun h => h20 h.1)]

theorem occursAt_window {d x : Bytes} {p n i : Nat} (hx : x ≠ []) (h : p + n ≤ d.length) :
    OccursAt x (slice d p n) i ↔ MagicAt (p + i) x d ∧ i + x.length ≤ n := by
  have hpos : 0 < x.length := List.length_pos_iff.mpr hx
  unfold OccursAt
  rw [drop_slice, magicAt_iff]
  constructor
  · intro he
    have hl := he.length_le
    rw [length_slice] at hl
    have hp := magicAt_prefix he (by omega)
    exact ⟨(magicAt_iff _ _ _).mp hp, by omega⟩
  · rintro ⟨⟨h1, h2⟩, h3⟩
    rw [List.prefix_iff_eq_take]
    unfold slice at h2 ⊢
    rw [List.take_take, Nat.min_eq_left (by omega)]
    exact h2.symm

/-- The end record, as the search for it finds it. -/
theorem endAt_search32 (d : Bytes) (hl : 22 ≤ d.length) (r : Option Nat) (M : Nat) (hM : M = 65557)
    (hlast : IsLast b!"PK\x05\x06" (slice d (d.length - M) (max 22 (min (d.length % 2 ^ 32) M))) r) (e : Nat) :
    EndAt32 d e ↔ ∃ i, r = some i ∧ e = d.length - M + i := by
  subst hM
  generalize hN : max 22 (min (d.length % 2 ^ 32) 65557) = N at hlast
  have hn : d.length - 65557 + N ≤ d.length := by omega
  have h4 : b!"PK\x05\x06".length = 4 := rfl
  have hocc : ∀ i, OccursAt b!"PK\x05\x06" (slice d (d.length - 65557) N) i ↔
      MagicAt (d.length - 65557 + i) b!"PK\x05\x06" d ∧ i + 4 ≤ N := fun i => occursAt_window (by decide) hn
  have hblen : (slice d (d.length - 65557) N).length = N := length_slice_eq _ _ _ hn
  unfold EndAt32
  rw [hN]
  cases r with
  | none =>
    constructor
    · rintro ⟨lo, hi, _, hlo, hhi, h1, h2, h3, _⟩
      refine absurd ((hocc (e - (d.length - 65557))).mpr ⟨?_, by omega⟩) (hlast _)
      rwa [show d.length - 65557 + (e - (d.length - 65557)) = e by omega]
    · rintro ⟨_, h, _⟩; cases h
  | some i =>
    obtain ⟨hat, hin⟩ := (hocc i).mp hlast.1
    constructor
    · rintro ⟨lo, hi, _, hlo, hhi, h1, h2, h3, h5⟩
      refine ⟨i, rfl, ?_⟩
      rcases Nat.lt_trichotomy e (d.length - 65557 + i) with h | h | h
      · exact absurd hat (h5 _ h (by omega))
      · exact h
      · exfalso
        refine hlast.2 (e - (d.length - 65557)) (by omega) (by rw [hblen]; omega) ((hocc _).mpr ⟨?_, by omega⟩)
        rwa [show d.length - 65557 + (e - (d.length - 65557)) = e by omega]
    · rintro ⟨_, h, rfl⟩
      injection h with h
      subst h
      refine ⟨_, _, hl, rfl, rfl, by omega, by omega, hat, fun e' he' hi' hm' => ?_⟩
      refine hlast.2 (e' - (d.length - 65557)) (by omega) (by rw [hblen]; omega) ((hocc _).mpr ⟨?_, by omega⟩)
      rwa [show d.length - 65557 + (e' - (d.length - 65557)) = e' by omega]

theorem directory_calm (d : Bytes) (m e p : Nat) : ¬ Panics d m (zipIsZip64 e >>= fun z => zipEnd Cfg.release z e) p := by
  have hall : All (OpEx true 65536) (IsErrC Cfg.release) (fun _ => True)
      (zipIsZip64 e >>= fun z => zipEnd Cfg.release z e) 8 := by
    refine All.bind (k := 2) (k' := 6) (Q := fun _ => True) ?_ (by omega) (fun z _ => ?_)
    · unfold zipIsZip64
      split
      · rw [readBytes_small (by decide)]
        simp only [all_sk_bind, all_readBytes_bind, opEx_seek, opEx_readExact, true_and, all_pure]
        exact ⟨by omega, fun _ => ⟨by omega, by omega, fun _ _ => trivial⟩⟩
      · trivial
    · unfold zipEnd
      exact All.bind (k := 6) (k' := 0) (Q := fun _ => True) (zipEnd_all Cfg.release z e 65536 (by omega)) (by omega)
        (fun d _ => trivial)
  exact panics_noCrash (noCrash_run _ (hall.noCrash fun _ h => h.resolve_right fun h => nomatch h.1) d m p)

/-- What the archive reader does behind the end record. -/
def behindEnd (cfg : Cfg) (e : Nat) : Prog FileFormat := do
  let zip64 ← zipIsZip64 e
  let dir ← zipEnd cfg zip64 e
  let _ ← Prog.sk (.start dir.2)
  zipEntries (min zipEntryLimit dir.1) Zip

theorem behindEnd_walk (d : Bytes) (m e q : Nat) (hm : d.length ≤ m) (he : e + 4 ≤ d.length) (hd : d.length < 2 ^ 63)
    (f : FileFormat) :
    Ends d m (behindEnd Cfg.release e) q f ↔ ∃ count offset, DirectoryAt32 d e count offset ∧ offset ≤ m ∧
      ZipWalk32 d m (min 1024 count) offset Zip f := by
  unfold behindEnd
  rw [← ends_assoc, ends_bind]
  constructor
  · rintro ⟨x, q', h1, h2⟩
    rw [ends_start] at h2
    exact ⟨x.1, x.2, (ends_directory hm he hd x.1 x.2).mp ⟨q', h1⟩, h2.1, (zipEntries_walk32 d m hm _ _ _ _).mp h2.2⟩
  · rintro ⟨c, o, hdir, h1, h2⟩
    obtain ⟨q', hq⟩ := (ends_directory (q := q) hm he hd c o).mpr hdir
    refine ⟨(c, o), q', hq, ?_⟩
    rw [ends_start]
    exact ⟨h1, (zipEntries_walk32 d m hm _ _ _ _).mpr h2⟩

/-! ### Panics -/

theorem panics_mimetype {d : Bytes} {m c h q : Nat} (hm : d.length ≤ m) (hc : c < 2 ^ 32) :
    Panics d m (zipMimetype c h) q ↔ 2 ^ 31 ≤ c ∧ h + 30 ≤ d.length ∧ h + 30 + leAt d (h + 26) 2 + leAt d (h + 28) 2 ≤ m := by
  unfold zipMimetype
  rw [show asUsize c = c from Nat.mod_eq_of_lt hc, panics_start, panics_u16le, panics_u16le,
    panics_skip (leAt d (h + 26) 2 + leAt d (h + 26 + 2) 2) (by omega), show h + 26 + 2 = h + 28 from rfl]
  by_cases hbig : c < 2 ^ 31
  · constructor
    · rintro ⟨_, _, _, _, hp⟩
      rw [readString_small hbig] at hp
      unfold FF.readString at hp
      rw [panics_assoc, panics_bytes] at hp
      have hp := hp.2
      rw [panics_ok (show run d m (Pure.pure _ : Prog Str) _ = .ok (_, _) from rfl)] at hp
      split at hp <;> exact absurd hp panics_pure
    · rintro ⟨h, _⟩; omega
  · constructor
    · rintro ⟨_, h2, h3, h4, _⟩
      exact ⟨by omega, by omega, by omega⟩
    · rintro ⟨_, h1, h2⟩
      refine ⟨by omega, by omega, by omega, by omega, panics_first ?_⟩
      unfold readString readBytes
      rw [if_neg hbig]
      rfl

theorem panics_entry {d : Bytes} {m n p : Nat} {fmt : FileFormat} (hm : d.length ≤ m) :
    Panics d m (zipEntries (n + 1) fmt) p ↔
      p + 46 ≤ d.length ∧ p + 46 + leAt d (p + 28) 2 ≤ d.length ∧
        Panics d m (zipJudge n fmt (leAt d (p + 20) 4) (leAt d (p + 24) 4) (leAt d (p + 30) 2) (leAt d (p + 32) 2)
          (leAt d (p + 42) 4) (decodeLossy (slice d (p + 46) (leAt d (p + 28) 2)))) (p + 46 + leAt d (p + 28) 2) := by
  change Panics d m (do
    let _ ← Prog.sk (.current 20)
    let compressedSize ← readU32le
    let uncompressedSize ← readU32le
    let filenameLen ← readU16le
    let extraFieldLen ← readU16le
    let fileCommentLen ← readU16le
    let _ ← Prog.sk (.current 8)
    let offset ← readU32le
    let filename ← readString (asUsize filenameLen)
    zipJudge n fmt compressedSize uncompressedSize extraFieldLen fileCommentLen offset filename) p ↔ _
  rw [panics_skip 20 (i := 20) rfl, panics_u32le, panics_u32le, panics_u16le, panics_u16le, panics_u16le,
    panics_skip 8 (i := 8) rfl, panics_u32le, name_small.1, readString_small name_small.2]
  unfold FF.readString
  rw [panics_assoc, panics_bytes, panics_ok (show run d m (Pure.pure _ : Prog Str) _ = .ok (_, _) from rfl)]
  constructor
  · rintro ⟨h1, h2, h3, h4, h5, h6, h7, h8, h9, h⟩
    have h9' : leAt d (p + 28) 2 = 0 ∨ p + 46 + leAt d (p + 28) 2 ≤ d.length := h9
    exact ⟨h8, by omega, h⟩
  · rintro ⟨h1, h2, h⟩
    exact ⟨by omega, by omega, by omega, by omega, by omega, by omega, by omega, h1, Or.inr h2, h⟩

theorem zipEntries_aborts (d : Bytes) (m : Nat) (hm : d.length ≤ m) (n : Nat) (fmt : FileFormat) (p : Nat) :
    Panics d m (zipEntries n fmt) p ↔ ZipAborts d m n p := by
  induction n generalizing fmt p with
  | zero => exact ⟨fun h => absurd h panics_pure, fun h => by cases h⟩
  | succ n ih =>
    rw [panics_entry hm]
    have hman : ∀ x : Bytes, decodeLossy x = s!!"META-INF/MANIFEST.MF" ↔ x = b!"META-INF/MANIFEST.MF" := by
      intro x
      rw [← lossy_eq b!"META-INF/MANIFEST.MF" (by decide), show asciiStr b!"META-INF/MANIFEST.MF" = s!!"META-INF/MANIFEST.MF" by decide]
    have hmim : ∀ x : Bytes, decodeLossy x = s!!"mimetype" ↔ x = b!"mimetype" := by
      intro x
      rw [← lossy_eq b!"mimetype" (by decide), show asciiStr b!"mimetype" = s!!"mimetype" by decide]
    have hclt := leAt_lt d (p + 20) 4
    generalize hcs : leAt d (p + 20) 4 = cs at hclt
    generalize hus : leAt d (p + 24) 4 = us
    constructor
    · rintro ⟨h1, h2, h⟩
      obtain ⟨hx, hlx⟩ := magicAt_slice_iff.mpr ⟨h2, rfl⟩
      generalize hnx : slice d (p + 46) (leAt d (p + 28) 2) = x at h hx hlx
      have hent : ZipEntryAt d p x (p + 46 + x.length + leAt d (p + 30) 2 + leAt d (p + 32) 2) := ⟨h1, hx, hlx, rfl⟩
      rw [← hlx] at h
      unfold zipJudge at h
      split at h
      · exact absurd h panics_pure
      · rename_i hnone
        split at h
        · rename_i hmf
          obtain rfl := (hman x).mp hmf
          rw [panics_skip (leAt d (p + 30) 2 + leAt d (p + 32) 2) (by omega), ← Nat.add_assoc] at h
          exact .manifest hent h.1 ((ih _ _).mp h.2)
        split at h
        · rename_i hmf hmi
          obtain rfl := (hmim x).mp hmi.1
          obtain ⟨h3, h4, h5⟩ := (panics_mimetype hm hclt).mp h
          exact .here hent (hcs.trans (hmi.2.trans hus.symm)) (by rw [hcs]; exact h3) rfl h4 h5
        · rename_i hmf hmi
          split at h
          · exact absurd h panics_pure
          · rename_i hg
            rw [panics_skip (leAt d (p + 30) 2 + leAt d (p + 32) 2) (by omega), ← Nat.add_assoc] at h
            refine .skip hent ?_ (fun h => hmf ((hman x).mpr h)) (fun h => hmi ⟨(hmim x).mpr h.1, ?_⟩) h.1 ((ih _ _).mp h.2)
            · intro g hgm
              have := (zipName_iff _ _).mpr hgm
              unfold zipName at this
              rw [hnone, hg] at this
              cases this
            · rw [← hcs, ← hus]; exact h.2
    · have hpart : ∀ x next, ZipEntryAt d p x next → p + 46 ≤ d.length ∧ p + 46 + leAt d (p + 28) 2 ≤ d.length ∧
          slice d (p + 46) (leAt d (p + 28) 2) = x ∧ next = p + 46 + leAt d (p + 28) 2 + (leAt d (p + 30) 2 + leAt d (p + 32) 2) := by
        rintro x next ⟨h1, hx, hlx, rfl⟩
        obtain ⟨h2, h3⟩ := magicAt_slice_iff.mp ⟨hx, hlx⟩
        exact ⟨h1, h2, h3.symm, by rw [hlx]; omega⟩
      intro h
      cases h with
      | manifest he ht hw =>
        obtain ⟨h1, h2, h3, rfl⟩ := hpart _ _ he
        refine ⟨h1, h2, ?_⟩
        rw [h3]
        unfold zipJudge
        rw [show zipNames.lookup (decodeLossy b!"META-INF/MANIFEST.MF") = none by decide +kernel]
        dsimp only
        rw [if_pos (by decide +kernel), panics_skip (leAt d (p + 30) 2 + leAt d (p + 32) 2) (by omega)]
        exact ⟨ht, (ih _ _).mpr hw⟩
      | here he hs hl hh hb ht =>
        obtain ⟨h1, h2, h3, rfl⟩ := hpart _ _ he
        subst hh
        refine ⟨h1, h2, ?_⟩
        rw [h3]
        unfold zipJudge
        rw [show zipNames.lookup (decodeLossy b!"mimetype") = none by decide +kernel]
        dsimp only
        rw [if_neg (by decide +kernel), if_pos ⟨by decide +kernel, by rw [← hcs, ← hus]; exact hs⟩]
        exact (panics_mimetype hm hclt).mpr ⟨by rw [← hcs]; exact hl, hb, ht⟩
      | @skip _ _ x _ he hn hman' hmim' hg hw =>
        obtain ⟨h1, h2, h3, rfl⟩ := hpart _ _ he
        refine ⟨h1, h2, ?_⟩
        rw [h3]
        have hz : zipName (decodeLossy x) = none := by
          cases hz : zipName (decodeLossy x) with
          | none => rfl
          | some g => exact absurd ((zipName_iff _ _).mp hz) (hn g)
        unfold zipName at hz
        unfold zipJudge
        split at hz
        · cases hz
        · rename_i hl
          rw [hl]
          dsimp only
          rw [if_neg (fun h => hman' ((hman x).mp h)), if_neg, hz]
          · dsimp only
            rw [panics_skip (leAt d (p + 30) 2 + leAt d (p + 32) 2) (by omega)]
            exact ⟨hg, (ih _ _).mpr hw⟩
          · rintro ⟨h, h'⟩
            exact hmim' ⟨(hmim x).mp h, by rw [hcs, hus]; exact h'⟩

theorem behindEnd_aborts (d : Bytes) (m e q : Nat) (hm : d.length ≤ m) (he : e + 4 ≤ d.length) (hd : d.length < 2 ^ 63) :
    Panics d m (behindEnd Cfg.release e) q ↔ ∃ count offset, DirectoryAt32 d e count offset ∧ offset ≤ m ∧
      ZipAborts d m (min 1024 count) offset := by
  unfold behindEnd
  rw [← panics_assoc, panics_bind (directory_calm d m e q)]
  constructor
  · rintro ⟨x, q', h1, h2⟩
    rw [panics_start] at h2
    exact ⟨x.1, x.2, (ends_directory hm he hd x.1 x.2).mp ⟨q', h1⟩, h2.1, (zipEntries_aborts d m hm _ _ _).mp h2.2⟩
  · rintro ⟨c, o, hdir, h1, h2⟩
    obtain ⟨q', hq⟩ := (ends_directory (q := q) hm he hd c o).mpr hdir
    refine ⟨(c, o), q', hq, ?_⟩
    rw [panics_start]
    exact ⟨h1, (zipEntries_aborts d m hm _ _ _).mpr h2⟩

/-! ### The reader -/

/-- The reader up to the end record. -/
theorem zipReader_eq (cfg : Cfg) (d : Bytes) (m : Nat) (hm : d.length ≤ m) (hd : d.length < 2 ^ 63) (M : Nat) (hM : M = 65557)
    (hmax : zipEocdMaxSize = M) :
    (∃ er, run d m (zipReader cfg) 0 = .error (.err er) ∧ ∀ e, ¬ EndAt32 d e) ∨
    (∃ e q, EndAt32 d e ∧ (∀ e', EndAt32 d e' → e' = e) ∧ e + 4 ≤ d.length ∧
      run d m (zipReader cfg) 0 = run d m (behindEnd cfg e) q) := by
  have hmin : zipEocdMinSize = 22 := rfl
  have hsig : zipEocdSignature = b!"PK\x05\x06" := rfl
  have ha : asUsize d.length = d.length % 2 ^ 32 := rfl
  unfold zipReader
  rw [hmax, hmin, hsig]
  rw [run_bind, run_sk_end _ hm]
  simp only [andThen_ok]
  rw [run_bind, run_sk_start _ _ (by omega)]
  simp only [andThen_ok]
  rw [ha, readBytes_small (by omega), run_bind, run_readBytes]
  by_cases hl : 22 ≤ d.length
  · rw [if_pos (Or.inr (by omega))]
    simp only [andThen_ok]
    obtain ⟨r, hr, hlast⟩ := rfindBytes_spec (slice d (d.length - M) (max 22 (min (d.length % 2 ^ 32) M))) b!"PK\x05\x06"
    have hend := endAt_search32 d hl r M hM hlast
    rw [hr, run_bind, run_lift_ok]
    simp only [andThen_ok]
    cases r with
    | none =>
      left
      refine ⟨_, rfl, fun e h => ?_⟩
      obtain ⟨_, h, _⟩ := (hend e).mp h
      cases h
    | some i =>
      right
      have hin : d.length - M + i + 4 ≤ d.length := by
        obtain ⟨_, _, _, _, _, _, _, h, _⟩ := (hend (d.length - M + i)).mpr ⟨i, rfl, rfl⟩
        exact ((magicAt_iff _ _ _).mp h).1
      refine ⟨d.length - M + i, d.length - M + max 22 (min (d.length % 2 ^ 32) M), (hend _).mpr ⟨i, rfl, rfl⟩, fun e' h => ?_, hin, ?_⟩
      · obtain ⟨_, h', h''⟩ := (hend e').mp h
        injection h' with h'
        rw [h'', h']
      · simp only
        rw [u64Add_ok cfg (by omega), run_bind, run_lift_ok]
        unfold behindEnd
        simp only [andThen_ok]
  · left
    rw [if_neg (by omega)]
    exact ⟨_, rfl, fun e ⟨_, _, h, _⟩ => hl h⟩

theorem zipReader_walk32 (d : Bytes) (m : Nat) (hm : d.length ≤ m) (hd : d.length < 2 ^ 63) (f : FileFormat) :
    Ends d m (zipReader Cfg.release) 0 f ↔ ZipContent32 d m f := by
  rcases zipReader_eq Cfg.release d m hm hd _ rfl rfl with ⟨er, h1, h2⟩ | ⟨e, q, h1, h2, h3, h4⟩
  · constructor
    · rintro ⟨q, h⟩; rw [h1] at h; cases h
    · rintro ⟨e, _, _, h, _⟩; exact absurd h (h2 e)
  · have h := behindEnd_walk d m e q hm h3 hd f
    unfold Ends at h ⊢
    rw [h4, h]
    constructor
    · rintro ⟨c, o, h⟩; exact ⟨e, c, o, h1, h⟩
    · rintro ⟨e', c, o, h5, h⟩; have := h2 e' h5; rw [this] at h; exact ⟨c, o, h⟩

theorem zipReader_aborts (d : Bytes) (m : Nat) (hm : d.length ≤ m) (hd : d.length < 2 ^ 63) :
    Panics d m (zipReader Cfg.release) 0 ↔ ZipTooLarge d m := by
  rcases zipReader_eq Cfg.release d m hm hd _ rfl rfl with ⟨er, h1, h2⟩ | ⟨e, q, h1, h2, h3, h4⟩
  · constructor
    · intro h; unfold Panics at h; rw [h1] at h; cases h
    · rintro ⟨e, _, _, h, _⟩; exact absurd h (h2 e)
  · have h := behindEnd_aborts d m e q hm h3 hd
    unfold Panics at h ⊢
    rw [h4, h]
    constructor
    · rintro ⟨c, o, h⟩; exact ⟨e, c, o, h1, h⟩
    · rintro ⟨e', c, o, h5, h⟩; have := h2 e' h5; rw [this] at h; exact ⟨c, o, h⟩

end FF.Target32
