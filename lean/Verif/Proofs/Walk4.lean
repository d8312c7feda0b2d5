import Verif.Proofs.Walk2
import Verif.Proofs.ZipName
import Verif.Proofs.Search
/-!
# The readers walk as specified, on any content: ZIP
-/

namespace FF
open Spec FileFormat

theorem ends_skip {β : Type} {d : Bytes} {m p : Nat} {r : β} {k : Nat → Prog β} (n : Nat) {i : Int} (h : i = n) :
    Ends d m (Prog.sk (.current i) >>= k) p r ↔ p + n ≤ m ∧ Ends d m (k (p + n)) (p + n) r := by
  rw [ends_current]
  constructor
  · rintro ⟨q, hq, h'⟩
    obtain ⟨rfl, h1⟩ := (goes_lit n i h).mp hq
    exact ⟨h1, h'⟩
  · rintro ⟨h1, h'⟩
    exact ⟨_, (goes_lit n i h).mpr ⟨rfl, h1⟩, h'⟩

/-- What becomes of an entry. -/
def zipJudge (n : Nat) (fmt : FileFormat) (cs us el cl off : Nat) (filename : Str) : Prog FileFormat :=
  match zipNames.lookup filename with
  | some f => Pure.pure f
  | none =>
    if filename = s!!"META-INF/MANIFEST.MF" then do
      let _ ← Prog.sk (.current ((el : Int) + cl))
      zipEntries n JavaArchive
    else if filename = s!!"mimetype" ∧ cs = us then
      zipMimetype cs off
    else
      match zipPatterns filename with
      | some f => Pure.pure f
      | none => do
        let _ ← Prog.sk (.current ((el : Int) + cl))
        zipEntries n fmt

theorem ends_entry {d : Bytes} {m n p : Nat} {fmt f : FileFormat} (hm : d.length ≤ m) :
    Ends d m (zipEntries (n + 1) fmt) p f ↔
      p + 46 ≤ d.length ∧ p + 46 + leAt d (p + 28) 2 ≤ d.length ∧
        Ends d m (zipJudge n fmt (leAt d (p + 20) 4) (leAt d (p + 24) 4) (leAt d (p + 30) 2) (leAt d (p + 32) 2)
          (leAt d (p + 42) 4) (decodeLossy (slice d (p + 46) (leAt d (p + 28) 2)))) (p + 46 + leAt d (p + 28) 2) f := by
  change Ends d m (do
    let _ ← Prog.sk (.current 20)
    let compressedSize ← readU32le
    let uncompressedSize ← readU32le
    let filenameLen ← readU16le
    let extraFieldLen ← readU16le
    let fileCommentLen ← readU16le
    let _ ← Prog.sk (.current 8)
    let offset ← readU32le
    let filename ← readString filenameLen
    zipJudge n fmt compressedSize uncompressedSize extraFieldLen fileCommentLen offset filename) p f ↔ _
  rw [ends_skip 20 (i := 20) rfl, ends_u32le, ends_u32le, ends_u16le, ends_u16le, ends_u16le, ends_skip 8 (i := 8) rfl, ends_u32le, ends_string]
  constructor
  · rintro ⟨h1, h2, h3, h4, h5, h6, h7, h8, h9, h⟩
    have h9' : leAt d (p + 28) 2 = 0 ∨ p + 46 + leAt d (p + 28) 2 ≤ d.length := h9
    exact ⟨h8, by omega, h⟩
  · rintro ⟨h1, h2, h⟩
    exact ⟨by omega, by omega, by omega, by omega, by omega, by omega, by omega, h1, Or.inr h2, h⟩

theorem ends_mimetype {d : Bytes} {m p q : Nat} {f : FileFormat} (hm : d.length ≤ m) :
    Ends d m (zipMimetype (leAt d (p + 20) 4) (leAt d (p + 42) 4)) q f ↔
      ∃ content, StoredFor d m p content ∧ (MimeMeans content f ∨ ((∀ g, ¬ MimeMeans content g) ∧ f = Zip)) := by
  unfold zipMimetype
  generalize hh : leAt d (p + 42) 4 = h
  generalize hc : leAt d (p + 20) 4 = c
  rw [ends_start, ends_u16le, ends_u16le, ends_skip (leAt d (h + 26) 2 + leAt d (h + 26 + 2) 2) (by omega), ends_string]
  have hq : h + 26 + 2 + 2 + (leAt d (h + 26) 2 + leAt d (h + 26 + 2) 2) = h + 30 + leAt d (h + 26) 2 + leAt d (h + 28) 2 := by
    rw [show h + 26 + 2 = h + 28 from rfl]; omega
  rw [hq]
  generalize hqq : h + 30 + leAt d (h + 26) 2 + leAt d (h + 28) 2 = q'
  have hverdict : ∀ (x : Bytes) q, Ends d m (match zipMimetypes.lookup (trim (decodeLossy x)) with
      | some f => Pure.pure f
      | none => Pure.pure Zip : Prog FileFormat) q f ↔ (MimeMeans x f ∨ ((∀ g, ¬ MimeMeans x g) ∧ f = Zip)) := by
    intro x q
    split
    · rename_i g hg
      have hmg := (zipMime_iff _ _).mp hg
      rw [ends_pure]
      constructor
      · rintro rfl; exact Or.inl hmg
      · rintro (h | ⟨h, _⟩)
        · have := (zipMime_iff _ _).mpr h
          rw [hg] at this
          exact (Option.some.inj this).symm
        · exact absurd hmg (h g)
    · rename_i hg
      have hno : ∀ g, ¬ MimeMeans x g := by
        intro g h
        have := (zipMime_iff _ _).mpr h
        rw [hg] at this
        cases this
      rw [ends_pure]
      constructor
      · rintro rfl; exact Or.inr ⟨hno, rfl⟩
      · rintro (h | ⟨_, h⟩)
        · exact absurd h (hno f)
        · exact h
  constructor
  · rintro ⟨h1, h2, h3, h4, h5, h6⟩
    refine ⟨slice d q' c, ⟨h, q', hh.symm, h3, hqq.symm, h4, ?_, ?_⟩, (hverdict _ _).mp h6⟩
    · rcases h5 with rfl | h5
      · rw [slice_zero, hc]; rfl
      · rw [length_slice_eq _ _ _ h5, hc]
    · rcases h5 with rfl | h5
      · exact Or.inl (slice_zero _ _)
      · exact Or.inr (magicAt_slice_iff.mpr ⟨h5, rfl⟩).1
  · rintro ⟨x, ⟨h', q2, he, h3, rfl, h4, h5, h6⟩, h7⟩
    rw [hh] at he
    subst he
    rw [hqq] at h4 h6
    rw [hc] at h5
    have hx : (c = 0 ∨ q' + c ≤ d.length) ∧ x = slice d q' c := by
      rcases h6 with rfl | h6
      · obtain rfl : c = 0 := h5.symm
        exact ⟨Or.inl rfl, (slice_zero _ _).symm⟩
      · obtain ⟨h8, h9⟩ := magicAt_slice_iff.mp ⟨h6, h5⟩
        exact ⟨Or.inr h8, h9⟩
    obtain ⟨h8, rfl⟩ := hx
    exact ⟨by omega, by omega, by omega, h4, h8, (hverdict _ _).mpr h7⟩

theorem mimetype_plain (f : FileFormat) : ¬ NameMeans b!"mimetype" f := by
  intro h
  have := (zipName_iff _ _).mpr h
  rw [show zipName (decodeLossy b!"mimetype") = none by decide +kernel] at this
  cases this

theorem manifest_plain (f : FileFormat) : ¬ NameMeans b!"META-INF/MANIFEST.MF" f := by
  intro h
  have := (zipName_iff _ _).mpr h
  rw [show zipName (decodeLossy b!"META-INF/MANIFEST.MF") = none by decide +kernel] at this
  cases this

theorem zipEntries_walk (d : Bytes) (m : Nat) (hm : d.length ≤ m) (n : Nat) (fmt : FileFormat) (p : Nat) (f : FileFormat) :
    Ends d m (zipEntries n fmt) p f ↔ ZipWalk d m n p fmt f := by
  induction n generalizing fmt p with
  | zero =>
    unfold zipEntries
    rw [ends_pure]
    exact ⟨fun h => h ▸ .limit, fun h => by cases h; rfl⟩
  | succ n ih =>
    rw [ends_entry hm]
    have hman : ∀ x : Bytes, decodeLossy x = s!!"META-INF/MANIFEST.MF" ↔ x = b!"META-INF/MANIFEST.MF" := by
      intro x
      rw [← lossy_eq b!"META-INF/MANIFEST.MF" (by decide), show asciiStr b!"META-INF/MANIFEST.MF" = s!!"META-INF/MANIFEST.MF" by decide]
    have hmim : ∀ x : Bytes, decodeLossy x = s!!"mimetype" ↔ x = b!"mimetype" := by
      intro x
      rw [← lossy_eq b!"mimetype" (by decide), show asciiStr b!"mimetype" = s!!"mimetype" by decide]
    generalize hcs : leAt d (p + 20) 4 = cs
    generalize hus : leAt d (p + 24) 4 = us
    constructor
    · rintro ⟨h1, h2, h⟩
      obtain ⟨hx, hlx⟩ := magicAt_slice_iff.mpr ⟨h2, rfl⟩
      generalize hnx : slice d (p + 46) (leAt d (p + 28) 2) = x at h hx hlx
      have hent : ZipEntryAt d p x (p + 46 + x.length + leAt d (p + 30) 2 + leAt d (p + 32) 2) := ⟨h1, hx, hlx, rfl⟩
      rw [← hlx] at h
      unfold zipJudge at h
      split at h
      · rename_i g hg
        rw [ends_pure] at h
        subst h
        refine .decisive hent ((zipName_iff _ _).mp ?_)
        unfold zipName
        rw [hg]
      · rename_i hnone
        split at h
        · rename_i hmf
          obtain rfl := (hman x).mp hmf
          rw [ends_skip (leAt d (p + 30) 2 + leAt d (p + 32) 2) (by omega), ← Nat.add_assoc] at h
          exact .manifest hent h.1 ((ih _ _).mp h.2)
        split at h
        · rename_i hmf hmi
          obtain rfl := (hmim x).mp hmi.1
          rw [← hcs, ends_mimetype hm] at h
          obtain ⟨c, hc, h | ⟨h, rfl⟩⟩ := h
          · exact .media hent (hcs.trans (hmi.2.trans hus.symm)) hc h
          · exact .unknown hent (hcs.trans (hmi.2.trans hus.symm)) hc h
        · rename_i hmf hmi
          split at h
          · rename_i g hg
            rw [ends_pure] at h
            subst h
            refine .decisive hent ((zipName_iff _ _).mp ?_)
            unfold zipName
            rw [hnone, hg]
          · rename_i hg
            rw [ends_skip (leAt d (p + 30) 2 + leAt d (p + 32) 2) (by omega), ← Nat.add_assoc] at h
            refine .skip hent ?_ (fun h => hmf ((hman x).mpr h)) (fun h => hmi ⟨(hmim x).mpr h.1, ?_⟩) h.1 ((ih _ _).mp h.2)
            · intro g hgm
              have := (zipName_iff _ _).mpr hgm
              unfold zipName at this
              rw [hnone, hg] at this
              cases this
            · rw [← hcs, ← hus]; exact h.2
    · have hpart : ∀ x next, ZipEntryAt d p x next → p + 46 ≤ d.length ∧ p + 46 + leAt d (p + 28) 2 ≤ d.length ∧
          slice d (p + 46) (leAt d (p + 28) 2) = x ∧ next = p + 46 + leAt d (p + 28) 2 + (leAt d (p + 30) 2 + leAt d (p + 32) 2) := by
        rintro x next ⟨h1, hx, hlx, rfl⟩
        obtain ⟨h2, h3⟩ := magicAt_slice_iff.mp ⟨hx, hlx⟩
        exact ⟨h1, h2, h3.symm, by rw [hlx]; omega⟩
      intro h
      cases h with
      | @decisive _ _ x next _ _ he hn =>
        obtain ⟨h1, h2, h3, h4⟩ := hpart _ _ he
        refine ⟨h1, h2, ?_⟩
        rw [h3]
        have hz := (zipName_iff _ _).mpr hn
        unfold zipName at hz
        unfold zipJudge
        split
        · rename_i g hg
          rw [hg] at hz
          rw [ends_pure]
          exact (Option.some.inj hz).symm
        · rename_i hg
          rw [hg] at hz
          dsimp only at hz
          rw [if_neg, if_neg, hz]
          · exact ends_pure.mpr rfl
          · rintro ⟨h, _⟩
            obtain rfl := (hmim x).mp h
            exact mimetype_plain _ hn
          · intro h
            obtain rfl := (hman x).mp h
            exact manifest_plain _ hn
      | manifest he ht hw =>
        obtain ⟨h1, h2, h3, rfl⟩ := hpart _ _ he
        refine ⟨h1, h2, ?_⟩
        rw [h3]
        unfold zipJudge
        rw [show zipNames.lookup (decodeLossy b!"META-INF/MANIFEST.MF") = none by decide +kernel]
        dsimp only
        rw [if_pos (by decide +kernel), ends_skip (leAt d (p + 30) 2 + leAt d (p + 32) 2) (by omega)]
        exact ⟨ht, (ih _ _).mpr hw⟩
      | media he hs hc hmm =>
        obtain ⟨h1, h2, h3, rfl⟩ := hpart _ _ he
        refine ⟨h1, h2, ?_⟩
        rw [h3]
        unfold zipJudge
        rw [show zipNames.lookup (decodeLossy b!"mimetype") = none by decide +kernel]
        dsimp only
        rw [if_neg (by decide +kernel), if_pos ⟨by decide +kernel, by rw [← hcs, ← hus]; exact hs⟩, ← hcs, ends_mimetype hm]
        exact ⟨_, hc, Or.inl hmm⟩
      | unknown he hs hc hmm =>
        obtain ⟨h1, h2, h3, rfl⟩ := hpart _ _ he
        refine ⟨h1, h2, ?_⟩
        rw [h3]
        unfold zipJudge
        rw [show zipNames.lookup (decodeLossy b!"mimetype") = none by decide +kernel]
        dsimp only
        rw [if_neg (by decide +kernel), if_pos ⟨by decide +kernel, by rw [← hcs, ← hus]; exact hs⟩, ← hcs, ends_mimetype hm]
        exact ⟨_, hc, Or.inr ⟨hmm, rfl⟩⟩
      | @skip _ _ x _ _ _ he hn hman' hmim' hg hw =>
        obtain ⟨h1, h2, h3, rfl⟩ := hpart _ _ he
        refine ⟨h1, h2, ?_⟩
        rw [h3]
        have hz : zipName (decodeLossy x) = none := by
          cases hz : zipName (decodeLossy x) with
          | none => rfl
          | some g => exact absurd ((zipName_iff _ _).mp hz) (hn g)
        unfold zipName at hz
        unfold zipJudge
        split at hz
        · cases hz
        · rename_i hl
          rw [hl]
          dsimp only
          rw [if_neg (fun h => hman' ((hman x).mp h)), if_neg, hz]
          · dsimp only
            rw [ends_skip (leAt d (p + 30) 2 + leAt d (p + 32) 2) (by omega)]
            exact ⟨hg, (ih _ _).mpr hw⟩
          · rintro ⟨h, h'⟩
            exact hmim' ⟨(hmim x).mp h, by rw [hcs, hus]; exact h'⟩

theorem ends_zipDirectory {d : Bytes} {m e q : Nat} (hm : d.length ≤ m) (he : e + 4 ≤ d.length) (hd : d.length < 2 ^ 63)
    {k : Nat × Nat → Prog FileFormat} {f : FileFormat} (hk : ∀ x q q', Ends d m (k x) q f ↔ Ends d m (k x) q' f) :
    Ends d m (zipIsZip64 e >>= fun z => zipEnd Cfg.release z e >>= k) q f ↔
      ∃ count offset, DirectoryAt d m e count offset ∧ Ends d m (k (count, offset)) 0 f := by
  have hclassic : ∀ q, Ends d m (zipEnd Cfg.release false e >>= k) q f ↔
      e + 20 ≤ d.length ∧ Ends d m (k (leAt d (e + 10) 2, leAt d (e + 16) 4)) 0 f := by
    intro q
    unfold zipEnd zipDirectory
    rw [if_neg (by decide), ends_assoc, ends_lift (u64Add_release _ _), Nat.mod_eq_of_lt (by omega), ends_assoc, ends_start, ends_assoc,
      ends_u16le, ends_assoc, ends_skip 4 (i := 4) rfl, ends_assoc, ends_u32le,
      ends_ok (show run d m (Pure.pure (leAt d (e + 10) 2, leAt d (e + 10 + 2 + 4) 4) : Prog (Nat × Nat)) _ = .ok (_, _) from rfl),
      hk _ _ 0]
    constructor
    · rintro ⟨_, _, _, h, h'⟩; exact ⟨h, h'⟩
    · rintro ⟨h, h'⟩; exact ⟨by omega, by omega, by omega, by omega, h'⟩
  have h64 : 20 ≤ e → (Ends d m (zipEnd Cfg.release true e >>= k) (e - 20 + 4) f ↔
      ∃ z, z = (leAt d (e - 12) 8 + 32) % 2 ^ 64 ∧ z + 24 ≤ d.length ∧ Ends d m (k (leAt d z 8, leAt d (z + 16) 8)) 0 f) := by
    intro h20
    unfold zipEnd zipDirectory64
    rw [if_pos rfl, ends_assoc, ends_skip 4 (i := 4) rfl, ends_assoc, ends_u64le, ends_assoc, ends_lift (u64Add_release _ _), ends_assoc, ends_start]
    rw [show e - 20 + 4 + 4 = e - 12 by omega]
    generalize hz : (leAt d (e - 12) 8 + 32) % 2 ^ 64 = z
    rw [ends_assoc, ends_u64le, ends_assoc, ends_skip 8 (i := 8) rfl, ends_assoc, ends_u64le,
      ends_ok (show run d m (Pure.pure (leAt d z 8, leAt d (z + 8 + 8) 8) : Prog (Nat × Nat)) _ = .ok (_, _) from rfl),
      hk _ _ 0]
    constructor
    · rintro ⟨_, _, _, _, _, h, h'⟩; exact ⟨z, rfl, h, h'⟩
    · rintro ⟨z', rfl, h, h'⟩; exact ⟨by omega, by omega, by omega, by omega, by omega, by omega, h'⟩
  unfold zipIsZip64
  have hs20 : zipEocd64LocatorSize = 20 := rfl
  have hsig : zipEocd64LocatorSignature = b!"PK\x06\x07" := rfl
  rw [hs20, hsig]
  split
  · rename_i h20
    rw [ends_assoc, ends_start, ends_assoc, ends_bytes, ends_ok (show run d m (Pure.pure _ : Prog Bool) _ = .ok (_, _) from rfl)]
    have hmag : (slice d (e - 20) 4 == b!"PK\x06\x07") = true ↔ MagicAt (e - 20) b!"PK\x06\x07" d := by
      rw [beq_iff_eq]; exact (magicAt_slice (by decide) (by omega)).symm
    rw [and_iff_right (by omega : e - 20 ≤ m), and_iff_right (Or.inr (by omega))]
    by_cases hmg : MagicAt (e - 20) b!"PK\x06\x07" d
    · rw [hmag.mpr hmg, h64 h20]
      constructor
      · rintro ⟨z, hz, hl, h⟩; exact ⟨_, _, .zip64 h20 hmg hz hl, h⟩
      · rintro ⟨_, _, hdir, h⟩
        cases hdir with
        | classic hz => exact absurd ⟨h20, hmg⟩ hz
        | zip64 _ _ hz hl => exact ⟨_, hz, hl, h⟩
    · rw [show (slice d (e - 20) 4 == b!"PK\x06\x07") = false by
        rw [Bool.eq_false_iff]; exact fun h => hmg (hmag.mp h), hclassic]
      constructor
      · rintro ⟨hl, h⟩; exact ⟨_, _, .classic (fun h => hmg h.2) hl, h⟩
      · rintro ⟨_, _, hdir, h⟩
        cases hdir with
        | classic hz hl => exact ⟨hl, h⟩
        | zip64 _ hz => exact absurd hz hmg
  · rename_i h20
    rw [ends_ok (show run d m (Pure.pure false : Prog Bool) _ = .ok (_, _) from rfl), hclassic]
    constructor
    · rintro ⟨hl, h⟩; exact ⟨_, _, .classic (fun h => h20 h.1) hl, h⟩
    · rintro ⟨_, _, hdir, h⟩
      cases hdir with
      | classic hz hl => exact ⟨hl, h⟩
      | zip64 h' => exact absurd h' h20

theorem occursAt_slice {d x : Bytes} {p n i : Nat} (hx : x ≠ []) (h : p + n = d.length) :
    OccursAt x (slice d p n) i ↔ MagicAt (p + i) x d := by
  unfold OccursAt
  rw [drop_slice, magicAt_iff]
  have hs : slice d (p + i) (n - i) = d.drop (p + i) := by
    unfold slice
    exact List.take_of_length_le (by rw [List.length_drop]; omega)
  rw [hs, List.prefix_iff_eq_take]
  constructor
  · intro he
    have hl := congrArg List.length he
    rw [List.length_take, List.length_drop] at hl
    have : 0 < x.length := List.length_pos_iff.mpr hx
    exact ⟨by omega, he.symm⟩
  · rintro ⟨_, h⟩; exact h.symm

theorem zipReader_walk (d : Bytes) (m : Nat) (hm : d.length ≤ m) (hd : d.length < 2 ^ 63) (f : FileFormat) :
    Ends d m (zipReader Cfg.release) 0 f ↔ ZipContent d m f := by
  have hmax : zipEocdMaxSize = 65557 := rfl
  have hmin : zipEocdMinSize = 22 := rfl
  have hsig : zipEocdSignature = b!"PK\x05\x06" := rfl
  unfold zipReader
  rw [ends_end hm]
  dsimp only
  rw [ends_start, ends_bytes, hmax, hmin, hsig]
  by_cases hl : 22 ≤ d.length
  · have hn : d.length - 65557 + max 22 (min d.length 65557) = d.length := by omega
    rw [and_iff_right (by omega : d.length - 65557 ≤ m), and_iff_right (Or.inr (by omega))]
    obtain ⟨r, hr, hlast⟩ := rfindBytes_spec (slice d (d.length - 65557) (max 22 (min d.length 65557))) b!"PK\x05\x06"
    rw [ends_lift hr]
    have hocc : ∀ i, OccursAt b!"PK\x05\x06" (slice d (d.length - 65557) (max 22 (min d.length 65557))) i ↔
        MagicAt (d.length - 65557 + i) b!"PK\x05\x06" d := fun i => occursAt_slice (by decide) hn
    have hblen : (slice d (d.length - 65557) (max 22 (min d.length 65557))).length = max 22 (min d.length 65557) :=
      length_slice_eq _ _ _ (by omega)
    have hk : ∀ (x : Nat × Nat) q q', Ends d m (Prog.sk (.start x.2) >>= fun _ => zipEntries (min zipEntryLimit x.1) Zip) q f ↔
        Ends d m (Prog.sk (.start x.2) >>= fun _ => zipEntries (min zipEntryLimit x.1) Zip) q' f := by
      intro x q q'
      refine ends_start.trans (Iff.symm ?_)
      exact ends_start
    cases r with
    | none =>
      dsimp only
      constructor
      · intro h; exact absurd h ends_throw
      · rintro ⟨e, _, _, ⟨_, h1, h2, _⟩, _⟩
        refine absurd ((hocc (e - (d.length - 65557))).mpr ?_) (hlast _)
        rwa [show d.length - 65557 + (e - (d.length - 65557)) = e by omega]
    | some i =>
      have hat := (hocc i).mp hlast.1
      have hin := ((magicAt_iff _ _ _).mp hat).1
      have h4 : b!"PK\x05\x06".length = 4 := rfl
      rw [h4] at hin
      dsimp only
      rw [ends_lift (u64Add_release _ _), Nat.mod_eq_of_lt (by omega), ends_zipDirectory hm (by omega) hd hk]
      have hend : ∀ e, EndAt d e ↔ e = d.length - 65557 + i := by
        intro e
        constructor
        · rintro ⟨_, h1, h2, h3⟩
          rcases Nat.lt_trichotomy e (d.length - 65557 + i) with h | h | h
          · exact absurd hat (h3 _ h)
          · exact h
          · exfalso
            have hin' := ((magicAt_iff _ _ _).mp h2).1
            rw [h4] at hin'
            refine hlast.2 (e - (d.length - 65557)) (by omega) (by rw [hblen]; omega) ((hocc _).mpr ?_)
            rwa [show d.length - 65557 + (e - (d.length - 65557)) = e by omega]
        · rintro rfl
          refine ⟨hl, by omega, hat, fun e' he' hm' => ?_⟩
          have hin' := ((magicAt_iff _ _ _).mp hm').1
          rw [h4] at hin'
          refine hlast.2 (e' - (d.length - 65557)) (by omega) (by rw [hblen]; omega) ((hocc _).mpr ?_)
          rwa [show d.length - 65557 + (e' - (d.length - 65557)) = e' by omega]
      constructor
      · rintro ⟨c, o, hdir, h⟩
        rw [ends_start] at h
        exact ⟨_, c, o, (hend _).mpr rfl, hdir, h.1, (zipEntries_walk d m hm _ _ _ _).mp h.2⟩
      · rintro ⟨e, c, o, he, hdir, h1, h2⟩
        obtain rfl := (hend e).mp he
        refine ⟨c, o, hdir, ?_⟩
        rw [ends_start]
        exact ⟨h1, (zipEntries_walk d m hm _ _ _ _).mpr h2⟩
  · constructor
    · rintro ⟨_, h, _⟩; omega
    · rintro ⟨_, _, _, ⟨h, _⟩, _⟩; omega

end FF
