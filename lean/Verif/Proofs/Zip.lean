import Verif.Proofs.ZipName
import Verif.Proofs.Parse
import Verif.Proofs.Search
import Verif.Proofs.Total
import Verif.Proofs.Offsets
/-!
# The ZIP reader on archives
-/

namespace FF
open Spec FileFormat

/-! ## Entries -/

theorem zipMimetype_run (d : Bytes) (m : Nat) (hm : d.length ≤ m) (content : Bytes) (offset : Nat)
    (hs : StoredAt offset content d) (p : Nat) :
    val (run d m (zipMimetype content.length offset) p) =
      match zipMimetypes.lookup (trim (decodeLossy content)) with
      | some f => .ok f
      | none => .ok Zip := by
  cases hs with
  | intro before head name extra after hb hh hn he =>
    have h0 : At (before ++ (head ++ (leBytes 2 name.length ++ (leBytes 2 extra.length ++
      (name ++ (extra ++ (content ++ after))))))) (offset + 26) (leBytes 2 name.length ++ (leBytes 2 extra.length ++
      ((name ++ extra) ++ (content ++ after)))) := by
      rw [List.append_assoc name]
      exact (At.of_append' (a := before) (p := offset) hb.symm).skip' hh
    have h1 := h0.skip' (length_leBytes 2 _)
    have h2 := h1.skip' (length_leBytes 2 _)
    have h3 := h2.skip
    have hl := h0.len
    unfold zipMimetype
    rw [run_bind, run_sk_start _ _ (by omega), andThen_ok, run_bind, h0.readU16le hn, andThen_ok, run_bind,
      h1.readU16le he, andThen_ok, run_bind, h2.sk (by rw [List.length_append]; omega) hm, andThen_ok, run_bind, h3.readString rfl, andThen_ok]
    cases zipMimetypes.lookup (trim (decodeLossy content)) <;> rfl

/-- What the loop does with one entry. -/
theorem zipEntry_run (d : Bytes) (m : Nat) (hm : d.length ≤ m) (e : ZipEntry) (hv : e.Valid) (rest : Bytes) (p n : Nat)
    (h : At d p (e.encode ++ rest)) (fmt : FileFormat) :
    (∀ f, e.Decides d f → val (run d m (zipEntries (n + 1) fmt) p) = .ok f) ∧
    (¬ e.Decisive → run d m (zipEntries (n + 1) fmt) p = run d m (zipEntries n
      (if e.name = b!"META-INF/MANIFEST.MF" then JavaArchive else fmt)) (p + e.encode.length)) := by
  obtain ⟨v1, v2, v3, v4, v5, v6, v7, v8⟩ := hv
  have h0 : At d p (e.head ++ (leBytes 4 e.compressed ++ (leBytes 4 e.uncompressed ++ (leBytes 2 e.name.length ++
      (leBytes 2 e.extra.length ++ (leBytes 2 e.comment.length ++ (e.attrs ++ (leBytes 4 e.offset ++ (e.name ++
      ((e.extra ++ e.comment) ++ rest)))))))))) := by
    simpa only [ZipEntry.encode, List.append_assoc] using h
  have h1 := h0.skip' v1
  have h2 := h1.skip' (length_leBytes 4 _)
  have h3 := h2.skip' (length_leBytes 4 _)
  have h4 := h3.skip' (length_leBytes 2 _)
  have h5 := h4.skip' (length_leBytes 2 _)
  have h6 := h5.skip' (length_leBytes 2 _)
  have h7 := h6.skip' v4
  have h8 := h7.skip' (length_leBytes 4 _)
  have h9 := h8.skip
  have hp : p + e.encode.length = p + 20 + 4 + 4 + 2 + 2 + 2 + 8 + 4 + e.name.length + (e.extra ++ e.comment).length := by
    simp only [ZipEntry.encode, List.length_append, length_leBytes, v1, v4]; omega
  have hskip : ∀ fmt, run d m (do
      let _ ← Prog.sk (.current ((e.extra.length : Int) + e.comment.length))
      zipEntries n fmt) (p + 20 + 4 + 4 + 2 + 2 + 2 + 8 + 4 + e.name.length) = run d m (zipEntries n fmt) (p + e.encode.length) := by
    intro fmt
    rw [run_bind, h9.sk (by rw [List.length_append]; omega) hm, andThen_ok, hp]
  rw [zipEntries, run_bind, h0.sk (by rw [v1]; rfl) hm, andThen_ok, v1, run_bind, h1.readU32le v2, andThen_ok, run_bind,
    h2.readU32le v3, andThen_ok, run_bind, h3.readU16le v6, andThen_ok, run_bind, h4.readU16le v7, andThen_ok, run_bind,
    h5.readU16le v8, andThen_ok, run_bind, h6.sk (by rw [v4]; rfl) hm, andThen_ok, v4, run_bind, h7.readU32le v5, andThen_ok,
    run_bind, h8.readString rfl, andThen_ok]
  have hz := zipName_iff e.name
  unfold zipName at hz
  have hman : decodeLossy e.name = s!!"META-INF/MANIFEST.MF" ↔ e.name = b!"META-INF/MANIFEST.MF" :=
    lossy_eq b!"META-INF/MANIFEST.MF" (by decide) e.name
  have hmim : decodeLossy e.name = s!!"mimetype" ↔ e.name = b!"mimetype" :=
    lossy_eq b!"mimetype" (by decide) e.name
  have hnone : ∀ nm ∈ [b!"META-INF/MANIFEST.MF", b!"mimetype"], ∀ f, ¬ NameMeans nm f := by
    intro nm hnm f hf
    have hzz := (zipName_iff nm f).mpr hf
    simp only [List.mem_cons, List.not_mem_nil, or_false] at hnm
    rcases hnm with rfl | rfl
    · have : zipName (decodeLossy b!"META-INF/MANIFEST.MF") = none := by decide +kernel
      rw [this] at hzz; cases hzz
    · have : zipName (decodeLossy b!"mimetype") = none := by decide +kernel
      rw [this] at hzz; cases hzz
  cases hl : zipNames.lookup (decodeLossy e.name) with
  | some g =>
    rw [hl] at hz
    have hg : NameMeans e.name g := (hz g).mp rfl
    constructor
    · intro f hf
      cases hf with
      | name h => rw [nameMeans_unique h hg]; rfl
      | mime h _ _ _ => exact absurd (h.1 ▸ hg) (hnone _ (by simp) g)
      | otherMime h _ _ _ => exact absurd (h.1 ▸ hg) (hnone _ (by simp) g)
    · intro hnd
      exact absurd (.inl ⟨g, hg⟩) hnd
  | none =>
    rw [hl] at hz
    simp only at hz ⊢
    by_cases c1 : e.name = b!"META-INF/MANIFEST.MF"
    · rw [if_pos (hman.mpr c1), if_pos c1]
      constructor
      · intro f hf
        cases hf with
        | name h => exact absurd (c1 ▸ h) (hnone _ (by simp) f)
        | mime h _ _ _ => rw [h.1] at c1; exact absurd c1 (by decide)
        | otherMime h _ _ _ => rw [h.1] at c1; exact absurd c1 (by decide)
      · intro _
        exact hskip JavaArchive
    · rw [if_neg (fun h => c1 (hman.mp h)), if_neg c1]
      by_cases c2 : e.IsMimetype
      · rw [if_pos ⟨hmim.mpr c2.1, c2.2⟩]
        constructor
        · intro f hf
          cases hf with
          | name h => exact absurd (c2.1 ▸ h) (hnone _ (by simp) f)
          | mime h hlen hst hc =>
            rw [← hlen, zipMimetype_run d m hm _ _ hst, (zipMime_iff _ f).mpr hc]
          | otherMime h hlen hst hc =>
            rw [← hlen, zipMimetype_run d m hm _ _ hst]
            cases hlk : zipMimetypes.lookup (trim (decodeLossy _)) with
            | none => rfl
            | some g => exact absurd ((zipMime_iff _ g).mp hlk) (hc g)
        · intro hnd
          exact absurd (.inr c2) hnd
      · rw [if_neg (fun h => c2 ⟨hmim.mp h.1, h.2⟩)]
        cases hpt : zipPatterns (decodeLossy e.name) with
        | some g =>
          have hg : NameMeans e.name g := (hz g).mp hpt
          constructor
          · intro f hf
            cases hf with
            | name h => rw [nameMeans_unique h hg]; rfl
            | mime h _ _ _ => exact absurd h c2
            | otherMime h _ _ _ => exact absurd h c2
          · intro hnd
            exact absurd (.inl ⟨g, hg⟩) hnd
        | none =>
          constructor
          · intro f hf
            cases hf with
            | name h => have := (hz f).mpr h; rw [hpt] at this; cases this
            | mime h _ _ _ => exact absurd h c2
            | otherMime h _ _ _ => exact absurd h c2
          · intro _
            exact hskip fmt

theorem zipEntries_run (d : Bytes) (m : Nat) (hm : d.length ≤ m) (es : List ZipEntry) (hv : ∀ e ∈ es, e.Valid) (rest : Bytes)
    (p : Nat) (h : At d p (es.flatMap ZipEntry.encode ++ rest)) (fmt : FileFormat) :
    (∀ pre e post f, es = pre ++ e :: post → (∀ x ∈ pre, ¬ x.Decisive) → e.Decides d f →
      val (run d m (zipEntries es.length fmt) p) = .ok f) ∧
    ((∀ e ∈ es, ¬ e.Decisive) → (∃ e ∈ es, e.name = b!"META-INF/MANIFEST.MF") →
      val (run d m (zipEntries es.length fmt) p) = .ok JavaArchive) ∧
    ((∀ e ∈ es, ¬ e.Decisive) → (∀ e ∈ es, e.name ≠ b!"META-INF/MANIFEST.MF") →
      val (run d m (zipEntries es.length fmt) p) = .ok fmt) := by
  induction es generalizing p fmt with
  | nil =>
    refine ⟨fun pre e post f he => ?_, fun _ h => ?_, fun _ _ => rfl⟩
    · cases pre <;> cases he
    · obtain ⟨e, he, _⟩ := h; cases he
  | cons x es ih =>
    rw [List.flatMap_cons, List.append_assoc] at h
    have hx := zipEntry_run d m hm x (hv x (by simp)) _ p es.length h fmt
    have ih' := ih (fun e he => hv e (by simp [he])) _ h.skip
    rw [List.length_cons]
    refine ⟨fun pre e post f he hpre hd => ?_, fun hnd hman => ?_, fun hnd hman => ?_⟩
    · cases pre with
      | nil =>
        rw [List.nil_append, List.cons.injEq] at he
        rw [← he.1] at hd
        exact hx.1 f hd
      | cons y pre =>
        rw [List.cons_append, List.cons.injEq] at he
        obtain ⟨rfl, he⟩ := he
        rw [hx.2 (hpre _ (by simp))]
        exact (ih' _).1 pre e post f he (fun z hz => hpre z (by simp [hz])) hd
    · rw [hx.2 (hnd x (by simp))]
      have hnd' : ∀ e ∈ es, ¬ e.Decisive := fun e he => hnd e (by simp [he])
      by_cases hex : ∃ e ∈ es, e.name = b!"META-INF/MANIFEST.MF"
      · exact (ih' _).2.1 hnd' hex
      · have hxn : x.name = b!"META-INF/MANIFEST.MF" := by
          obtain ⟨e, he, hen⟩ := hman
          rcases List.mem_cons.mp he with rfl | he
          · exact hen
          · exact absurd ⟨e, he, hen⟩ hex
        rw [if_pos hxn]
        exact (ih' _).2.2 hnd' (fun e he hen => hex ⟨e, he, hen⟩)
    · rw [hx.2 (hnd x (by simp)), if_neg (hman x (by simp))]
      exact (ih' _).2.2 (fun e he => hnd e (by simp [he])) (fun e he => hman e (by simp [he]))

/-! ## The end records -/

theorem eocd_last {before tail : Bytes} (hlast : ¬ zipEocdSignature <:+: tail) {j : Nat}
    (hj : OccursAt zipEocdSignature (before ++ (zipEocdSignature ++ tail)) j) : j ≤ before.length := by
  apply Classical.byContradiction
  intro hlt
  have hlt : before.length < j := by omega
  obtain ⟨k, rfl⟩ : ∃ k, j = before.length + k := ⟨j - before.length, by omega⟩
  unfold OccursAt at hj
  rw [← List.drop_drop, List.drop_left] at hj
  match k, hj with
  | 0, _ => omega
  | 1, hj =>
    simp only [zipEocdSignature, List.cons_append, List.drop_succ_cons, List.drop_zero] at hj
    rw [List.cons_prefix_cons] at hj
    exact absurd hj.1 (by decide)
  | 2, hj =>
    simp only [zipEocdSignature, List.cons_append, List.drop_succ_cons, List.drop_zero] at hj
    rw [List.cons_prefix_cons] at hj
    exact absurd hj.1 (by decide)
  | 3, hj =>
    simp only [zipEocdSignature, List.cons_append, List.drop_succ_cons, List.drop_zero] at hj
    rw [List.cons_prefix_cons] at hj
    exact absurd hj.1 (by decide)
  | k + 4, hj =>
    have e : (zipEocdSignature ++ tail).drop (k + 4) = tail.drop k := by
      rw [Nat.add_comm, ← List.drop_drop]; rfl
    rw [e] at hj
    exact hlast (hj.isInfix.trans (List.drop_suffix _ _).isInfix)

/-- Finding the end record. -/
theorem zipFind_run {α : Type} (cfg : Cfg) (before tail : Bytes) (hlast : ¬ zipEocdSignature <:+: tail)
    (ht : 18 ≤ tail.length ∧ tail.length < 18 + 2 ^ 16) (m : Nat)
    (hd : (before ++ (zipEocdSignature ++ tail)).length < 2 ^ 63)
    (hm : (before ++ (zipEocdSignature ++ tail)).length ≤ m) (q : Nat) (k : Nat → Prog α) :
    ∃ q', run (before ++ (zipEocdSignature ++ tail)) m (do
      let len ← Prog.sk (.fromEnd 0)
      let offset := len - zipEocdMaxSize
      let _ ← Prog.sk (.start offset)
      let buf ← readBytes (max zipEocdMinSize (min len zipEocdMaxSize))
      let found ← Prog.lift (rfindBytes buf zipEocdSignature)
      match found with
      | none => Prog.throwErr .invalidData
      | some bufIndex => do
        let eocdOffset ← Prog.lift (u64Add cfg offset bufIndex)
        k eocdOffset) q = run (before ++ (zipEocdSignature ++ tail)) m (k before.length) q' := by
  have hlast' := @eocd_last before tail hlast
  have hocc : OccursAt zipEocdSignature (before ++ (zipEocdSignature ++ tail)) before.length := by
    unfold OccursAt
    rw [List.drop_left]
    exact List.prefix_append _ _
  have hlen : (before ++ (zipEocdSignature ++ tail)).length = before.length + (4 + tail.length) := by
    rw [List.length_append, List.length_append]; rfl
  generalize hdd : before ++ (zipEocdSignature ++ tail) = d at *
  have emax : zipEocdMaxSize = 65557 := rfl
  have emin : zipEocdMinSize = 22 := rfl
  rw [run_bind, run_sk_end _ hm, andThen_ok]
  simp only
  rw [run_bind, run_sk_start _ _ (by omega), andThen_ok, run_bind, run_readBytes_ok (by omega), andThen_ok]
  have hbuf : slice d (d.length - zipEocdMaxSize) (max zipEocdMinSize (min d.length zipEocdMaxSize)) =
      d.drop (d.length - zipEocdMaxSize) := by
    unfold slice
    rw [List.take_of_length_le]
    rw [List.length_drop]; omega
  rw [hbuf]
  obtain ⟨r, hr, hspec⟩ := rfindBytes_spec (d.drop (d.length - zipEocdMaxSize)) zipEocdSignature
  have hin : OccursAt zipEocdSignature (d.drop (d.length - zipEocdMaxSize)) (before.length - (d.length - zipEocdMaxSize)) := by
    unfold OccursAt at hocc ⊢
    rw [List.drop_drop, show d.length - zipEocdMaxSize + (before.length - (d.length - zipEocdMaxSize)) = before.length by omega]
    exact hocc
  rw [hr, run_bind, run_lift_ok, andThen_ok]
  cases r with
  | none => exact absurd hin (hspec _)
  | some i =>
    obtain ⟨ho, hno⟩ := hspec
    have h1 : d.length - zipEocdMaxSize + i ≤ before.length := by
      refine hlast' ?_
      unfold OccursAt at ho ⊢
      rw [List.drop_drop] at ho
      exact ho
    have h2 : ¬ i < before.length - (d.length - zipEocdMaxSize) := by
      intro hlt
      refine hno _ hlt ?_ hin
      rw [List.length_drop]; omega
    have hi : d.length - zipEocdMaxSize + i = before.length := by omega
    simp only
    rw [run_bind, u64Add_ok cfg (by omega), run_lift_ok, andThen_ok, hi]
    exact ⟨_, rfl⟩

/-- Reading the end records. -/
theorem zipEnd_run {α : Type} (cfg : Cfg) (d : Bytes) (count offset : Nat) (he : ZipEnd d count offset) (m : Nat)
    (hd : d.length < 2 ^ 63) (hm : d.length ≤ m) (q : Nat) (k : Nat × Nat → Prog α) :
    ∃ q', run d m (do
      let len ← Prog.sk (.fromEnd 0)
      let offset := len - zipEocdMaxSize
      let _ ← Prog.sk (.start offset)
      let buf ← readBytes (max zipEocdMinSize (min len zipEocdMaxSize))
      let found ← Prog.lift (rfindBytes buf zipEocdSignature)
      match found with
      | none => Prog.throwErr .invalidData
      | some bufIndex => do
        let eocdOffset ← Prog.lift (u64Add cfg offset bufIndex)
        let zip64 ← zipIsZip64 eocdOffset
        let dir ← zipEnd cfg zip64 eocdOffset
        k dir) q = run d m (k (count, offset)) q' := by
  cases he with
  | classic before disks size tail _ _ hc ho hdk hs htl hlast hloc =>
    obtain ⟨q', hq⟩ := zipFind_run cfg before _ hlast (by
      simp only [List.length_append, length_leBytes, hdk, hs]; omega) m hd hm q (fun eocdOffset => do
        let zip64 ← zipIsZip64 eocdOffset
        let dir ← zipEnd cfg zip64 eocdOffset
        k dir)
    rw [show b!"PK\x05\x06" = zipEocdSignature from rfl] at hd hm ⊢
    rw [hq]
    have h0 := At.of_append before (zipEocdSignature ++ (disks ++ (leBytes 2 count ++ (size ++ (leBytes 4 offset ++
        tail)))))
    generalize hdd : before ++ (zipEocdSignature ++ (disks ++ (leBytes 2 count ++ (size ++ (leBytes 4 offset ++
        tail))))) = d at *
    have h1 : At d (before.length + 10) (leBytes 2 count ++ (size ++ (leBytes 4 offset ++
        tail))) := (h0.skip' (n := 4) rfl).skip' hdk
    have h2 := h1.skip' (length_leBytes 2 _)
    have h3 := h2.skip' hs
    have hl := h1.len
    have hz : ∃ q'', run d m (zipIsZip64 before.length) q' = .ok (false, q'') := by
      unfold zipIsZip64
      split
      · rename_i hge
        have hge : 20 ≤ before.length := hge
        have ha : At d (before.length - 20) (before.drop (before.length - 20) ++ (zipEocdSignature ++ (disks ++ (leBytes 2 count ++ (size ++ (leBytes 4 offset ++
            tail)))))) := by
          refine ⟨by omega, ?_⟩
          rw [← hdd, List.drop_append_of_le_length (by omega)]
        have hb := hloc (before.take (before.length - 20)) (before.drop (before.length - 20)) (by rw [List.take_append_drop])
          (by rw [List.length_drop]; omega)
        rw [run_bind, run_sk_start _ _ (by show before.length - 20 ≤ m; omega), andThen_ok, run_bind,
          show zipEocd64LocatorSize = 20 from rfl]
        have hs4 : At d (before.length - 20) ((before.drop (before.length - 20)).take 4 ++
            ((before.drop (before.length - 20)).drop 4 ++ (zipEocdSignature ++ (disks ++ (leBytes 2 count ++ (size ++ (leBytes 4 offset ++
            tail))))))) := by
          rw [← List.append_assoc, List.take_append_drop]; exact ha
        rw [hs4.readBytes (n := 4) (by rw [List.length_take, List.length_drop]; omega), andThen_ok]
        have : (((before.drop (before.length - 20)).take 4) == zipEocd64LocatorSignature) = false := by
          rw [beq_eq_false_iff_ne]
          intro heq
          exact hb (by rw [show b!"PK\x06\x07" = zipEocd64LocatorSignature from rfl, ← heq]; exact List.take_prefix _ _)
        rw [this]
        exact ⟨_, rfl⟩
      · exact ⟨_, rfl⟩
    obtain ⟨q'', hz⟩ := hz
    rw [run_bind, hz, andThen_ok]
    unfold zipEnd zipDirectory
    simp only [Bool.false_eq_true, if_false]
    refine ⟨before.length + 10 + 2 + 4 + 4, ?_⟩
    have e : run d m (do
        let start ← Prog.lift (u64Add cfg before.length 10)
        let _ ← Prog.sk (.start start)
        let numberOfEntries ← readU16le
        let _ ← Prog.sk (.current 4)
        let socdOffset ← readU32le
        pure (numberOfEntries, socdOffset)) q'' = .ok ((count, offset), before.length + 10 + 2 + 4 + 4) := by
      rw [run_bind, u64Add_ok cfg (by omega), run_lift_ok, andThen_ok, run_bind, run_sk_start _ _ (by omega), andThen_ok,
        run_bind, h1.readU16le hc, andThen_ok, run_bind, h2.sk (by rw [hs]; rfl) hm, andThen_ok, hs, run_bind, h3.readU32le ho,
        andThen_ok]
      rfl
    rw [run_bind, e, andThen_ok]
  | zip64 before head size between disk disks tail _ _ hc ho hh hs hdk hdks ht hlast =>
    have hshape : (before ++ (head ++ (leBytes 8 count ++ (size ++ (leBytes 8 offset ++ between))))) ++
      (b!"PK\x06\x07" ++ (disk ++ (leBytes 8 before.length ++ (disks ++ (b!"PK\x05\x06" ++ tail))))) =
      ((before ++ (head ++ (leBytes 8 count ++ (size ++ (leBytes 8 offset ++ between))))) ++
      (zipEocd64LocatorSignature ++ (disk ++ (leBytes 8 before.length ++ disks)))) ++ (zipEocdSignature ++ tail) := by
      simp only [List.append_assoc]; rfl
    rw [hshape] at hd hm ⊢
    obtain ⟨q', hq⟩ := zipFind_run cfg _ _ hlast ht m hd hm q (fun eocdOffset => do
        let zip64 ← zipIsZip64 eocdOffset
        let dir ← zipEnd cfg zip64 eocdOffset
        k dir)
    rw [hq]
    have a0 : At (((before ++ (head ++ (leBytes 8 count ++ (size ++ (leBytes 8 offset ++ between))))) ++
      (zipEocd64LocatorSignature ++ (disk ++ (leBytes 8 before.length ++ disks)))) ++ (zipEocdSignature ++ tail))
      (before ++ (head ++ (leBytes 8 count ++ (size ++ (leBytes 8 offset ++ between))))).length
      (zipEocd64LocatorSignature ++ (disk ++ (leBytes 8 before.length ++ (disks ++ (zipEocdSignature ++ tail))))) := by
      have := At.of_append (before ++ (head ++ (leBytes 8 count ++ (size ++ (leBytes 8 offset ++ between)))))
        ((zipEocd64LocatorSignature ++ (disk ++ (leBytes 8 before.length ++ disks))) ++ (zipEocdSignature ++ tail))
      simpa only [List.append_assoc] using this
    have b0 : At (((before ++ (head ++ (leBytes 8 count ++ (size ++ (leBytes 8 offset ++ between))))) ++
      (zipEocd64LocatorSignature ++ (disk ++ (leBytes 8 before.length ++ disks)))) ++ (zipEocdSignature ++ tail))
      before.length (head ++ (leBytes 8 count ++ (size ++ (leBytes 8 offset ++ (between ++
      (zipEocd64LocatorSignature ++ (disk ++ (leBytes 8 before.length ++ (disks ++ (zipEocdSignature ++ tail))))))))))  := by
      have := At.of_append before ((head ++ (leBytes 8 count ++ (size ++ (leBytes 8 offset ++ between)))) ++
        ((zipEocd64LocatorSignature ++ (disk ++ (leBytes 8 before.length ++ disks))) ++ (zipEocdSignature ++ tail)))
      simpa only [List.append_assoc] using this
    have hel : ((before ++ (head ++ (leBytes 8 count ++ (size ++ (leBytes 8 offset ++ between))))) ++
      (zipEocd64LocatorSignature ++ (disk ++ (leBytes 8 before.length ++ disks)))).length =
      (before ++ (head ++ (leBytes 8 count ++ (size ++ (leBytes 8 offset ++ between))))).length + 20 := by
      rw [List.length_append]
      congr 1
      simp only [List.length_append, length_leBytes, hdk, hdks]; rfl
    rw [hel]
    generalize hdd : ((before ++ (head ++ (leBytes 8 count ++ (size ++ (leBytes 8 offset ++ between))))) ++
      (zipEocd64LocatorSignature ++ (disk ++ (leBytes 8 before.length ++ disks)))) ++ (zipEocdSignature ++ tail) = d at *
    generalize (before ++ (head ++ (leBytes 8 count ++ (size ++ (leBytes 8 offset ++ between))))).length = l at *
    have a1 := a0.skip' (n := 4) rfl
    have a2 := a1.skip' hdk
    have b1 := b0.skip' hh
    have b2 := b1.skip' (length_leBytes 8 _)
    have b3 := b2.skip' hs
    have hla := a0.len
    have hlb := b1.len
    have hz : run d m (zipIsZip64 (l + 20)) q' = .ok (true, l + 4) := by
      unfold zipIsZip64
      rw [if_pos (by show l + 20 ≥ 20; omega), show zipEocd64LocatorSize = 20 from rfl, Nat.add_sub_cancel, run_bind,
        run_sk_start _ _ (by omega), andThen_ok, run_bind, a0.readBytes (n := 4) rfl, andThen_ok, beq_self_eq_true]
      rfl
    rw [run_bind, hz, andThen_ok]
    unfold zipEnd zipDirectory64
    simp only [if_true]
    refine ⟨before.length + 32 + 8 + 8 + 8, ?_⟩
    have e : run d m (do
        let _ ← Prog.sk (.current 4)
        let eocd64Offset ← readU64le
        let start ← Prog.lift (u64Add cfg eocd64Offset 32)
        let _ ← Prog.sk (.start start)
        let numberOfEntries ← readU64le
        let _ ← Prog.sk (.current 8)
        let socdOffset ← readU64le
        pure (numberOfEntries, socdOffset)) (l + 4) = .ok ((count, offset), before.length + 32 + 8 + 8 + 8) := by
      rw [run_bind, a1.sk (by rw [hdk]; rfl) hm, andThen_ok, hdk, run_bind, a2.readU64le (by omega), andThen_ok, run_bind,
        u64Add_ok cfg (by omega), run_lift_ok, andThen_ok, run_bind, run_sk_start _ _ (by omega), andThen_ok, run_bind,
        b1.readU64le hc, andThen_ok, run_bind, b2.sk (by rw [hs]; rfl) hm, andThen_ok, hs, run_bind, b3.readU64le ho, andThen_ok]
      rfl
    rw [run_bind, e, andThen_ok]

theorem zipReader_run (cfg : Cfg) (d : Bytes) (count offset : Nat) (he : ZipEnd d count offset) (m : Nat)
    (hd : d.length < 2 ^ 63) (hm : d.length ≤ m) (before after : Bytes) (es : List ZipEntry) (hv : ∀ e ∈ es, e.Valid)
    (hdir : d = before ++ (es.flatMap ZipEntry.encode ++ after)) (hb : before.length = offset)
    (hk : es.length = min 1024 count) (q : Nat) :
    (∀ pre e post f, es = pre ++ e :: post → (∀ x ∈ pre, ¬ x.Decisive) → e.Decides d f →
      val (run d m (zipReader cfg) q) = .ok f) ∧
    ((∀ e ∈ es, ¬ e.Decisive) → (∃ e ∈ es, e.name = b!"META-INF/MANIFEST.MF") →
      val (run d m (zipReader cfg) q) = .ok JavaArchive) ∧
    ((∀ e ∈ es, ¬ e.Decisive) → (∀ e ∈ es, e.name ≠ b!"META-INF/MANIFEST.MF") →
      val (run d m (zipReader cfg) q) = .ok Zip) := by
  obtain ⟨q', hq⟩ := zipEnd_run cfg d count offset he m hd hm q (fun dir => do
    let _ ← Prog.sk (.start dir.2)
    zipEntries (min zipEntryLimit dir.1) Zip)
  have h0 : At d offset (es.flatMap ZipEntry.encode ++ after) := by
    rw [hdir]; exact At.of_append' hb.symm
  have hl := h0.len
  have hr : run d m (zipReader cfg) q = run d m (zipEntries es.length Zip) offset := by
    unfold zipReader
    refine hq.trans ?_
    simp only
    rw [run_bind, run_sk_start _ _ (by omega), andThen_ok, show zipEntryLimit = 1024 from rfl, hk]
  rw [hr]
  exact zipEntries_run d m hm es hv after offset h0 Zip

end FF
