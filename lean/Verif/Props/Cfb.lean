import Verif.Proofs.Offsets
import Verif.Proofs.Guid
import Verif.Proofs.Realmedia
import Verif.Spec.Cfb
/-!
# GUIDs (C43) and compound files (C35)
-/

namespace FF.Props
open FF Spec FileFormat

/-! ## C43 -/

/-- C43. The text computed for the 16 bytes of a GUID is its standard text. -/
theorem C43_guid_text (g : Guid) : guidText g.bytes = .ok g.text := guidText_bytes g

/-- C43. The bytes are those of some GUID, and different bytes have different texts. -/
theorem C43_guid_faithful (x y : Bytes) (hx : x.length = 16) (hy : y.length = 16) :
    (∃ g : Guid, g.Valid ∧ g.bytes = x) ∧ (guidText x = guidText y ↔ x = y) := by
  refine ⟨guid_of_bytes x hx, ?_, fun h => by rw [h]⟩
  intro h
  rw [guidText_ok x hx, guidText_ok y hy] at h
  injection h with h
  exact guidStr_inj hx hy h

-- Non-vacuity: the CLSID of a Word document.
example : (⟨0x00020906, 0x0000, 0x0000, 0xc000, 0x000000000046⟩ : Guid).bytes =
      [6, 9, 2, 0, 0, 0, 0, 0, 0xc0, 0, 0, 0, 0, 0, 0, 0x46] ∧
    (⟨0x00020906, 0x0000, 0x0000, 0xc000, 0x000000000046⟩ : Guid).text =
      s!!"00020906-0000-0000-c000-000000000046" := by decide

/-! ## C35 -/

theorem clsids_distinct : (clsids.map (·.1.bytes)).Nodup := by decide +kernel

theorem lookup_nodup {α β : Type} [BEq α] [LawfulBEq α] (l : List (α × β)) (hn : (l.map (·.1)).Nodup) (k : α) (v : β) :
    l.lookup k = some v ↔ (k, v) ∈ l := by
  induction l with
  | nil => simp
  | cons r l ih =>
    obtain ⟨k', v'⟩ := r
    rw [List.map_cons, List.nodup_cons] at hn
    rw [List.lookup_cons]
    by_cases h : k = k'
    · subst h
      have hno : ∀ v, (k, v) ∉ l := fun v hm => hn.1 (List.mem_map.mpr ⟨_, hm, rfl⟩)
      simp [hno, eq_comm]
    · rw [beq_eq_false_iff_ne.mpr h]
      simp only [ih hn.2, List.mem_cons, Prod.mk.injEq, h, false_and, false_or]

theorem clsid_lookup (x : Bytes) (hx : x.length = 16) (f : FileFormat) :
    cfbClsids.lookup (guidStr x) = some f ↔ ∃ r ∈ clsids, r.1.bytes = x ∧ r.2 = f := by
  rw [cfbClsids_eq, lookup_guid clsids x hx, lookup_nodup]
  · simp only [List.mem_map, Prod.mk.injEq]
  · rw [List.map_map]; exact clsids_distinct

theorem cfb_head (b : Bytes) (h : 52 ≤ b.length) (q : Nat) :
    run b (2 ^ 64 - 1) cfbReader q = run b (2 ^ 64 - 1) (do
      let clsid ← readGuid
      match cfbClsids.lookup clsid with
      | some fmt => pure fmt
      | none => do
        let _ ← Prog.sk (.current 32)
        let name2 ← readBytes 64
        if startsWith name2 b!"M\x00a\x00t\x00O\x00S\x00T\x00" then pure MicrosoftWorksWordProcessor
        else
          let _ ← Prog.sk (.current 64)
          let name3 ← readBytes 64
          if startsWith name3 b!"W\x00k\x00s\x00S\x00S\x00W\x00o\x00r\x00k\x00B\x00o\x00o\x00k\x00" then
            pure MicrosoftWorks6Spreadsheet
          else pure CompoundFileBinary) (cfbDirectory b + 80) := by
  have h1 := u32At_lt b 48
  have h2 : cfbSectorSize b ≤ 4096 := by unfold cfbSectorSize; split <;> omega
  have h3 : cfbDirectory b ≤ 4096 * (1 + 2 ^ 32) := Nat.mul_le_mul h2 (by omega)
  unfold cfbReader
  rw [run_bind, run_sk_start _ _ (by decide), andThen_ok, run_bind, run_u16le_ok (by omega), andThen_ok,
    run_bind, run_sk_current 20 _ 48 (by omega) (by decide), andThen_ok, run_bind, run_u32le_ok (by omega), andThen_ok,
    run_bind]
  have hoff : (if u16At b 26 = 3 then 512 else 4096) * (1 + u32At b 48) + 80 = cfbDirectory b + 80 := rfl
  rw [hoff, run_sk_start _ _ (by omega), andThen_ok]
  rfl

theorem prefix_slice {b m : Bytes} {p n : Nat} (hl : p + n ≤ b.length) (hm : m.length ≤ n) :
    startsWith (slice b p n) m = true ↔ MagicAt p m b := by
  rw [startsWith_iff, magicAt_slice rfl (by omega), List.prefix_iff_eq_take, slice, List.take_take,
    Nat.min_eq_left hm]
  exact eq_comm

/-- C35. With `reader-cfb`, every input recognised as a compound file is classified by the CLSID of the
root entry of its directory; with an unregistered CLSID, by the names of the second and third entry.
A file that ends before the parts that are needed is not a compound file. -/
theorem C35_compound_files (cfg : Cfg) (ft : Features) (b : Bytes) (hb : IsSlice b) (he : ft.cfb = true)
    (hr : Recognised b CompoundFileBinary) :
    (b.length < 52 ∨ b.length < cfbDirectory b + 96 → ∃ f, fromBytes cfg ft b = .ok f ∧ Generic ft b f) ∧
    (52 ≤ b.length → cfbDirectory b + 96 ≤ b.length →
      (∀ r ∈ clsids, MagicAt (cfbDirectory b + 80) r.1.bytes b → fromBytes cfg ft b = .ok r.2) ∧
      ((∀ r ∈ clsids, ¬ MagicAt (cfbDirectory b + 80) r.1.bytes b) →
        (b.length < cfbDirectory b + 192 → ∃ f, fromBytes cfg ft b = .ok f ∧ Generic ft b f) ∧
        (cfbDirectory b + 192 ≤ b.length →
          (MagicAt (cfbDirectory b + 128) (utf16 b!"MatOST") b →
            fromBytes cfg ft b = .ok MicrosoftWorksWordProcessor) ∧
          (¬ MagicAt (cfbDirectory b + 128) (utf16 b!"MatOST") b →
            (b.length < cfbDirectory b + 320 → ∃ f, fromBytes cfg ft b = .ok f ∧ Generic ft b f) ∧
            (cfbDirectory b + 320 ≤ b.length →
              (MagicAt (cfbDirectory b + 256) (utf16 b!"WksSSWorkBook") b →
                fromBytes cfg ft b = .ok MicrosoftWorks6Spreadsheet) ∧
              (¬ MagicAt (cfbDirectory b + 256) (utf16 b!"WksSSWorkBook") b →
                fromBytes cfg ft b = .ok CompoundFileBinary)))))) := by
  have hb' : b.length < 2 ^ 63 := hb
  have hgen := fun e hv => recognised_error cfg ft b hb .cfb (by decide) he hr e hv
  have hok := fun f hv => recognised_verdict cfg ft b hb .cfb (by decide) he hr f hv
  have hprog : (readerOf cfg Feature.cfb).2 = cfbReader := rfl
  rw [show utf16 b!"MatOST" = b!"M\x00a\x00t\x00O\x00S\x00T\x00" by decide,
    show utf16 b!"WksSSWorkBook" = b!"W\x00k\x00s\x00S\x00S\x00W\x00o\x00r\x00k\x00B\x00o\x00o\x00k\x00" by decide]
  rw [hprog] at hgen hok
  have hclsid : cfbDirectory b + 96 ≤ b.length → ∀ f, (cfbClsids.lookup (guidStr (slice b (cfbDirectory b + 80) 16)) = some f ↔
      ∃ r ∈ clsids, MagicAt (cfbDirectory b + 80) r.1.bytes b ∧ r.2 = f) := by
    intro hd f
    rw [clsid_lookup _ (length_slice_eq b _ 16 (by omega)) f]
    constructor
    · rintro ⟨r, hm, h1, h2⟩
      exact ⟨r, hm, (magicAt_slice (length_guid _) (by omega)).mpr h1.symm, h2⟩
    · rintro ⟨r, hm, h1, h2⟩
      exact ⟨r, hm, ((magicAt_slice (length_guid _) (by omega)).mp h1).symm, h2⟩
  refine ⟨fun h => ?_, fun h52 hd => ⟨fun r hmem hm => ?_, fun hno => ?_⟩⟩
  · refine hgen .unexpectedEof ?_
    by_cases h52 : 52 ≤ b.length
    · rw [cfb_head b h52, run_bind, run_guid_eof (by omega), andThen_error]
      rfl
    · unfold cfbReader
      rw [run_bind, run_sk_start _ _ (by decide), andThen_ok, run_bind]
      by_cases h28 : 28 ≤ b.length
      · rw [run_u16le_ok (by omega), andThen_ok, run_bind, run_sk_current 20 _ 48 (by omega) (by decide), andThen_ok,
          run_bind, run_u32le_eof (by omega), andThen_error]
        rfl
      · rw [run_u16le_eof (by omega), andThen_error]
        rfl
  · refine hok _ ?_
    have := (hclsid hd r.2).mpr ⟨r, hmem, hm, rfl⟩
    rw [cfb_head b h52, run_bind, run_guid_ok (by omega), andThen_ok, this]
    rfl
  · have hnone : cfbClsids.lookup (guidStr (slice b (cfbDirectory b + 80) 16)) = none := by
      cases hx : cfbClsids.lookup (guidStr (slice b (cfbDirectory b + 80) 16)) with
      | none => rfl
      | some f =>
        obtain ⟨r, hm, h1, _⟩ := (hclsid hd f).mp hx
        exact absurd h1 (hno r hm)
    rw [cfb_head b h52, run_bind, run_guid_ok (by omega), andThen_ok, hnone, run_bind,
      run_sk_current 32 _ (cfbDirectory b + 128) (by omega) (by omega), andThen_ok, run_bind] at hgen hok
    refine ⟨fun h => hgen .unexpectedEof (by rw [run_readBytes_eof (by omega) (by decide), andThen_error]; rfl),
      fun h2 => ?_⟩
    rw [run_readBytes_ok (by omega), andThen_ok] at hgen hok
    have hp2 := prefix_slice (b := b) (m := b!"M\x00a\x00t\x00O\x00S\x00T\x00") (p := cfbDirectory b + 128) (n := 64) (by omega) (by decide)
    refine ⟨fun hm => hok _ (by rw [if_pos (hp2.mpr hm)]; rfl), fun hm => ?_⟩
    have hm2 : ¬ startsWith (slice b (cfbDirectory b + 128) 64) b!"M\x00a\x00t\x00O\x00S\x00T\x00" = true :=
      fun h => hm (hp2.mp h)
    rw [if_neg hm2, run_bind, run_sk_current 64 _ (cfbDirectory b + 256) (by omega) (by omega), andThen_ok, run_bind]
      at hgen hok
    refine ⟨fun h => hgen .unexpectedEof (by rw [run_readBytes_eof (by omega) (by decide), andThen_error]; rfl),
      fun h3 => ?_⟩
    rw [run_readBytes_ok (by omega), andThen_ok] at hgen hok
    have hp3 := prefix_slice (b := b) (m := b!"W\x00k\x00s\x00S\x00S\x00W\x00o\x00r\x00k\x00B\x00o\x00o\x00k\x00") (p := cfbDirectory b + 256) (n := 64) (by omega)
      (by decide)
    refine ⟨fun hm => hok _ (by rw [if_pos (hp3.mpr hm)]; rfl), fun hm => hok _ ?_⟩
    rw [if_neg (fun h => hm (hp3.mp h))]
    rfl

/-- A version 3 compound file with its directory in sector 0 and the given CLSID. -/
def sampleCfb (clsid : Bytes) : Bytes :=
  b!"\xd0\xcf\x11\xe0\xa1\xb1\x1a\xe1" ++ List.replicate 18 0 ++ [3, 0] ++ List.replicate 484 0 ++
    List.replicate 80 0 ++ clsid ++ List.replicate 224 0

/-- The CLSID of Word documents. -/
def wordClsid : Guid := ⟨0x00020906, 0x0000, 0x0000, 0xc000, 0x000000000046⟩

-- Non-vacuity: a Word document, and an unregistered CLSID.
example : Recognised (sampleCfb wordClsid.bytes) CompoundFileBinary ∧
    cfbDirectory (sampleCfb wordClsid.bytes) = 512 ∧ (sampleCfb wordClsid.bytes).length = 832 ∧
    (wordClsid, MicrosoftWordDocument) ∈ clsids := by
  unfold Recognised; decide +kernel
example : MagicAt (512 + 80) wordClsid.bytes (sampleCfb wordClsid.bytes) :=
  ⟨b!"\xd0\xcf\x11\xe0\xa1\xb1\x1a\xe1" ++ List.replicate 18 0 ++ [3, 0] ++ List.replicate 484 0 ++
    List.replicate 80 0, List.replicate 224 0, rfl, by decide +kernel⟩
example : fromBytes Cfg.release { cfb := true } (sampleCfb wordClsid.bytes) = .ok MicrosoftWordDocument ∧
    fromBytes Cfg.release { cfb := true } (sampleCfb (List.replicate 16 0)) = .ok CompoundFileBinary := by
  decide +kernel

end FF.Props
