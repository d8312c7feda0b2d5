import Verif.Spec.Overflow32
import Verif.Proofs.Walk32
import Verif.Proofs.Profile
/-!
# When the 32-bit archive reader panics in a build with overflow checks
-/

namespace FF
open Spec FileFormat

/-- Without a device: the first program panics, or both end in the same way. -/
theorem Agrees.run {α : Type} {x y : Prog α} (h : Agrees x y) (d : Bytes) (m p : Nat) :
    FF.run d m x p = .error .panic ∨ FF.run d m x p = FF.run d m y p := by
  induction h generalizing p with
  | panic q => exact .inl rfl
  | refl p => exact .inr rfl
  | readExact n _ ih =>
    unfold FF.run
    split
    · exact ih _ _
    · exact .inr rfl
  | read n _ ih => exact ih _ _
  | seek t _ ih =>
    unfold FF.run
    split
    · exact ih _ _
    · exact .inr rfl
  | tell _ ih => exact ih _ _
  | readUntil l _ ih => exact ih _ _

end FF

namespace FF.Target32
open FF Spec FileFormat

theorem agrees_zipEnd (z : Bool) (e : Nat) : Agrees (zipEnd Cfg.debug z e) (zipEnd Cfg.release z e) := by
  unfold zipEnd
  refine .bind ?_ fun _ => .refl _
  unfold FF.zipEnd
  split
  · exact .after _ fun _ => .after _ fun _ => .bind (agrees_u64Add _ _) fun _ => .refl _
  · exact .bind (agrees_u64Add _ _) fun _ => .refl _

theorem agrees_behindEnd (e : Nat) : Agrees (behindEnd Cfg.debug e) (behindEnd Cfg.release e) :=
  .after _ fun _ => .bind (agrees_zipEnd _ _) fun _ => .refl _

theorem agrees_zipReader : Agrees (zipReader Cfg.debug) (zipReader Cfg.release) := by
  unfold zipReader
  refine .after _ fun _ => .after _ fun _ => .after _ fun _ => .after _ fun found => ?_
  cases found with
  | none => exact .refl _
  | some i => exact .bind (agrees_u64Add _ _) fun _ => agrees_behindEnd _

/-- The directory of the archive: a panic exactly if the offset in the locator is too large. -/
theorem directory_panics (d : Bytes) (m e p : Nat) (hm : d.length ≤ m) (hd : d.length < 2 ^ 63) (he : e + 4 ≤ d.length) :
    Panics d m (zipIsZip64 e >>= fun z => zipEnd Cfg.debug z e) p ↔
      20 ≤ e % 2 ^ 32 ∧ MagicAt (e - 20) b!"PK\x06\x07" d ∧ 2 ^ 64 ≤ leAt d (e - 12) 8 + 32 := by
  have hclassic : ∀ q, ¬ Panics d m (zipEnd Cfg.debug false e) q := by
    intro q
    unfold zipEnd FF.zipEnd zipDirectory
    rw [if_neg (by decide), panics_assoc, panics_lift (u64Add_ok Cfg.debug (by omega)), panics_assoc, panics_start, panics_assoc,
      panics_u16le, panics_assoc, panics_skip 4 (i := 4) rfl, panics_assoc, panics_u32le,
      panics_ok (show run d m (Pure.pure (leAt d (e + 10) 2, leAt d (e + 10 + 2 + 4) 4) : Prog (Nat × Nat)) _ = .ok (_, _) from rfl)]
    rintro ⟨_, _, _, _, h⟩
    exact panics_pure h
  have h64 : 20 ≤ e → (Panics d m (zipEnd Cfg.debug true e) (e - 20 + 4) ↔ 2 ^ 64 ≤ leAt d (e - 12) 8 + 32) := by
    intro h20
    unfold zipEnd FF.zipEnd zipDirectory64
    rw [if_pos rfl, panics_assoc, panics_skip 4 (i := 4) rfl, panics_assoc, panics_u64le, panics_assoc]
    rw [show e - 20 + 4 + 4 = e - 12 by omega, and_iff_right (by omega : e - 12 ≤ m), and_iff_right (by omega : e - 12 + 8 ≤ d.length)]
    rcases Nat.lt_or_ge (leAt d (e - 12) 8 + 32) (2 ^ 64) with ho | ho
    · rw [panics_lift (u64Add_ok Cfg.debug ho), panics_assoc, panics_start, panics_assoc, panics_u64le, panics_assoc,
        panics_skip 8 (i := 8) rfl, panics_assoc, panics_u64le]
      constructor
      · rintro ⟨_, _, _, _, h⟩
        exact absurd ((panics_ok rfl).mp h) panics_pure
      · intro h; omega
    · refine ⟨fun _ => ho, fun _ => panics_lifted ?_⟩
      unfold u64Add
      rw [if_neg (by omega)]
      rfl
  unfold zipIsZip64
  have hs20 : zipEocd64LocatorSize = 20 := rfl
  have hsig : zipEocd64LocatorSignature = b!"PK\x06\x07" := rfl
  have hu : asUsize e = e % 2 ^ 32 := rfl
  rw [hs20, hsig, hu, readBytes_small (by decide)]
  split
  · rename_i h20
    have h20' : 20 ≤ e := Nat.le_trans h20 (Nat.mod_le _ _)
    rw [panics_assoc, panics_start, panics_assoc, panics_bytes,
      panics_ok (show run d m (Pure.pure _ : Prog Bool) _ = .ok (_, _) from rfl)]
    have hmag : (slice d (e - 20) 4 == b!"PK\x06\x07") = true ↔ MagicAt (e - 20) b!"PK\x06\x07" d := by
      rw [beq_iff_eq]; exact (magicAt_slice (by decide) (by omega)).symm
    rw [and_iff_right (by omega : e - 20 ≤ m), and_iff_right (Or.inr (by omega))]
    by_cases hmg : MagicAt (e - 20) b!"PK\x06\x07" d
    · rw [hmag.mpr hmg, h64 h20']
      exact ⟨fun h => ⟨h20, hmg, h⟩, fun h => h.2.2⟩
    · rw [show (slice d (e - 20) 4 == b!"PK\x06\x07") = false by
        rw [Bool.eq_false_iff]; exact fun h => hmg (hmag.mp h)]
      exact ⟨fun h => absurd h (hclassic _), fun h => absurd h.2.1 hmg⟩
  · rename_i h20
    rw [panics_ok (show run d m (Pure.pure false : Prog Bool) _ = .ok (_, _) from rfl)]
    exact ⟨fun h => absurd h (hclassic _), fun h => absurd h.1 h20⟩

theorem behindEnd_panics (d : Bytes) (m e q : Nat) (hm : d.length ≤ m) (he : e + 4 ≤ d.length) (hd : d.length < 2 ^ 63) :
    Panics d m (behindEnd Cfg.debug e) q ↔
      (20 ≤ e % 2 ^ 32 ∧ MagicAt (e - 20) b!"PK\x06\x07" d ∧ 2 ^ 64 ≤ leAt d (e - 12) 8 + 32) ∨
        Panics d m (behindEnd Cfg.release e) q := by
  rw [← directory_panics d m e q hm hd he]
  have hb : ∀ cfg, behindEnd cfg e = (zipIsZip64 e >>= fun z => zipEnd cfg z e >>= fun dir =>
    Prog.sk (.start dir.2) >>= fun _ => zipEntries (min zipEntryLimit dir.1) Zip) := fun _ => rfl
  by_cases hc : Panics d m (zipIsZip64 e >>= fun z => zipEnd Cfg.debug z e) q
  · refine ⟨fun _ => Or.inl hc, fun _ => ?_⟩
    rw [hb, ← panics_assoc]
    exact panics_first hc
  · have hag : Agrees (zipIsZip64 e >>= fun z => zipEnd Cfg.debug z e) (zipIsZip64 e >>= fun z => zipEnd Cfg.release z e) :=
      .after _ fun _ => agrees_zipEnd _ _
    have heq := (hag.run d m q).resolve_left hc
    rw [or_iff_right hc, hb, hb, ← panics_assoc, ← panics_assoc]
    revert heq
    generalize (zipIsZip64 e >>= fun z => zipEnd Cfg.debug z e) = x
    generalize (zipIsZip64 e >>= fun z => zipEnd Cfg.release z e) = y
    intro heq
    unfold Panics
    rw [run_bind, run_bind, heq]

theorem zipReader_panics (d : Bytes) (m : Nat) (hm : d.length ≤ m) (hd : d.length < 2 ^ 63) :
    Panics d m (zipReader Cfg.debug) 0 ↔ ZipOverflow32 d ∨ ZipTooLarge d m := by
  rw [← zipReader_aborts d m hm hd]
  rcases zipReader_eq Cfg.debug d m hm hd _ rfl rfl with ⟨er, h1, h2⟩ | ⟨e, q, h1, h2, h3, h4⟩
  · have hno : ¬ Panics d m (zipReader Cfg.debug) 0 := by intro h; unfold Panics at h; rw [h1] at h; cases h
    have heq := (agrees_zipReader.run d m 0).resolve_left hno
    refine ⟨fun h => absurd h hno, ?_⟩
    rintro (⟨e, h, _⟩ | h)
    · exact absurd h (h2 e)
    · unfold Panics at h ⊢; rw [heq]; exact h
  · rcases zipReader_eq Cfg.release d m hm hd _ rfl rfl with ⟨er, _, h2'⟩ | ⟨e', q', h1', _, _, h4'⟩
    · exact absurd h1 (h2' e)
    · obtain rfl := h2 e' h1'
      have hq : Panics d m (behindEnd Cfg.release e') q' ↔ Panics d m (behindEnd Cfg.release e') q :=
        (behindEnd_aborts d m e' q' hm h3 hd).trans (behindEnd_aborts d m e' q hm h3 hd).symm
      have hb := behindEnd_panics d m e' q hm h3 hd
      rw [← hq] at hb
      unfold Panics at hb ⊢
      rw [h4, h4', hb]
      refine or_congr ⟨fun h => ⟨e', h1, h⟩, ?_⟩ Iff.rfl
      rintro ⟨e'', h5, h⟩
      rwa [h2 e'' h5] at h

end FF.Target32
