import Verif.Proofs.Walk
/-!
# The readers walk as specified, on any content: ASF, RealMedia, ID3v2
-/

namespace FF
open Spec FileFormat

theorem ends_bind {α β : Type} {d : Bytes} {m p : Nat} {x : Prog α} {k : α → Prog β} {r : β} :
    Ends d m (x >>= k) p r ↔ ∃ a q, run d m x p = .ok (a, q) ∧ Ends d m (k a) q r := by
  constructor
  · rintro ⟨q, h⟩
    obtain ⟨a, q', h1, h2⟩ := run_bind_inv h
    exact ⟨a, q', h1, q, h2⟩
  · rintro ⟨a, q, h1, h2⟩
    exact (ends_ok h1).mpr h2

/-! ## ASF -/

theorem asfDescriptors_walk (d : Bytes) (m : Nat) (hm : d.length ≤ m) (n p : Nat) (r : Bool) :
    Ends d m (asfDescriptors n) p r ↔ DescriptorsAt d m n p r := by
  induction n generalizing p with
  | zero =>
    unfold asfDescriptors
    rw [ends_pure]
    exact ⟨fun h => h ▸ .none, fun h => by cases h; rfl⟩
  | succ n ih =>
    have e64 : asfDescriptorNameLimit = 64 := rfl
    unfold asfDescriptors
    rw [ends_u16le, ends_bytes]
    simp only [asfDvrName_eq, startsWith_iff]
    constructor
    · rintro ⟨h1, h2, h⟩
      have hv := magicAt_slice_iff.mpr ⟨show p + 2 + min asfDescriptorNameLimit (leAt d p 2) ≤ d.length by omega, rfl⟩
      split at h
      · rename_i hd
        rw [ends_pure] at h
        subst h
        exact .found hv.1 hv.2 hd
      · rename_i hd
        rw [ends_current] at h
        obtain ⟨q, hq, h⟩ := h
        have hq' : q = p + 4 + leAt d p 2 := by
          have := hq.1
          rw [e64] at this
          omega
        rw [ends_u16le] at h
        obtain ⟨h3, h⟩ := h
        rw [ends_current] at h
        obtain ⟨q2, hq2, h⟩ := h
        obtain ⟨rfl, h4⟩ := goes_nat.mp hq2
        exact .next hv.1 hv.2 hd hq' h3 h4 ((ih _).mp h)
    · intro h
      cases h with
      | found hx hl hd =>
        obtain ⟨h1, rfl⟩ := magicAt_slice_iff.mp ⟨hx, hl⟩
        rw [e64]
        refine ⟨by omega, Or.inr h1, ?_⟩
        rw [if_pos hd, ends_pure]
      | @next _ _ _ q _ hx hl hd hq hv ht hn =>
        obtain ⟨h1, rfl⟩ := magicAt_slice_iff.mp ⟨hx, hl⟩
        rw [e64]
        refine ⟨by omega, Or.inr h1, ?_⟩
        rw [if_neg hd]
        rw [ends_current]
        refine ⟨q, ⟨by omega, by omega⟩, ?_⟩
        rw [ends_u16le]
        refine ⟨hv, ?_⟩
        rw [ends_current]
        exact ⟨_, goes_nat.mpr ⟨rfl, ht⟩, (ih _).mpr hn⟩

theorem asfObjects_walk (d : Bytes) (m : Nat) (hm : d.length ≤ m) (hd : d.length < 2 ^ 63) (n : Nat) (seen : List Bytes) (p : Nat) (f : FileFormat) :
    Ends d m (asfObjects Cfg.release n (decide (asfAudioMedia.bytes ∈ seen)) (decide (asfVideoMedia.bytes ∈ seen))) p f ↔
      AsfWalk d m n p seen f := by
  induction n generalizing seen p with
  | zero =>
    unfold asfObjects
    rw [ends_pure]
    simp only [decide_eq_true_eq]
    exact ⟨fun h => h ▸ .limit, fun h => by cases h; rfl⟩
  | succ n ih =>
    unfold asfObjects
    rw [ends_guid]
    have hguid : ∀ q (g : Guid), q + 16 ≤ d.length → (guidStr (slice d q 16) = guidStr g.bytes ↔ MagicAt q g.bytes d) := by
      intro q g hq
      rw [guidStr_eq_iff (length_slice_eq _ _ _ hq), magicAt_slice (length_guid g) hq]
    have hsz : leAt d (p + 16) 8 < 2 ^ 64 := leAt_lt _ _ 8
    have hne : asfExtendedContent.bytes ≠ asfStreamProperties.bytes := by decide
    have hflags : ∀ q, q + 16 ≤ d.length →
        (if guidStr (slice d q 16) = asfAudioGuid then true else decide (asfAudioMedia.bytes ∈ seen)) =
            decide (asfAudioMedia.bytes ∈ slice d q 16 :: seen) ∧
        (if guidStr (slice d q 16) = asfAudioGuid then decide (asfVideoMedia.bytes ∈ seen)
          else if guidStr (slice d q 16) = asfVideoGuid then true else decide (asfVideoMedia.bytes ∈ seen)) =
            decide (asfVideoMedia.bytes ∈ slice d q 16 :: seen) := by
      intro q hq
      rw [asfAudioGuid_eq, asfVideoGuid_eq]
      simp only [guidStr_eq_iff (length_slice_eq _ _ _ hq), List.mem_cons]
      generalize slice d q 16 = x
      constructor
      · split
        · rename_i h; simp [h]
        · rename_i h; simp [Ne.symm h]
      · split
        · rename_i h
          subst h
          simp [show asfVideoMedia.bytes ≠ asfAudioMedia.bytes by decide]
        · split
          · rename_i h; simp [h]
          · rename_i h; simp [Ne.symm h]
    constructor
    · rintro ⟨h1, h⟩
      rw [ends_u64le] at h
      obtain ⟨h2, h⟩ := h
      rw [asfStreamPropsGuid_eq, asfExtContentGuid_eq] at h
      have e1 := hguid p asfStreamProperties h1
      have e2 := hguid p asfExtendedContent h1
      split at h
      · rename_i hs
        rw [ends_guid] at h
        obtain ⟨h3, h⟩ := h
        rw [(hflags _ h3).1, (hflags _ h3).2, ends_lift (i64Sub_release hsz 40 (by decide)), ends_current] at h
        obtain ⟨r, hr, h⟩ := h
        have hk := magicAt_slice_iff.mpr ⟨h3, rfl⟩
        exact .stream (e1.mp hs) hk.1 hk.2 hr ((ih _ _).mp h)
      split at h
      · rename_i hs he
        rw [ends_u16le] at h
        obtain ⟨h3, h⟩ := h
        rw [ends_pos, ends_bind] at h
        obtain ⟨r, q, hr, h⟩ := h
        have hdesc := (asfDescriptors_walk d m hm _ _ _).mp ⟨q, hr⟩
        split at h
        · rename_i hrt
          subst hrt
          rw [ends_pure] at h
          subst h
          exact .recording (e2.mp he) (by omega) hdesc
        · rename_i hrf
          rw [Bool.not_eq_true] at hrf
          subst hrf
          rw [ends_lift (u64Add_release _ _), ends_lift (u64Sub_release (Nat.mod_lt _ (by decide))), ends_start] at h
          refine .content (e2.mp he) (by omega) hdesc ?_ h.1 ((ih _ _).mp h.2)
          omega
      · rename_i hs he
        rw [ends_lift (i64Sub_release hsz 24 (by decide)), ends_current] at h
        obtain ⟨r, hr, h⟩ := h
        exact .skip (by omega) (fun h => hs (e1.mpr h)) (fun h => he (e2.mpr h)) hr ((ih _ _).mp h)
    · intro h
      cases h with
      | stream hs hk hl hg hw =>
        obtain ⟨h3, rfl⟩ := magicAt_slice_iff.mp ⟨hk, hl⟩
        refine ⟨by omega, ?_⟩
        rw [ends_u64le]
        refine ⟨by omega, ?_⟩
        rw [asfStreamPropsGuid_eq, asfExtContentGuid_eq]
        have e1 := hguid p asfStreamProperties (by omega)
        have e2 := hguid p asfExtendedContent (by omega)
        rw [if_pos (e1.mpr hs), ends_guid]
        refine ⟨h3, ?_⟩
        have h3' : p + 16 + 8 + 16 ≤ d.length := h3
        rw [(hflags _ h3').1, (hflags _ h3').2, ends_lift (i64Sub_release hsz 40 (by decide)), ends_current]
        exact ⟨_, hg, (ih _ _).mpr hw⟩
      | recording he hl hdesc =>
        have hs : ¬ MagicAt p asfStreamProperties.bytes d := by
          intro hs
          have e1 := (magicAt_iff _ _ _).mp hs
          have e2 := (magicAt_iff _ _ _).mp he
          rw [length_guid] at e1 e2
          exact hne (e2.2.symm.trans e1.2)
        refine ⟨by omega, ?_⟩
        rw [ends_u64le]
        refine ⟨by omega, ?_⟩
        rw [asfStreamPropsGuid_eq, asfExtContentGuid_eq]
        have e1 := hguid p asfStreamProperties (by omega)
        have e2 := hguid p asfExtendedContent (by omega)
        rw [if_neg (fun h => hs (e1.mp h)), if_pos (e2.mpr he), ends_u16le]
        refine ⟨by omega, ?_⟩
        obtain ⟨q, hq⟩ := (asfDescriptors_walk d m hm _ _ _).mpr hdesc
        rw [ends_pos]
        refine (ends_ok hq).mpr ?_
        rw [if_pos rfl, ends_pure]
      | content he hl hdesc hr ht hw =>
        have hs : ¬ MagicAt p asfStreamProperties.bytes d := by
          intro hs
          have e1 := (magicAt_iff _ _ _).mp hs
          have e2 := (magicAt_iff _ _ _).mp he
          rw [length_guid] at e1 e2
          exact hne (e2.2.symm.trans e1.2)
        refine ⟨by omega, ?_⟩
        rw [ends_u64le]
        refine ⟨by omega, ?_⟩
        rw [asfStreamPropsGuid_eq, asfExtContentGuid_eq]
        have e1 := hguid p asfStreamProperties (by omega)
        have e2 := hguid p asfExtendedContent (by omega)
        rw [if_neg (fun h => hs (e1.mp h)), if_pos (e2.mpr he), ends_u16le]
        refine ⟨by omega, ?_⟩
        obtain ⟨q, hq⟩ := (asfDescriptors_walk d m hm _ _ _).mpr hdesc
        rw [ends_pos]
        refine (ends_ok hq).mpr ?_
        rw [if_neg (by decide), ends_lift (u64Add_release _ _),
          ends_lift (u64Sub_release (Nat.mod_lt _ (by decide))), ends_start]
        rw [show ((p + 16 + 8 + 2 + leAt d (p + 16) 8) % 2 ^ 64 + 2 ^ 64 - 26) % 2 ^ 64 = (p + leAt d (p + 16) 8) % 2 ^ 64 by omega,
          ← hr]
        exact ⟨ht, (ih _ _).mpr hw⟩
      | skip hl hs he hg hw =>
        refine ⟨by omega, ?_⟩
        rw [ends_u64le]
        refine ⟨by omega, ?_⟩
        rw [asfStreamPropsGuid_eq, asfExtContentGuid_eq]
        have e1 := hguid p asfStreamProperties (by omega)
        have e2 := hguid p asfExtendedContent (by omega)
        rw [if_neg (fun h => hs (e1.mp h)), if_neg (fun h => he (e2.mp h)), ends_lift (i64Sub_release hsz 24 (by decide)), ends_current]
        exact ⟨_, hg, (ih _ _).mpr hw⟩

theorem asfReader_walk (d : Bytes) (m : Nat) (hm : d.length ≤ m) (hd : d.length < 2 ^ 63) (f : FileFormat) :
    Ends d m (asfReader Cfg.release) 0 f ↔ AsfContent d m f := by
  unfold asfReader AsfContent
  rw [ends_start, ends_u32le]
  have key := asfObjects_walk d m hm hd (min 256 (leAt d 24 4)) [] 30 f
  constructor
  · rintro ⟨h1, h2, h⟩
    rw [ends_current] at h
    obtain ⟨q, hq, h⟩ := h
    obtain ⟨rfl, h3⟩ := (goes_lit 2 _ rfl).mp hq
    exact ⟨h2, h3, key.mp h⟩
  · rintro ⟨h1, h2, h⟩
    refine ⟨by omega, h1, ?_⟩
    rw [ends_current]
    exact ⟨30, (goes_lit 2 _ rfl).mpr ⟨rfl, h2⟩, key.mpr h⟩

/-! ## RealMedia -/

theorem rmLoop_walk (d : Bytes) (m : Nat) (hm : d.length ≤ m) (n : Nat) (seen : List Bytes) (p : Nat) (f : FileFormat) :
    Ends d m (rmLoop n (decide (∃ c ∈ seen, b!"audio/" <+: c)) (decide (∃ c ∈ seen, b!"video/" <+: c))) p f ↔
      RmWalk d m n p seen f := by
  induction n generalizing seen p with
  | zero =>
    unfold rmLoop
    rw [ends_pure]
    simp only [decide_eq_true_eq]
    exact ⟨fun h => h ▸ .limit, fun h => by cases h; rfl⟩
  | succ n ih =>
    unfold rmLoop
    rw [ends_bytes]
    have hflags : ∀ x : Bytes,
        (if startsWith x b!"audio/" = true then true else decide (∃ c ∈ seen, b!"audio/" <+: c)) =
            decide (∃ c ∈ x :: seen, b!"audio/" <+: c) ∧
        (if startsWith x b!"audio/" = true then decide (∃ c ∈ seen, b!"video/" <+: c)
          else if startsWith x b!"video/" = true then true else decide (∃ c ∈ seen, b!"video/" <+: c)) =
            decide (∃ c ∈ x :: seen, b!"video/" <+: c) := by
      intro x
      have hex : ∀ y : Bytes, (∃ c ∈ x :: seen, y <+: c) ↔ y <+: x ∨ ∃ c ∈ seen, y <+: c := by simp
      simp only [startsWith_iff, hex]
      have hdis : b!"audio/" <+: x → ¬ b!"video/" <+: x := by
        intro h1 h2
        have := List.prefix_of_prefix_length_le h1 h2 (by decide)
        exact absurd this (by decide)
      constructor
      · split
        · rename_i h; simp [h]
        · rename_i h; simp [h]
      · split
        · rename_i h; simp [hdis h]
        · split
          · rename_i h; simp [h]
          · rename_i h; simp [h]
    have hty : p + 4 ≤ d.length → (slice d p 4 = b!"MDPR" ↔ MagicAt p b!"MDPR" d) := fun h =>
      (magicAt_slice (by decide) h).symm
    have hgo : ∀ r, Goes m (p + 4 + 4) ((beAt d (p + 4) 4 : Int) - 8) r ↔ Goes m p (beAt d (p + 4) 4) r := by
      intro r; unfold Goes; omega
    have hbyte : ∀ q, (d.getD q 0).toNat = byteAt d q := fun q => rfl
    constructor
    · rintro ⟨h0, h⟩
      rw [ends_u32be] at h
      obtain ⟨h1, h⟩ := h
      split at h
      · rename_i hs
        rw [ends_pos, ends_current] at h
        obtain ⟨q, hq, h⟩ := h
        obtain ⟨rfl, h2⟩ := (goes_lit 32 _ rfl).mp hq
        rw [ends_u8] at h
        obtain ⟨h3, h⟩ := h
        rw [ends_current] at h
        obtain ⟨q2, hq2, h⟩ := h
        obtain ⟨rfl, h4⟩ := goes_nat.mp hq2
        rw [ends_u8] at h
        obtain ⟨h5, h⟩ := h
        rw [ends_bytes] at h
        obtain ⟨h6, h⟩ := h
        simp only [hbyte] at h h2 h3 h4 h5 h6
        rw [(hflags _).1, (hflags _).2, ends_start] at h
        obtain ⟨h7, h⟩ := h
        rw [ends_current] at h
        obtain ⟨r, hr, h⟩ := h
        have ho : p + 4 + 4 + 32 + 1 + byteAt d (p + 40) + 1 = p + 42 + byteAt d (p + 40) := by omega
        have ho' : p + 4 + 4 + 32 + 1 + byteAt d (p + 40) = p + 41 + byteAt d (p + 40) := by omega
        have hx := magicAt_slice_iff (d := d) (p := p + 42 + byteAt d (p + 40)) |>.mpr
          ⟨show _ + byteAt d (p + 41 + byteAt d (p + 40)) ≤ _ by
            rw [← ho, ← ho']; change _ ∨ _ at h6; rcases h6 with h6 | h6
            · change byteAt d (p + 4 + 4 + 32 + 1 + byteAt d (p + 40)) = 0 at h6
              rw [h6]; exact h5
            · exact h6, rfl⟩
        refine .media ((hty (by omega)).mp hs) rfl hx.1 hx.2 ((hgo _).mp hr) ((ih _ _).mp ?_)
        rw [← ho, ← ho']
        exact h
      · rename_i hs
        rw [ends_current] at h
        obtain ⟨r, hr, h⟩ := h
        exact .skip (by omega) (fun h => hs ((hty (by omega)).mpr h)) ((hgo _).mp hr) ((ih _ _).mp h)
    · intro h
      cases h with
      | @media _ _ k x _ _ _ hm' hk hx hl hg hw =>
        subst hk
        obtain ⟨h1, rfl⟩ := magicAt_slice_iff.mp ⟨hx, hl⟩
        refine ⟨by omega, ?_⟩
        rw [ends_u32be]
        refine ⟨by omega, ?_⟩
        rw [if_pos ((hty (by omega)).mpr hm'), ends_pos, ends_current]
        refine ⟨_, (goes_lit 32 _ rfl).mpr ⟨rfl, by omega⟩, ?_⟩
        rw [ends_u8]
        refine ⟨by omega, ?_⟩
        rw [ends_current]
        refine ⟨_, goes_nat.mpr ⟨rfl, show p + 4 + 4 + 32 + 1 + byteAt d (p + 40) ≤ m by omega⟩, ?_⟩
        rw [ends_u8]
        simp only [hbyte]
        have ho : p + 4 + 4 + 32 + 1 + byteAt d (p + 40) + 1 = p + 42 + byteAt d (p + 40) := by omega
        have ho' : p + 4 + 4 + 32 + 1 + byteAt d (p + 40) = p + 41 + byteAt d (p + 40) := by omega
        change p + 4 + 4 + 32 + 1 + byteAt d (p + 40) + 1 ≤ _ ∧ _
        refine ⟨by omega, ?_⟩
        rw [ends_bytes]
        change (byteAt d (p + 4 + 4 + 32 + 1 + byteAt d (p + 40)) = 0 ∨ p + 4 + 4 + 32 + 1 + byteAt d (p + 40) + 1 + byteAt d (p + 4 + 4 + 32 + 1 + byteAt d (p + 40)) ≤ _) ∧ _
        rw [ho, ho']
        refine ⟨Or.inr h1, ?_⟩
        rw [(hflags _).1, (hflags _).2, ends_start]
        refine ⟨by omega, ?_⟩
        rw [ends_current]
        refine ⟨_, (hgo _).mpr hg, ?_⟩
        exact (ih _ _).mpr hw
      | skip hl hm' hg hw =>
        refine ⟨by omega, ?_⟩
        rw [ends_u32be]
        refine ⟨by omega, ?_⟩
        rw [if_neg (fun h => hm' ((hty (by omega)).mp h)), ends_current]
        exact ⟨_, (hgo _).mpr hg, (ih _ _).mpr hw⟩

theorem rmReader_walk (d : Bytes) (m : Nat) (hm : d.length ≤ m) (f : FileFormat) :
    Ends d m rmReader 0 f ↔ RmContent d m f := by
  unfold rmReader RmContent
  rw [ends_start, ends_u32be]
  have key := rmLoop_walk d m hm (min 64 (beAt d 14 4 - 1)) [] 18 f
  constructor
  · rintro ⟨h1, h2, h⟩
    exact ⟨h2, key.mp h⟩
  · rintro ⟨h1, h⟩
    exact ⟨by omega, h1, key.mpr h⟩

end FF
