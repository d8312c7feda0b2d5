import Verif.Spec.Evidence
import Verif.Proofs.Invert
/-!
# The readers report a format only on evidence
-/

namespace FF
open Spec FileFormat

/-! ## MP4 -/

/-- The tracks that were seen exist. -/
def Mp4Seen (d : Bytes) (t : Tracks) : Prop :=
  (t.video = true → HandlerOf d b!"vide") ∧ (t.audio = true → HandlerOf d b!"soun") ∧
    (t.subtitle = true → ∃ x ∈ [b!"sbtl", b!"subt", b!"text"], HandlerOf d x)

theorem mp4Verdict_evidence {d : Bytes} {t : Tracks} (hs : Mp4Seen d t) :
    mp4Verdict t = Mpeg4Part14 ∨ Evidence d (mp4Verdict t) := by
  unfold mp4Verdict
  split
  · exact Or.inr (.mp4Video (hs.1 (by assumption)))
  split
  · exact Or.inr (.mp4Audio (hs.2.1 (by assumption)))
  split
  · obtain ⟨x, hx, h⟩ := hs.2.2 (by assumption)
    exact Or.inr (.mp4Text hx h)
  · exact Or.inl rfl

theorem mp4Handler_seen {d : Bytes} {t : Tracks} (hs : Mp4Seen d t) {x : Bytes} (hx : HandlerOf d x) :
    Mp4Seen d (mp4Handler x t) := by
  unfold mp4Handler
  split
  · rename_i h; subst h; exact ⟨fun _ => hx, hs.2.1, hs.2.2⟩
  split
  · rename_i h; subst h; exact ⟨hs.1, fun _ => hx, hs.2.2⟩
  split
  · rename_i h
    refine ⟨hs.1, hs.2.1, fun _ => ⟨x, ?_, hx⟩⟩
    simpa using h
  · exact hs

theorem mp4Loop_evidence (cfg : Cfg) (d : Bytes) (m len n : Nat) (t : Tracks) (p : Nat) (f : FileFormat) (q : Nat)
    (hs : Mp4Seen d t) (h : run d m (mp4Loop cfg len n t) p = .ok (f, q)) : f = Mpeg4Part14 ∨ Evidence d f := by
  induction n generalizing t p with
  | zero =>
    obtain ⟨rfl, _⟩ := run_pure_inv h
    exact mp4Verdict_evidence hs
  | succ n ih =>
    unfold mp4Loop at h
    replace h := run_bind_inv h; obtain ⟨_, _, h1, h⟩ := h
    obtain ⟨rfl, rfl⟩ := run_pos_inv h1
    split at h
    · replace h := run_bind_inv h; obtain ⟨size32, _, h1, h⟩ := h
      obtain ⟨hl1, hv1, rfl⟩ := run_u32be_inv h1
      replace h := run_bind_inv h; obtain ⟨ty, _, h1, h⟩ := h
      obtain ⟨hl2, hv2, rfl⟩ := run_readBytes_inv h1
      have hl2' : p + 4 + 4 ≤ d.length := by omega
      replace h := run_bind_inv h; obtain ⟨size, p3, hsz, h⟩ := h
      split at h
      · exact ih t _ hs h
      split at h
      · rename_i hty
        replace h := run_bind_inv h; obtain ⟨_, p4, h1, h⟩ := h
        obtain ⟨hp4, rfl, _⟩ := run_current_inv h1
        replace h := run_bind_inv h; obtain ⟨ht, _, h1, h⟩ := h
        obtain ⟨hl5, hv5, rfl⟩ := run_readBytes_inv h1
        replace h := run_bind_inv h; obtain ⟨_, _, h1, h⟩ := h
        obtain ⟨_, rfl⟩ := run_lift_inv h1
        replace h := run_bind_inv h; obtain ⟨_, _, h1, h⟩ := h
        refine ih _ _ (mp4Handler_seen hs ?_) h
        have hl5' : p4 + 4 ≤ d.length := by omega
        have hlen : ht.length = 4 := by rw [hv5, length_slice_eq _ _ _ hl5']
        refine ⟨p, magicAt_of_slice (n := 4) (by rw [← hv2, hty]) rfl hl2', ?_⟩
        have hm : MagicAt p4 ht d := magicAt_of_slice hv5.symm hlen hl5'
        have hone : size32 = 1 ↔ MagicAt p [0, 0, 0, 1] d := by
          rw [magicAt_slice (n := 4) rfl hl1]
          constructor
          · intro h1
            apply beNat_inj
            · rw [length_slice_eq _ _ _ hl1]; rfl
            · rw [← hv1, h1]; rfl
          · intro h1
            rw [hv1, h1]; rfl
        unfold mp4Size at hsz
        split at hsz
        · rename_i hs1
          obtain ⟨_, _, rfl⟩ := run_u64be_inv hsz
          obtain rfl : p4 = p + 24 := by omega
          exact Or.inr ⟨hone.mp hs1, hm⟩
        · rename_i hs1
          obtain ⟨_, rfl⟩ := run_pure_inv hsz
          obtain rfl : p4 = p + 16 := by omega
          exact Or.inl ⟨fun hc => hs1 (hone.mpr hc), hm⟩
      · replace h := run_bind_inv h; obtain ⟨_, _, _, h⟩ := h
        replace h := run_bind_inv h; obtain ⟨_, _, _, h⟩ := h
        exact ih t _ hs h
    · obtain ⟨rfl, _⟩ := run_pure_inv h
      exact mp4Verdict_evidence hs

theorem mp4Reader_evidence {cfg : Cfg} {d : Bytes} {m p : Nat} {f : FileFormat} {q : Nat}
    (h : run d m (mp4Reader cfg) p = .ok (f, q)) : f = Mpeg4Part14 ∨ Evidence d f := by
  unfold mp4Reader at h
  replace h := run_bind_inv h; obtain ⟨_, _, _, h⟩ := h
  replace h := run_bind_inv h; obtain ⟨_, _, _, h⟩ := h
  exact mp4Loop_evidence cfg d m _ _ _ _ _ _ ⟨fun h => absurd h (by decide), fun h => absurd h (by decide), fun h => absurd h (by decide)⟩ h

/-! ## EBML -/

theorem readMore_value (d : Bytes) (m n acc p v q : Nat) (h : run d m (readMore n acc) p = .ok (v, q)) :
    (n = 0 ∨ p + n ≤ d.length) ∧ q = p + n ∧ v = acc * 256 ^ n + beNat (slice d p n) := by
  induction n generalizing acc p with
  | zero =>
    obtain ⟨rfl, rfl⟩ := run_pure_inv h
    exact ⟨Or.inl rfl, rfl, by simp [slice, beNat]⟩
  | succ n ih =>
    unfold readMore at h
    replace h := run_bind_inv h; obtain ⟨b, _, h1, h⟩ := h
    obtain ⟨hl, hb, rfl⟩ := run_u8_inv h1
    obtain ⟨h2, h3, h4⟩ := ih _ _ h
    refine ⟨Or.inr (by omega), by omega, ?_⟩
    rw [h4, show n + 1 = 1 + n by omega, slice_add, slice_one d p (by omega), ← hb]
    have hor : (acc <<< 8) ||| b.toNat = acc * 256 + b.toNat := by
      rw [← Nat.shiftLeft_add_eq_or_of_lt (UInt8.toNat_lt b), Nat.shiftLeft_eq]
    have hl' : (slice d (p + 1) n).length = n := by
      rcases h2 with rfl | h2
      · simp [slice]
      · exact length_slice_eq _ _ _ h2
    have hbe : beNat ([b] ++ slice d (p + 1) n) = b.toNat * 256 ^ n + beNat (slice d (p + 1) n) := by
      rw [beNat_append, foldl_be, hl']
      simp [beNat]
    rw [hor, hbe, Nat.add_mul, Nat.pow_add, Nat.mul_assoc, Nat.pow_one, Nat.add_assoc]

theorem leadingZeros_bounds : ∀ n : Nat, n < 256 → leadingZeros8 (UInt8.ofNat n) < 8 →
    2 ^ (7 - leadingZeros8 (UInt8.ofNat n)) ≤ n ∧ n < 2 ^ (8 - leadingZeros8 (UInt8.ofNat n)) := by decide +kernel

/-- An element ID: one to four bytes, whose number the value tells. -/
theorem ebmlId_inv {d : Bytes} {m p v q : Nat} (h : run d m ebmlId p = .ok (v, q)) :
    ∃ n, n < 4 ∧ q = p + (n + 1) ∧ p + (n + 1) ≤ d.length ∧ v = beNat (slice d p (n + 1)) ∧
      2 ^ (7 * (n + 1)) ≤ v ∧ v < 2 ^ (7 * (n + 1) + 1) := by
  unfold ebmlId at h
  replace h := run_bind_inv h; obtain ⟨b, _, h1, h⟩ := h
  obtain ⟨hl, hb, rfl⟩ := run_u8_inv h1
  dsimp only at h
  split at h
  · cases h
  · rename_i hz
    obtain ⟨h2, h3, h4⟩ := readMore_value _ _ _ _ _ _ _ h
    have hlz := leadingZeros_bounds b.toNat (UInt8.toNat_lt b)
    rw [UInt8.ofNat_toNat] at hlz
    generalize leadingZeros8 b = k at *
    obtain ⟨hb1, hb2⟩ := hlz (by omega)
    rw [show k + 1 - 1 = k by omega] at h2 h3 h4
    have hle : p + (k + 1) ≤ d.length := by omega
    have hv : v = beNat (slice d p (k + 1)) := by
      rw [h4, Nat.add_comm k 1, slice_add, slice_one d p (by omega), ← hb, beNat_append, foldl_be,
        length_slice_eq _ _ _ (by omega)]
      simp [beNat]
    refine ⟨k, by omega, by omega, hle, hv, ?_, ?_⟩
    · rw [h4, ← vint_marker k (by omega)]
      exact Nat.le_trans (Nat.mul_le_mul_right _ hb1) (Nat.le_add_right _ _)
    · have hlt : beNat (slice d (p + 1) k) < 256 ^ k := by
        have : ∀ x : Bytes, beNat x < 256 ^ x.length := by
          intro x
          rw [← List.reverse_reverse x, beNat_reverse, List.length_reverse]
          generalize x.reverse = y
          induction y with
          | nil => simp [leNat]
          | cons c y ih =>
            simp only [leNat, List.length_cons, Nat.pow_succ]
            have := UInt8.toNat_lt c
            omega
        have := this (slice d (p + 1) k)
        rwa [length_slice_eq _ _ _ (by omega)] at this
      rw [h4]
      have e : 2 ^ (7 * (k + 1) + 1) = 2 ^ (8 - k) * 256 ^ k := by
        rw [Nat.pow_succ, ← vint_marker k (by omega), show 8 - k = (7 - k) + 1 by omega, Nat.pow_succ]
        rw [Nat.mul_right_comm]
      rw [e]
      calc b.toNat * 256 ^ k + beNat (slice d (p + 1) k) < b.toNat * 256 ^ k + 256 ^ k := Nat.add_lt_add_left hlt _
        _ = (b.toNat + 1) * 256 ^ k := by rw [Nat.add_mul, Nat.one_mul]
        _ ≤ 2 ^ (8 - k) * 256 ^ k := Nat.mul_le_mul_right _ hb2

theorem ebmlSize_ends {d : Bytes} {m p v q : Nat} (h : run d m ebmlSize p = .ok (v, q)) :
    p + 1 ≤ q ∧ q ≤ p + 8 := by
  unfold ebmlSize at h
  replace h := run_bind_inv h; obtain ⟨b, _, h1, h⟩ := h
  obtain ⟨hl, hb, rfl⟩ := run_u8_inv h1
  dsimp only at h
  split at h
  · cases h
  · rename_i hz
    obtain ⟨_, h3, _⟩ := readMore_value _ _ _ _ _ _ _ h
    omega

/-- The content of an element with a known ID. -/
theorem element_of {d : Bytes} {m p v q q' size : Nat} {id : Bytes} (hid : run d m ebmlId p = .ok (v, q))
    (hsz : run d m ebmlSize q = .ok (size, q')) (hv : v = beNat id)
    (hn : 2 ^ (7 * id.length) ≤ v ∧ v < 2 ^ (7 * id.length + 1)) : ElementAt d id q' := by
  obtain ⟨n, _, rfl, hl, hb, h1, h2⟩ := ebmlId_inv hid
  obtain ⟨h3, h4⟩ := ebmlSize_ends hsz
  have hlen : id.length = n + 1 := by
    have a : 7 * id.length < 7 * (n + 1) + 1 := (Nat.pow_lt_pow_iff_right (by decide)).mp (Nat.lt_of_le_of_lt hn.1 h2)
    have b : 7 * (n + 1) < 7 * id.length + 1 := (Nat.pow_lt_pow_iff_right (by decide)).mp (Nat.lt_of_le_of_lt h1 hn.2)
    omega
  refine ⟨p, q' - (p + (n + 1)), by omega, by omega, by omega, ?_⟩
  exact magicAt_of_slice (beNat_inj (by rw [length_slice_eq _ _ _ hl, hlen]) (by rw [← hb, hv])) hlen hl

/-- The codecs that were seen exist. -/
def EbmlSeen (d : Bytes) (t : Tracks) : Prop :=
  (t.video = true → CodecOf d b!"V_") ∧ (t.audio = true → CodecOf d b!"A_") ∧ (t.subtitle = true → CodecOf d b!"S_")

theorem ebmlVerdict_evidence {d : Bytes} {t : Tracks} (hs : EbmlSeen d t) :
    ebmlVerdict t = ExtensibleBinaryMetaLanguage ∨ Evidence d (ebmlVerdict t) := by
  unfold ebmlVerdict
  split
  · exact Or.inr (.mkv (hs.1 (by assumption)))
  split
  · exact Or.inr (.mka (hs.2.1 (by assumption)))
  split
  · exact Or.inr (.mks (hs.2.2 (by assumption)))
  · exact Or.inl rfl

theorem ebmlCodec_seen {d : Bytes} {t : Tracks} (hs : EbmlSeen d t) {x : Bytes}
    (hx : ∀ c : Bytes, c ≠ [] → c <+: x → CodecOf d c) : EbmlSeen d (ebmlCodec x t) := by
  unfold ebmlCodec
  split
  · rename_i h; exact ⟨hs.1, fun _ => hx _ (by decide) (startsWith_iff.mp h), hs.2.2⟩
  split
  · rename_i h; exact ⟨fun _ => hx _ (by decide) (startsWith_iff.mp h), hs.2.1, hs.2.2⟩
  split
  · rename_i h; exact ⟨hs.1, hs.2.1, fun _ => hx _ (by decide) (startsWith_iff.mp h)⟩
  · exact hs

/-- A non-empty beginning of what was read. -/
theorem magicAt_read {d x c : Bytes} {p n : Nat} (hl : n = 0 ∨ p + n ≤ d.length) (hx : x = slice d p n) (hc : c ≠ [])
    (h : c <+: x) : MagicAt p c d := by
  subst hx
  rcases hl with rfl | hl
  · rw [slice, List.take_zero] at h
    exact absurd (List.prefix_nil.mp h) hc
  · exact magicAt_prefix h hl

theorem ebmlLoop_evidence (d : Bytes) (m len n : Nat) (t : Tracks) (p : Nat) (f : FileFormat) (q : Nat)
    (hs : EbmlSeen d t) (h : run d m (ebmlLoop len n t) p = .ok (f, q)) :
    f = ExtensibleBinaryMetaLanguage ∨ Evidence d f := by
  induction n generalizing t p with
  | zero =>
    obtain ⟨rfl, _⟩ := run_pure_inv h
    exact ebmlVerdict_evidence hs
  | succ n ih =>
    unfold ebmlLoop at h
    replace h := run_bind_inv h; obtain ⟨_, _, h1, h⟩ := h
    obtain ⟨rfl, rfl⟩ := run_pos_inv h1
    split at h
    · replace h := run_bind_inv h; obtain ⟨id, _, hid, h⟩ := h
      replace h := run_bind_inv h; obtain ⟨size, p3, hsz, h⟩ := h
      split at h
      · exact ih t _ hs h
      split at h
      · rename_i hdt
        replace h := run_bind_inv h; obtain ⟨x, _, h1, h⟩ := h
        obtain ⟨hl, hx, rfl⟩ := run_readBytes_inv h1
        split at h
        · rename_i hw
          obtain ⟨rfl, _⟩ := run_pure_inv h
          exact Or.inr (.webm (element_of hid hsz hdt (by rw [hdt]; decide))
            (magicAt_read hl hx (by decide) (startsWith_iff.mp hw)))
        split at h
        · obtain ⟨rfl, _⟩ := run_pure_inv h
          exact Or.inl rfl
        · replace h := run_bind_inv h; obtain ⟨_, _, _, h⟩ := h
          exact ih t _ hs h
      split at h
      · rename_i hc
        replace h := run_bind_inv h; obtain ⟨x, _, h1, h⟩ := h
        obtain ⟨hl, hx, rfl⟩ := run_readBytes_inv h1
        replace h := run_bind_inv h; obtain ⟨_, _, _, h⟩ := h
        exact ih _ _ (ebmlCodec_seen hs fun c hc' hp =>
          ⟨p3, element_of hid hsz hc (by rw [hc]; decide), magicAt_read hl hx hc' hp⟩) h
      split at h
      · rename_i hst
        replace h := run_bind_inv h; obtain ⟨b, _, h1, h⟩ := h
        obtain ⟨hl, hx, rfl⟩ := run_u8_inv h1
        split at h
        · rename_i hw
          obtain ⟨rfl, _⟩ := run_pure_inv h
          refine Or.inr (.stereo (element_of hid hsz hst (by rw [hst]; decide)) ?_)
          unfold byteAt
          rw [← hx]
          omega
        · exact ih t _ hs h
      split at h
      · obtain ⟨rfl, _⟩ := run_pure_inv h
        exact ebmlVerdict_evidence hs
      · replace h := run_bind_inv h; obtain ⟨_, _, _, h⟩ := h
        exact ih t _ hs h
    · obtain ⟨rfl, _⟩ := run_pure_inv h
      exact ebmlVerdict_evidence hs

theorem ebmlReader_evidence {d : Bytes} {m p : Nat} {f : FileFormat} {q : Nat}
    (h : run d m ebmlReader p = .ok (f, q)) : f = ExtensibleBinaryMetaLanguage ∨ Evidence d f := by
  unfold ebmlReader at h
  replace h := run_bind_inv h; obtain ⟨_, _, _, h⟩ := h
  replace h := run_bind_inv h; obtain ⟨_, _, _, h⟩ := h
  exact ebmlLoop_evidence d m _ _ _ _ _ _ ⟨fun h => absurd h (by decide), fun h => absurd h (by decide), fun h => absurd h (by decide)⟩ h

/-! ## ASF -/

theorem guid_at {d : Bytes} {p : Nat} {g : Guid} (hl : p + 16 ≤ d.length) (h : guidStr (slice d p 16) = guidStr g.bytes) :
    MagicAt p g.bytes d :=
  magicAt_of_slice ((guidStr_eq_iff (length_slice_eq _ _ _ hl) g).mp h) (length_guid g) hl

theorem asfDescriptors_inv (d : Bytes) (m n p : Nat) (r : Bool) (q : Nat) (h : run d m (asfDescriptors n) p = .ok (r, q))
    (hr : r = true) : ∃ k, p + 2 ≤ k ∧ MagicAt k (utf16le b!"DVR File Version") d := by
  induction n generalizing p with
  | zero =>
    obtain ⟨rfl, _⟩ := run_pure_inv h
    cases hr
  | succ n ih =>
    unfold asfDescriptors at h
    replace h := run_bind_inv h; obtain ⟨len, _, h1, h⟩ := h
    obtain ⟨hl, hv, rfl⟩ := run_u16le_inv h1
    replace h := run_bind_inv h; obtain ⟨name, _, h1, h⟩ := h
    obtain ⟨hl2, hx, rfl⟩ := run_readBytes_inv h1
    split at h
    · rename_i hn
      exact ⟨p + 2, Nat.le_refl _, magicAt_read hl2 hx (by decide) (startsWith_iff.mp (by rw [← asfDvrName_eq]; exact hn))⟩
    · dsimp only at h
      replace h := run_bind_inv h; obtain ⟨_, p3, h1, h⟩ := h
      obtain ⟨hp3, rfl, _⟩ := run_current_inv h1
      replace h := run_bind_inv h; obtain ⟨len2, _, h1, h⟩ := h
      obtain ⟨_, _, rfl⟩ := run_u16le_inv h1
      replace h := run_bind_inv h; obtain ⟨_, p4, h1, h⟩ := h
      obtain ⟨hp4, rfl, _⟩ := run_current_inv h1
      obtain ⟨k, hk, hm⟩ := ih p4 h
      exact ⟨k, by omega, hm⟩

theorem asfObjects_evidence (cfg : Cfg) (d : Bytes) (m n : Nat) (audio video : Bool) (p : Nat) (f : FileFormat) (q : Nat)
    (ha : audio = true → StreamOf d asfAudioMedia) (hv : video = true → StreamOf d asfVideoMedia)
    (h : run d m (asfObjects cfg n audio video) p = .ok (f, q)) : f = AdvancedSystemsFormat ∨ Evidence d f := by
  induction n generalizing audio video p with
  | zero =>
    obtain ⟨rfl, _⟩ := run_pure_inv h
    split
    · exact Or.inr (.asfVideo (hv (by assumption)))
    split
    · exact Or.inr (.asfAudio (ha (by assumption)))
    · exact Or.inl rfl
  | succ n ih =>
    unfold asfObjects at h
    replace h := run_bind_inv h; obtain ⟨guid, _, h1, h⟩ := h
    obtain ⟨hl1, hg, rfl⟩ := run_guid_inv h1
    replace h := run_bind_inv h; obtain ⟨size, _, h1, h⟩ := h
    obtain ⟨_, _, rfl⟩ := run_u64le_inv h1
    split at h
    · rename_i hsp
      replace h := run_bind_inv h; obtain ⟨st, _, h1, h⟩ := h
      obtain ⟨hl2, hst, rfl⟩ := run_guid_inv h1
      dsimp only at h
      replace h := run_bind_inv h; obtain ⟨_, _, h1, h⟩ := h
      replace h := run_bind_inv h; obtain ⟨_, _, h1, h⟩ := h
      have hobj : MagicAt p asfStreamProperties.bytes d :=
        guid_at hl1 (by rw [← hg, hsp, asfStreamPropsGuid_eq])
      refine ih _ _ _ ?_ ?_ h
      · split
        · rename_i hx
          exact fun _ => ⟨p, hobj, guid_at hl2 (by rw [← hst, hx, asfAudioGuid_eq])⟩
        · exact ha
      · split
        · exact hv
        · split
          · rename_i hx
            exact fun _ => ⟨p, hobj, guid_at hl2 (by rw [← hst, hx, asfVideoGuid_eq])⟩
          · exact hv
    split at h
    · rename_i hec
      replace h := run_bind_inv h; obtain ⟨count, _, h1, h⟩ := h
      obtain ⟨_, _, rfl⟩ := run_u16le_inv h1
      replace h := run_bind_inv h; obtain ⟨_, _, h1, h⟩ := h
      obtain ⟨rfl, rfl⟩ := run_pos_inv h1
      replace h := run_bind_inv h; obtain ⟨dvr, _, hd, h⟩ := h
      split at h
      · rename_i hdvr
        obtain ⟨rfl, _⟩ := run_pure_inv h
        obtain ⟨k, hk, hm⟩ := asfDescriptors_inv _ _ _ _ _ _ hd hdvr
        exact Or.inr (.asfDvr (guid_at hl1 (by rw [← hg, hec, asfExtContentGuid_eq])) (by omega) hm)
      · replace h := run_bind_inv h; obtain ⟨_, _, h1, h⟩ := h
        replace h := run_bind_inv h; obtain ⟨_, _, h1, h⟩ := h
        replace h := run_bind_inv h; obtain ⟨_, _, h1, h⟩ := h
        exact ih _ _ _ ha hv h
    · replace h := run_bind_inv h; obtain ⟨_, _, h1, h⟩ := h
      replace h := run_bind_inv h; obtain ⟨_, _, h1, h⟩ := h
      exact ih _ _ _ ha hv h

theorem asfReader_evidence {cfg : Cfg} {d : Bytes} {m p : Nat} {f : FileFormat} {q : Nat}
    (h : run d m (asfReader cfg) p = .ok (f, q)) : f = AdvancedSystemsFormat ∨ Evidence d f := by
  unfold asfReader at h
  replace h := run_bind_inv h; obtain ⟨_, _, _, h⟩ := h
  replace h := run_bind_inv h; obtain ⟨_, _, _, h⟩ := h
  replace h := run_bind_inv h; obtain ⟨_, _, _, h⟩ := h
  exact asfObjects_evidence cfg d m _ false false _ _ _ nofun nofun h

/-! ## Compound files -/

theorem cfbReader_evidence {d : Bytes} {m p : Nat} {f : FileFormat} {q : Nat}
    (h : run d m cfbReader p = .ok (f, q)) : f = CompoundFileBinary ∨ Evidence d f := by
  unfold cfbReader at h
  replace h := run_bind_inv h; obtain ⟨_, _, h1, h⟩ := h
  obtain ⟨_, _, rfl⟩ := run_start_inv h1
  replace h := run_bind_inv h; obtain ⟨version, _, h1, h⟩ := h
  obtain ⟨_, hver, rfl⟩ := run_u16le_inv h1
  dsimp only at h
  replace h := run_bind_inv h; obtain ⟨_, p3, h1, h⟩ := h
  obtain ⟨hp3, rfl, _⟩ := run_current_inv h1
  obtain rfl : p3 = 48 := by omega
  replace h := run_bind_inv h; obtain ⟨sector, _, h1, h⟩ := h
  obtain ⟨_, hsec, rfl⟩ := run_u32le_inv h1
  replace h := run_bind_inv h; obtain ⟨_, p5, h1, h⟩ := h
  obtain ⟨_, _, hp5⟩ := run_start_inv h1
  replace hp5 : p5 = cfbDirectory d + 80 := by
    rw [hp5, hver, hsec]; rfl
  subst hp5
  replace h := run_bind_inv h; obtain ⟨clsid, _, h1, h⟩ := h
  obtain ⟨hl, hcl, rfl⟩ := run_guid_inv h1
  split at h
  · rename_i g hlook
    obtain ⟨rfl, _⟩ := run_pure_inv h
    rw [cfbClsids_eq, hcl] at hlook
    have hmem := lookup_pair hlook
    obtain ⟨r, hr, he⟩ := List.mem_map.mp hmem
    injection he with he1 he2
    subst he2
    exact Or.inr (.clsid hr (guid_at hl he1.symm))
  · replace h := run_bind_inv h; obtain ⟨_, p6, h1, h⟩ := h
    obtain ⟨hp6, rfl, _⟩ := run_current_inv h1
    replace h := run_bind_inv h; obtain ⟨name2, _, h1, h⟩ := h
    obtain ⟨hl2, hx2, rfl⟩ := run_readBytes_inv h1
    obtain rfl : p6 = cfbDirectory d + 128 := by omega
    split at h
    · rename_i hn
      obtain ⟨rfl, _⟩ := run_pure_inv h
      exact Or.inr (.works (magicAt_read hl2 hx2 (by decide) (startsWith_iff.mp hn)))
    · replace h := run_bind_inv h; obtain ⟨_, p7, h1, h⟩ := h
      obtain ⟨hp7, rfl, _⟩ := run_current_inv h1
      replace h := run_bind_inv h; obtain ⟨name3, _, h1, h⟩ := h
      obtain ⟨hl3, hx3, rfl⟩ := run_readBytes_inv h1
      obtain rfl : p7 = cfbDirectory d + 256 := by omega
      split at h
      · rename_i hn
        obtain ⟨rfl, _⟩ := run_pure_inv h
        exact Or.inr (.works6 (magicAt_read hl3 hx3 (by decide) (startsWith_iff.mp hn)))
      · obtain ⟨rfl, _⟩ := run_pure_inv h
        exact Or.inl rfl

/-! ## Executables -/

theorem exeReader_evidence {d : Bytes} {m p : Nat} {f : FileFormat} {q : Nat}
    (h : run d m exeReader p = .ok (f, q)) : f = MsDosExecutable ∨ Evidence d f := by
  unfold exeReader at h
  replace h := run_bind_inv h; obtain ⟨_, _, _, h⟩ := h
  replace h := run_bind_inv h; obtain ⟨_, _, h1, h⟩ := h
  obtain ⟨_, _, rfl⟩ := run_start_inv h1
  replace h := run_bind_inv h; obtain ⟨off, _, h1, h⟩ := h
  obtain ⟨_, hoff, rfl⟩ := run_u32le_inv h1
  subst hoff
  split at h
  · replace h := run_bind_inv h; obtain ⟨_, _, h1, h⟩ := h
    obtain ⟨_, _, rfl⟩ := run_start_inv h1
    replace h := run_bind_inv h; obtain ⟨sig, _, h1, h⟩ := h
    obtain ⟨hl, hx, rfl⟩ := run_readBytes_inv h1
    have hl' : u32At d 60 + 4 ≤ d.length := by omega
    split at h
    · rename_i hpe
      have hm := magicAt_of_slice (x := b!"PE\x00\x00") (n := 4) (by rw [← hx, hpe]) rfl hl'
      replace h := run_bind_inv h; obtain ⟨_, p5, h1, h⟩ := h
      obtain ⟨hp5, rfl, _⟩ := run_current_inv h1
      replace h := run_bind_inv h; obtain ⟨ch, _, h1, h⟩ := h
      obtain ⟨_, hch, rfl⟩ := run_u16le_inv h1
      obtain rfl : p5 = u32At d 60 + 22 := by omega
      obtain ⟨rfl, _⟩ := run_pure_inv h
      rw [hch, show (0x2000 : Nat) = 2 ^ 13 by decide, and_two_pow]
      cases hb : (u16At d (u32At d 60 + 22)).testBit 13 with
      | true => exact Or.inr (.dll hm hb)
      | false => exact Or.inr (.pe hm hb)
    · replace h := run_bind_inv h; obtain ⟨two, _, h1, h⟩ := h
      obtain ⟨h2, rfl⟩ := run_lift_inv h1
      have htwo : two <+: sig := by
        unfold sliceIdx at h2
        split at h2
        · cases h2
          exact List.take_prefix _ _
        · cases h2
      have hlen : sig.length = 4 := by rw [hx, length_slice_eq _ _ _ hl']
      split at h
      · rename_i hle
        obtain ⟨rfl, _⟩ := run_pure_inv h
        refine Or.inr (.le (hle.imp (fun e => ?_) (fun e => ?_))) <;>
        · subst e
          exact magicAt_read (Or.inr hl') hx (by decide) htwo
      split at h
      · rename_i hne
        obtain ⟨rfl, _⟩ := run_pure_inv h
        subst hne
        exact Or.inr (.ne (magicAt_read (Or.inr hl') hx (by decide) htwo))
      · obtain ⟨rfl, _⟩ := run_pure_inv h
        exact Or.inl rfl
  · obtain ⟨rfl, _⟩ := run_pure_inv h
    exact Or.inl rfl

/-! ## ID3v2 -/

theorem id3v2Reader_evidence {cfg : Cfg} {d : Bytes} {m p : Nat} {f : FileFormat} {q : Nat}
    (h : run d m (id3v2Reader cfg) p = .ok (f, q)) : f = Id3v2 ∨ Evidence d f := by
  unfold id3v2Reader at h
  replace h := run_bind_inv h; obtain ⟨off, _, _, h⟩ := h
  replace h := run_bind_inv h; obtain ⟨_, off', h1, h⟩ := h
  clear h1
  replace h := run_bind_inv h; obtain ⟨buf, _, h1, h⟩ := h
  obtain ⟨hl, hx, rfl⟩ := run_readBytes_inv h1
  have hl' : off' + 4 ≤ d.length := by omega
  split at h
  · rename_i he
    obtain ⟨rfl, _⟩ := run_pure_inv h
    exact Or.inr (.flac (magicAt_of_slice (n := 4) (by rw [← hx, he]) rfl hl'))
  · replace h := run_bind_inv h; obtain ⟨two, _, h1, h⟩ := h
    obtain ⟨h2, rfl⟩ := run_lift_inv h1
    have htwo : two <+: buf := by
      unfold sliceIdx at h2
      split at h2
      · cases h2
        exact List.take_prefix _ _
      · cases h2
    split at h
    · rename_i hc
      obtain ⟨rfl, _⟩ := run_pure_inv h
      have hm : two ∈ mp3Syncs := by simpa using hc
      have hs : ∀ x ∈ mp3Syncs, ∃ c ∈ [(0xE2 : UInt8), 0xE3, 0xF2, 0xF3, 0xFA, 0xFB], x = [0xFF, c] := by decide
      obtain ⟨c, hcm, rfl⟩ := hs _ hm
      exact Or.inr (.mp3 hcm (magicAt_read (Or.inr hl') hx (by simp) htwo))
    · obtain ⟨rfl, _⟩ := run_pure_inv h
      exact Or.inl rfl

/-! ## RealMedia -/

theorem rmLoop_evidence (d : Bytes) (m n : Nat) (audio video : Bool) (p : Nat) (f : FileFormat) (q : Nat)
    (ha : audio = true → MediaOf d b!"audio/") (hv : video = true → MediaOf d b!"video/")
    (h : run d m (rmLoop n audio video) p = .ok (f, q)) : f = Realmedia ∨ Evidence d f := by
  induction n generalizing audio video p with
  | zero =>
    obtain ⟨rfl, _⟩ := run_pure_inv h
    split
    · exact Or.inr (.rmVideo (hv (by assumption)))
    split
    · exact Or.inr (.rmAudio (ha (by assumption)))
    · exact Or.inl rfl
  | succ n ih =>
    unfold rmLoop at h
    replace h := run_bind_inv h; obtain ⟨ty, _, h1, h⟩ := h
    obtain ⟨hl1, hty, rfl⟩ := run_readBytes_inv h1
    replace h := run_bind_inv h; obtain ⟨size, _, h1, h⟩ := h
    obtain ⟨_, _, rfl⟩ := run_u32be_inv h1
    split at h
    · rename_i hmd
      replace h := run_bind_inv h; obtain ⟨_, _, h1, h⟩ := h
      obtain ⟨rfl, rfl⟩ := run_pos_inv h1
      replace h := run_bind_inv h; obtain ⟨_, p3, h1, h⟩ := h
      obtain ⟨hp3, rfl, _⟩ := run_current_inv h1
      obtain rfl : p3 = p + 40 := by omega
      replace h := run_bind_inv h; obtain ⟨ns, _, h1, h⟩ := h
      obtain ⟨_, hns, rfl⟩ := run_u8_inv h1
      replace h := run_bind_inv h; obtain ⟨_, p4, h1, h⟩ := h
      obtain ⟨hp4, rfl, _⟩ := run_current_inv h1
      replace h := run_bind_inv h; obtain ⟨ms, _, h1, h⟩ := h
      obtain ⟨_, _, rfl⟩ := run_u8_inv h1
      replace h := run_bind_inv h; obtain ⟨mime, _, h1, h⟩ := h
      obtain ⟨hl2, hx, rfl⟩ := run_readBytes_inv h1
      dsimp only at h
      replace h := run_bind_inv h; obtain ⟨_, _, _, h⟩ := h
      replace h := run_bind_inv h; obtain ⟨_, _, _, h⟩ := h
      have hmed : ∀ c : Bytes, c ≠ [] → startsWith mime c = true → MediaOf d c := by
        intro c hc hs
        refine ⟨p, magicAt_of_slice (n := 4) (by rw [← hty, hmd]) rfl (by omega), ?_⟩
        have : p + 42 + byteAt d (p + 40) = p4 + 1 := by
          unfold byteAt
          rw [← hns]
          omega
        rw [this]
        exact magicAt_read hl2 hx hc (startsWith_iff.mp hs)
      refine ih _ _ _ ?_ ?_ h
      · split
        · rename_i hs
          exact fun _ => hmed _ (by decide) hs
        · exact ha
      · split
        · exact hv
        · split
          · rename_i hs
            exact fun _ => hmed _ (by decide) hs
          · exact hv
    · replace h := run_bind_inv h; obtain ⟨_, _, _, h⟩ := h
      exact ih _ _ _ ha hv h

theorem rmReader_evidence {d : Bytes} {m p : Nat} {f : FileFormat} {q : Nat}
    (h : run d m rmReader p = .ok (f, q)) : f = Realmedia ∨ Evidence d f := by
  unfold rmReader at h
  replace h := run_bind_inv h; obtain ⟨_, _, _, h⟩ := h
  replace h := run_bind_inv h; obtain ⟨_, _, _, h⟩ := h
  exact rmLoop_evidence d m _ false false _ _ _ nofun nofun h

/-! ## ZIP -/

theorem entry_at {d name : Bytes} {p n : Nat} (hn : n = u16At d (p + 28)) (hl : n = 0 ∨ p + 46 + n ≤ d.length)
    (hp : p + 46 ≤ d.length) (hx : name = slice d (p + 46) n) : EntryAt d p name := by
  have hlen : name.length = n := by
    rw [hx, length_slice_eq]
    omega
  exact ⟨by rw [hlen, hn], magicAt_of_slice hx.symm hlen (by omega)⟩

theorem zipEntries_evidence (d : Bytes) (m n : Nat) (fmt : FileFormat) (p : Nat) (f : FileFormat) (q : Nat)
    (hf : fmt = Zip ∨ Evidence d fmt)
    (h : run d m (zipEntries n fmt) p = .ok (f, q)) : f = Zip ∨ Evidence d f := by
  induction n generalizing fmt p with
  | zero =>
    obtain ⟨rfl, _⟩ := run_pure_inv h
    exact hf
  | succ n ih =>
    unfold zipEntries at h
    replace h := run_bind_inv h; obtain ⟨_, p1, h1, h⟩ := h
    obtain ⟨hp1, rfl, _⟩ := run_current_inv h1
    obtain rfl : p1 = p + 20 := by omega
    replace h := run_bind_inv h; obtain ⟨cs, _, h1, h⟩ := h
    obtain ⟨hcl, hcs, rfl⟩ := run_u32le_inv h1
    replace h := run_bind_inv h; obtain ⟨us, _, h1, h⟩ := h
    obtain ⟨hul, hus, rfl⟩ := run_u32le_inv h1
    replace h := run_bind_inv h; obtain ⟨nl, _, h1, h⟩ := h
    obtain ⟨hnl', hnl, rfl⟩ := run_u16le_inv h1
    replace h := run_bind_inv h; obtain ⟨el, _, h1, h⟩ := h
    obtain ⟨_, _, rfl⟩ := run_u16le_inv h1
    replace h := run_bind_inv h; obtain ⟨cl, _, h1, h⟩ := h
    obtain ⟨_, _, rfl⟩ := run_u16le_inv h1
    replace h := run_bind_inv h; obtain ⟨_, p2, h1, h⟩ := h
    obtain ⟨hp2, rfl, _⟩ := run_current_inv h1
    obtain rfl : p2 = p + 42 := by omega
    replace h := run_bind_inv h; obtain ⟨off, _, h1, h⟩ := h
    obtain ⟨hol, hoff, rfl⟩ := run_u32le_inv h1
    replace h := run_bind_inv h; obtain ⟨name, _, h1, h⟩ := h
    obtain ⟨hl, hname, rfl⟩ := run_string_inv h1
    have hentry : EntryAt d p (slice d (p + 46) nl) := entry_at hnl hl (by omega) rfl
    split at h
    · rename_i g hg
      obtain ⟨rfl, _⟩ := run_pure_inv h
      refine Or.inr (.zipEntry hentry ((zipName_iff _ _).mp ?_))
      rw [← hname]
      unfold zipName
      rw [hg]
    · rename_i hnone
      split at h
      · rename_i hmf
        replace h := run_bind_inv h; obtain ⟨_, _, _, h⟩ := h
        refine ih _ _ (Or.inr (.jar (p := p) ?_)) h
        have : slice d (p + 46) nl = b!"META-INF/MANIFEST.MF" := (lossy_eq _ (by decide) _).mp (by rw [← hname, hmf]; decide)
        rwa [this] at hentry
      split at h
      · rename_i hmime
        obtain ⟨hm1, hm2⟩ := hmime
        have hnm : slice d (p + 46) nl = b!"mimetype" := (lossy_eq _ (by decide) _).mp (by rw [← hname, hm1]; decide)
        unfold zipMimetype at h
        replace h := run_bind_inv h; obtain ⟨_, _, h1, h⟩ := h
        obtain ⟨_, _, rfl⟩ := run_start_inv h1
        replace h := run_bind_inv h; obtain ⟨fl, _, h1, h⟩ := h
        obtain ⟨_, hfl, rfl⟩ := run_u16le_inv h1
        replace h := run_bind_inv h; obtain ⟨xl, _, h1, h⟩ := h
        obtain ⟨hxl', hxl, rfl⟩ := run_u16le_inv h1
        replace h := run_bind_inv h; obtain ⟨_, p3, h1, h⟩ := h
        obtain ⟨hp3, rfl, _⟩ := run_current_inv h1
        replace h := run_bind_inv h; obtain ⟨data, _, h1, h⟩ := h
        obtain ⟨hl3, hdata, rfl⟩ := run_string_inv h1
        split at h
        · rename_i g hg
          obtain ⟨rfl, _⟩ := run_pure_inv h
          rw [hdata] at hg
          have hmm := (zipMime_iff _ _).mp hg
          have hn8 : nl = 8 := by
            have := congrArg List.length hnm
            rw [length_slice_eq _ _ _ (by omega)] at this
            exact this
          have hcs0 : cs ≠ 0 := by
            rintro rfl
            obtain ⟨mt, a, b, hin, _, _, he⟩ := hmm
            have : ∀ r ∈ zipMediaTypes, r.1 ≠ [] := by decide
            have hnil : slice d p3 0 = [] := by simp [slice]
            rw [hnil] at he
            have he' := he.symm
            rw [List.append_eq_nil_iff, List.append_eq_nil_iff] at he'
            exact this _ hin he'.1.2
          refine Or.inr (.mimetype (p := p) (q := off) (size := cs) (content := slice d p3 cs)
            ⟨?_, ?_, ?_, ?_⟩ hoff ?_ (length_slice_eq _ _ _ (by omega)) hmm)
          · rw [leNat_u16 _ _ (by omega), ← hn8, hnl]
          · rw [← hn8, hnm]
          · rw [leNat_u32 _ _ hcl, hcs]
          · rw [leNat_u32 _ _ hul, hm2, hus]
          · have hp : off + 30 + u16At d (off + 26) + u16At d (off + 28) = p3 := by
              rw [← hfl, show off + 28 = off + 26 + 2 by omega, ← hxl]
              omega
            rw [hp]
            exact magicAt_of_slice rfl (length_slice_eq _ _ _ (by omega)) (by omega)
        · obtain ⟨rfl, _⟩ := run_pure_inv h
          exact Or.inl rfl
      · rename_i hnm1 hnm2
        split at h
        · rename_i g hg
          obtain ⟨rfl, _⟩ := run_pure_inv h
          refine Or.inr (.zipEntry hentry ((zipName_iff _ _).mp ?_))
          rw [← hname]
          unfold zipName
          rw [hnone, hg]
        · replace h := run_bind_inv h; obtain ⟨_, _, _, h⟩ := h
          exact ih _ _ hf h

theorem zipReader_evidence {cfg : Cfg} {d : Bytes} {m p : Nat} {f : FileFormat} {q : Nat}
    (h : run d m (zipReader cfg) p = .ok (f, q)) :
    OccursWithin b!"PK\x05\x06" (d.length - 65557) d.length d ∧ (f = Zip ∨ Evidence d f) := by
  unfold zipReader at h
  replace h := run_bind_inv h; obtain ⟨len, _, h1, h⟩ := h
  obtain ⟨rfl, _⟩ := run_end_inv h1
  dsimp only at h
  replace h := run_bind_inv h; obtain ⟨_, p2, h1, h⟩ := h
  obtain ⟨_, _, hp2⟩ := run_start_inv h1
  replace h := run_bind_inv h; obtain ⟨buf, p3, h1, h⟩ := h
  obtain ⟨hl, hx, _⟩ := run_readBytes_inv h1
  replace h := run_bind_inv h; obtain ⟨found, p4, h1, h⟩ := h
  obtain ⟨hfound, _⟩ := run_lift_inv h1
  split at h
  · cases h
  · rename_i i
    replace h := run_bind_inv h; obtain ⟨_, _, _, h⟩ := h
    replace h := run_bind_inv h; obtain ⟨_, _, _, h⟩ := h
    replace h := run_bind_inv h; obtain ⟨_, _, _, h⟩ := h
    replace h := run_bind_inv h; obtain ⟨_, _, _, h⟩ := h
    refine ⟨?_, zipEntries_evidence d m _ _ _ _ _ (Or.inl rfl) h⟩
    have := rfindBytes_spec buf zipEocdSignature
    rw [hfound] at this
    obtain ⟨r, hr, hlast⟩ := this
    cases hr
    have ho : zipEocdSignature <+: buf.drop i := hlast.1
    obtain ⟨t, ht⟩ := ho
    have h22 : max zipEocdMinSize (min d.length zipEocdMaxSize) ≠ 0 := by
      have : zipEocdMinSize = 22 := rfl
      omega
    have hbuf : d = d.take p2 ++ buf ++ d.drop (p2 + max zipEocdMinSize (min d.length zipEocdMaxSize)) := by
      rw [hx, slice, List.append_assoc, ← List.drop_drop, List.take_append_drop, List.take_append_drop]
    have hlen := congrArg List.length ht
    rw [List.length_append, List.length_drop] at hlen
    have h4 : zipEocdSignature.length = 4 := rfl
    have hsplit : buf = buf.take i ++ zipEocdSignature ++ t := by
      rw [List.append_assoc, ht, List.take_append_drop]
    refine ⟨d.take p2 ++ buf.take i, t ++ d.drop (p2 + max zipEocdMinSize (min d.length zipEocdMaxSize)), ?_, ?_, ?_⟩
    · conv => lhs; rw [hbuf, hsplit]
      simp only [List.append_assoc]
      rfl
    · have hmax : zipEocdMaxSize = 65557 := rfl
      rw [List.length_append, List.length_take]
      omega
    · have := congrArg List.length hx
      rw [length_slice] at this
      rw [List.length_append, List.length_take, List.length_take]
      show _ + 4 ≤ _
      omega

end FF
