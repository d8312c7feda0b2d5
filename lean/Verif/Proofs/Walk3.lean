import Verif.Proofs.Walk2
import Verif.Proofs.Id3
/-!
# The readers walk as specified, on any content: ID3v2
-/

namespace FF
open Spec FileFormat

theorem index_slice {d : Bytes} {p n i : Nat} (hi : i < n) (h : p + n ≤ d.length) :
    index (slice d p n) i = .ok (d.getD (p + i) 0) := by
  rw [index_ok (by rw [length_slice_eq _ _ _ h]; exact hi)]
  congr 1
  simp only [slice, List.getElem_take, List.getElem_drop]
  rw [List.getD_eq_getElem?_getD, List.getElem?_eq_getElem (by omega), Option.getD_some]

theorem sliceIdx_slice {d : Bytes} {p n k : Nat} (hk : k ≤ n) (h : p + n ≤ d.length) :
    sliceIdx (slice d p n) 0 k = .ok (slice d p k) := by
  rw [sliceIdx_ok (Nat.zero_le _) (by rw [length_slice_eq _ _ _ h]; exact hk), List.drop_zero, take_slice,
    Nat.min_eq_left hk]

theorem id3TagSize_at (d : Bytes) (p : Nat) :
    id3TagSize (d.getD p 0) (d.getD (p + 1) 0) (d.getD (p + 2) 0) (d.getD (p + 3) 0) = synchsafeAt d p := by
  have hm : ∀ q, (d.getD q 0).toNat &&& 0x7F = byteAt d q % 128 := by
    intro x
    rw [show (0x7F : Nat) = 2 ^ 7 - 1 from rfl, Nat.and_two_pow_sub_one_eq_mod]
    rfl
  unfold id3TagSize synchsafeAt
  simp only [hm]
  generalize hw : byteAt d p % 128 = w
  generalize hx : byteAt d (p + 1) % 128 = x
  generalize hy : byteAt d (p + 2) % 128 = y
  generalize hz : byteAt d (p + 3) % 128 = z
  have e1 : y <<< 7 ||| z = y * 2 ^ 7 + z := by
    rw [← Nat.shiftLeft_add_eq_or_of_lt (by omega), Nat.shiftLeft_eq]
  have e2 : x <<< 14 ||| (y * 2 ^ 7 + z) = x * 2 ^ 14 + (y * 2 ^ 7 + z) := by
    rw [← Nat.shiftLeft_add_eq_or_of_lt (by omega), Nat.shiftLeft_eq]
  have e3 : w <<< 21 ||| (x * 2 ^ 14 + (y * 2 ^ 7 + z)) = w * 2 ^ 21 + (x * 2 ^ 14 + (y * 2 ^ 7 + z)) := by
    rw [← Nat.shiftLeft_add_eq_or_of_lt (by omega), Nat.shiftLeft_eq]
  rw [Nat.or_assoc, Nat.or_assoc, e1, e2, e3]
  omega

theorem synchsafeAt_lt (d : Bytes) (p : Nat) : synchsafeAt d p < 2 ^ 28 := by
  unfold synchsafeAt
  omega

/-- Behind the tags. -/
def id3After (offset : Nat) : Prog FileFormat := do
  let _ ← Prog.sk (.start offset)
  let buf ← readBytes 4
  if buf = b!"fLaC" then Pure.pure FreeLosslessAudioCodec
  else
    let two ← Prog.lift (sliceIdx buf 0 2)
    if mp3Syncs.contains two then Pure.pure Mpeg12AudioLayer3
    else Pure.pure Id3v2

theorem mp3Syncs_eq : mp3Syncs = ([0xE2, 0xE3, 0xF2, 0xF3, 0xFA, 0xFB] : Bytes).map (fun c => [0xFF, c]) := rfl

theorem id3After_walk {d : Bytes} {m p q : Nat} (hm : d.length ≤ m) (hl : p + 10 ≤ d.length)
    (ht : ¬ MagicAt p b!"ID3" d) (f : FileFormat) : Ends d m (id3After p) q f ↔ Id3Walk d m p f := by
  unfold id3After
  have e4 : slice d p 4 = b!"fLaC" ↔ MagicAt p b!"fLaC" d := (magicAt_slice (by decide) (by omega)).symm
  have e2 : ∀ c : UInt8, slice d p 2 = [0xFF, c] ↔ MagicAt p [0xFF, c] d := fun c =>
    (magicAt_slice (off := p) (n := 2) (m := [0xFF, c]) (b := d) rfl (by omega)).symm
  have em : mp3Syncs.contains (slice d p 2) = true ↔
      ∃ c ∈ ([0xE2, 0xE3, 0xF2, 0xF3, 0xFA, 0xFB] : Bytes), MagicAt p [0xFF, c] d := by
    rw [mp3Syncs_eq, List.contains_eq_mem, decide_eq_true_eq, List.mem_map]
    constructor
    · rintro ⟨c, hc, h⟩; exact ⟨c, hc, (e2 c).mp h.symm⟩
    · rintro ⟨c, hc, h⟩; exact ⟨c, hc, ((e2 c).mpr h).symm⟩
  rw [ends_start, ends_bytes]
  constructor
  · rintro ⟨-, -, h⟩
    split at h
    · rename_i hs
      rw [ends_pure] at h
      subst h
      exact .flac hl (e4.mp hs)
    · rename_i hs
      rw [ends_lift (sliceIdx_slice (by decide) (by omega))] at h
      split at h
      · rename_i hc
        rw [ends_pure] at h
        subst h
        obtain ⟨c, hc, h⟩ := em.mp hc
        exact .mp3 hl hc h
      · rename_i hc
        rw [ends_pure] at h
        subst h
        exact .other hl ht (fun h => hs (e4.mpr h)) fun c hc' h => hc (em.mpr ⟨c, hc', h⟩)
  · intro h
    refine ⟨by omega, Or.inr (by omega), ?_⟩
    cases h with
    | tag h => exact absurd h ht
    | flac _ h => rw [if_pos (e4.mpr h), ends_pure]
    | mp3 _ hc h =>
      rw [if_neg, ends_lift (sliceIdx_slice (by decide) (by omega)), if_pos (em.mpr ⟨_, hc, h⟩), ends_pure]
      intro h4
      have h1 := congrArg (List.take 2) h4
      rw [take_slice] at h1
      have h2 := (e2 _).mpr h
      rw [show min 2 4 = 2 from rfl, h2] at h1
      cases h1
    | other _ _ h hc =>
      rw [if_neg (fun hs => h (e4.mp hs)), ends_lift (sliceIdx_slice (by decide) (by omega)), if_neg, ends_pure]
      intro hs
      obtain ⟨c, hc', h⟩ := em.mp hs
      exact hc c hc' h

theorem id3_walk_inside {d : Bytes} {m p : Nat} {f : FileFormat} (h : Id3Walk d m p f) : p + 10 ≤ d.length := by
  cases h <;> assumption

/-- The extended header and the footer. -/
theorem ends_id3Next {d : Bytes} {m p n q : Nat} (flags : UInt8) (hn : n + 2 ^ 32 + 10 < 2 ^ 64) {k : Nat → Prog FileFormat}
    {f : FileFormat} (hk : ∀ x q q', Ends d m (k x) q f ↔ Ends d m (k x) q' f) :
    Ends d m (id3Extended Cfg.release flags n >>= fun x => Prog.lift (id3Footer Cfg.release flags x) >>= k) p f ↔
      ∃ ext foot, ((flags.toNat.testBit 6 = true ∧ p + 4 ≤ d.length ∧ ext = beAt d p 4) ∨ (flags.toNat.testBit 6 = false ∧ ext = 0)) ∧
        (foot = if flags.toNat.testBit 4 then 10 else 0) ∧ Ends d m (k (n + ext + foot)) q f := by
  have hfoot : ∀ x, x < 2 ^ 64 - 10 → id3Footer Cfg.release flags x = .ok (x + if flags.toNat.testBit 4 then 10 else 0) := by
    intro x hx
    unfold id3Footer
    have h4 : (flags.toNat &&& 0x10 ≠ 0) ↔ flags.toNat.testBit 4 = true := flag_ne 4
    simp only [h4]
    split
    · rw [u64Add_release, Nat.mod_eq_of_lt (by omega)]
    · rfl
  have h6 : (flags.toNat &&& 0x40 ≠ 0) ↔ flags.toNat.testBit 6 = true := flag_ne 6
  unfold id3Extended
  simp only [h6]
  split
  · rename_i hf
    have hb : beAt d p 4 < 2 ^ 32 := beAt_lt _ _ 4
    rw [ends_assoc, ends_u32be, ends_lift (u64Add_release _ _), Nat.mod_eq_of_lt (by omega), ends_lift (hfoot _ (by omega)), hk _ _ q]
    constructor
    · rintro ⟨h1, h2⟩; exact ⟨_, _, Or.inl ⟨hf, h1, rfl⟩, rfl, h2⟩
    · rintro ⟨_, _, ⟨_, h1, rfl⟩ | ⟨h1, rfl⟩, rfl, h2⟩
      · exact ⟨h1, h2⟩
      · rw [hf] at h1; cases h1
  · rename_i hf
    rw [ends_ok (show run d m (Pure.pure n : Prog Nat) p = .ok (n, p) from rfl), ends_lift (hfoot _ (by omega)), hk _ _ q]
    constructor
    · intro h; exact ⟨_, _, Or.inr ⟨by simpa using hf, rfl⟩, rfl, h⟩
    · rintro ⟨_, _, ⟨h1, _⟩ | ⟨h1, rfl⟩, rfl, h2⟩
      · exact absurd h1 hf
      · exact h2

theorem id3Loop_walk {d : Bytes} {m : Nat} (hd : d.length < 2 ^ 63) (hm : d.length ≤ m) (f : FileFormat) :
    ∀ fuel p q, d.length < p + fuel → (Ends d m (id3Loop Cfg.release fuel p >>= id3After) q f ↔ Id3Walk d m p f) := by
  intro fuel
  induction fuel with
  | zero =>
    intro p q h
    constructor
    · intro h'; exact absurd h' (ends_error (e := .diverge) rfl)
    · intro h'; have := id3_walk_inside h'; omega
  | succ fuel ih =>
    intro p q hfu
    unfold id3Loop
    rw [ends_assoc, ends_start, ends_assoc, ends_bytes]
    by_cases hl : p + 10 ≤ d.length
    · rw [and_iff_right (by omega : p ≤ m), and_iff_right (Or.inr hl), ends_assoc,
        ends_lift (sliceIdx_slice (by decide) hl)]
      have em : slice d p 3 = b!"ID3" ↔ MagicAt p b!"ID3" d := (magicAt_slice (by decide) (by omega)).symm
      by_cases ht : MagicAt p b!"ID3" d
      · rw [if_neg (by simpa using em.mpr ht)]
        have hsz := synchsafeAt_lt d (p + 6)
        rw [ends_assoc, ends_lift (index_slice (by decide) hl), ends_assoc, ends_lift (index_slice (by decide) hl),
          ends_assoc, ends_lift (index_slice (by decide) hl), ends_assoc, ends_lift (index_slice (by decide) hl),
          ends_assoc, ends_lift (index_slice (by decide) hl), ends_assoc, ends_lift (u64Add_release _ _),
          Nat.mod_eq_of_lt (by omega), ends_assoc]
        have he := id3TagSize_at d (p + 6)
        rw [show p + 6 + 1 = p + 7 from rfl, show p + 6 + 2 = p + 8 from rfl, show p + 6 + 3 = p + 9 from rfl] at he
        rw [he, ends_lift (u64Add_release _ _), Nat.mod_eq_of_lt (by omega), ends_assoc]
        have hk : ∀ x q q', Ends d m (id3Loop Cfg.release fuel x >>= id3After) q f ↔ Ends d m (id3Loop Cfg.release fuel x >>= id3After) q' f := by
          intro x q q'
          cases fuel with
          | zero => exact iff_of_false (ends_error (e := .diverge) rfl) (ends_error (e := .diverge) rfl)
          | succ n =>
            unfold id3Loop
            refine (ends_assoc.trans ends_start).trans (Iff.symm ?_)
            refine ends_assoc.trans ?_
            exact ends_start
        have key := ends_id3Next (d := d) (m := m) (p := p + 10) (q := 0) (f := f) (d.getD (p + 5) 0)
          (n := p + 10 + synchsafeAt d (p + 6)) (by omega) (k := fun x => id3Loop Cfg.release fuel x >>= id3After) hk
        have has : ∀ x q, Ends d m ((Prog.lift (id3Footer Cfg.release (d.getD (p + 5) 0) x) >>= fun y => id3Loop Cfg.release fuel y) >>= id3After) q f ↔
            Ends d m (Prog.lift (id3Footer Cfg.release (d.getD (p + 5) 0) x) >>= fun y => id3Loop Cfg.release fuel y >>= id3After) q f :=
          fun x q => ends_assoc
        have hcong : Ends d m (id3Extended Cfg.release (d.getD (p + 5) 0) (p + 10 + synchsafeAt d (p + 6)) >>= fun x =>
            (Prog.lift (id3Footer Cfg.release (d.getD (p + 5) 0) x) >>= fun y => id3Loop Cfg.release fuel y) >>= id3After) (p + 10) f ↔
            Ends d m (id3Extended Cfg.release (d.getD (p + 5) 0) (p + 10 + synchsafeAt d (p + 6)) >>= fun x =>
            (Prog.lift (id3Footer Cfg.release (d.getD (p + 5) 0) x) >>= fun y => id3Loop Cfg.release fuel y >>= id3After)) (p + 10) f := by
          rw [ends_bind, ends_bind]
          simp only [has]
        refine hcong.trans (key.trans ?_)
        constructor
        · rintro ⟨ext, foot, h1, h2, h3⟩
          have hw := (ih _ _ (by omega)).mp h3
          have := id3_walk_inside hw
          exact .tag ht hl h1 h2 (by omega) hw
        · intro h
          cases h with
          | @tag _ ext foot _ h1 h2 h3 h4 h5 h6 =>
            exact ⟨ext, foot, h3, h4, (ih _ _ (by omega)).mpr h6⟩
          | flac _ h =>
            have e1 := ((magicAt_iff _ _ _).mp h).2
            have e2 := ((magicAt_iff _ _ _).mp ht).2
            have := congrArg (List.take 3) e1
            rw [take_slice, show min 3 b!"fLaC".length = 3 from rfl] at this
            exact absurd (e2.symm.trans this) (by decide)
          | mp3 _ hc h =>
            have e1 := ((magicAt_iff _ _ _).mp h).2
            have e2 := congrArg (List.take 2) ((magicAt_iff _ _ _).mp ht).2
            rw [take_slice] at e2
            have := e2.symm.trans e1
            simp at this
          | other _ h => exact absurd ht h
      · rw [if_pos (by simpa using fun h => ht (em.mp h)),
          ends_ok (show run d m (Pure.pure p : Prog Nat) (p + 10) = .ok (p, p + 10) from rfl)]
        exact id3After_walk hm hl ht f
    · constructor
      · rintro ⟨_, h, _⟩; omega
      · intro h; exact absurd (id3_walk_inside h) hl

theorem id3v2Reader_walk {d : Bytes} {m : Nat} (hd : d.length < 2 ^ 63) (hm : d.length ≤ m) (f : FileFormat) :
    Ends d m (id3v2Reader Cfg.release) 0 f ↔ Id3Walk d m 0 f :=
  id3Loop_walk hd hm f id3Fuel 0 0 (by rw [show id3Fuel = 2 ^ 64 from rfl]; omega)

end FF
