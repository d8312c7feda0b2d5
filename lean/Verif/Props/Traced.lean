import Verif.Proofs.Traced
import Verif.Props.Damaged
/-!
# C88: the verdict depends on the bytes that were delivered
-/

namespace FF.Props
open FF FileFormat Spec

theorem traced_agree {data data' : Bytes} (hl : data'.length = data.length) (top : Nat) :
    Agree (traced data top) (traced data' top) id (fun s => ∀ i, s.2 i = true → data'[i]? = data[i]?) where
  patience := fun _ => rfl
  read := by
    intro s n hg
    have hs : slice data' s.1 n = slice data s.1 n := by
      refine slice_ext hl fun i hi => ?_
      by_cases h : s.1 + i < data.length
      · refine hg (s.1 + i) ?_
        simp only [traced, length_slice, Bool.or_eq_true, Bool.and_eq_true, decide_eq_true_eq]
        right
        omega
      · rw [List.getElem?_eq_none (by omega), List.getElem?_eq_none (by omega)]
    refine ⟨by simp only [traced, id_eq, hs]; rfl, fun i hi => hg i ?_⟩
    simp only [traced, hi, Bool.true_or]
  seek := by
    intro s p hg
    simp only [traced, hl, id_eq]
    refine ⟨rfl, fun i hi => hg i ?_⟩
    simp only [traced]
    split <;> exact hi
  tell := by
    intro s hg
    exact ⟨rfl, hg⟩

/-- C88: contents of the same length that agree in the bytes delivered during a detection on one of them are detected in the
same way: with the same verdict, looking at the same bytes, and leaving the file at the same position. -/
theorem C88_seen (cfg : Cfg) (ft : Features) (data data' : Bytes) (top p : Nat)
    (h : SameWhereSeen (seenBytes cfg ft data top p) data data') :
    fromDevice (traced data' top) cfg ft (p, fun _ => false) = fromDevice (traced data top) cfg ft (p, fun _ => false) :=
  (fromDevice_agree (traced_agree h.1 top) cfg ft (p, fun _ => false) h.2).1

/-! ## The file is an ordinary one -/

theorem traced_lawful (data : Bytes) (top : Nat) : (traced data top).Lawful where
  read_le := by
    intro s n bs s' h
    cases h
    rw [length_slice]
    omega
  read_patience := fun _ _ _ _ _ => Nat.le_refl _
  interrupted := by intro s n s' h; cases h
  seek_patience := fun _ _ _ _ _ => Nat.le_refl _
  tell_patience := fun _ _ _ _ => Nat.le_refl _

theorem traced_serves (data : Bytes) (top : Nat) :
    (traced data top).Serves data top Prod.fst (fun _ => True) where
  read_ok := by
    intro s n bs s' _ h
    cases h
    refine ⟨by rw [length_slice]; omega, slice_length_self _ _ _, fun h => ?_, rfl⟩
    have := congrArg List.length h
    rw [length_slice, List.length_nil] at this
    omega
  seek_ok := by
    intro s p q s' _ h
    simp only [traced] at h
    split at h
    · rename_i h'; cases h; exact ⟨h', rfl⟩
    · cases h
  tell_ok := by intro s q s' _ h; cases h; exact ⟨rfl, rfl⟩
  read_error := by intro s n e s' _ h; cases h
  seek_error := by
    intro s p e s' _ h
    simp only [traced] at h
    split at h
    · cases h
    · cases h; rfl
  tell_error := by intro s e s' _ h; cases h
  read_inv := fun _ _ _ => trivial
  seek_inv := fun _ _ _ => trivial
  tell_inv := fun _ _ => trivial

theorem traced_reliable (data : Bytes) (top : Nat) (may : ErrKind → Prop) :
    (traced data top).Reliable data top Prod.fst (fun _ => True) may where
  read := by intro s n e s' _ h; cases h
  seek := by
    intro s p e s' _ h
    simp only [traced] at h
    split at h
    · cases h
    · rename_i h'; cases h; exact ⟨rfl, h'⟩
  tell := by intro s e s' _ h; cases h

theorem traced_full (data : Bytes) (top : Nat) : (traced data top).Full data Prod.fst (fun _ => True) := by
  intro s n bs s' _ h
  cases h
  rfl

/-- C88: the note does not change the verdict; it is that of `from_bytes`. -/
theorem C88_traced (cfg : Cfg) (ft : Features) (data : Bytes) (hl : IsSlice data) :
    (fromDevice (traced data (2 ^ 64 - 1)) cfg ft (0, fun _ => false)).1 = fromBytes cfg ft data :=
  C82_full (traced_lawful _ _) (traced_serves _ _) (traced_reliable _ _ _) (traced_full _ _) cfg ft _ trivial hl rfl

/-- C88 for `from_bytes`: contents of the same length that agree in the bytes delivered during a detection on one of them
get the same result. -/
theorem C88_from_bytes (cfg : Cfg) (ft : Features) (data data' : Bytes) (hl : IsSlice data)
    (h : SameWhereSeen (seenBytes cfg ft data (2 ^ 64 - 1) 0) data data') : fromBytes cfg ft data' = fromBytes cfg ft data := by
  have hl' : IsSlice data' := by
    unfold IsSlice at hl ⊢
    rw [h.1]
    exact hl
  rw [← C88_traced cfg ft data hl, ← C88_traced cfg ft data' hl', C88_seen cfg ft data data' _ 0 h]

/-- C88: a byte that was not delivered can be any other. -/
theorem C88_change (cfg : Cfg) (ft : Features) (data : Bytes) (hl : IsSlice data) (i : Nat) (x : UInt8)
    (hi : seenBytes cfg ft data (2 ^ 64 - 1) 0 i = false) : fromBytes cfg ft (data.set i x) = fromBytes cfg ft data := by
  refine C88_from_bytes cfg ft data _ hl ⟨List.length_set, fun j hj => ?_⟩
  rw [List.getElem?_set]
  split
  · rename_i hij
    subst hij
    rw [hi] at hj
    exact absurd hj (by decide)
  · rfl

/-- C88: without readers the bytes delivered are the first 36870. -/
theorem C88_first (cfg : Cfg) (data : Bytes) (top i : Nat) :
    seenBytes cfg Features.none data top 0 i = true ↔ i < 36870 ∧ i < data.length := by
  have hn : ∀ fmt, fmtReader cfg Features.none fmt = none := by
    intro fmt
    rcases fmtReader_cases cfg Features.none fmt with h | ⟨g, _, he, _⟩
    · exact h
    · cases g <;> cases he
  have : (fromDevice (traced data top) cfg Features.none (0, fun _ => false)).2 =
      ((traced data top).read (0, fun _ => false) 36870).2 := by
    show (fromDevice (traced data top) cfg Features.none (0, fun _ => false)).2 =
      ((traced data top).read (0, fun _ => false) bufferSize).2
    unfold fromDevice
    have hk : ∃ bs st, (traced data top).read (0, fun _ => false) bufferSize = (.ok bs, st) := ⟨_, _, rfl⟩
    obtain ⟨bs, st, hk⟩ := hk
    rw [hk]
    simp only [fromFmtReaderD, hn, fromGenericReaderD]
    split
    · rfl
    · split <;> rfl
  unfold seenBytes
  rw [this]
  simp only [traced, length_slice, Bool.false_or, Bool.and_eq_true, decide_eq_true_eq]
  omega

/-! ## Damage where no byte is delivered (C84) -/

theorem traced_damaged (bad : Nat → Bool) (e : ErrKind) (data : Bytes) (top : Nat) :
    Agree (traced data top) (damaged bad e data top) Prod.fst (fun s => ∀ i, s.2 i = true → bad i = false) where
  patience := fun _ => rfl
  read := by
    intro s n hg
    have hb : ∀ i, s.1 ≤ i → i < s.1 + min n (data.length - s.1) → bad i = false := by
      intro i h1 h2
      refine hg i ?_
      simp only [traced, length_slice, Bool.or_eq_true, Bool.and_eq_true, decide_eq_true_eq]
      right
      omega
    refine ⟨?_, fun i hi => hg i (by simp only [traced, hi, Bool.true_or])⟩
    have hr : goodRun bad s.1 (min n (data.length - s.1)) = min n (data.length - s.1) := goodRun_all fun i hi => hb _ (by omega) (by omega)
    have hc : n = 0 ∨ data.length ≤ s.1 ∨ bad s.1 = false := by
      by_cases h0 : n = 0
      · exact .inl h0
      · by_cases h1 : data.length ≤ s.1
        · exact .inr (.inl h1)
        · exact .inr (.inr (hb s.1 (Nat.le_refl _) (by omega)))
    have hs : slice data s.1 (min n (data.length - s.1)) = slice data s.1 n := by
      unfold slice
      rw [← List.length_drop, ← List.take_take, List.take_length]
    simp only [damaged, traced, if_pos hc, hr, hs, Prod.map_apply, id_eq, length_slice]
  seek := by
    intro s p hg
    simp only [damaged, traced]
    constructor
    · cases seekTarget data.length top s.1 p <;> rfl
    · intro i hi
      refine hg i ?_
      simp only [traced]
      split <;> exact hi
  tell := fun s hg => ⟨rfl, hg⟩

/-- C84. Damage that no call comes to does no harm: if none of the bytes that a detection on the undamaged content is given
is damaged, detection on the damaged medium has the same result and ends at the same position. -/
theorem C84_untouched (bad : Nat → Bool) (e : ErrKind) (cfg : Cfg) (ft : Features) (data : Bytes) (top p : Nat)
    (h : ∀ i, seenBytes cfg ft data top p i = true → bad i = false) :
    (fromDevice (damaged bad e data top) cfg ft p).1 = (fromDevice (traced data top) cfg ft (p, fun _ => false)).1 ∧
    (fromDevice (damaged bad e data top) cfg ft p).2 = (fromDevice (traced data top) cfg ft (p, fun _ => false)).2.1 := by
  have := (fromDevice_agree (traced_damaged bad e data top) cfg ft (p, fun _ => false) h).1
  exact ⟨congrArg Prod.fst this, congrArg Prod.snd this⟩

/-- C84, in terms of `from_bytes`. -/
theorem C84_untouched_from_bytes (bad : Nat → Bool) (e : ErrKind) (cfg : Cfg) (ft : Features) (data : Bytes)
    (hl : IsSlice data) (h : ∀ i, seenBytes cfg ft data (2 ^ 64 - 1) 0 i = true → bad i = false) :
    (fromDevice (damaged bad e data (2 ^ 64 - 1)) cfg ft 0).1 = fromBytes cfg ft data := by
  rw [(C84_untouched bad e cfg ft data _ 0 h).1, C88_traced cfg ft data hl]

/-! ## Non-vacuity -/

-- A sector that cannot be read, behind what detection without readers looks at.
example (data : Bytes) (hl : IsSlice data) :
    (fromDevice (damaged (fun i => decide (40960 ≤ i) && decide (i < 41472)) (.other 5) data (2 ^ 64 - 1)) Cfg.release
      Features.none 0).1 = fromBytes Cfg.release Features.none data := by
  refine C84_untouched_from_bytes _ _ _ _ data hl fun i hi => ?_
  have := (C88_first Cfg.release data (2 ^ 64 - 1) i).1 hi
  simp only [Bool.and_eq_false_iff, decide_eq_false_iff_not]
  omega

-- A small MZ file: the last byte is delivered, and there is none behind it.
example : (seenBytes Cfg.release { exe := true } (b!"MZ" ++ List.replicate 58 0 ++ b!"\x50\x00\x00\x00" ++ List.replicate 16 0 ++ b!"PE\x00\x00..............") 1000 0) 97 = true := by
  decide +kernel

-- Without readers, the bytes from 36870 on are not delivered, and can be any.
example (data : Bytes) (hl : IsSlice data) (x : UInt8) :
    fromBytes Cfg.release Features.none (data.set 40000 x) = fromBytes Cfg.release Features.none data := by
  refine C88_change _ _ data hl 40000 x ?_
  cases h : seenBytes Cfg.release Features.none data (2 ^ 64 - 1) 0 40000 with
  | false => rfl
  | true =>
    have := (C88_first Cfg.release data (2 ^ 64 - 1) 40000).1 h
    omega

end FF.Props
