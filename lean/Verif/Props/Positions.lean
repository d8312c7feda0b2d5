import Verif.Props.Needed
import Verif.Proofs.MattersTable
import Verif.Proofs.Offsets
import Verif.Spec.Positions
/-!
# C70: the bytes on which the signature verdict depends
-/

namespace FF.Props
open FF FileFormat Spec

/-! ## No other position matters -/

def positionOk (i : Nat) : Bool := signatureRanges.any fun r => Nat.ble r.1 i && Nat.ble i r.2

theorem positionOk_iff (i : Nat) : positionOk i = true ↔ SignaturePosition i := by
  simp [positionOk, SignaturePosition, List.any_eq_true]

def positionsOk (off n : Nat) : Bool := signatureRanges.any fun r => Nat.ble r.1 off && Nat.ble (off + n) (r.2 + 1)

theorem positionsOk_sound {off n i : Nat} (h : positionsOk off n = true) (h1 : off ≤ i) (h2 : i < off + n) :
    SignaturePosition i := by
  obtain ⟨r, hr, h⟩ := List.any_eq_true.mp h
  simp only [Bool.and_eq_true, Nat.ble_eq] at h
  exact ⟨r, hr, by omega, by omega⟩

/-- All positions of a magic value are among the ranges. -/
def altOk (alt : List Part) : Bool := alt.all fun p => Nat.blt 0 p.value.length && positionsOk p.offset p.value.length

/-- Every magic value has all its positions in the ranges, or is covered by one that has. -/
def entryPositions (e : SigEntry) : Bool :=
  e.alts.all fun alt => altOk alt ||
    coveredMagic.any fun c => Nat.beq c.1.ctorIdx e.format.ctorIdx && partsSame c.2.1 alt && altOk c.2.2

theorem table_positions : signatureTable.all entryPositions = true := by decide +kernel

theorem magicAt_congr {o : Nat} {v b b' : Bytes} (hv : 0 < v.length)
    (h : ∀ i, o ≤ i → i < o + v.length → SameAt i b b') (hm : MagicAt o v b) : MagicAt o v b' := by
  rw [magicAt_iff] at hm ⊢
  obtain ⟨h1, h2⟩ := hm
  have hlen : o + v.length ≤ b'.length := by
    have h3 := h (o + v.length - 1) (by omega) (by omega)
    unfold SameAt at h3
    rw [List.getElem?_eq_getElem (by omega)] at h3
    have := (List.getElem?_eq_some_iff.mp h3.symm).1
    omega
  refine ⟨hlen, ?_⟩
  refine Eq.trans ?_ h2
  apply List.ext_getElem?
  intro j
  unfold slice
  rw [List.getElem?_take, List.getElem?_take]
  split
  · rename_i hj
    rw [List.getElem?_drop, List.getElem?_drop]
    exact (h (o + j) (by omega) (by omega)).symm
  · rfl

theorem carries_congr {alt : List Part} {b b' : Bytes} (ha : altOk alt = true)
    (h : ∀ i, SignaturePosition i → SameAt i b b') (hc : Carries b alt) : Carries b' alt := by
  intro p hp
  have hk := List.all_eq_true.mp ha p hp
  simp only [Bool.and_eq_true] at hk
  have h0 : 0 < p.value.length := by have := hk.1; simp [Nat.blt] at this; omega
  exact magicAt_congr h0 (fun i h1 h2 => h i (positionsOk_sound hk.2 h1 h2)) (hc p hp)

theorem entry_congr {e : SigEntry} (he : e ∈ signatureTable) {b b' : Bytes}
    (h : ∀ i, SignaturePosition i → SameAt i b b') (hm : e.matches b = true) : e.matches b' = true := by
  rw [entry_matches_iff] at hm ⊢
  obtain ⟨alt, ha, hc⟩ := hm
  have hk := List.all_eq_true.mp (List.all_eq_true.mp table_positions e he) alt ha
  rcases Bool.or_eq_true_iff.mp hk with hk | hk
  · exact ⟨alt, ha, carries_congr hk h hc⟩
  · obtain ⟨⟨f, a, a'⟩, hmem, hk⟩ := List.any_eq_true.mp hk
    simp only [Bool.and_eq_true] at hk
    have h1 : f = e.format := ctorIdx_inj (Nat.beq_eq.mp hk.1.1)
    have h2 : a = alt := partsSame_eq hk.1.2
    subst h1 h2
    obtain ⟨-, ⟨e', he', hf', ha'⟩, -, himp⟩ := C68_covered _ _ _ hmem
    rw [entry_unique he' he hf'] at ha'
    exact ⟨a', ha', carries_congr hk.2 h (himp b hc)⟩

/-- C70. Without readers, contents that are the same at the 163 positions of the ranges get the same verdict, whatever
their other bytes and their lengths are. -/
theorem C70_positions (cfg : Cfg) (b b' : Bytes) (hb : IsSlice b) (hb' : IsSlice b')
    (h : ∀ i, SignaturePosition i → SameAt i b b') :
    fromBytes cfg Features.none b = fromBytes cfg Features.none b' := by
  have l1 : b.length < 2 ^ 63 := hb
  have l2 : b'.length < 2 ^ 63 := hb'
  have hsym : ∀ i, SignaturePosition i → SameAt i b' b := fun i hi => (h i hi).symm
  have hsig : fromSignature b = fromSignature b' := by
    unfold fromSignature
    congr 1
    have : ∀ l : List SigEntry, (∀ e ∈ l, e ∈ signatureTable) →
        l.find? (fun e => e.matches b) = l.find? (fun e => e.matches b') := by
      intro l
      induction l with
      | nil => intro _; rfl
      | cons e l ih =>
        intro hl
        have he := hl e (by simp)
        have hm : e.matches b = e.matches b' := by
          rw [Bool.eq_iff_iff]
          exact ⟨entry_congr he h, entry_congr he hsym⟩
        rw [List.find?_cons, List.find?_cons, hm, ih (fun x hx => hl x (by simp [hx]))]
    exact this _ (fun _ => id)
  have h0 : b.length = 0 ↔ b'.length = 0 := by
    have := h 0 ((positionOk_iff 0).mp (by decide))
    unfold SameAt at this
    rw [List.length_eq_zero_iff, List.length_eq_zero_iff]
    cases b <;> cases b' <;> simp_all
  rw [fromBytes_none cfg _ (by omega), fromBytes_none cfg _ (by omega), hsig]
  by_cases hz : b.length = 0
  · rw [if_pos hz, if_pos (h0.mp hz)]
  · rw [if_neg hz, if_neg (fun h => hz (h0.mpr h))]

/-! ## Each of the positions matters -/

theorem rows_complete : (signatureRanges.all fun r => (List.range (r.2 + 1 - r.1)).all fun j =>
    mattersRows.any fun w => Nat.beq w.1 (r.1 + j)) = true := by decide +kernel

theorem byteAt_other (i j : Nat) (x : UInt8) (alt : List Part) (h : j ≠ i) : byteAt (⟨i, [x]⟩ :: alt) j = byteAt alt j := by
  unfold byteAt
  by_cases h1 : i ≤ j
  · rw [if_pos h1]
    have : [x][j - i]? = none := by
      rw [List.getElem?_eq_none_iff]; simp; omega
    rw [this]
    cases alt <;> rfl
  · rw [if_neg h1]
    cases alt <;> rfl

theorem not_default {e : SigEntry} (he : e ∈ signatureTable) : e.format ≠ ArbitraryBinaryData := by
  have key : (signatureTable.all fun e => !Nat.beq e.format.ctorIdx ArbitraryBinaryData.ctorIdx) = true := by decide +kernel
  intro h
  have := List.all_eq_true.mp key e he
  rw [h] at this
  simp at this

/-- C70, the other direction: each of the 163 positions matters. For each there are two contents of the same length that
differ in the byte at this position only and get different verdicts. -/
theorem C70_each_matters (cfg : Cfg) (i : Nat) (hi : SignaturePosition i) :
    ∃ b b' : Bytes, IsSlice b ∧ IsSlice b' ∧ b.length = b'.length ∧ (∀ j, j ≠ i → SameAt j b b') ∧
      fromBytes cfg Features.none b ≠ fromBytes cfg Features.none b' := by
  obtain ⟨r, hr, h1, h2⟩ := hi
  have hc := List.all_eq_true.mp (List.all_eq_true.mp rows_complete r hr) (i - r.1) (by simp; omega)
  obtain ⟨⟨i', k, a, x⟩, hmem, hw⟩ := List.any_eq_true.mp hc
  have hw : i' = i := by have := Nat.beq_eq.mp hw; simp only at this; omega
  subst hw
  have hk := List.all_eq_true.mp rows_matter _ hmem
  unfold rowMatters at hk
  simp only at hk
  split at hk
  · cases hk
  · rename_i e he
    split at hk
    · cases hk
    · rename_i alt ha
      have he' : e ∈ signatureTable := List.mem_of_getElem? he
      have ha' : alt ∈ e.alts := List.mem_of_getElem? ha
      rw [Bool.and_eq_true] at hk
      have hlt : i' < partsEnd alt := by have := hk.1; simp [Nat.blt] at this; omega
      have hne : fromSignature (fill alt (partsEnd alt)) ≠ fromSignature (fill (⟨i', [x]⟩ :: alt) (partsEnd alt)) := by
        rw [← sparseVerdict_eq, ← sparseVerdict_eq]
        simpa using hk.2
      obtain ⟨hl, hcar⟩ := live_entry he' ha'
      have hle : partsEnd alt ≤ bufferSize := partsEnd_le (fun p hp => part_window he' ha' hp)
      simp only [bufferSize] at hle
      have l1 := length_fill alt (partsEnd alt)
      have l2 := length_fill (⟨i', [x]⟩ :: alt) (partsEnd alt)
      refine ⟨fill alt (partsEnd alt), fill (⟨i', [x]⟩ :: alt) (partsEnd alt), ?_, ?_, ?_, ?_, ?_⟩
      · show _ < 2 ^ 63; rw [l1]; omega
      · show _ < 2 ^ 63; rw [l2]; omega
      · rw [l1, l2]
      · intro j hj
        unfold SameAt fill
        rw [List.getElem?_map, List.getElem?_map]
        cases hx : (List.range (partsEnd alt))[j]? with
        | none => rfl
        | some y =>
          obtain ⟨_, hy⟩ := List.getElem?_eq_some_iff.mp hx
          rw [List.getElem_range] at hy
          subst hy
          simp only [Option.map_some, byteAt_other i' j x alt hj]
      · rw [fromBytes_none cfg _ (by omega), fromBytes_none cfg _ (by omega), if_neg (by omega), if_neg (by omega), hl]
        intro heq
        rw [hl] at hne
        injection heq with heq
        apply hne
        cases hz : fromSignature (fill (⟨i', [x]⟩ :: alt) (partsEnd alt)) with
        | none =>
          rw [hz] at heq
          exact absurd heq (not_default he')
        | some g =>
          rw [hz] at heq
          rw [show e.format = g from heq]

/-- Not vacuous: these two contents differ in all bytes between the positions, and in their lengths. -/
example : fromBytes Cfg.release Features.none (b!"\x89PNG\r\n\x1a\n" ++ List.replicate 60 1) =
    fromBytes Cfg.release Features.none (b!"\x89PNG\r\n\x1a\n" ++ List.replicate 60 1 ++ [7, 7, 7, 7]) := by
  refine C70_positions _ _ _ (by unfold IsSlice; decide +kernel) (by unfold IsSlice; decide +kernel) ?_
  rintro i ⟨r, hr, h1, h2⟩
  have key : ∀ r ∈ signatureRanges, r.2 < 68 ∨ 72 ≤ r.1 := by decide
  unfold SameAt
  rcases key r hr with h | h
  · exact (List.getElem?_append_left (by show i < 68; omega)).symm
  · rw [List.getElem?_eq_none, List.getElem?_eq_none]
    · show 72 ≤ i
      omega
    · show 68 ≤ i
      omega
example : (signatureRanges.map fun r => r.2 + 1 - r.1).sum = 163 := by decide
example : SignaturePosition 36869 ∧ ¬ SignaturePosition 36870 ∧ ¬ SignaturePosition 81 := by
  rw [← positionOk_iff, ← positionOk_iff, ← positionOk_iff]; decide

end FF.Props
