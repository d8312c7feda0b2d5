import Verif.Model.Search
/-!
# Correctness of the byte search
-/

namespace FF

/-- `pat` occurs in `data` at index `i`. -/
def OccursAt (pat data : Bytes) (i : Nat) : Prop := pat <+: data.drop i

theorem occursAt_iff {pat data : Bytes} {i : Nat} :
    OccursAt pat data i ↔ ∀ k, k < pat.length → data[i + k]? = pat[k]? := by
  unfold OccursAt
  rw [List.prefix_iff_getElem?]
  constructor
  · intro h k hk
    have := h k hk
    rw [List.getElem?_drop] at this
    rw [this, List.getElem?_eq_getElem hk]
  · intro h k hk
    rw [List.getElem?_drop, h k hk, List.getElem?_eq_getElem hk]

theorem OccursAt.le {pat data : Bytes} {i : Nat} (h : OccursAt pat data i) (hp : pat ≠ []) :
    i + pat.length ≤ data.length := by
  have h1 := List.IsPrefix.length_le h
  have h2 : 0 < pat.length := List.length_pos_iff.mpr hp
  rw [List.length_drop] at h1
  omega

theorem infix_iff_occursAt {pat data : Bytes} : pat <:+: data ↔ ∃ i, OccursAt pat data i := by
  constructor
  · rintro ⟨s, t, rfl⟩
    refine ⟨s.length, ?_⟩
    simp [OccursAt, List.append_assoc]
  · rintro ⟨i, t, h⟩
    exact ⟨data.take i, t, by rw [List.append_assoc, h, List.take_append_drop]⟩

theorem index_ok {bs : Bytes} {i : Nat} (h : i < bs.length) : index bs i = .ok bs[i] := by
  simp [index, h]

theorem shiftFold_succ (pat : Bytes) (n : Nat) (hn : n < pat.length) (f : UInt8 → Nat) :
    (pat.zipIdx.take (n + 1)).foldl
      (fun t (x : UInt8 × Nat) => setShift t x.1 (pat.length - 1 - x.2)) f =
    setShift ((pat.zipIdx.take n).foldl
      (fun t (x : UInt8 × Nat) => setShift t x.1 (pat.length - 1 - x.2)) f)
      pat[n] (pat.length - 1 - n) := by
  rw [List.take_add_one, List.foldl_append]
  have : pat.zipIdx[n]? = some (pat[n], n) := by simp [hn]
  rw [this]
  simp

theorem shiftFold_spec (pat : Bytes) (n : Nat) (hn : n < pat.length) (b : UInt8) :
    let t := (pat.zipIdx.take n).foldl
      (fun t (x : UInt8 × Nat) => setShift t x.1 (pat.length - 1 - x.2)) (fun _ => pat.length)
    1 ≤ t b ∧ t b ≤ pat.length ∧ ∀ i, i < n → pat[i]? = some b → t b ≤ pat.length - 1 - i := by
  induction n with
  | zero => simp; omega
  | succ n ih =>
    have ih := ih (by omega)
    have hn' : n < pat.length := by omega
    simp only [shiftFold_succ pat n hn'] at *
    obtain ⟨h1, h2, h3⟩ := ih
    unfold setShift
    split
    · rename_i hb
      refine ⟨by omega, by omega, ?_⟩
      intro i hi _
      omega
    · rename_i hb
      refine ⟨h1, h2, ?_⟩
      intro i hi hib
      rcases Nat.lt_or_ge i n with h | h
      · exact h3 i h hib
      · have : i = n := by omega
        subst this
        rw [List.getElem?_eq_getElem hn'] at hib
        simp at hib
        exact absurd hib.symm hb

theorem shiftTable_spec (pat : Bytes) (hp : pat ≠ []) (b : UInt8) :
    1 ≤ shiftTable pat b ∧ shiftTable pat b ≤ pat.length ∧
    ∀ i, i < pat.length - 1 → pat[i]? = some b → shiftTable pat b ≤ pat.length - 1 - i := by
  have h2 : 0 < pat.length := List.length_pos_iff.mpr hp
  exact shiftFold_spec pat (pat.length - 1) (by omega) b

theorem rshiftTable_eq (pat : Bytes) : rshiftTable pat = shiftTable pat.reverse := by
  simp [rshiftTable, shiftTable]

/-- The inner loop of `find` compares `pat[0 ..= patIndex]` with the data. -/
theorem matchBack_spec (data pat : Bytes) (e : Nat) (hp : pat ≠ []) (he : e < data.length)
    (hm : pat.length - 1 ≤ e) (j : Nat) (hj : j < pat.length) :
    ∃ r, matchBack data pat e j = .ok r ∧
      (r = true ↔ ∀ k, k ≤ j → data[e - (pat.length - 1) + k]? = pat[k]?) := by
  induction j with
  | zero =>
    have h0 : 0 < pat.length := hj
    have hu : pat.length - 1 - 0 ≤ e := by omega
    have hx : e - (pat.length - 1 - 0) < data.length := by omega
    refine ⟨pat[0] == data[e - (pat.length - 1 - 0)], by
      simp only [matchBack, index_ok h0, usizeSub, if_pos hu, bind, Except.bind,
        index_ok hx, pure, Except.pure], ?_⟩
    constructor
    · intro h k hk
      have : k = 0 := by omega
      subst this
      rw [List.getElem?_eq_getElem (by omega), List.getElem?_eq_getElem h0]
      simp at h ⊢
      exact h.symm
    · intro h
      have := h 0 (Nat.le_refl _)
      rw [List.getElem?_eq_getElem (by omega), List.getElem?_eq_getElem h0] at this
      simp at this ⊢
      exact this.symm
  | succ j ih =>
    obtain ⟨r, hr, hs⟩ := ih (by omega)
    have hu : pat.length - 1 - (j + 1) ≤ e := by omega
    have hx : e - (pat.length - 1 - (j + 1)) < data.length := by omega
    have heq : e - (pat.length - 1 - (j + 1)) = e - (pat.length - 1) + (j + 1) := by omega
    by_cases hc : pat[j + 1] = data[e - (pat.length - 1 - (j + 1))]
    · refine ⟨r, ?_, ?_⟩
      · simp only [matchBack, index_ok hj, usizeSub, if_pos hu, bind, Except.bind,
          index_ok hx, hc, beq_self_eq_true, if_true, hr]
      · rw [hs]
        constructor
        · intro h k hk
          rcases Nat.lt_or_ge k (j + 1) with h' | h'
          · exact h k (by omega)
          · have : k = j + 1 := by omega
            subst this
            rw [List.getElem?_eq_getElem (by omega), List.getElem?_eq_getElem hj, hc]
            congr 1
            simp only [heq]
        · intro h k hk
          exact h k (by omega)
    · refine ⟨false, ?_, ?_⟩
      · simp only [matchBack, index_ok hj, usizeSub, if_pos hu, bind, Except.bind,
          index_ok hx, pure, Except.pure]
        rw [if_neg (by simpa using hc)]
      · constructor
        · intro h; cases h
        · intro h
          have := h (j + 1) (Nat.le_refl _)
          rw [List.getElem?_eq_getElem (by omega), List.getElem?_eq_getElem hj] at this
          simp only [Option.some.injEq] at this
          exfalso
          apply hc
          rw [← this]
          simp only [heq]

theorem matchBack_occurs (data pat : Bytes) (e : Nat) (hp : pat ≠ []) (he : e < data.length)
    (hm : pat.length - 1 ≤ e) :
    ∃ r, matchBack data pat e (pat.length - 1) = .ok r ∧
      (r = true ↔ OccursAt pat data (e - (pat.length - 1))) := by
  have h2 : 0 < pat.length := List.length_pos_iff.mpr hp
  obtain ⟨r, h, hs⟩ := matchBack_spec data pat e hp he hm (pat.length - 1) (by omega)
  refine ⟨r, h, hs.trans ?_⟩
  rw [occursAt_iff]
  constructor
  · intro h k hk; exact h k (by omega)
  · intro h k hk; exact h k (by omega)

/-- What a forward search must return. -/
def IsFirst (pat data : Bytes) (r : Option Nat) : Prop :=
  match r with
  | some i => OccursAt pat data i ∧ ∀ j, j < i → ¬ OccursAt pat data j
  | none => ∀ j, ¬ OccursAt pat data j

/-- What a backward search must return. -/
def IsLast (pat data : Bytes) (r : Option Nat) : Prop :=
  match r with
  | some i => OccursAt pat data i ∧ ∀ j, i < j → j ≤ data.length → ¬ OccursAt pat data j
  | none => ∀ j, ¬ OccursAt pat data j

theorem findLoop_spec (data pat : Bytes) (hp : pat ≠ []) (fuel e : Nat)
    (hm : pat.length - 1 ≤ e) (hf : data.length < fuel + e ∧ 0 < fuel)
    (hno : ∀ j, j + (pat.length - 1) < e → ¬ OccursAt pat data j) :
    ∃ r, findLoop data pat fuel e = .ok r ∧ IsFirst pat data r := by
  have h2 : 0 < pat.length := List.length_pos_iff.mpr hp
  induction fuel generalizing e with
  | zero => omega
  | succ fuel ih =>
    unfold findLoop
    split
    · rename_i he
      obtain ⟨r, hr, hs⟩ := matchBack_occurs data pat e hp he hm
      simp only [hr, bind, Except.bind]
      cases r with
      | true =>
        refine ⟨some (e - (pat.length - 1)), ?_, ?_⟩
        · simp [usizeSub, hm, pure, Except.pure]
        · refine ⟨hs.mp rfl, ?_⟩
          intro j hj
          exact hno j (by omega)
      | false =>
        simp only [Bool.false_eq_true, if_false, index_ok he]
        obtain ⟨s1, s2, s3⟩ := shiftTable_spec pat hp data[e]
        apply ih
        · omega
        · omega
        · intro j hj hoc
          rcases Nat.lt_trichotomy (j + (pat.length - 1)) e with h | h | h
          · exact hno j h hoc
          · have : j = e - (pat.length - 1) := by omega
            rw [this] at hoc
            have := hs.mpr hoc
            cases this
          · have h4 := occursAt_iff.mp hoc (e - j) (by omega)
            have h5 : j + (e - j) = e := by omega
            rw [h5, List.getElem?_eq_getElem he] at h4
            have := s3 (e - j) (by omega) h4.symm
            omega
    · rename_i he
      refine ⟨none, rfl, ?_⟩
      intro j hoc
      have := hoc.le hp
      exact hno j (by omega) hoc

/-- `find` never panics, always ends, and returns the first occurrence. -/
theorem findBytes_spec (data pat : Bytes) :
    ∃ r, findBytes data pat = .ok r ∧ IsFirst pat data r := by
  unfold findBytes
  split
  · rename_i h
    have : pat = [] := by simpa using h
    subst this
    exact ⟨some 0, rfl, by simp [OccursAt], by intro j hj; omega⟩
  · rename_i h
    have hp : pat ≠ [] := by simpa using h
    split
    · rename_i hl
      refine ⟨none, rfl, ?_⟩
      intro j hoc
      have := hoc.le hp
      omega
    · apply findLoop_spec data pat hp
      · omega
      · omega
      · intro j hj; omega

theorem holdsBytes_spec (data pat : Bytes) :
    ∃ r, holdsBytes data pat = .ok r ∧ (r = true ↔ pat <:+: data) := by
  obtain ⟨r, h, hs⟩ := findBytes_spec data pat
  refine ⟨r.isSome, by simp [holdsBytes, h, bind, Except.bind, pure, Except.pure], ?_⟩
  rw [infix_iff_occursAt]
  cases r with
  | none => simpa [IsFirst] using hs
  | some i =>
    simp
    exact ⟨i, hs.1⟩

theorem holdsBytes_eq (data pat : Bytes) [Decidable (pat <:+: data)] :
    holdsBytes data pat = .ok (decide (pat <:+: data)) := by
  obtain ⟨r, h, hs⟩ := holdsBytes_spec data pat
  rw [h]
  congr 1
  by_cases hi : pat <:+: data
  · rw [hs.mpr hi]; simp [hi]
  · cases r
    · simp [hi]
    · exact absurd (hs.mp rfl) hi

/-! ## Backward search -/

theorem matchFwd_spec (data pat : Bytes) (s : Nat) (hs : s + pat.length ≤ data.length)
    (left j : Nat) (hj : j + left + 1 = pat.length) :
    ∃ r, matchFwd data pat s j left = .ok r ∧
      (r = true ↔ ∀ k, j ≤ k → k < pat.length → data[s + k]? = pat[k]?) := by
  induction left generalizing j with
  | zero =>
    have h0 : j < pat.length := by omega
    have hx : s + j < data.length := by omega
    unfold matchFwd
    simp only [index_ok h0, bind, Except.bind, index_ok hx]
    by_cases hc : pat[j] = data[s + j]
    · refine ⟨true, by simp [hc, pure, Except.pure], ?_⟩
      simp only [true_iff]
      intro k hk hk2
      have : k = j := by omega
      subst this
      rw [List.getElem?_eq_getElem hx, List.getElem?_eq_getElem h0, hc]
    · refine ⟨false, by simp [hc, pure, Except.pure], ?_⟩
      simp only [Bool.false_eq_true, false_iff]
      intro h
      have := h j (Nat.le_refl _) h0
      rw [List.getElem?_eq_getElem hx, List.getElem?_eq_getElem h0] at this
      simp at this
      exact hc this.symm
  | succ left ih =>
    have h0 : j < pat.length := by omega
    have hx : s + j < data.length := by omega
    obtain ⟨r, hr, hrs⟩ := ih (j + 1) (by omega)
    unfold matchFwd
    simp only [index_ok h0, bind, Except.bind, index_ok hx]
    by_cases hc : pat[j] = data[s + j]
    · refine ⟨r, by simp [hc, hr], ?_⟩
      rw [hrs]
      constructor
      · intro h k hk hk2
        rcases Nat.lt_or_ge j k with h' | h'
        · exact h k (by omega) hk2
        · have : k = j := by omega
          subst this
          rw [List.getElem?_eq_getElem hx, List.getElem?_eq_getElem h0, hc]
      · intro h k hk hk2
        exact h k (by omega) hk2
    · refine ⟨false, by simp [hc, pure, Except.pure], ?_⟩
      simp only [Bool.false_eq_true, false_iff]
      intro h
      have := h j (Nat.le_refl _) h0
      rw [List.getElem?_eq_getElem hx, List.getElem?_eq_getElem h0] at this
      simp at this
      exact hc this.symm

theorem matchFwd_occurs (data pat : Bytes) (s : Nat) (hp : pat ≠ [])
    (hs : s + pat.length ≤ data.length) :
    ∃ r, matchFwd data pat s 0 (pat.length - 1) = .ok r ∧ (r = true ↔ OccursAt pat data s) := by
  have h2 : 0 < pat.length := List.length_pos_iff.mpr hp
  obtain ⟨r, h, hr⟩ := matchFwd_spec data pat s hs (pat.length - 1) 0 (by omega)
  refine ⟨r, h, hr.trans ?_⟩
  rw [occursAt_iff]
  constructor
  · intro h k hk; exact h k (by omega) hk
  · intro h k _ hk; exact h k hk

theorem rshiftTable_spec (pat : Bytes) (hp : pat ≠ []) (b : UInt8) :
    1 ≤ rshiftTable pat b ∧
    ∀ k, 1 ≤ k → k < pat.length → pat[k]? = some b → rshiftTable pat b ≤ k := by
  rw [rshiftTable_eq]
  have h2 : 0 < pat.length := List.length_pos_iff.mpr hp
  obtain ⟨s1, s2, s3⟩ := shiftTable_spec pat.reverse (by simpa using hp) b
  refine ⟨s1, ?_⟩
  intro k hk1 hk2 hkb
  have := s3 (pat.length - 1 - k) (by simp; omega) (by
    rw [List.getElem?_reverse (by omega)]
    have : pat.length - 1 - (pat.length - 1 - k) = k := by omega
    rw [this, hkb])
  simp at this
  omega

theorem rfindLoop_spec (data pat : Bytes) (hp : pat ≠ []) (fuel s : Nat)
    (hs : s + pat.length ≤ data.length) (hf : s < fuel)
    (hno : ∀ j, s < j → ¬ OccursAt pat data j) :
    ∃ r, rfindLoop data pat fuel s = .ok r ∧ IsLast pat data r := by
  have h2 : 0 < pat.length := List.length_pos_iff.mpr hp
  induction fuel generalizing s with
  | zero => omega
  | succ fuel ih =>
    unfold rfindLoop
    obtain ⟨r, hr, hrs⟩ := matchFwd_occurs data pat s hp hs
    simp only [hr, bind, Except.bind]
    cases r with
    | true =>
      refine ⟨some s, by simp [pure, Except.pure], hrs.mp rfl, ?_⟩
      intro j hj _
      exact hno j hj
    | false =>
      have hsl : s < data.length := by omega
      simp only [Bool.false_eq_true, if_false, index_ok hsl]
      obtain ⟨s1, s3⟩ := rshiftTable_spec pat hp data[s]
      have key : ∀ j, s - rshiftTable pat data[s] < j → (s < rshiftTable pat data[s] → True) →
          (s < rshiftTable pat data[s] ∨ s - rshiftTable pat data[s] < j) →
          ¬ OccursAt pat data j := by
        intro j hj _ _ hoc
        rcases Nat.lt_trichotomy j s with h | h | h
        · by_cases hlt : s - j < pat.length
          · have h4 := occursAt_iff.mp hoc (s - j) hlt
            have h5 : j + (s - j) = s := by omega
            rw [h5, List.getElem?_eq_getElem hsl] at h4
            have := s3 (s - j) (by omega) hlt h4.symm
            omega
          · have h6 := (shiftTable_spec pat.reverse (by simpa using hp) data[s]).2.1
            rw [← rshiftTable_eq] at h6
            simp at h6
            omega
        · subst h
          have := hrs.mpr hoc
          cases this
        · exact hno j h hoc
      split
      · rename_i hle
        apply ih
        · omega
        · omega
        · intro j hj
          exact key j hj (fun _ => trivial) (Or.inr hj)
      · rename_i hgt
        refine ⟨none, rfl, ?_⟩
        intro j hoc
        rcases Nat.eq_zero_or_pos j with h0 | h0
        · subst h0
          rcases Nat.eq_zero_or_pos s with h | h
          · subst h
            have := hrs.mpr hoc
            cases this
          · by_cases hlt : s < pat.length
            · have h4 := occursAt_iff.mp hoc s hlt
              rw [Nat.zero_add, List.getElem?_eq_getElem hsl] at h4
              have := s3 s h hlt h4.symm
              omega
            · have h6 := (shiftTable_spec pat.reverse (by simpa using hp) data[s]).2.1
              rw [← rshiftTable_eq] at h6
              simp at h6
              omega
        · exact key j (by omega) (fun _ => trivial) (by omega) hoc

/-- `rfind` never panics, always ends, and returns the last occurrence. -/
theorem rfindBytes_spec (data pat : Bytes) :
    ∃ r, rfindBytes data pat = .ok r ∧ IsLast pat data r := by
  unfold rfindBytes
  split
  · rename_i h
    have : pat = [] := by simpa using h
    subst this
    exact ⟨some data.length, rfl, by simp [OccursAt], by intro j hj hj2; omega⟩
  · rename_i h
    have hp : pat ≠ [] := by simpa using h
    split
    · rename_i hl
      refine ⟨none, rfl, ?_⟩
      intro j hoc
      have := hoc.le hp
      omega
    · apply rfindLoop_spec data pat hp
      · omega
      · omega
      · intro j hj hoc
        have := hoc.le hp
        omega

end FF
