import Verif.Proofs.Cases
/-!
# Streams that support fewer offsets
-/

namespace FF
open FileFormat Spec

variable {α : Type}

/-- A smaller seek range can only turn the result into a seek error. -/
theorem run_range (p : Prog α) (d : Bytes) (m m' q : Nat) (h : m ≤ m') :
    run d m p q = run d m' p q ∨ run d m p q = .error (.err .invalidInput) := by
  induction p generalizing q with
  | pure a => exact Or.inl rfl
  | fail f => exact Or.inl rfl
  | readExact n k ih => simp only [run]; split; exact ih _ _; exact Or.inl rfl
  | read n k ih => simp only [run]; exact ih _ _
  | seek s k ih =>
    simp only [run]
    cases hs : seekTarget d.length m q s with
    | none => exact Or.inr rfl
    | some t =>
      have : seekTarget d.length m' q s = some t := by
        cases s with
        | start n =>
          simp only [seekTarget] at hs ⊢
          split at hs
          · rw [if_pos (by omega)]; exact hs
          · cases hs
        | fromEnd i =>
          simp only [seekTarget] at hs ⊢
          split at hs
          · rw [if_pos (by omega)]; exact hs
          · cases hs
        | current i =>
          simp only [seekTarget] at hs ⊢
          split at hs
          · rw [if_pos (by omega)]; exact hs
          · cases hs
      rw [this]
      exact ih _ _
  | tell k ih => simp only [run]; exact ih _ _
  | readUntil n k ih => simp only [run]; exact ih _ _

/-- The text reader's only seek is to 0. -/
theorem txt_range (d : Bytes) (m m' : Nat) : run d m txtReader 0 = run d m' txtReader 0 := by
  have h : ∀ n l q, run d m (txtLines n l) q = run d m' (txtLines n l) q := by
    intro n
    induction n with
    | zero => intro l q; rfl
    | succ n ih =>
      intro l q
      simp only [txtLines, run_bind, run_rdUntil, andThen_ok]
      split
      · rfl
      · split
        · rfl
        · split
          · rfl
          · exact ih _ _
  simp only [txtReader, run_bind]
  rw [run_sk_start _ _ (by omega), run_sk_start _ _ (by omega)]
  exact h _ _ _

theorem idealGeneric_range (ft : Features) (d : Bytes) (m m' : Nat) :
    idealGeneric ft d m = idealGeneric ft d m' := by
  unfold idealGeneric
  rw [txt_range d m m']

theorem ideal_range (cfg : Cfg) (ft : Features) (d : Bytes) (m m' : Nat) (h : m ≤ m') :
    ideal cfg ft d m = ideal cfg ft d m' ∨ ideal cfg ft d m = idealGeneric ft d m := by
  unfold ideal
  split
  · exact Or.inl rfl
  · split
    · exact Or.inl (idealGeneric_range _ _ _ _)
    · split
      · exact Or.inl rfl
      · rename_i prog _
        rcases run_range prog d m m' 0 h with hr | hr
        · rw [hr, idealGeneric_range ft d m m']; exact Or.inl rfl
        · rw [hr]; exact Or.inr rfl

end FF
