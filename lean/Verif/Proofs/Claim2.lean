import Verif.Proofs.Claim
/-!
# What the device sees of a run that ends in a claim
-/

namespace FF
open FileFormat

variable {σ α : Type} {D : Device σ} {Good Bad : σ → Prop}

/-- Calls that keep the contract keep `Good`, the call that does not leads to `Bad`. -/
structure Device.Steps (D : Device σ) (Good Bad : σ → Prop) : Prop where
  read_ok : ∀ s n bs s', Good s → D.read s n = (.ok bs, s') → bs.length ≤ n → Good s'
  read_over : ∀ s n bs s', Good s → D.read s n = (.ok bs, s') → n < bs.length → Bad s'
  read_error : ∀ s n e s', Good s → D.read s n = (.error e, s') → Good s'
  seek : ∀ s p r s', Good s → D.seek s p = (r, s') → Good s'
  tell : ∀ s r s', Good s → D.tell s = (r, s') → Good s'

/-- How a run ends. -/
def EndsC (Good Bad : σ → Prop) (x : Except Fail α × σ) : Prop :=
  Good x.2 ∨ (Bad x.2 ∧ x.1 = .error .panic)

/-- The same with the reader object. -/
def EndsR (Good Bad : σ → Prop) (x : Except Fail α × DRd σ) : Prop :=
  Good x.2.st ∨ (Bad x.2.st ∧ x.1 = .error .panic)

variable (hS : D.Steps Good Bad)
include hS

theorem ends_claimRead (st : σ) (n : Nat) (hg : Good st) : EndsC Good Bad (claimRead D st n) := by
  unfold claimRead
  cases hx : D.read st n with
  | mk r s =>
    cases r with
    | error e => exact .inl (hS.read_error _ _ _ _ hg hx)
    | ok bs =>
      simp only
      split
      · rename_i h; exact .inl (hS.read_ok _ _ _ _ hg hx h)
      · rename_i h; exact .inr ⟨hS.read_over _ _ _ _ hg hx (by omega), rfl⟩

theorem ends_fillBuf (s : DRd σ) (hg : Good s.st) : EndsR Good Bad (s.claimFillBuf D) := by
  unfold DRd.claimFillBuf
  split
  · have := ends_claimRead hS s.st bufCapacity hg
    generalize claimRead D s.st bufCapacity = x at this
    rcases x with ⟨r, t⟩
    rcases this with h | ⟨h, h'⟩
    · cases r <;> exact .inl h
    · simp only at h'; subst h'; exact .inr ⟨h, rfl⟩
  · exact .inl hg

theorem ends_read (s : DRd σ) (n : Nat) (hg : Good s.st) : EndsR Good Bad (s.claimRead D n) := by
  unfold DRd.claimRead
  split
  · exact ends_claimRead hS s.st n hg
  split
  · exact ends_claimRead hS s.st n hg
  have := ends_fillBuf hS s hg
  generalize s.claimFillBuf D = x at this
  rcases x with ⟨r, t⟩
  rcases this with h | ⟨h, h'⟩
  · cases r <;> exact .inl h
  · simp only at h'; subst h'; exact .inr ⟨h, rfl⟩

theorem ends_exactLoop (fuel : Nat) (s : DRd σ) (n : Nat) (acc : Bytes) (hg : Good s.st) :
    EndsR Good Bad (DRd.claimExactLoop D fuel s n acc) := by
  induction fuel generalizing s n acc with
  | zero => cases n <;> exact .inl hg
  | succ fuel ih =>
    cases n with
    | zero => exact .inl hg
    | succ n =>
      unfold DRd.claimExactLoop
      have := ends_read hS s (n + 1) hg
      generalize s.claimRead D (n + 1) = x at this
      rcases x with ⟨r, t⟩
      rcases this with h | ⟨h, h'⟩
      · cases r with
        | ok bs =>
          simp only
          split
          · exact .inl h
          · exact ih _ _ _ h
        | error e =>
          simp only
          split
          · exact ih _ _ _ h
          · exact .inl h
      · simp only at h'; subst h'
        exact .inr ⟨h, rfl⟩

theorem ends_exact (s : DRd σ) (n : Nat) (hg : Good s.st) : EndsR Good Bad (s.claimExact D n) := by
  unfold DRd.claimExact
  split
  · exact .inl hg
  · exact ends_exactLoop hS _ _ _ _ hg

theorem ends_untilLoop (fuel : Nat) (s : DRd σ) (n : Nat) (acc : Bytes) (hg : Good s.st) :
    EndsR Good Bad (DRd.claimUntilLoop D fuel s n acc) := by
  induction fuel generalizing s n acc with
  | zero => cases n <;> exact .inl hg
  | succ fuel ih =>
    cases n with
    | zero => exact .inl hg
    | succ n =>
      unfold DRd.claimUntilLoop
      have := ends_fillBuf hS s hg
      generalize s.claimFillBuf D = x at this
      rcases x with ⟨r, t⟩
      rcases this with h | ⟨h, h'⟩
      · cases r with
        | ok bs =>
          simp only
          split
          · exact .inl h
          split
          · exact .inl h
          · exact ih _ _ _ h
        | error e =>
          simp only
          split
          · exact ih _ _ _ h
          · exact .inl h
      · simp only at h'; subst h'
        exact .inr ⟨h, rfl⟩

theorem ends_seek (s : DRd σ) (p : SeekFrom) (hg : Good s.st) : Good (s.seek D p).2.st := by
  unfold DRd.seek
  split
  · exact hS.seek _ _ _ _ hg rfl
  split
  · split
    · split <;> (rename_i h; exact hS.seek _ _ _ _ hg h)
    · split
      · rename_i h; exact hS.seek _ _ _ _ hg h
      · rename_i h
        have h1 := hS.seek _ _ _ _ hg h
        split <;> (rename_i h'; exact hS.seek _ _ _ _ h1 h')
  · split <;> (rename_i h; exact hS.seek _ _ _ _ hg h)

theorem ends_tell (s : DRd σ) (hg : Good s.st) : Good (s.tell D).2.st := by
  unfold DRd.tell
  split
  · rename_i h; exact hS.tell _ _ _ hg h
  · rename_i h
    have h1 := hS.tell _ _ _ hg h
    split
    · exact h1
    split <;> exact h1

theorem ends_exec (p : Prog α) (s : DRd σ) (hg : Good s.st) : EndsR Good Bad (execC D p s) := by
  induction p generalizing s with
  | pure a => exact .inl hg
  | fail f => exact .inl hg
  | readExact n k ih =>
    unfold execC
    have := ends_exact hS s n hg
    generalize s.claimExact D n = x at this
    rcases x with ⟨r, t⟩
    rcases this with h | ⟨h, h'⟩
    · cases r with
      | ok bs => exact ih bs t h
      | error f => exact .inl h
    · simp only at h'; subst h'; exact .inr ⟨h, rfl⟩
  | read n k ih =>
    unfold execC
    have := ends_read hS s n hg
    generalize s.claimRead D n = x at this
    rcases x with ⟨r, t⟩
    rcases this with h | ⟨h, h'⟩
    · cases r with
      | ok bs => exact ih bs t h
      | error f => exact .inl h
    · simp only at h'; subst h'; exact .inr ⟨h, rfl⟩
  | seek q k ih =>
    unfold execC
    have := ends_seek hS s q hg
    generalize s.seek D q = x at this
    rcases x with ⟨r, t⟩
    cases r with
    | ok bs => exact ih bs t this
    | error f => exact .inl this
  | tell k ih =>
    unfold execC
    have := ends_tell hS s hg
    generalize s.tell D = x at this
    rcases x with ⟨r, t⟩
    cases r with
    | ok bs => exact ih bs t this
    | error f => exact .inl this
  | readUntil n k ih =>
    unfold execC DRd.claimUntil
    have := ends_untilLoop hS (n + D.patience s.st + 1) s n [] hg
    generalize DRd.claimUntilLoop D (n + D.patience s.st + 1) s n [] = x at this
    rcases x with ⟨r, t⟩
    rcases this with h | ⟨h, h'⟩
    · cases r with
      | ok bs => exact ih bs t h
      | error f => exact .inl h
    · simp only at h'; subst h'; exact .inr ⟨h, rfl⟩

theorem ends_execOn (b : Bool) (p : Prog α) (st : σ) (hg : Good st) : EndsC Good Bad (execOnC D b p st) :=
  ends_exec hS p ⟨st, b, []⟩ hg

theorem ends_fmt (cfg : Cfg) (ft : Features) (fmt : FileFormat) (st : σ) (hg : Good st) :
    EndsC Good Bad (fromFmtReaderC D cfg ft fmt st) := by
  unfold fromFmtReaderC
  cases fmtReader cfg ft fmt with
  | none => exact .inl hg
  | some x => exact ends_execOn hS _ _ _ hg

theorem ends_generic (ft : Features) (st : σ) (hg : Good st) : EndsC Good Bad (fromGenericReaderC D ft st) := by
  unfold fromGenericReaderC
  split
  · have := ends_execOn hS true txtReader st hg
    generalize execOnC D true txtReader st = x at this
    rcases x with ⟨r, u⟩
    rcases this with h | ⟨h, h'⟩
    · rcases r with (e | _ | _) | f <;> exact .inl h
    · simp only at h'; subst h'; exact .inr ⟨h, rfl⟩
  · exact .inl hg

theorem ends_fromClaims (cfg : Cfg) (ft : Features) (st : σ) (hg : Good st) :
    EndsC Good Bad (fromClaims D cfg ft st) := by
  unfold fromClaims
  have := ends_claimRead hS st bufferSize hg
  generalize claimRead D st bufferSize = x at this
  rcases x with ⟨r, t⟩
  rcases this with h | ⟨h, h'⟩
  · cases r with
    | error f => exact .inl h
    | ok buf =>
      simp only
      split
      · exact .inl h
      cases fromSignature buf with
      | none => exact ends_generic hS ft t h
      | some fmt =>
        simp only
        have := ends_fmt hS cfg ft fmt t h
        generalize fromFmtReaderC D cfg ft fmt t = x at this
        rcases x with ⟨r, u⟩
        rcases this with h | ⟨h, h'⟩
        · rcases r with (e | _ | _) | f
          · exact ends_generic hS ft u h
          · exact .inl h
          · exact .inl h
          · exact .inl h
        · simp only at h'; subst h'; exact .inr ⟨h, rfl⟩
  · simp only at h'; subst h'; exact .inr ⟨h, rfl⟩

end FF
