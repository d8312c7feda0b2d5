import Verif.Model.Claim
import Verif.Spec.Claim
/-!
# The run on the device and the run on the watched device
-/

namespace FF
open FileFormat

variable {σ α : Type} (D : Device σ)

/-- The object on the watched device, nothing having happened. -/
def DRd.up (s : DRd σ) : DRd (σ × Bool) := ⟨(s.st, false), s.buffered, s.buf⟩

/-- `x` is what the checked run does if the run on the watched device does `y`. -/
def Follows (x : Except Fail α × DRd σ) (y : Except Fail α × DRd (σ × Bool)) : Prop :=
  (y.2.st.2 = true ∧ x.1 = .error .panic) ∨ (x.1 = y.1 ∧ y.2 = x.2.up)

/-- Errors of the device as failures. -/
def failed (r : Except ErrKind α) : Except Fail α :=
  match r with
  | .ok a => .ok a
  | .error e => .error (.err e)

theorem watched_read (st : σ) (n : Nat) :
    (((watched D).read (st, false) n).2.2 = true ∧ (claimRead D st n).1 = .error .panic) ∨
    ((claimRead D st n).1 = failed ((watched D).read (st, false) n).1 ∧
      ((watched D).read (st, false) n).2 = ((claimRead D st n).2, false)) := by
  simp only [watched, claimRead]
  rcases D.read st n with ⟨r, st'⟩
  cases r with
  | error e => right; exact ⟨rfl, rfl⟩
  | ok bs =>
    simp only
    by_cases h : bs.length ≤ n
    · right
      rw [if_pos h, List.take_of_length_le h]
      refine ⟨rfl, ?_⟩
      have : decide (n < bs.length) = false := decide_eq_false (by omega)
      simp only [this, Bool.or_false]
    · left
      rw [if_neg h]
      exact ⟨by simp; omega, rfl⟩

theorem sticky_read (st : σ) (n : Nat) : ((watched D).read (st, true) n).2.2 = true := by
  simp only [watched]
  rcases D.read st n with ⟨r, st'⟩
  cases r <;> rfl

/-! ## The memory of the watched device -/

theorem sticky_fillBuf (t : DRd (σ × Bool)) (h : t.st.2 = true) : (t.fillBuf (watched D)).2.st.2 = true := by
  obtain ⟨⟨st, b⟩, bu, buf⟩ := t
  simp only at h; subst h
  unfold DRd.fillBuf
  split
  · have := sticky_read D st bufCapacity
    simp only
    generalize (watched D).read (st, true) bufCapacity = x at this
    rcases x with ⟨r, s⟩
    cases r <;> exact this
  · rfl

theorem sticky_rd (t : DRd (σ × Bool)) (h : t.st.2 = true) (n : Nat) : (t.read (watched D) n).2.st.2 = true := by
  have hf := sticky_fillBuf D t h
  obtain ⟨⟨st, b⟩, bu, buf⟩ := t
  simp only at h; subst h
  have := sticky_read D st n
  unfold DRd.read
  split
  · exact this
  split
  · exact this
  · generalize DRd.fillBuf (watched D) _ = x at hf
    rcases x with ⟨r, s⟩
    cases r <;> exact hf

theorem sticky_exactLoop (fuel : Nat) (t : DRd (σ × Bool)) (h : t.st.2 = true) (n : Nat) (acc : Bytes) :
    (DRd.readExactLoop (watched D) fuel t n acc).2.st.2 = true := by
  induction fuel generalizing t n acc with
  | zero => cases n <;> exact h
  | succ fuel ih =>
    cases n with
    | zero => exact h
    | succ n =>
      unfold DRd.readExactLoop
      have hr := sticky_rd D t h (n + 1)
      generalize t.read (watched D) (n + 1) = x at hr
      rcases x with ⟨r, s⟩
      cases r with
      | ok bs =>
        simp only
        split
        · exact hr
        · exact ih _ hr _ _
      | error e =>
        simp only
        split
        · exact ih _ hr _ _
        · exact hr

theorem sticky_exact (t : DRd (σ × Bool)) (h : t.st.2 = true) (n : Nat) : (t.readExact (watched D) n).2.st.2 = true := by
  unfold DRd.readExact
  split
  · exact h
  · exact sticky_exactLoop D _ t h _ _

theorem sticky_untilLoop (fuel : Nat) (t : DRd (σ × Bool)) (h : t.st.2 = true) (n : Nat) (acc : Bytes) :
    (DRd.readUntilLoop (watched D) fuel t n acc).2.st.2 = true := by
  induction fuel generalizing t n acc with
  | zero => cases n <;> exact h
  | succ fuel ih =>
    cases n with
    | zero => exact h
    | succ n =>
      unfold DRd.readUntilLoop
      have hr := sticky_fillBuf D t h
      generalize t.fillBuf (watched D) = x at hr
      rcases x with ⟨r, s⟩
      cases r with
      | ok bs =>
        simp only
        split
        · exact hr
        split
        · exact hr
        · exact ih (DRd.consume s _) hr _ _
      | error e =>
        simp only
        split
        · exact ih _ hr _ _
        · exact hr

theorem sticky_seek (t : DRd (σ × Bool)) (p : SeekFrom) : (t.seek (watched D) p).2.st.2 = t.st.2 := by
  obtain ⟨⟨st, b⟩, bu, buf⟩ := t
  unfold DRd.seek
  simp only [watched]
  split
  · rfl
  split
  · split
    · rcases D.seek st _ with ⟨r, s⟩; cases r <;> rfl
    · rcases D.seek st _ with ⟨r, s⟩
      cases r with
      | error e => rfl
      | ok a =>
        simp only
        rcases D.seek s _ with ⟨r, s'⟩; cases r <;> rfl
  · rcases D.seek st _ with ⟨r, s⟩; cases r <;> rfl

theorem sticky_tell (t : DRd (σ × Bool)) : (t.tell (watched D)).2.st.2 = t.st.2 := by
  obtain ⟨⟨st, b⟩, bu, buf⟩ := t
  unfold DRd.tell
  simp only [watched]
  rcases D.tell st with ⟨r, s⟩
  cases r with
  | error e => rfl
  | ok a =>
    simp only
    split
    · rfl
    split <;> rfl

theorem sticky_exec (p : Prog α) (t : DRd (σ × Bool)) (h : t.st.2 = true) : (execD (watched D) p t).2.st.2 = true := by
  induction p generalizing t with
  | pure a => exact h
  | fail f => exact h
  | readExact n k ih =>
    unfold execD
    have hr := sticky_exact D t h n
    generalize t.readExact (watched D) n = x at hr
    rcases x with ⟨r, s⟩
    cases r with
    | ok bs => exact ih bs s hr
    | error f => exact hr
  | read n k ih =>
    unfold execD
    have hr := sticky_rd D t h n
    generalize t.read (watched D) n = x at hr
    rcases x with ⟨r, s⟩
    cases r with
    | ok bs => exact ih bs s hr
    | error f => exact hr
  | seek n k ih =>
    unfold execD
    have hr := (sticky_seek D t n).trans h
    generalize t.seek (watched D) n = x at hr
    rcases x with ⟨r, s⟩
    cases r with
    | ok bs => exact ih bs s hr
    | error f => exact hr
  | tell k ih =>
    unfold execD
    have hr := (sticky_tell D t).trans h
    generalize t.tell (watched D) = x at hr
    rcases x with ⟨r, s⟩
    cases r with
    | ok bs => exact ih bs s hr
    | error f => exact hr
  | readUntil n k ih =>
    unfold execD
    have hr : (t.readUntil (watched D) n).2.st.2 = true := sticky_untilLoop D _ t h n []
    generalize t.readUntil (watched D) n = x at hr
    rcases x with ⟨r, s⟩
    cases r with
    | ok bs => exact ih bs s hr
    | error f => exact hr

/-! ## The two runs -/

theorem follows_fillBuf (s : DRd σ) :
    ((s.up.fillBuf (watched D)).2.st.2 = true ∧ (s.claimFillBuf D).1 = .error .panic) ∨
    ((s.claimFillBuf D).1 = failed (s.up.fillBuf (watched D)).1 ∧ (s.up.fillBuf (watched D)).2 = (s.claimFillBuf D).2.up) := by
  unfold DRd.fillBuf DRd.claimFillBuf
  by_cases hb : s.buf.isEmpty
  · rw [if_pos (show s.up.buf.isEmpty = true from hb), if_pos hb]
    have h := watched_read D s.st bufCapacity
    simp only [DRd.up] at h ⊢
    generalize (watched D).read (s.st, false) bufCapacity = y at h
    generalize claimRead D s.st bufCapacity = x at h
    rcases x with ⟨r, st⟩
    rcases y with ⟨r', st', b⟩
    rcases h with ⟨h1, h2⟩ | ⟨h1, h2⟩
    · left
      simp only at h1 h2
      subst h1 h2
      cases r' <;> exact ⟨rfl, rfl⟩
    · right
      simp only at h1 h2
      injection h2 with h2 h3
      subst h1 h2 h3
      cases r' <;> exact ⟨rfl, rfl⟩
  · rw [if_neg (show ¬ s.up.buf.isEmpty = true from hb), if_neg hb]
    right; exact ⟨rfl, rfl⟩

theorem follows_read (s : DRd σ) (n : Nat) :
    ((s.up.read (watched D) n).2.st.2 = true ∧ (s.claimRead D n).1 = .error .panic) ∨
    ((s.claimRead D n).1 = failed (s.up.read (watched D) n).1 ∧ (s.up.read (watched D) n).2 = (s.claimRead D n).2.up) := by
  have direct := watched_read D s.st n
  unfold DRd.read DRd.claimRead
  have hbu : s.up.buffered = s.buffered := rfl
  have hbf : s.up.buf = s.buf := rfl
  rw [hbu, hbf]
  by_cases h1 : s.buffered = false
  · rw [if_pos h1, if_pos h1]
    rcases direct with ⟨h1, h2⟩ | ⟨h1, h2⟩
    · exact .inl ⟨h1, h2⟩
    · refine .inr ⟨h1, ?_⟩
      show (⟨((watched D).read (s.st, false) n).2, s.buffered, s.buf⟩ : DRd (σ × Bool)) = _
      rw [h2]
      rfl
  rw [if_neg h1, if_neg h1]
  by_cases h2 : s.buf.isEmpty = true ∧ bufCapacity ≤ n
  · rw [if_pos h2, if_pos h2]
    rcases direct with ⟨h1, h2⟩ | ⟨h1, h2⟩
    · exact .inl ⟨h1, h2⟩
    · refine .inr ⟨h1, ?_⟩
      show (⟨((watched D).read (s.st, false) n).2, s.buffered, s.buf⟩ : DRd (σ × Bool)) = _
      rw [h2]
      rfl
  · rw [if_neg h2, if_neg h2]
    have hf := follows_fillBuf D s
    generalize s.up.fillBuf (watched D) = y at hf
    generalize s.claimFillBuf D = x at hf
    rcases x with ⟨r, st⟩
    rcases y with ⟨r', t⟩
    rcases hf with ⟨h1, h2⟩ | ⟨h1, h2⟩
    · left
      simp only at h1 h2
      subst h2
      cases r' <;> exact ⟨h1, rfl⟩
    · right
      simp only at h1 h2
      subst h1 h2
      cases r' <;> exact ⟨rfl, rfl⟩

theorem follows_exactLoop (fuel : Nat) (s : DRd σ) (n : Nat) (acc : Bytes) :
    Follows (DRd.claimExactLoop D fuel s n acc) (DRd.readExactLoop (watched D) fuel s.up n acc) := by
  induction fuel generalizing s n acc with
  | zero => cases n <;> exact .inr ⟨rfl, rfl⟩
  | succ fuel ih =>
    cases n with
    | zero => exact .inr ⟨rfl, rfl⟩
    | succ n =>
      unfold DRd.readExactLoop DRd.claimExactLoop
      have hr := follows_read D s (n + 1)
      generalize s.up.read (watched D) (n + 1) = y at hr
      generalize s.claimRead D (n + 1) = x at hr
      rcases x with ⟨r, st⟩
      rcases y with ⟨r', t⟩
      rcases hr with ⟨h1, h2⟩ | ⟨h1, h2⟩
      · simp only at h1 h2
        subst h2
        left
        refine ⟨?_, rfl⟩
        cases r' with
        | ok bs =>
          simp only
          split
          · exact h1
          · exact sticky_exactLoop D _ _ h1 _ _
        | error e =>
          simp only
          split
          · exact sticky_exactLoop D _ _ h1 _ _
          · exact h1
      · simp only at h1 h2
        subst h1 h2
        cases r' with
        | ok bs =>
          simp only [failed]
          by_cases h0 : bs.length = 0
          · rw [if_pos h0, if_pos h0]; exact .inr ⟨rfl, rfl⟩
          · rw [if_neg h0, if_neg h0]; exact ih _ _ _
        | error e =>
          simp only [failed]
          by_cases h0 : e = .interrupted
          · rw [if_pos h0, if_pos (by rw [h0])]; exact ih _ _ _
          · rw [if_neg h0, if_neg (by intro h; injection h with h; exact h0 h)]; exact .inr ⟨rfl, rfl⟩

theorem follows_untilLoop (fuel : Nat) (s : DRd σ) (n : Nat) (acc : Bytes) :
    Follows (DRd.claimUntilLoop D fuel s n acc) (DRd.readUntilLoop (watched D) fuel s.up n acc) := by
  induction fuel generalizing s n acc with
  | zero => cases n <;> exact .inr ⟨rfl, rfl⟩
  | succ fuel ih =>
    cases n with
    | zero => exact .inr ⟨rfl, rfl⟩
    | succ n =>
      unfold DRd.readUntilLoop DRd.claimUntilLoop
      have hr := follows_fillBuf D s
      generalize s.up.fillBuf (watched D) = y at hr
      generalize s.claimFillBuf D = x at hr
      rcases x with ⟨r, st⟩
      rcases y with ⟨r', t⟩
      rcases hr with ⟨h1, h2⟩ | ⟨h1, h2⟩
      · simp only at h1 h2
        subst h2
        left
        refine ⟨?_, rfl⟩
        cases r' with
        | ok bs =>
          simp only
          split
          · exact h1
          split
          · exact h1
          · exact sticky_untilLoop D _ (DRd.consume t _) h1 _ _
        | error e =>
          simp only
          split
          · exact sticky_untilLoop D _ _ h1 _ _
          · exact h1
      · simp only at h1 h2
        subst h1 h2
        cases r' with
        | ok bs =>
          simp only [failed]
          by_cases h0 : (uptoNewline (bs.take (n + 1))).length = 0
          · rw [if_pos h0, if_pos h0]; exact .inr ⟨rfl, rfl⟩
          · rw [if_neg h0, if_neg h0]
            by_cases h3 : (uptoNewline (bs.take (n + 1))).getLast? = some 10
            · rw [if_pos h3, if_pos h3]; exact .inr ⟨rfl, rfl⟩
            · rw [if_neg h3, if_neg h3]; exact ih _ _ _
        | error e =>
          simp only [failed]
          by_cases h0 : e = .interrupted
          · rw [if_pos h0, if_pos (by rw [h0])]; exact ih _ _ _
          · rw [if_neg h0, if_neg (by intro h; injection h with h; exact h0 h)]; exact .inr ⟨rfl, rfl⟩

theorem follows_exact (s : DRd σ) (n : Nat) : Follows (s.claimExact D n) (s.up.readExact (watched D) n) := by
  unfold DRd.readExact DRd.claimExact
  have hbu : s.up.buffered = s.buffered := rfl
  have hbf : s.up.buf = s.buf := rfl
  rw [hbu, hbf]
  by_cases h : s.buffered = true ∧ n ≤ s.buf.length
  · rw [if_pos h, if_pos h]; exact .inr ⟨rfl, rfl⟩
  · rw [if_neg h, if_neg h]; exact follows_exactLoop D _ s n []

theorem follows_seek (s : DRd σ) (p : SeekFrom) :
    (s.up.seek (watched D) p).1 = (s.seek D p).1 ∧ (s.up.seek (watched D) p).2 = (s.seek D p).2.up := by
  obtain ⟨st, bu, buf⟩ := s
  cases bu with
  | false => exact ⟨rfl, rfl⟩
  | true =>
    unfold DRd.seek
    rw [if_neg (by simp [DRd.up]), if_neg (by simp)]
    simp only [watched, DRd.up]
    cases p with
    | current i =>
      simp only
      by_cases hi : -2 ^ 63 ≤ i - (buf.length : Int)
      · simp only [hi, ↓reduceIte]
        rcases D.seek st (.current (i - (buf.length : Int))) with ⟨r, s⟩; cases r <;> exact ⟨rfl, rfl⟩
      · simp only [hi, ↓reduceIte]
        rcases D.seek st (.current (-(buf.length : Int))) with ⟨r, s⟩
        cases r with
        | error e => exact ⟨rfl, rfl⟩
        | ok a =>
          simp only
          rcases D.seek s (.current i) with ⟨r, s'⟩; cases r <;> exact ⟨rfl, rfl⟩
    | start n => simp only; rcases D.seek st (.start n) with ⟨r, s⟩; cases r <;> exact ⟨rfl, rfl⟩
    | fromEnd i => simp only; rcases D.seek st (.fromEnd i) with ⟨r, s⟩; cases r <;> exact ⟨rfl, rfl⟩

theorem follows_tell (s : DRd σ) :
    (s.up.tell (watched D)).1 = (s.tell D).1 ∧ (s.up.tell (watched D)).2 = (s.tell D).2.up := by
  obtain ⟨st, bu, buf⟩ := s
  unfold DRd.tell
  simp only [watched, DRd.up]
  rcases D.tell st with ⟨r, s⟩
  cases r with
  | error e => exact ⟨rfl, rfl⟩
  | ok a =>
    cases bu with
    | false => exact ⟨rfl, rfl⟩
    | true =>
      simp only [Bool.true_eq_false, ↓reduceIte]
      by_cases hl : buf.length ≤ a
      · simp only [hl, ↓reduceIte, and_self]
      · simp only [hl, ↓reduceIte, and_self]

theorem follows_exec (p : Prog α) (s : DRd σ) : Follows (execC D p s) (execD (watched D) p s.up) := by
  induction p generalizing s with
  | pure a => exact .inr ⟨rfl, rfl⟩
  | fail f => exact .inr ⟨rfl, rfl⟩
  | readExact n k ih =>
    unfold execD execC
    have hr := follows_exact D s n
    generalize s.up.readExact (watched D) n = y at hr
    generalize s.claimExact D n = x at hr
    rcases x with ⟨r, st⟩
    rcases y with ⟨r', t⟩
    rcases hr with ⟨h1, h2⟩ | ⟨h1, h2⟩
    · simp only at h1 h2
      subst h2
      refine .inl ⟨?_, rfl⟩
      cases r' with
      | ok bs => exact sticky_exec D _ _ h1
      | error f => exact h1
    · simp only at h1 h2
      subst h1 h2
      cases r with
      | ok bs => exact ih bs st
      | error f => exact .inr ⟨rfl, rfl⟩
  | read n k ih =>
    unfold execD execC
    have hr := follows_read D s n
    generalize s.up.read (watched D) n = y at hr
    generalize s.claimRead D n = x at hr
    rcases x with ⟨r, st⟩
    rcases y with ⟨r', t⟩
    rcases hr with ⟨h1, h2⟩ | ⟨h1, h2⟩
    · simp only at h1 h2
      subst h2
      refine .inl ⟨?_, rfl⟩
      cases r' with
      | ok bs => exact sticky_exec D _ _ h1
      | error f => exact h1
    · simp only at h1 h2
      subst h1 h2
      cases r' with
      | ok bs => exact ih bs st
      | error f => exact .inr ⟨rfl, rfl⟩
  | seek q k ih =>
    unfold execD execC
    obtain ⟨h1, h2⟩ := follows_seek D s q
    generalize s.up.seek (watched D) q = y at h1 h2
    generalize s.seek D q = x at h1 h2
    rcases x with ⟨r, st⟩
    rcases y with ⟨r', t⟩
    simp only at h1 h2
    subst h1 h2
    cases r' with
    | ok bs => exact ih bs st
    | error f => exact .inr ⟨rfl, rfl⟩
  | tell k ih =>
    unfold execD execC
    obtain ⟨h1, h2⟩ := follows_tell D s
    generalize s.up.tell (watched D) = y at h1 h2
    generalize s.tell D = x at h1 h2
    rcases x with ⟨r, st⟩
    rcases y with ⟨r', t⟩
    simp only at h1 h2
    subst h1 h2
    cases r' with
    | ok bs => exact ih bs st
    | error f => exact .inr ⟨rfl, rfl⟩
  | readUntil n k ih =>
    unfold execD execC
    have hr : Follows (s.claimUntil D n) (s.up.readUntil (watched D) n) := follows_untilLoop D _ s n []
    generalize s.up.readUntil (watched D) n = y at hr
    generalize s.claimUntil D n = x at hr
    rcases x with ⟨r, st⟩
    rcases y with ⟨r', t⟩
    rcases hr with ⟨h1, h2⟩ | ⟨h1, h2⟩
    · simp only at h1 h2
      subst h2
      refine .inl ⟨?_, rfl⟩
      cases r' with
      | ok bs => exact sticky_exec D _ _ h1
      | error f => exact h1
    · simp only at h1 h2
      subst h1 h2
      cases r with
      | ok bs => exact ih bs st
      | error f => exact .inr ⟨rfl, rfl⟩

/-! ## Detection -/

/-- As `Follows`, for what is left of a run: the state of the device. -/
def FollowsSt (x : Except Fail α × σ) (y : Except Fail α × (σ × Bool)) : Prop :=
  (y.2.2 = true ∧ x.1 = .error .panic) ∨ (x.1 = y.1 ∧ y.2 = (x.2, false))

theorem follows_execOn (b : Bool) (p : Prog α) (st : σ) : FollowsSt (execOnC D b p st) (execOnD (watched D) b p (st, false)) := by
  have h := follows_exec D p ⟨st, b, []⟩
  unfold execOnC execOnD
  rw [show (⟨(st, false), b, []⟩ : DRd (σ × Bool)) = DRd.up ⟨st, b, []⟩ from rfl]
  generalize execC D p _ = x at h
  generalize execD (watched D) p _ = y at h
  rcases x with ⟨r, s⟩
  rcases y with ⟨r', t⟩
  rcases h with ⟨h1, h2⟩ | ⟨h1, h2⟩
  · exact .inl ⟨h1, h2⟩
  · simp only at h2; subst h2; exact .inr ⟨h1, rfl⟩

theorem sticky_execOn (b : Bool) (p : Prog α) (st : σ) : (execOnD (watched D) b p (st, true)).2.2 = true :=
  sticky_exec D p ⟨(st, true), b, []⟩ rfl

theorem follows_generic (ft : Features) (st : σ) :
    FollowsSt (fromGenericReaderC D ft st) (fromGenericReaderD (watched D) ft (st, false)) := by
  unfold fromGenericReaderC fromGenericReaderD
  by_cases ht : ft.txt = true
  · rw [if_pos ht, if_pos ht]
    have h := follows_execOn D true txtReader st
    generalize execOnC D true txtReader st = x at h
    generalize execOnD (watched D) true txtReader (st, false) = y at h
    rcases x with ⟨r, s⟩
    rcases y with ⟨r', t⟩
    rcases h with ⟨h1, h2⟩ | ⟨h1, h2⟩
    · simp only at h1 h2
      subst h2
      refine .inl ⟨?_, rfl⟩
      rcases r' with (e | _ | _) | f <;> exact h1
    · simp only at h1 h2
      subst h1 h2
      rcases r with (e | _ | _) | f <;> exact .inr ⟨rfl, rfl⟩
  · rw [if_neg ht, if_neg ht]; exact .inr ⟨rfl, rfl⟩

theorem sticky_generic (ft : Features) (st : σ) : (fromGenericReaderD (watched D) ft (st, true)).2.2 = true := by
  unfold fromGenericReaderD
  split
  · have h := sticky_execOn D true txtReader st
    generalize execOnD (watched D) true txtReader (st, true) = y at h
    rcases y with ⟨r', t⟩
    rcases r' with (e | _ | _) | f <;> exact h
  · rfl

theorem follows_fmt (cfg : Cfg) (ft : Features) (fmt : FileFormat) (st : σ) :
    FollowsSt (fromFmtReaderC D cfg ft fmt st) (fromFmtReaderD (watched D) cfg ft fmt (st, false)) := by
  unfold fromFmtReaderC fromFmtReaderD
  rcases fmtReader cfg ft fmt with _ | ⟨b, p⟩
  · exact .inr ⟨rfl, rfl⟩
  · exact follows_execOn D b p st

theorem sticky_fmt (cfg : Cfg) (ft : Features) (fmt : FileFormat) (st : σ) :
    (fromFmtReaderD (watched D) cfg ft fmt (st, true)).2.2 = true := by
  unfold fromFmtReaderD
  rcases fmtReader cfg ft fmt with _ | ⟨b, p⟩
  · rfl
  · exact sticky_execOn D b p st

/-- What follows the first read. -/
theorem follows_fromReader (cfg : Cfg) (ft : Features) (st : σ) :
    FollowsSt (fromClaims D cfg ft st) (fromDevice (watched D) cfg ft (st, false)) := by
  have hr := watched_read D st bufferSize
  unfold fromClaims fromDevice
  generalize (watched D).read (st, false) bufferSize = y at hr
  generalize claimRead D st bufferSize = x at hr
  rcases x with ⟨r, s⟩
  rcases y with ⟨r', t⟩
  rcases hr with ⟨h1, h2⟩ | ⟨h1, h2⟩
  · simp only at h1 h2
    subst h2
    refine .inl ⟨?_, rfl⟩
    cases r' with
    | ok buf =>
      obtain ⟨t, b⟩ := t
      simp only at h1
      subst h1
      simp only
      split
      · rfl
      cases fromSignature buf with
      | none => exact sticky_generic D ft t
      | some fmt =>
        simp only
        have hf := sticky_fmt D cfg ft fmt t
        generalize fromFmtReaderD (watched D) cfg ft fmt (t, true) = y at hf
        rcases y with ⟨r', t', b'⟩
        simp only at hf
        subst hf
        rcases r' with (e | _ | _) | f
        · exact sticky_generic D ft t'
        · rfl
        · rfl
        · rfl
    | error e => exact h1
  · simp only at h1 h2
    subst h1 h2
    cases r' with
    | error e => exact .inr ⟨rfl, rfl⟩
    | ok buf =>
      simp only [failed]
      by_cases h0 : buf.length = 0
      · rw [if_pos h0, if_pos h0]; exact .inr ⟨rfl, rfl⟩
      rw [if_neg h0, if_neg h0]
      cases fromSignature buf with
      | none => exact follows_generic D ft s
      | some fmt =>
        simp only
        have hf := follows_fmt D cfg ft fmt s
        generalize fromFmtReaderC D cfg ft fmt s = x at hf
        generalize fromFmtReaderD (watched D) cfg ft fmt (s, false) = y at hf
        rcases x with ⟨r, s'⟩
        rcases y with ⟨r', t', b'⟩
        rcases hf with ⟨h1, h2⟩ | ⟨h1, h2⟩
        · simp only at h1 h2
          subst h1 h2
          refine .inl ⟨?_, rfl⟩
          rcases r' with (e | _ | _) | f
          · exact sticky_generic D ft t'
          · rfl
          · rfl
          · rfl
        · simp only at h1 h2
          injection h2 with h2 h3
          subst h1 h2 h3
          rcases r with (e | _ | _) | f
          · exact follows_generic D ft t'
          · exact .inr ⟨rfl, rfl⟩
          · exact .inr ⟨rfl, rfl⟩
          · exact .inr ⟨rfl, rfl⟩

/-! ## Devices that keep the contract -/

variable {D}

theorem lawful_claimRead (hL : D.Lawful) (st : σ) (n : Nat) :
    claimRead D st n = (failed (D.read st n).1, (D.read st n).2) := by
  unfold claimRead
  cases hx : D.read st n with
  | mk r s =>
    cases r with
    | error e => rfl
    | ok bs => simp only [if_pos (hL.read_le _ _ _ _ hx)]; rfl

theorem lawful_fillBuf (hL : D.Lawful) (s : DRd σ) :
    s.claimFillBuf D = (failed (s.fillBuf D).1, (s.fillBuf D).2) := by
  unfold DRd.claimFillBuf DRd.fillBuf
  split
  · rw [lawful_claimRead hL]
    rcases D.read s.st bufCapacity with ⟨r, t⟩
    cases r <;> rfl
  · rfl

theorem lawful_read (hL : D.Lawful) (s : DRd σ) (n : Nat) :
    s.claimRead D n = (failed (s.read D n).1, (s.read D n).2) := by
  unfold DRd.claimRead DRd.read
  split
  · rw [lawful_claimRead hL]
  split
  · rw [lawful_claimRead hL]
  rw [lawful_fillBuf hL]
  rcases s.fillBuf D with ⟨r, t⟩
  cases r <;> rfl

theorem lawful_exactLoop (hL : D.Lawful) (fuel : Nat) (s : DRd σ) (n : Nat) (acc : Bytes) :
    DRd.claimExactLoop D fuel s n acc = DRd.readExactLoop D fuel s n acc := by
  induction fuel generalizing s n acc with
  | zero => cases n <;> rfl
  | succ fuel ih =>
    cases n with
    | zero => rfl
    | succ n =>
      unfold DRd.claimExactLoop DRd.readExactLoop
      rw [lawful_read hL]
      rcases s.read D (n + 1) with ⟨r, t⟩
      cases r with
      | ok bs =>
        simp only [failed]
        split
        · rfl
        · exact ih _ _ _
      | error e =>
        simp only [failed, Fail.err.injEq]
        split
        · exact ih _ _ _
        · rfl

theorem lawful_exact (hL : D.Lawful) (s : DRd σ) (n : Nat) : s.claimExact D n = s.readExact D n := by
  unfold DRd.claimExact DRd.readExact
  rw [lawful_exactLoop hL]

theorem lawful_untilLoop (hL : D.Lawful) (fuel : Nat) (s : DRd σ) (n : Nat) (acc : Bytes) :
    DRd.claimUntilLoop D fuel s n acc = DRd.readUntilLoop D fuel s n acc := by
  induction fuel generalizing s n acc with
  | zero => cases n <;> rfl
  | succ fuel ih =>
    cases n with
    | zero => rfl
    | succ n =>
      unfold DRd.claimUntilLoop DRd.readUntilLoop
      rw [lawful_fillBuf hL]
      rcases s.fillBuf D with ⟨r, t⟩
      cases r with
      | ok bs =>
        simp only [failed]
        split
        · rfl
        split
        · rfl
        · exact ih _ _ _
      | error e =>
        simp only [failed, Fail.err.injEq]
        split
        · exact ih _ _ _
        · rfl

theorem lawful_exec (hL : D.Lawful) (p : Prog α) (s : DRd σ) : execC D p s = execD D p s := by
  induction p generalizing s with
  | pure a => rfl
  | fail f => rfl
  | readExact n k ih =>
    unfold execC execD
    rw [lawful_exact hL]
    rcases s.readExact D n with ⟨r, t⟩
    cases r with
    | ok bs => exact ih bs t
    | error f => rfl
  | read n k ih =>
    unfold execC execD
    rw [lawful_read hL]
    rcases s.read D n with ⟨r, t⟩
    cases r with
    | ok bs => exact ih bs t
    | error f => rfl
  | seek q k ih =>
    unfold execC execD
    rcases s.seek D q with ⟨r, t⟩
    cases r with
    | ok bs => exact ih bs t
    | error f => rfl
  | tell k ih =>
    unfold execC execD
    rcases s.tell D with ⟨r, t⟩
    cases r with
    | ok bs => exact ih bs t
    | error f => rfl
  | readUntil n k ih =>
    unfold execC execD DRd.claimUntil DRd.readUntil
    rw [lawful_untilLoop hL]
    rcases DRd.readUntilLoop D (n + D.patience s.st + 1) s n [] with ⟨r, t⟩
    cases r with
    | ok bs => exact ih bs t
    | error f => rfl

theorem lawful_execOn (hL : D.Lawful) (b : Bool) (p : Prog α) (st : σ) : execOnC D b p st = execOnD D b p st := by
  unfold execOnC execOnD
  rw [lawful_exec hL]

theorem lawful_fmt (hL : D.Lawful) (cfg : Cfg) (ft : Features) (fmt : FileFormat) (st : σ) :
    fromFmtReaderC D cfg ft fmt st = fromFmtReaderD D cfg ft fmt st := by
  unfold fromFmtReaderC fromFmtReaderD
  cases fmtReader cfg ft fmt with
  | none => rfl
  | some x => exact lawful_execOn hL _ _ _

theorem lawful_generic (hL : D.Lawful) (ft : Features) (st : σ) :
    fromGenericReaderC D ft st = fromGenericReaderD D ft st := by
  unfold fromGenericReaderC fromGenericReaderD
  rw [lawful_execOn hL]
  split
  · rcases execOnD D true txtReader st with ⟨r, u⟩
    rcases r with (e | _ | _) | f <;> rfl
  · rfl

theorem fromClaims_lawful (hL : D.Lawful) (cfg : Cfg) (ft : Features) (st : σ) :
    fromClaims D cfg ft st = fromDevice D cfg ft st := by
  unfold fromClaims fromDevice
  rw [lawful_claimRead hL]
  rcases D.read st bufferSize with ⟨r, t⟩
  cases r with
  | error e => rfl
  | ok buf =>
    simp only [failed]
    split
    · rfl
    cases fromSignature buf with
    | none => exact lawful_generic hL ft t
    | some fmt =>
      simp only
      rw [lawful_fmt hL]
      rcases fromFmtReaderD D cfg ft fmt t with ⟨r, u⟩
      rcases r with (e | _ | _) | f
      · exact lawful_generic hL ft u
      · rfl
      · rfl
      · rfl

end FF
