import Verif.Spec.Buffered
import Verif.Proofs.Serve
/-!
# `BufReader` around a device that serves a content serves it too
-/

namespace FF
open FileFormat

variable {σ : Type} {D : Device σ} {data : Bytes} {top : Nat} {position : σ → Nat} {I : σ → Prop}

theorem bufReader_lawful (cap : Nat) (hL : D.Lawful) : (bufReader cap D).Lawful where
  read_le := by
    rintro ⟨st, buf⟩ n bs s' h
    simp only [bufReader] at h
    split at h
    · split at h
      · cases hx : D.read st n with
        | mk r st' => rw [hx] at h; cases h; exact hL.read_le _ _ _ _ hx
      · cases hx : D.read st cap with
        | mk r st' =>
          rw [hx] at h
          cases r with
          | ok bs => cases h; rw [List.length_take]; omega
          | error e => cases h
    · cases h; rw [List.length_take]; omega
  read_patience := by
    rintro ⟨st, buf⟩ n r s' h
    simp only [bufReader] at h ⊢
    split at h
    · split at h
      · cases hx : D.read st n with
        | mk r st' => rw [hx] at h; cases h; exact hL.read_patience _ _ _ _ hx
      · cases hx : D.read st cap with
        | mk r st' =>
          rw [hx] at h
          cases r <;> (cases h; exact hL.read_patience _ _ _ _ hx)
    · cases h; exact Nat.le_refl _
  interrupted := by
    rintro ⟨st, buf⟩ n s' h
    simp only [bufReader] at h ⊢
    split at h
    · split at h
      · cases hx : D.read st n with
        | mk r st' => rw [hx] at h; cases h; exact hL.interrupted _ _ _ hx
      · cases hx : D.read st cap with
        | mk r st' =>
          rw [hx] at h
          cases r with
          | ok bs => cases h
          | error e => cases h; exact hL.interrupted _ _ _ hx
    · cases h
  seek_patience := by
    rintro ⟨st, buf⟩ p r s' h
    have simple : ∀ p' : SeekFrom, (match D.seek st p' with
        | (.ok q, st) => (.ok q, (st, []))
        | (.error e, st) => (.error e, (st, buf)) : Except ErrKind Nat × (σ × Bytes)) = (r, s') →
        D.patience s'.1 ≤ D.patience st := by
      intro p' h
      cases hx : D.seek st p' with
      | mk r' st' =>
        rw [hx] at h
        cases r' <;> (cases h; exact hL.seek_patience _ _ _ _ hx)
    cases p with
    | start n => exact simple _ h
    | fromEnd n => exact simple _ h
    | current i =>
      simp only [bufReader] at h ⊢
      split at h
      · exact simple _ h
      · cases hx : D.seek st (.current (-buf.length)) with
        | mk r' st' =>
          have h1 := hL.seek_patience _ _ _ _ hx
          rw [hx] at h
          cases r' with
          | error e => cases h; exact h1
          | ok q =>
            simp only at h
            cases hy : D.seek st' (.current i) with
            | mk r2 st2 =>
              have h2 := hL.seek_patience _ _ _ _ hy
              rw [hy] at h
              cases h
              exact Nat.le_trans h2 h1
  tell_patience := by
    rintro ⟨st, buf⟩ r s' h
    simp only [bufReader] at h ⊢
    cases hx : D.tell st with
    | mk r' st' =>
      rw [hx] at h
      cases r' <;> (cases h; exact hL.tell_patience _ _ _ hx)

/-- The outcome of a seek, in one piece. -/
theorem bufReader_seek (hS : D.Serves data top position I) (hd : data.length ≤ top) (cap : Nat) (s : σ × Bytes)
    (hB : Buffered data top position I s) (p : SeekFrom) {r : Except ErrKind Nat} {s' : σ × Bytes}
    (h : (bufReader cap D).seek s p = (r, s')) :
    Buffered data top position I s' ∧
    (∀ q, r = .ok q → s'.2 = [] ∧ seekTarget data.length top (bufPosition position s) p = some q ∧ bufPosition position s' = q) ∧
    (∀ e, r = .error e → bufPosition position s' = bufPosition position s) ∧
    (∀ may, D.Reliable data top position I may → ∀ e, r = .error e →
      e = .invalidInput ∧ seekTarget data.length top (bufPosition position s) p = none) := by
  obtain ⟨st, buf⟩ := s
  obtain ⟨hI, ht, hl, hb⟩ := hB
  simp only at hI ht hl hb
  have some_le : ∀ {x : Nat} {p : SeekFrom} {q}, seekTarget data.length top x p = some q → q ≤ top := by
    intro x p q h
    cases p with
    | start n =>
      simp only [seekTarget] at h
      split at h
      · cases h; assumption
      · cases h
    | fromEnd n =>
      simp only [seekTarget] at h
      split at h
      · cases h; omega
      · cases h
    | current n =>
      simp only [seekTarget] at h
      split at h
      · cases h; omega
      · cases h
  -- one seek of the reader inside
  have simple : ∀ p' : SeekFrom, seekTarget data.length top (position st) p' =
        seekTarget data.length top (bufPosition position (st, buf)) p →
      (match D.seek st p' with
        | (.ok q, st) => (.ok q, (st, []))
        | (.error e, st) => (.error e, (st, buf)) : Except ErrKind Nat × (σ × Bytes)) = (r, s') →
      Buffered data top position I s' ∧
      (∀ q, r = .ok q → s'.2 = [] ∧ seekTarget data.length top (bufPosition position (st, buf)) p = some q ∧
        bufPosition position s' = q) ∧
      (∀ e, r = .error e → bufPosition position s' = bufPosition position (st, buf)) ∧
      (∀ may, D.Reliable data top position I may → ∀ e, r = .error e →
        e = .invalidInput ∧ seekTarget data.length top (bufPosition position (st, buf)) p = none) := by
    intro p' hp' h
    have hi := hS.seek_inv st p' hI
    cases hx : D.seek st p' with
    | mk r' st' =>
      rw [hx] at h hi
      cases r' with
      | ok q =>
        cases h
        obtain ⟨h1, h2⟩ := hS.seek_ok _ _ _ _ hI hx
        refine ⟨⟨hi, ?_, Nat.zero_le _, ?_⟩, fun q' hq => ?_, (fun e he => by cases he), (fun _ _ e he => by cases he)⟩
        · rw [h2]; exact some_le h1
        · simp [slice]
        · cases hq; exact ⟨rfl, hp' ▸ h1, h2⟩
      | error e =>
        cases h
        have h1 := hS.seek_error _ _ _ _ hI hx
        refine ⟨⟨hi, ?_, ?_, ?_⟩, (fun q' hq => by cases hq), fun e he => ?_, fun may hR e he => ?_⟩
        · simp only [h1]; exact ht
        · simp only [h1]; exact hl
        · simp only [h1]; exact hb
        · simp only [bufPosition, h1]
        · cases he
          obtain ⟨h2, h3⟩ := hR.seek _ _ _ _ hI hx
          exact ⟨h2, hp' ▸ h3⟩
  cases p with
  | start n => exact simple _ rfl h
  | fromEnd n => exact simple _ rfl h
  | current i =>
    have hcur : ((position st - buf.length : Nat) : Int) + i = (position st : Int) + (i - buf.length) := by omega
    simp only [bufReader] at h
    split at h
    · refine simple _ ?_ h
      simp only [seekTarget, bufPosition, hcur]
    · have hi := hS.seek_inv st (.current (-buf.length)) hI
      cases hx : D.seek st (.current (-buf.length)) with
      | mk r' st' =>
        rw [hx] at h hi
        cases r' with
        | error e =>
          cases h
          have h1 := hS.seek_error _ _ _ _ hI hx
          refine ⟨⟨hi, ?_, ?_, ?_⟩, (fun q' hq => by cases hq), fun e he => ?_, fun may hR e he => ?_⟩
          · simp only [h1]; exact ht
          · simp only [h1]; exact hl
          · simp only [h1]; exact hb
          · simp only [bufPosition, h1]
          · obtain ⟨_, h3⟩ := hR.seek _ _ _ _ hI hx
            simp only [seekTarget] at h3
            rw [if_pos (by omega)] at h3
            cases h3
        | ok q =>
          simp only at h
          obtain ⟨h1, h2⟩ := hS.seek_ok _ _ _ _ hI hx
          simp only [seekTarget] at h1
          rw [if_pos (by omega)] at h1
          cases h1
          have hpos : position st' = position st - buf.length := by omega
          have hi2 := hS.seek_inv st' (.current i) hi
          cases hy : D.seek st' (.current i) with
          | mk r2 st2 =>
            rw [hy] at h hi2
            cases h
            cases r2 with
            | ok q2 =>
              obtain ⟨h3, h4⟩ := hS.seek_ok _ _ _ _ hi hy
              refine ⟨⟨hi2, ?_, Nat.zero_le _, by simp [slice]⟩, fun q' hq => ?_, (fun e he => by cases he),
                (fun _ _ e he => by cases he)⟩
              · rw [h4]; exact some_le h3
              · cases hq
                refine ⟨rfl, ?_, h4⟩
                rw [hpos] at h3
                exact h3
            | error e =>
              have h3 := hS.seek_error _ _ _ _ hi hy
              refine ⟨⟨hi2, ?_, Nat.zero_le _, by simp [slice]⟩, (fun q' hq => by cases hq), fun e he => ?_,
                fun may hR e he => ?_⟩
              · simp only [h3]; omega
              · simp only [bufPosition, h3, hpos, List.length_nil]; omega
              · cases he
                obtain ⟨h4, h5⟩ := hR.seek _ _ _ _ hi hy
                rw [hpos] at h5
                exact ⟨h4, h5⟩

theorem slice_of_prefix {d : Bytes} {p : Nat} {bs : Bytes} (h : bs = slice d p bs.length) (n : Nat) :
    bs.take n = slice d p (bs.take n).length ∧
    bs.drop n = slice d (p + (bs.take n).length) (bs.drop n).length := by
  unfold slice at h ⊢
  rw [List.length_take, List.length_drop, ← List.drop_drop]
  constructor
  · conv => lhs; rw [h, List.take_take]
  · by_cases hn : n ≤ bs.length
    · rw [Nat.min_eq_left hn]
      conv => lhs; rw [h, List.drop_take]
    · rw [List.drop_of_length_le (by omega), show bs.length - n = 0 from by omega, List.take_zero]

/-- The outcome of a read, in one piece. -/
theorem bufReader_read (hS : D.Serves data top position I) (hd : data.length ≤ top) {cap : Nat} (hc : 0 < cap)
    (s : σ × Bytes) (hB : Buffered data top position I s) (n : Nat) {r : Except ErrKind Bytes} {s' : σ × Bytes}
    (h : (bufReader cap D).read s n = (r, s')) :
    Buffered data top position I s' ∧
    (∀ bs, r = .ok bs → bs.length ≤ n ∧ bs = slice data (bufPosition position s) bs.length ∧
      (bs = [] → n = 0 ∨ data.length ≤ bufPosition position s) ∧
      bufPosition position s' = bufPosition position s + bs.length) ∧
    (∀ e, r = .error e → bufPosition position s' = bufPosition position s) ∧
    (∀ may, D.Reliable data top position I may → ∀ e, r = .error e → may e) ∧
    (s.2 = [] → cap ≤ n → s'.2 = []) ∧
    (s.2 ≠ [] → r = .ok (s.2.take n)) ∧
    (s.2 = [] → D.Full data position I → ∀ bs, r = .ok bs → bs = slice data (bufPosition position s) n) := by
  obtain ⟨st, buf⟩ := s
  obtain ⟨hI, ht, hl, hb⟩ := hB
  simp only at hI ht hl hb
  have top_le : ∀ {st st' : σ} {m : Nat} {bs : Bytes}, I st → position st ≤ top → D.read st m = (.ok bs, st') →
      position st' ≤ top := by
    intro st st' m bs hI ht hx
    obtain ⟨_, h2, _, h4⟩ := hS.read_ok _ _ _ _ hI hx
    have := congrArg List.length h2
    rw [length_slice] at this
    omega
  simp only [bufReader] at h
  by_cases he : buf = []
  · subst he
    rw [if_pos rfl] at h
    by_cases hn : cap ≤ n
    · rw [if_pos hn] at h
      have hi := hS.read_inv st n hI
      cases hx : D.read st n with
      | mk r' st' =>
        rw [hx] at h hi
        cases h
        refine ⟨⟨hi, ?_, Nat.zero_le _, by simp [slice]⟩, fun bs hbs => ?_, fun e he => ?_, fun may hR e he => ?_,
          fun _ _ => rfl, (fun h => absurd rfl h), fun _ hF bs hbs => ?_⟩
        · cases r' with
          | ok bs => exact top_le hI ht hx
          | error e => rw [hS.read_error _ _ _ _ hI hx]; exact ht
        · subst hbs
          obtain ⟨h1, h2, h3, h4⟩ := hS.read_ok _ _ _ _ hI hx
          exact ⟨h1, h2, h3, h4⟩
        · subst he
          simp only [bufPosition, hS.read_error _ _ _ _ hI hx]
        · subst he
          exact hR.read _ _ _ _ hI hx
        · subst hbs
          exact hF _ _ _ _ hI hx
    · rw [if_neg hn] at h
      have hi := hS.read_inv st cap hI
      cases hx : D.read st cap with
      | mk r' st' =>
        rw [hx] at h hi
        cases r' with
        | error e =>
          cases h
          have h1 := hS.read_error _ _ _ _ hI hx
          refine ⟨⟨hi, ?_, Nat.zero_le _, by simp [slice]⟩, (fun bs hbs => by cases hbs), fun e he => ?_, fun may hR e he => ?_,
            (fun _ h => absurd h hn), (fun h => absurd rfl h), (fun _ _ bs hbs => by cases hbs)⟩
          · simp only [h1]; exact ht
          · simp only [bufPosition, h1]
          · cases he; exact hR.read _ _ _ _ hI hx
        | ok bs =>
          cases h
          obtain ⟨h1, h2, h3, h4⟩ := hS.read_ok _ _ _ _ hI hx
          obtain ⟨k1, k2⟩ := slice_of_prefix h2 n
          have hlt : (bs.take n).length + (bs.drop n).length = bs.length := by
            rw [List.length_take, List.length_drop]; omega
          have hpos : position st' - (bs.drop n).length = position st + (bs.take n).length := by omega
          refine ⟨⟨hi, top_le hI ht hx, ?_, ?_⟩, fun bs' hbs => ?_, (fun e he => by cases he), (fun _ _ e he => by cases he),
            (fun _ h => absurd h hn), (fun h => absurd rfl h), fun _ hF bs' hbs => ?_⟩
          · simp only; omega
          · simp only [hpos]; exact k2
          · cases hbs
            refine ⟨by rw [List.length_take]; omega, k1, fun h0 => ?_, ?_⟩
            · by_cases hn0 : n = 0
              · exact Or.inl hn0
              · right
                have hbs0 : bs = [] := by
                  cases bs with
                  | nil => rfl
                  | cons x xs =>
                    obtain ⟨n, rfl⟩ : ∃ m, n = m + 1 := ⟨n - 1, by omega⟩
                    cases h0
                rcases h3 hbs0 with h | h
                · omega
                · exact h
            · simp only [bufPosition, List.length_nil, Nat.sub_zero]; exact hpos
          · cases hbs
            have := hF _ _ _ _ hI hx
            rw [this]
            unfold slice
            rw [List.take_take, Nat.min_eq_left (by omega)]
            rfl
  · rw [if_neg he] at h
    cases h
    obtain ⟨k1, k2⟩ := slice_of_prefix hb n
    have hlt : (buf.take n).length + (buf.drop n).length = buf.length := by
      rw [List.length_take, List.length_drop]; omega
    have hpos : position st - (buf.drop n).length = position st - buf.length + (buf.take n).length := by omega
    refine ⟨⟨hI, ht, ?_, ?_⟩, fun bs' hbs => ?_, (fun e he => by cases he), (fun _ _ e he => by cases he),
      (fun h => absurd h he), fun _ => rfl, (fun h => absurd h he)⟩
    · simp only; omega
    · simp only [hpos]; exact k2
    · cases hbs
      refine ⟨by rw [List.length_take]; omega, k1, fun h0 => ?_, hpos⟩
      cases buf with
      | nil => exact absurd rfl he
      | cons x xs =>
        cases n with
        | zero => exact Or.inl rfl
        | succ n => cases h0

theorem bufReader_serves (hS : D.Serves data top position I) (hd : data.length ≤ top) {cap : Nat} (hc : 0 < cap) :
    (bufReader cap D).Serves data top (bufPosition position) (Buffered data top position I) where
  read_ok := fun s n bs s' hB h => (bufReader_read hS hd hc s hB n h).2.1 bs rfl
  seek_ok := fun s p q s' hB h => ((bufReader_seek hS hd cap s hB p h).2.1 q rfl).2
  tell_ok := by
    rintro ⟨st, buf⟩ q s' ⟨hI, ht, hl, hb⟩ h
    simp only [bufReader] at h
    cases hx : D.tell st with
    | mk r st' =>
      rw [hx] at h
      cases r with
      | error e => cases h
      | ok q =>
        cases h
        obtain ⟨h1, h2⟩ := hS.tell_ok _ _ _ hI hx
        simp only [bufPosition, h1, h2, and_self]
  read_error := fun s n e s' hB h => (bufReader_read hS hd hc s hB n h).2.2.1 e rfl
  seek_error := fun s p e s' hB h => (bufReader_seek hS hd cap s hB p h).2.2.1 e rfl
  tell_error := by
    rintro ⟨st, buf⟩ e s' ⟨hI, ht, hl, hb⟩ h
    simp only [bufReader] at h
    cases hx : D.tell st with
    | mk r st' =>
      rw [hx] at h
      cases r with
      | ok q => cases h
      | error e =>
        cases h
        simp only [bufPosition, hS.tell_error _ _ _ hI hx]
  read_inv := fun s n hB => (bufReader_read hS hd hc s hB n rfl).1
  seek_inv := fun s p hB => (bufReader_seek hS hd cap s hB p rfl).1
  tell_inv := by
    rintro ⟨st, buf⟩ ⟨hI, ht, hl, hb⟩
    have hi := hS.tell_inv st hI
    simp only [bufReader]
    cases hx : D.tell st with
    | mk r st' =>
      rw [hx] at hi
      cases r with
      | ok q =>
        obtain ⟨_, h2⟩ := hS.tell_ok _ _ _ hI hx
        refine ⟨hi, ?_, ?_, ?_⟩
        · simp only [h2]; exact ht
        · simp only [h2]; exact hl
        · simp only [h2]; exact hb
      | error e =>
        have h2 := hS.tell_error _ _ _ hI hx
        refine ⟨hi, ?_, ?_, ?_⟩
        · simp only [h2]; exact ht
        · simp only [h2]; exact hl
        · simp only [h2]; exact hb

theorem bufReader_reliable (hS : D.Serves data top position I) (hd : data.length ≤ top) {cap : Nat} (hc : 0 < cap)
    {may : ErrKind → Prop} (hR : D.Reliable data top position I may) :
    (bufReader cap D).Reliable data top (bufPosition position) (Buffered data top position I) may where
  read := fun s n e s' hB h => (bufReader_read hS hd hc s hB n h).2.2.2.1 may hR e rfl
  seek := fun s p e s' hB h => (bufReader_seek hS hd cap s hB p h).2.2.2 may hR e rfl
  tell := by
    rintro ⟨st, buf⟩ e s' ⟨hI, ht, hl, hb⟩ h
    simp only [bufReader] at h
    cases hx : D.tell st with
    | mk r st' =>
      rw [hx] at h
      cases r with
      | ok q => cases h
      | error e => exact hR.tell _ _ _ hI hx

end FF
