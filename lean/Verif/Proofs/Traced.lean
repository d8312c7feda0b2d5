import Verif.Spec.Traced
import Verif.Proofs.Device3
/-!
# Two devices that agree as long as the first one is in a good state
-/

namespace FF
open FileFormat Spec

variable {σ σ' : Type} {D : Device σ} {D' : Device σ'} {g : σ → σ'} {good : σ → Prop}

/-- The states of `D` are mapped to states of `D'`. As long as it leads to a good state, a call on `D'` is one on `D`; and no
call leads back to a good state. -/
structure Agree (D : Device σ) (D' : Device σ') (g : σ → σ') (good : σ → Prop) : Prop where
  patience : ∀ s, D'.patience (g s) = D.patience s
  read : ∀ s n, good (D.read s n).2 → D'.read (g s) n = Prod.map id g (D.read s n) ∧ good s
  seek : ∀ s p, good (D.seek s p).2 → D'.seek (g s) p = Prod.map id g (D.seek s p) ∧ good s
  tell : ∀ s, good (D.tell s).2 → D'.tell (g s) = Prod.map id g (D.tell s) ∧ good s

/-- The reader with the state mapped. -/
def DRd.map (g : σ → σ') (s : DRd σ) : DRd σ' := ⟨g s.st, s.buffered, s.buf⟩

theorem fillBuf_agree (h : Agree D D' g good) (s : DRd σ) (hg : good (s.fillBuf D).2.st) :
    (s.map g).fillBuf D' = Prod.map id (DRd.map g) (s.fillBuf D) ∧ good s.st := by
  unfold DRd.fillBuf at hg ⊢
  by_cases he : s.buf.isEmpty = true
  · rw [if_pos he] at hg
    rw [if_pos he, if_pos (show (s.map g).buf.isEmpty = true from he), show (s.map g).st = g s.st from rfl]
    have key := h.read s.st bufCapacity
    cases hx : D.read s.st bufCapacity with
    | mk r st1 =>
      rw [hx] at hg key
      cases r <;> (obtain ⟨h1, h2⟩ := key hg; rw [h1]; exact ⟨rfl, h2⟩)
  · rw [if_neg he] at hg
    rw [if_neg he, if_neg (show ¬ (s.map g).buf.isEmpty = true from he)]
    exact ⟨rfl, hg⟩

theorem read_agree (h : Agree D D' g good) (s : DRd σ) (n : Nat) (hg : good (s.read D n).2.st) :
    (s.map g).read D' n = Prod.map id (DRd.map g) (s.read D n) ∧ good s.st := by
  have kr := h.read s.st n
  have kf := fillBuf_agree h s
  unfold DRd.read at hg ⊢
  by_cases hb : s.buffered = false
  · rw [if_pos hb] at hg
    rw [if_pos hb, if_pos (show (s.map g).buffered = false from hb)]
    obtain ⟨h1, h2⟩ := kr hg
    rw [show (s.map g).st = g s.st from rfl, h1]
    exact ⟨rfl, h2⟩
  · rw [if_neg hb] at hg
    rw [if_neg hb, if_neg (show ¬ (s.map g).buffered = false from hb)]
    by_cases hc : s.buf.isEmpty ∧ bufCapacity ≤ n
    · rw [if_pos hc] at hg
      obtain ⟨h1, h2⟩ := kr hg
      rw [if_pos hc, if_pos (show (s.map g).buf.isEmpty ∧ bufCapacity ≤ n from hc), show (s.map g).st = g s.st from rfl, h1]
      exact ⟨rfl, h2⟩
    · rw [if_neg hc] at hg
      rw [if_neg hc, if_neg (show ¬ ((s.map g).buf.isEmpty ∧ bufCapacity ≤ n) from hc)]
      cases hx : s.fillBuf D with
      | mk r s1 =>
        rw [hx] at hg kf
        cases r <;> (obtain ⟨h1, h2⟩ := kf hg; rw [h1]; exact ⟨rfl, h2⟩)

theorem readExactLoop_agree (h : Agree D D' g good) (fuel : Nat) (s : DRd σ) (n : Nat) (acc : Bytes)
    (hg : good (DRd.readExactLoop D fuel s n acc).2.st) :
    DRd.readExactLoop D' fuel (s.map g) n acc = Prod.map id (DRd.map g) (DRd.readExactLoop D fuel s n acc) ∧ good s.st := by
  induction fuel generalizing s n acc with
  | zero => cases n <;> exact ⟨rfl, hg⟩
  | succ fuel ih =>
    cases n with
    | zero => exact ⟨rfl, hg⟩
    | succ n =>
      simp only [DRd.readExactLoop] at hg ⊢
      cases hx : s.read D (n + 1) with
      | mk r s1 =>
        have key := read_agree h s (n + 1)
        rw [hx] at key hg
        cases r with
        | ok bs =>
          simp only at hg ⊢
          by_cases hl : bs.length = 0
          · rw [if_pos hl] at hg
            obtain ⟨h1, h2⟩ := key hg
            rw [h1]
            simp only [Prod.map_apply, id_eq, if_pos hl]
            exact ⟨by trivial, h2⟩
          · rw [if_neg hl] at hg
            obtain ⟨i1, i2⟩ := ih _ _ _ hg
            obtain ⟨h1, h2⟩ := key i2
            rw [h1]
            simp only [Prod.map_apply, id_eq, if_neg hl]
            exact ⟨i1, h2⟩
        | error e =>
          simp only at hg ⊢
          by_cases he : e = .interrupted
          · rw [if_pos he] at hg
            obtain ⟨i1, i2⟩ := ih _ _ _ hg
            obtain ⟨h1, h2⟩ := key i2
            rw [h1]
            simp only [Prod.map_apply, id_eq, if_pos he]
            exact ⟨i1, h2⟩
          · rw [if_neg he] at hg
            obtain ⟨h1, h2⟩ := key hg
            rw [h1]
            simp only [Prod.map_apply, id_eq, if_neg he]
            exact ⟨by trivial, h2⟩

theorem readExact_agree (h : Agree D D' g good) (s : DRd σ) (n : Nat) (hg : good (s.readExact D n).2.st) :
    (s.map g).readExact D' n = Prod.map id (DRd.map g) (s.readExact D n) ∧ good s.st := by
  unfold DRd.readExact at hg ⊢
  split at hg
  · rename_i hb
    rw [if_pos hb, if_pos (show (s.map g).buffered = true ∧ n ≤ (s.map g).buf.length from hb)]
    exact ⟨rfl, hg⟩
  · rename_i hb
    rw [if_neg hb, if_neg (show ¬ ((s.map g).buffered = true ∧ n ≤ (s.map g).buf.length) from hb),
      show (s.map g).st = g s.st from rfl, h.patience]
    exact readExactLoop_agree h _ s n [] hg

theorem readUntilLoop_agree (h : Agree D D' g good) (fuel : Nat) (s : DRd σ) (n : Nat) (acc : Bytes)
    (hg : good (DRd.readUntilLoop D fuel s n acc).2.st) :
    DRd.readUntilLoop D' fuel (s.map g) n acc = Prod.map id (DRd.map g) (DRd.readUntilLoop D fuel s n acc) ∧ good s.st := by
  induction fuel generalizing s n acc with
  | zero => cases n <;> exact ⟨rfl, hg⟩
  | succ fuel ih =>
    cases n with
    | zero => exact ⟨rfl, hg⟩
    | succ n =>
      simp only [DRd.readUntilLoop] at hg ⊢
      cases hx : s.fillBuf D with
      | mk r s1 =>
        have key := fillBuf_agree h s
        rw [hx] at key hg
        cases r with
        | error e =>
          simp only at hg ⊢
          by_cases he : e = .interrupted
          · rw [if_pos he] at hg
            obtain ⟨i1, i2⟩ := ih _ _ _ hg
            obtain ⟨h1, h2⟩ := key i2
            rw [h1]
            simp only [Prod.map_apply, id_eq, if_pos he]
            exact ⟨i1, h2⟩
          · rw [if_neg he] at hg
            obtain ⟨h1, h2⟩ := key hg
            rw [h1]
            simp only [Prod.map_apply, id_eq, if_neg he]
            exact ⟨by trivial, h2⟩
        | ok buf =>
          simp only at hg ⊢
          by_cases hl : (uptoNewline (buf.take (n + 1))).length = 0
          · rw [if_pos hl] at hg
            obtain ⟨h1, h2⟩ := key hg
            rw [h1]
            simp only [Prod.map_apply, id_eq, if_pos hl]
            exact ⟨by trivial, h2⟩
          · rw [if_neg hl] at hg
            by_cases hn : (uptoNewline (buf.take (n + 1))).getLast? = some 10
            · rw [if_pos hn] at hg
              obtain ⟨h1, h2⟩ := key hg
              rw [h1]
              simp only [Prod.map_apply, id_eq, if_neg hl, if_pos hn]
              exact ⟨by trivial, h2⟩
            · rw [if_neg hn] at hg
              obtain ⟨i1, i2⟩ := ih _ _ _ hg
              obtain ⟨h1, h2⟩ := key i2
              rw [h1]
              simp only [Prod.map_apply, id_eq, if_neg hl, if_neg hn]
              exact ⟨i1, h2⟩

theorem readUntil_agree (h : Agree D D' g good) (s : DRd σ) (n : Nat) (hg : good (s.readUntil D n).2.st) :
    (s.map g).readUntil D' n = Prod.map id (DRd.map g) (s.readUntil D n) ∧ good s.st := by
  unfold DRd.readUntil at hg ⊢
  rw [show (s.map g).st = g s.st from rfl, h.patience]
  exact readUntilLoop_agree h _ s n [] hg

theorem seek_agree (h : Agree D D' g good) (s : DRd σ) (p : SeekFrom) (hg : good (s.seek D p).2.st) :
    (s.map g).seek D' p = Prod.map id (DRd.map g) (s.seek D p) ∧ good s.st := by
  unfold DRd.seek at hg ⊢
  rw [show (s.map g).st = g s.st from rfl]
  by_cases hb : s.buffered = false
  · rw [if_pos hb] at hg
    obtain ⟨h1, h2⟩ := h.seek _ _ hg
    rw [if_pos hb, if_pos (show (s.map g).buffered = false from hb), h1]
    exact ⟨rfl, h2⟩
  · rw [if_neg hb] at hg
    rw [if_neg hb, if_neg (show ¬ (s.map g).buffered = false from hb)]
    cases p with
    | current i =>
      simp only at hg ⊢
      rw [show (s.map g).buf = s.buf from rfl]
      by_cases hi : -2 ^ 63 ≤ i - s.buf.length
      · rw [if_pos hi] at hg
        rw [if_pos hi, if_pos hi]
        have key := h.seek s.st (.current (i - s.buf.length))
        cases hx : D.seek s.st (.current (i - s.buf.length)) with
        | mk r st1 =>
          rw [hx] at hg key
          cases r <;> (obtain ⟨h1, h2⟩ := key hg; rw [h1]; exact ⟨rfl, h2⟩)
      · rw [if_neg hi] at hg
        rw [if_neg hi, if_neg hi]
        have key := h.seek s.st (.current (-s.buf.length))
        cases hx : D.seek s.st (.current (-s.buf.length)) with
        | mk r st =>
          rw [hx] at key hg
          cases r with
          | error e =>
            obtain ⟨h1, h2⟩ := key hg
            rw [h1]
            exact ⟨rfl, h2⟩
          | ok q =>
            simp only at hg ⊢
            have key2 := h.seek st (.current i)
            cases hy : D.seek st (.current i) with
            | mk r st1 =>
              rw [hy] at key2 hg
              cases r <;>
                (obtain ⟨i1, i2⟩ := key2 hg
                 obtain ⟨h1, h2⟩ := key i2
                 rw [h1]
                 simp only [Prod.map_apply, id_eq, i1]
                 exact ⟨by trivial, h2⟩)
    | start i =>
      simp only at hg ⊢
      have key := h.seek s.st (.start i)
      cases hx : D.seek s.st (.start i) with
      | mk r st1 =>
        rw [hx] at hg key
        cases r <;> (obtain ⟨h1, h2⟩ := key hg; rw [h1]; exact ⟨rfl, h2⟩)
    | fromEnd i =>
      simp only at hg ⊢
      have key := h.seek s.st (.fromEnd i)
      cases hx : D.seek s.st (.fromEnd i) with
      | mk r st1 =>
        rw [hx] at hg key
        cases r <;> (obtain ⟨h1, h2⟩ := key hg; rw [h1]; exact ⟨rfl, h2⟩)

theorem tell_agree (h : Agree D D' g good) (s : DRd σ) (hg : good (s.tell D).2.st) :
    (s.map g).tell D' = Prod.map id (DRd.map g) (s.tell D) ∧ good s.st := by
  unfold DRd.tell at hg ⊢
  rw [show (s.map g).st = g s.st from rfl]
  have key := h.tell s.st
  cases hx : D.tell s.st with
  | mk r st1 =>
    rw [hx] at hg key
    cases r with
    | error e =>
      obtain ⟨h1, h2⟩ := key hg
      rw [h1]
      exact ⟨rfl, h2⟩
    | ok q =>
      simp only at hg
      by_cases hb : s.buffered = false
      · rw [if_pos hb] at hg
        obtain ⟨h1, h2⟩ := key hg
        rw [h1]
        simp only [Prod.map_apply, id_eq, if_pos hb, if_pos (show (s.map g).buffered = false from hb)]
        exact ⟨by trivial, h2⟩
      · rw [if_neg hb] at hg
        by_cases hq : s.buf.length ≤ q
        · rw [if_pos hq] at hg
          obtain ⟨h1, h2⟩ := key hg
          rw [h1]
          simp only [Prod.map_apply, id_eq, if_neg hb, if_neg (show ¬ (s.map g).buffered = false from hb), if_pos hq,
            if_pos (show (s.map g).buf.length ≤ q from hq)]
          exact ⟨by trivial, h2⟩
        · rw [if_neg hq] at hg
          obtain ⟨h1, h2⟩ := key hg
          rw [h1]
          simp only [Prod.map_apply, id_eq, if_neg hb, if_neg (show ¬ (s.map g).buffered = false from hb), if_neg hq,
            if_neg (show ¬ (s.map g).buf.length ≤ q from hq)]
          exact ⟨by trivial, h2⟩

theorem execD_agree {α : Type} (h : Agree D D' g good) (p : Prog α) (s : DRd σ) (hg : good (execD D p s).2.st) :
    execD D' p (s.map g) = Prod.map id (DRd.map g) (execD D p s) ∧ good s.st := by
  induction p generalizing s with
  | pure a => exact ⟨rfl, hg⟩
  | fail f => exact ⟨rfl, hg⟩
  | readExact n c ih =>
    simp only [execD] at hg ⊢
    have key := readExact_agree h s n
    generalize s.readExact D n = x at hg key ⊢
    obtain ⟨f | x, s1⟩ := x
    · obtain ⟨h1, h2⟩ := key hg
      rw [h1]
      exact ⟨rfl, h2⟩
    · obtain ⟨i1, i2⟩ := ih x s1 hg
      obtain ⟨h1, h2⟩ := key i2
      rw [h1]
      exact ⟨i1, h2⟩
  | read n c ih =>
    simp only [execD] at hg ⊢
    have key := read_agree h s n
    generalize s.read D n = x at hg key ⊢
    obtain ⟨f | x, s1⟩ := x
    · obtain ⟨h1, h2⟩ := key hg
      rw [h1]
      exact ⟨rfl, h2⟩
    · obtain ⟨i1, i2⟩ := ih x s1 hg
      obtain ⟨h1, h2⟩ := key i2
      rw [h1]
      exact ⟨i1, h2⟩
  | seek n c ih =>
    simp only [execD] at hg ⊢
    have key := seek_agree h s n
    generalize s.seek D n = x at hg key ⊢
    obtain ⟨f | x, s1⟩ := x
    · obtain ⟨h1, h2⟩ := key hg
      rw [h1]
      exact ⟨rfl, h2⟩
    · obtain ⟨i1, i2⟩ := ih x s1 hg
      obtain ⟨h1, h2⟩ := key i2
      rw [h1]
      exact ⟨i1, h2⟩
  | tell c ih =>
    simp only [execD] at hg ⊢
    have key := tell_agree h s
    generalize s.tell D = x at hg key ⊢
    obtain ⟨f | x, s1⟩ := x
    · obtain ⟨h1, h2⟩ := key hg
      rw [h1]
      exact ⟨rfl, h2⟩
    · obtain ⟨i1, i2⟩ := ih x s1 hg
      obtain ⟨h1, h2⟩ := key i2
      rw [h1]
      exact ⟨i1, h2⟩
  | readUntil n c ih =>
    simp only [execD] at hg ⊢
    have key := readUntil_agree h s n
    generalize s.readUntil D n = x at hg key ⊢
    obtain ⟨f | x, s1⟩ := x
    · obtain ⟨h1, h2⟩ := key hg
      rw [h1]
      exact ⟨rfl, h2⟩
    · obtain ⟨i1, i2⟩ := ih x s1 hg
      obtain ⟨h1, h2⟩ := key i2
      rw [h1]
      exact ⟨i1, h2⟩

theorem execOnD_agree {α : Type} (h : Agree D D' g good) (b : Bool) (p : Prog α) (st : σ) (hg : good (execOnD D b p st).2) :
    execOnD D' b p (g st) = Prod.map id g (execOnD D b p st) ∧ good st := by
  obtain ⟨h1, h2⟩ := execD_agree h p ⟨st, b, []⟩ hg
  refine ⟨?_, h2⟩
  unfold execOnD
  rw [show (⟨g st, b, []⟩ : DRd σ') = DRd.map g ⟨st, b, []⟩ from rfl, h1]
  rfl

theorem generic_agree (h : Agree D D' g good) (ft : Features) (st : σ) (hg : good (fromGenericReaderD D ft st).2) :
    fromGenericReaderD D' ft (g st) = Prod.map id g (fromGenericReaderD D ft st) ∧ good st := by
  unfold fromGenericReaderD at hg ⊢
  split at hg
  · rename_i ht
    rw [if_pos ht, if_pos ht]
    have key := execOnD_agree h true txtReader st
    cases hx : execOnD D true txtReader st with
    | mk r st1 =>
      rw [hx] at hg key
      obtain (_ | _ | _) | _ := r <;> (obtain ⟨h1, h2⟩ := key hg; rw [h1]; exact ⟨rfl, h2⟩)
  · rename_i ht
    rw [if_neg ht, if_neg ht]
    exact ⟨rfl, hg⟩

theorem fmt_agree (h : Agree D D' g good) (cfg : Cfg) (ft : Features) (fmt : FileFormat) (st : σ)
    (hg : good (fromFmtReaderD D cfg ft fmt st).2) :
    fromFmtReaderD D' cfg ft fmt (g st) = Prod.map id g (fromFmtReaderD D cfg ft fmt st) ∧ good st := by
  unfold fromFmtReaderD at hg ⊢
  cases hf : fmtReader cfg ft fmt with
  | none => rw [hf] at hg; exact ⟨rfl, hg⟩
  | some x =>
    obtain ⟨b, p⟩ := x
    rw [hf] at hg
    exact execOnD_agree h _ _ _ hg

/-- If detection on `D` ends in a good state, detection on `D'` is the same. -/
theorem fromDevice_agree (h : Agree D D' g good) (cfg : Cfg) (ft : Features) (st : σ)
    (hg : good (fromDevice D cfg ft st).2) : fromDevice D' cfg ft (g st) = Prod.map id g (fromDevice D cfg ft st) ∧ good st := by
  unfold fromDevice at hg ⊢
  have key := h.read st bufferSize
  generalize D.read st bufferSize = x at hg key ⊢
  obtain ⟨e | buf, st1⟩ := x
  · obtain ⟨h1, h2⟩ := key hg
    rw [h1]
    exact ⟨by trivial, h2⟩
  · simp only at hg
    by_cases h0 : buf.length = 0
    · rw [if_pos h0] at hg
      obtain ⟨h1, h2⟩ := key hg
      rw [h1]
      simp only [Prod.map_apply, id_eq, if_pos h0]
      exact ⟨by trivial, h2⟩
    · rw [if_neg h0] at hg
      cases hs : fromSignature buf with
      | none =>
        rw [hs] at hg
        obtain ⟨i1, i2⟩ := generic_agree h ft st1 hg
        obtain ⟨h1, h2⟩ := key i2
        rw [h1]
        simp only [Prod.map_apply, id_eq, if_neg h0, hs]
        exact ⟨i1, h2⟩
      | some fmt =>
        rw [hs] at hg
        simp only at hg
        have kf := fmt_agree h cfg ft fmt st1
        cases hy : fromFmtReaderD D cfg ft fmt st1
        rename_i y st2
        rw [hy] at hg kf
        obtain (e | _ | _) | f := y
        · obtain ⟨i1, i2⟩ := generic_agree h ft st2 hg
          obtain ⟨j1, j2⟩ := kf i2
          obtain ⟨h1, h2⟩ := key j2
          rw [h1]
          simp only [Prod.map_apply, id_eq, if_neg h0, hs, j1, hy]
          exact ⟨i1, h2⟩
        · obtain ⟨j1, j2⟩ := kf hg
          obtain ⟨h1, h2⟩ := key j2
          rw [h1]
          simp only [Prod.map_apply, id_eq, if_neg h0, hs, j1, hy]
          exact ⟨by trivial, h2⟩
        · obtain ⟨j1, j2⟩ := kf hg
          obtain ⟨h1, h2⟩ := key j2
          rw [h1]
          simp only [Prod.map_apply, id_eq, if_neg h0, hs, j1, hy]
          exact ⟨by trivial, h2⟩
        · obtain ⟨j1, j2⟩ := kf hg
          obtain ⟨h1, h2⟩ := key j2
          rw [h1]
          simp only [Prod.map_apply, id_eq, if_neg h0, hs, j1, hy]
          exact ⟨by trivial, h2⟩

end FF
