import Verif.Spec.Metered
import Verif.Proofs.Device3
/-!
# Counting the calls of programs on arbitrary devices
-/

namespace FF
open FileFormat Spec

variable {σ : Type} {D : Device σ} {calls : σ → Nat}

/-- Calls made so far, and interruptions still to come. -/
def pot (D : Device σ) (calls : σ → Nat) (st : σ) : Nat := calls st + D.patience st

theorem pot_read (hL : D.Lawful) (hM : D.Meter calls) {st st' : σ} {n : Nat} {r : Except ErrKind Bytes}
    (h : D.read st n = (r, st')) :
    pot D calls st' ≤ pot D calls st + 1 ∧ (r = .error .interrupted → pot D calls st' ≤ pot D calls st) := by
  have h1 := hM.read st n
  have h2 := hL.read_patience _ _ _ _ h
  rw [h] at h1
  unfold pot
  refine ⟨by simp only at h1; omega, ?_⟩
  rintro rfl
  have := hL.interrupted _ _ _ h
  simp only at h1
  omega

theorem pot_seek (hL : D.Lawful) (hM : D.Meter calls) {st st' : σ} {p : SeekFrom} {r : Except ErrKind Nat}
    (h : D.seek st p = (r, st')) : pot D calls st' ≤ pot D calls st + 1 := by
  have h1 := hM.seek st p
  have h2 := hL.seek_patience _ _ _ _ h
  rw [h] at h1
  unfold pot
  simp only at h1; omega

theorem pot_tell (hL : D.Lawful) (hM : D.Meter calls) {st st' : σ} {r : Except ErrKind Nat}
    (h : D.tell st = (r, st')) : pot D calls st' ≤ pot D calls st + 1 := by
  have h1 := hM.tell st
  have h2 := hL.tell_patience _ _ _ h
  rw [h] at h1
  unfold pot
  simp only at h1; omega

theorem fillBuf_pot (hL : D.Lawful) (hM : D.Meter calls) (s : DRd σ) {r : Except ErrKind Bytes} {s' : DRd σ}
    (hr : s.fillBuf D = (r, s')) :
    pot D calls s'.st ≤ pot D calls s.st + 1 ∧ (r = .error .interrupted → pot D calls s'.st ≤ pot D calls s.st) := by
  unfold DRd.fillBuf at hr
  split at hr
  · cases hx : D.read s.st bufCapacity with
    | mk x st =>
      have hp := pot_read hL hM hx
      rw [hx] at hr
      cases x with
      | ok bs => cases hr; exact ⟨hp.1, fun h => nomatch h⟩
      | error e => cases hr; exact hp
  · cases hr
    exact ⟨Nat.le_succ _, fun h => nomatch h⟩

theorem read_pot (hL : D.Lawful) (hM : D.Meter calls) (s : DRd σ) (n : Nat) {r : Except ErrKind Bytes} {s' : DRd σ}
    (hr : s.read D n = (r, s')) :
    pot D calls s'.st ≤ pot D calls s.st + 1 ∧ (r = .error .interrupted → pot D calls s'.st ≤ pot D calls s.st) := by
  unfold DRd.read at hr
  split at hr
  · cases hx : D.read s.st n with
    | mk x st =>
      rw [hx] at hr
      cases hr
      exact pot_read hL hM hx
  · split at hr
    · cases hx : D.read s.st n with
      | mk x st =>
        rw [hx] at hr
        cases hr
        exact pot_read hL hM hx
    · cases hx : s.fillBuf D with
      | mk x s1 =>
        have := fillBuf_pot hL hM s hx
        rw [hx] at hr
        cases x with
        | ok avail => cases hr; exact ⟨this.1, fun h => nomatch h⟩
        | error e => cases hr; exact this

theorem readExactLoop_pot (hL : D.Lawful) (hM : D.Meter calls) (fuel : Nat) (s : DRd σ) (n : Nat) (acc : Bytes)
    {r : Except Fail Bytes} {s' : DRd σ} (hr : DRd.readExactLoop D fuel s n acc = (r, s')) :
    pot D calls s'.st ≤ pot D calls s.st + n := by
  induction fuel generalizing s n acc with
  | zero =>
    cases n with
    | zero => simp only [DRd.readExactLoop] at hr; cases hr; exact Nat.le_refl _
    | succ n => simp only [DRd.readExactLoop] at hr; cases hr; exact Nat.le_add_right _ _
  | succ fuel ih =>
    cases n with
    | zero => simp only [DRd.readExactLoop] at hr; cases hr; exact Nat.le_refl _
    | succ n =>
      simp only [DRd.readExactLoop] at hr
      cases hx : s.read D (n + 1) with
      | mk x s1 =>
        obtain ⟨h1, h2⟩ := read_pot hL hM s (n + 1) hx
        rw [hx] at hr
        cases x with
        | ok bs =>
          simp only at hr
          split at hr
          · cases hr; omega
          · rename_i hl
            have := ih s1 _ _ hr
            omega
        | error e =>
          simp only at hr
          split at hr
          · rename_i he
            subst he
            have := h2 rfl
            have := ih s1 _ _ hr
            omega
          · cases hr; omega

theorem readExact_pot (hL : D.Lawful) (hM : D.Meter calls) (s : DRd σ) (n : Nat)
    {r : Except Fail Bytes} {s' : DRd σ} (hr : s.readExact D n = (r, s')) : pot D calls s'.st ≤ pot D calls s.st + n := by
  unfold DRd.readExact at hr
  split at hr
  · cases hr; exact Nat.le_add_right _ _
  · exact readExactLoop_pot hL hM _ s n [] hr

theorem readUntilLoop_pot (hL : D.Lawful) (hM : D.Meter calls) (fuel : Nat) (s : DRd σ) (n : Nat) (acc : Bytes)
    {r : Except Fail Bytes} {s' : DRd σ} (hr : DRd.readUntilLoop D fuel s n acc = (r, s')) :
    pot D calls s'.st ≤ pot D calls s.st + n := by
  induction fuel generalizing s n acc with
  | zero =>
    cases n with
    | zero => simp only [DRd.readUntilLoop] at hr; cases hr; exact Nat.le_refl _
    | succ n => simp only [DRd.readUntilLoop] at hr; cases hr; exact Nat.le_add_right _ _
  | succ fuel ih =>
    cases n with
    | zero => simp only [DRd.readUntilLoop] at hr; cases hr; exact Nat.le_refl _
    | succ n =>
      simp only [DRd.readUntilLoop] at hr
      cases hx : s.fillBuf D with
      | mk x s1 =>
        obtain ⟨h1, h2⟩ := fillBuf_pot hL hM s hx
        rw [hx] at hr
        cases x with
        | error e =>
          simp only at hr
          split at hr
          · rename_i he
            subst he
            have := h2 rfl
            have := ih s1 _ _ hr
            omega
          · cases hr; omega
        | ok buf =>
          simp only at hr
          generalize uptoNewline (buf.take (n + 1)) = used at hr
          split at hr
          · cases hr; omega
          · split at hr
            · cases hr
              show pot D calls s1.st ≤ _
              omega
            · have := ih _ _ _ hr
              have : pot D calls s'.st ≤ pot D calls s1.st + (n + 1 - used.length) := this
              omega

theorem seek_pot (hL : D.Lawful) (hM : D.Meter calls) (s : DRd σ) (p : SeekFrom)
    {r : Except ErrKind Nat} {s' : DRd σ} (hr : s.seek D p = (r, s')) : pot D calls s'.st ≤ pot D calls s.st + 2 := by
  unfold DRd.seek at hr
  split at hr
  · cases hx : D.seek s.st p with
    | mk x st =>
      have := pot_seek hL hM hx
      rw [hx] at hr
      cases hr
      show pot D calls st ≤ _
      omega
  · split at hr
    · rename_i i
      split at hr
      · cases hx : D.seek s.st (.current (i - s.buf.length)) with
        | mk x st =>
          have := pot_seek hL hM hx
          rw [hx] at hr
          cases x <;> (cases hr; show pot D calls st ≤ _; omega)
      · cases hx : D.seek s.st (.current (-s.buf.length)) with
        | mk x st =>
          have := pot_seek hL hM hx
          rw [hx] at hr
          cases x with
          | error e => cases hr; show pot D calls st ≤ _; omega
          | ok _ =>
            simp only at hr
            cases hy : D.seek st (.current i) with
            | mk y st2 =>
              have := pot_seek hL hM hy
              rw [hy] at hr
              cases y <;> (cases hr; show pot D calls st2 ≤ _; omega)
    · cases hx : D.seek s.st p with
      | mk x st =>
        have := pot_seek hL hM hx
        rw [hx] at hr
        cases x <;> (cases hr; show pot D calls st ≤ _; omega)

theorem tell_pot (hL : D.Lawful) (hM : D.Meter calls) (s : DRd σ)
    {r : Except Fail Nat} {s' : DRd σ} (hr : s.tell D = (r, s')) : pot D calls s'.st ≤ pot D calls s.st + 1 := by
  unfold DRd.tell at hr
  cases hx : D.tell s.st with
  | mk x st =>
    have := pot_tell hL hM hx
    rw [hx] at hr
    cases x with
    | error e => cases hr; exact this
    | ok q =>
      simp only at hr
      split at hr
      · cases hr; exact this
      · split at hr <;> (cases hr; exact this)

/-- The calls an operation may take, interruptions apart. -/
def Op.cost : Op → Nat
  | .readExact n => n
  | .read _ => 1
  | .seek _ => 2
  | .tell => 1
  | .readUntil n => n

/-- The calls of a program: for each of its operations the calls that it may take. -/
theorem execD_pot {α : Type} (hL : D.Lawful) (hM : D.Meter calls) {O : Op → Prop} {F : Fail → Prop} {Q : α → Prop} (c : Nat)
    (p : Prog α) (k : Nat) (b : Bool) (hp : All O F Q p k) (hO : ∀ o, O o → o.untilBuffered b) (hc : ∀ o, O o → o.cost ≤ c)
    (s : DRd σ) (h : s.Inv D (fun _ => 0)) (hb : s.buffered = b) :
    pot D calls (execD D p s).2.st ≤ pot D calls s.st + k * c := by
  have step : ∀ (k x y z d : Nat), 1 ≤ k → d ≤ c → y ≤ x + d → z ≤ y + (k - 1) * c → z ≤ x + k * c := by
    intro k x y z d hk hd hy hz
    obtain ⟨j, rfl⟩ : ∃ j, k = j + 1 := ⟨k - 1, by omega⟩
    rw [Nat.add_sub_cancel] at hz
    rw [Nat.succ_mul]
    omega
  have stop : ∀ (k x y d : Nat), 1 ≤ k → d ≤ c → y ≤ x + d → y ≤ x + k * c := by
    intro k x y d hk hd hy
    exact step k x y y d hk hd hy (Nat.le_add_right _ _)
  induction p generalizing s k with
  | pure a => exact Nat.le_add_right _ _
  | fail f => exact Nat.le_add_right _ _
  | readExact n cont ih =>
    cases hx : s.readExact D n with
    | mk r s' =>
      obtain ⟨h1, h2⟩ := DRd.readExact_spec hL s h n hx
      have hpot := readExact_pot hL hM s n hx
      simp only [execD, hx]
      rcases h2 with ⟨bs, rfl, hl⟩ | ⟨e, rfl⟩
      · exact step k _ _ _ _ hp.2.1 (hc _ hp.1) hpot (ih bs _ (hp.2.2 bs hl) s' h1.inv (h1.buffered.trans hb))
      · exact stop k _ _ _ hp.2.1 (hc _ hp.1) hpot
  | read n cont ih =>
    cases hx : s.read D n with
    | mk r s' =>
      obtain ⟨h1, h2, _⟩ := DRd.read_spec hL s h n hx
      have hpot := (read_pot hL hM s n hx).1
      simp only [execD, hx]
      cases r with
      | ok bs => exact step k _ _ _ _ hp.2.1 (hc _ hp.1) hpot (ih bs _ (hp.2.2 bs (h2 _ rfl)) s' h1.inv (h1.buffered.trans hb))
      | error e => exact stop k _ _ _ hp.2.1 (hc _ hp.1) hpot
  | seek p cont ih =>
    cases hx : s.seek D p with
    | mk r s' =>
      have hpot := seek_pot hL hM s p hx
      simp only [execD, hx]
      cases r with
      | ok q =>
        have h1 := DRd.seek_spec hL s h p hx
        exact step k _ _ _ _ hp.2.1 (hc _ hp.1) hpot (ih q _ (hp.2.2 q) s' h1.inv (h1.buffered.trans hb))
      | error e => exact stop k _ _ _ hp.2.1 (hc _ hp.1) hpot
  | tell cont ih =>
    cases hx : s.tell D with
    | mk r s' =>
      have hpot := tell_pot hL hM s hx
      simp only [execD, hx]
      rcases DRd.tell_spec hL s h hx with ⟨q, rfl, h1⟩ | ⟨e, rfl⟩ | ⟨rfl, _⟩
      · exact step k _ _ _ _ hp.2.1 (hc _ hp.1) hpot (ih q _ (hp.2.2 q) s' h1.inv (h1.buffered.trans hb))
      · exact stop k _ _ _ hp.2.1 (hc _ hp.1) hpot
      · exact stop k _ _ _ hp.2.1 (hc _ hp.1) hpot
  | readUntil n cont ih =>
    have hbt : b = true := by simpa [Op.untilBuffered] using hO _ hp.1
    cases hx : s.readUntil D n with
    | mk r s' =>
      obtain ⟨h1, h2⟩ := DRd.readUntil_spec hL s h (hb.trans hbt) n hx
      have hpot := readUntilLoop_pot hL hM _ s n [] hx
      simp only [execD, hx]
      rcases h2 with ⟨bs, rfl, hl⟩ | ⟨e, rfl⟩
      · exact step k _ _ _ _ hp.2.1 (hc _ hp.1) hpot (ih bs _ (hp.2.2 bs hl) s' h1.inv (h1.buffered.trans hb))
      · exact stop k _ _ _ hp.2.1 (hc _ hp.1) hpot

/-! ## Invariants of the device -/

variable {limit : Nat} {ok : σ → Prop}

theorem fillBuf_keeps (hK : D.Keeps limit ok) (hl : 8192 ≤ limit) (s : DRd σ) (h : ok s.st) : ok (s.fillBuf D).2.st := by
  have hk := hK.read s.st bufCapacity hl h
  unfold DRd.fillBuf
  split
  · generalize D.read s.st bufCapacity = x at hk
    obtain ⟨_ | _, st⟩ := x <;> exact hk
  · exact h

theorem read_keeps (hK : D.Keeps limit ok) (hl : 8192 ≤ limit) (s : DRd σ) (n : Nat) (hn : n ≤ limit) (h : ok s.st) :
    ok (s.read D n).2.st := by
  have hk := hK.read s.st n hn h
  unfold DRd.read
  split
  · exact hk
  · split
    · exact hk
    · have := fillBuf_keeps hK hl s h
      generalize s.fillBuf D = x at this
      obtain ⟨_ | _, st⟩ := x <;> exact this

theorem readExactLoop_keeps (hK : D.Keeps limit ok) (hl : 8192 ≤ limit) (fuel : Nat) (s : DRd σ) (n : Nat) (hn : n ≤ limit)
    (acc : Bytes) (h : ok s.st) : ok (DRd.readExactLoop D fuel s n acc).2.st := by
  induction fuel generalizing s n acc with
  | zero => cases n <;> exact h
  | succ fuel ih =>
    cases n with
    | zero => exact h
    | succ n =>
      simp only [DRd.readExactLoop]
      have hr := read_keeps hK hl s (n + 1) hn h
      generalize s.read D (n + 1) = x at hr
      obtain ⟨e | bs, s1⟩ := x
      · simp only
        split
        · exact ih s1 _ hn _ hr
        · exact hr
      · simp only
        split
        · exact hr
        · exact ih s1 _ (by omega) _ hr

theorem readExact_keeps (hK : D.Keeps limit ok) (hl : 8192 ≤ limit) (s : DRd σ) (n : Nat) (hn : n ≤ limit) (h : ok s.st) :
    ok (s.readExact D n).2.st := by
  unfold DRd.readExact
  split
  · exact h
  · exact readExactLoop_keeps hK hl _ s n hn [] h

theorem readUntilLoop_keeps (hK : D.Keeps limit ok) (hl : 8192 ≤ limit) (fuel : Nat) (s : DRd σ) (n : Nat)
    (acc : Bytes) (h : ok s.st) : ok (DRd.readUntilLoop D fuel s n acc).2.st := by
  induction fuel generalizing s n acc with
  | zero => cases n <;> exact h
  | succ fuel ih =>
    cases n with
    | zero => exact h
    | succ n =>
      simp only [DRd.readUntilLoop]
      have hr := fillBuf_keeps hK hl s h
      generalize s.fillBuf D = x at hr
      obtain ⟨e | buf, s1⟩ := x
      · simp only
        split
        · exact ih s1 _ _ hr
        · exact hr
      · simp only
        generalize uptoNewline (buf.take (n + 1)) = used
        split
        · exact hr
        · split
          · exact hr
          · exact ih _ _ _ hr

theorem seek_keeps (hK : D.Keeps limit ok) (s : DRd σ) (p : SeekFrom) (h : ok s.st) : ok (s.seek D p).2.st := by
  have hk := fun p => hK.seek s.st p h
  unfold DRd.seek
  split
  · exact hk p
  · split
    · rename_i i
      split
      · have := hk (.current (i - s.buf.length))
        generalize D.seek s.st (.current (i - s.buf.length)) = x at this
        obtain ⟨_ | _, st⟩ := x <;> exact this
      · have := hk (.current (-s.buf.length))
        generalize D.seek s.st (.current (-s.buf.length)) = x at this
        obtain ⟨_ | _, st⟩ := x
        · exact this
        · have h2 := hK.seek st (.current i) this
          simp only
          generalize D.seek st (.current i) = y at h2
          obtain ⟨_ | _, st2⟩ := y <;> exact h2
    · have := hk p
      generalize D.seek s.st p = x at this
      obtain ⟨_ | _, st⟩ := x <;> exact this

theorem tell_keeps (hK : D.Keeps limit ok) (s : DRd σ) (h : ok s.st) : ok (s.tell D).2.st := by
  have := hK.tell s.st h
  unfold DRd.tell
  generalize D.tell s.st = x at this
  obtain ⟨_ | q, st⟩ := x
  · exact this
  · simp only
    split
    · exact this
    · split <;> exact this

/-- A program with requests of at most `limit` bytes keeps what such calls keep. -/
theorem execD_keeps {α : Type} (hL : D.Lawful) (hK : D.Keeps limit ok) (hl : 8192 ≤ limit) {O : Op → Prop} {F : Fail → Prop}
    {Q : α → Prop} (p : Prog α) (k : Nat) (b : Bool) (hp : All O F Q p k) (hO : ∀ o, O o → o.untilBuffered b)
    (hn : ∀ n, O (.readExact n) ∨ O (.read n) → n ≤ limit)
    (s : DRd σ) (h : s.Inv D (fun _ => 0)) (hb : s.buffered = b) (hs : ok s.st) : ok (execD D p s).2.st := by
  induction p generalizing s k with
  | pure a => exact hs
  | fail f => exact hs
  | readExact n cont ih =>
    have hk := readExact_keeps hK hl s n (hn n (Or.inl hp.1)) hs
    cases hx : s.readExact D n with
    | mk r s' =>
      obtain ⟨h1, h2⟩ := DRd.readExact_spec hL s h n hx
      rw [hx] at hk
      simp only [execD, hx]
      rcases h2 with ⟨bs, rfl, hl⟩ | ⟨e, rfl⟩
      · exact ih bs _ (hp.2.2 bs hl) s' h1.inv (h1.buffered.trans hb) hk
      · exact hk
  | read n cont ih =>
    have hk := read_keeps hK hl s n (hn n (Or.inr hp.1)) hs
    cases hx : s.read D n with
    | mk r s' =>
      obtain ⟨h1, h2, _⟩ := DRd.read_spec hL s h n hx
      rw [hx] at hk
      simp only [execD, hx]
      cases r with
      | ok bs => exact ih bs _ (hp.2.2 bs (h2 _ rfl)) s' h1.inv (h1.buffered.trans hb) hk
      | error e => exact hk
  | seek p cont ih =>
    have hk := seek_keeps hK s p hs
    cases hx : s.seek D p with
    | mk r s' =>
      rw [hx] at hk
      simp only [execD, hx]
      cases r with
      | ok q =>
        have h1 := DRd.seek_spec hL s h p hx
        exact ih q _ (hp.2.2 q) s' h1.inv (h1.buffered.trans hb) hk
      | error e => exact hk
  | tell cont ih =>
    have hk := tell_keeps hK s hs
    cases hx : s.tell D with
    | mk r s' =>
      rw [hx] at hk
      simp only [execD, hx]
      rcases DRd.tell_spec hL s h hx with ⟨q, rfl, h1⟩ | ⟨e, rfl⟩ | ⟨rfl, _⟩
      · exact ih q _ (hp.2.2 q) s' h1.inv (h1.buffered.trans hb) hk
      · exact hk
      · exact hk
  | readUntil n cont ih =>
    have hbt : b = true := by simpa [Op.untilBuffered] using hO _ hp.1
    have hk : ok (s.readUntil D n).2.st := readUntilLoop_keeps hK hl _ s n [] hs
    cases hx : s.readUntil D n with
    | mk r s' =>
      obtain ⟨h1, h2⟩ := DRd.readUntil_spec hL s h (hb.trans hbt) n hx
      rw [hx] at hk
      simp only [execD, hx]
      rcases h2 with ⟨bs, rfl, hl⟩ | ⟨e, rfl⟩
      · exact ih bs _ (hp.2.2 bs hl) s' h1.inv (h1.buffered.trans hb) hk
      · exact hk

/-! ## The tag loop with less fuel -/

/-- `q` does what `p` does, where `p` does not give up. -/
inductive Ext {α : Type} : Prog α → Prog α → Prop where
  | diverge (q : Prog α) : Ext (.fail .diverge) q
  | pure (a : α) : Ext (.pure a) (.pure a)
  | fail (f : Fail) : Ext (.fail f) (.fail f)
  | readExact (n : Nat) {c c' : Bytes → Prog α} (h : ∀ x, Ext (c x) (c' x)) : Ext (.readExact n c) (.readExact n c')
  | read (n : Nat) {c c' : Bytes → Prog α} (h : ∀ x, Ext (c x) (c' x)) : Ext (.read n c) (.read n c')
  | seek (p : SeekFrom) {c c' : Nat → Prog α} (h : ∀ x, Ext (c x) (c' x)) : Ext (.seek p c) (.seek p c')
  | tell {c c' : Nat → Prog α} (h : ∀ x, Ext (c x) (c' x)) : Ext (.tell c) (.tell c')
  | readUntil (n : Nat) {c c' : Bytes → Prog α} (h : ∀ x, Ext (c x) (c' x)) : Ext (.readUntil n c) (.readUntil n c')

theorem Ext.refl {α : Type} (p : Prog α) : Ext p p := by
  induction p with
  | pure a => exact .pure a
  | fail f => exact .fail f
  | readExact n c ih => exact .readExact n ih
  | read n c ih => exact .read n ih
  | seek n c ih => exact .seek n ih
  | tell c ih => exact .tell ih
  | readUntil n c ih => exact .readUntil n ih

theorem Ext.cont {α β : Type} (p : Prog α) {f g : α → Prog β} (h : ∀ a, Ext (f a) (g a)) : Ext (p >>= f) (p >>= g) := by
  show Ext (p.bind f) (p.bind g)
  induction p with
  | pure a => exact h a
  | fail e => exact .fail e
  | readExact n c ih => exact .readExact n ih
  | read n c ih => exact .read n ih
  | seek n c ih => exact .seek n ih
  | tell c ih => exact .tell ih
  | readUntil n c ih => exact .readUntil n ih

theorem Ext.exec {α : Type} {p q : Prog α} (h : Ext p q) (s : DRd σ) (hd : (execD D p s).1 ≠ .error .diverge) :
    execD D q s = execD D p s := by
  induction h generalizing s with
  | diverge q => exact absurd rfl hd
  | pure a => rfl
  | fail f => rfl
  | readExact n h ih =>
    simp only [execD] at hd ⊢
    generalize s.readExact D n = x at hd ⊢
    obtain ⟨_ | x, s'⟩ := x
    · rfl
    · exact ih x s' hd
  | read n h ih =>
    simp only [execD] at hd ⊢
    generalize s.read D n = x at hd ⊢
    obtain ⟨_ | x, s'⟩ := x
    · rfl
    · exact ih x s' hd
  | seek n h ih =>
    simp only [execD] at hd ⊢
    generalize s.seek D n = x at hd ⊢
    obtain ⟨_ | x, s'⟩ := x
    · rfl
    · exact ih x s' hd
  | tell h ih =>
    simp only [execD] at hd ⊢
    generalize s.tell D = x at hd ⊢
    obtain ⟨_ | x, s'⟩ := x
    · rfl
    · exact ih x s' hd
  | readUntil n h ih =>
    simp only [execD] at hd ⊢
    generalize s.readUntil D n = x at hd ⊢
    obtain ⟨_ | x, s'⟩ := x
    · rfl
    · exact ih x s' hd

theorem id3Loop_ext (cfg : Cfg) (k m off : Nat) : Ext (id3Loop cfg k off) (id3Loop cfg (k + m) off) := by
  induction k generalizing off with
  | zero => exact .diverge _
  | succ k ih =>
    rw [show k + 1 + m = (k + m) + 1 by omega]
    unfold id3Loop
    refine Ext.cont _ fun _ => Ext.cont _ fun buf => Ext.cont _ fun magic => ?_
    split
    · exact .refl _
    · refine Ext.cont _ fun _ => Ext.cont _ fun _ => Ext.cont _ fun _ => Ext.cont _ fun _ => Ext.cont _ fun _ =>
        Ext.cont _ fun _ => Ext.cont _ fun _ => Ext.cont _ fun _ => Ext.cont _ fun next => ih next

theorem Ext.bind {α β : Type} {p q : Prog α} (h : Ext p q) (f : α → Prog β) : Ext (p >>= f) (q >>= f) := by
  show Ext (p.bind f) (q.bind f)
  induction h with
  | diverge q => exact .diverge _
  | pure a => exact .refl _
  | fail e => exact .fail e
  | readExact n _ ih => exact .readExact n ih
  | read n _ ih => exact .read n ih
  | seek n _ ih => exact .seek n ih
  | tell _ ih => exact .tell ih
  | readUntil n _ ih => exact .readUntil n ih

/-- What follows the tag loop (`src/readers.rs` 508-530). -/
def id3Rest (offset : Nat) : Prog FileFormat := do
  let _ ← Prog.sk (.start offset)
  let buf ← readBytes 4
  if buf = b!"fLaC" then pure FreeLosslessAudioCodec
  else
    let two ← Prog.lift (sliceIdx buf 0 2)
    if mp3Syncs.contains two then pure Mpeg12AudioLayer3
    else pure Id3v2

/-- The calls of the ID3v2 reader on a device that ends. -/
theorem id3v2_pot (hL : D.Lawful) (hM : D.Meter calls) {position : σ → Nat} {len : Nat} (hE : D.Ending position len)
    (hlen : len < 2 ^ 63) (cfg : Cfg) (st : σ) :
    pot D calls (execOnD D false (id3v2Reader cfg) st).2 ≤ pot D calls st + (3 * (len / 10 + 1) + 2) * 64 := by
  have hcost : ∀ o, OpEx false 64 o → o.cost ≤ 64 := by
    rintro o ⟨_, h2⟩
    cases o <;> simp only [Op.cost, Op.size] at h2 ⊢ <;> omega
  obtain ⟨m, hm⟩ : ∃ m, id3Fuel = len / 10 + 1 + m := ⟨id3Fuel - (len / 10 + 1), by simp only [id3Fuel]; omega⟩
  have hext : Ext (id3Loop cfg (len / 10 + 1) 0 >>= id3Rest) (id3v2Reader cfg) := by
    show Ext _ (id3Loop cfg id3Fuel 0 >>= id3Rest)
    rw [hm]
    exact (id3Loop_ext cfg _ m 0).bind _
  have hall : All (OpEx false 64) (IsErrD cfg) (fun _ => True) (id3Loop cfg (len / 10 + 1) 0 >>= id3Rest) (3 * (len / 10 + 1) + 2) := by
    refine All.bind (k' := 2) (id3Loop_all cfg _ _) (by omega) (fun off _ => ?_)
    simp only [id3Rest, all_sk_bind, all_readBytes_bind, opEx_seek, opEx_readExact, true_and]
    refine ⟨by omega, fun _ => ⟨by omega, by omega, fun y hy => ?_⟩⟩
    split
    · simp
    · rw [sliceIdx_ok (by omega) (by omega)]
      simp only [all_lift_ok_bind]
      split <;> simp
  have hw : W D (id3Loop cfg (len / 10 + 1) 0 >>= id3Rest) ⟨st, false, []⟩ (fun _ _ => True) := by
    refine (id3Loop_ends hL hE hlen cfg _ _ (by omega) (by omega) _ ⟨rfl, rfl⟩).bind fun off s1 h1 => ?_
    unfold id3Rest
    refine (W.start hE h1 off).bind fun _ s2 h2 => ?_
    refine (W.exact hL hE h2.1 4).bind fun x s3 h3 => ?_
    split
    · trivial
    · refine W.ok (sliceIdx_ok (by have := h3.1; omega) (by omega)) ?_
      split <;> trivial
  have hnd : (execD D (id3Loop cfg (len / 10 + 1) 0 >>= id3Rest) ⟨st, false, []⟩).1 ≠ .error .diverge := by
    unfold W at hw
    intro h
    generalize execD D (id3Loop cfg (len / 10 + 1) 0 >>= id3Rest) ⟨st, false, []⟩ = x at hw h
    obtain ⟨r, s⟩ := x
    simp only at h
    subst h
    exact hw
  have h1 := execD_pot (calls := calls) hL hM 64 _ _ false hall (fun _ => OpEx.until _) hcost
    (⟨st, false, []⟩ : DRd σ) (DRd.inv_nil st _) rfl
  simp only [execOnD]
  rw [hext.exec _ hnd]
  exact h1

end FF
