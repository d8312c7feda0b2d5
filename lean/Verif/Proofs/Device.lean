import Verif.Spec.Device
import Verif.Proofs.Total
/-!
# Programs on arbitrary devices
-/

namespace FF
open FileFormat Spec

variable {σ : Type} {D : Device σ} {position : σ → Nat}

/-- The buffer is no longer than the device's position, if the device has one of its own, and the
unbuffered object has none. -/
structure DRd.Inv (D : Device σ) (position : σ → Nat) (s : DRd σ) : Prop where
  le : D.Positioned position → s.buf.length ≤ position s.st
  unbuf : s.buffered = false → s.buf = []

/-- `s'` is `s` after some calls. -/
structure DRd.Next (D : Device σ) (position : σ → Nat) (s s' : DRd σ) : Prop where
  patience : D.patience s'.st ≤ D.patience s.st
  buffered : s'.buffered = s.buffered
  inv : s'.Inv D position

theorem DRd.Next.trans {a b c : DRd σ} (h : a.Next D position b) (k : b.Next D position c) :
    a.Next D position c :=
  ⟨Nat.le_trans k.patience h.patience, k.buffered.trans h.buffered, k.inv⟩

theorem DRd.Next.refl {a : DRd σ} (h : a.Inv D position) : a.Next D position a :=
  ⟨Nat.le_refl _, rfl, h⟩

theorem DRd.consume_next {s : DRd σ} (h : s.Inv D position) (n : Nat) :
    s.Next D position (s.consume n) := by
  refine ⟨Nat.le_refl _, rfl, fun hp => ?_, fun hu => ?_⟩
  · have := h.le hp
    simp only [DRd.consume, List.length_drop]
    omega
  · simp [DRd.consume, h.unbuf hu]

/-- An object with an empty buffer satisfies the invariant. -/
theorem DRd.inv_nil (st : σ) (b : Bool) : DRd.Inv D position ⟨st, b, []⟩ :=
  ⟨fun _ => Nat.zero_le _, fun _ => rfl⟩

theorem DRd.fillBuf_spec (hL : D.Lawful) (s : DRd σ) (h : s.Inv D position)
    (hb : s.buffered = true) {r : Except ErrKind Bytes} {s' : DRd σ}
    (hr : s.fillBuf D = (r, s')) :
    s.Next D position s' ∧ (∀ bs, r = .ok bs → s'.buf = bs) ∧
      (r = .error .interrupted → D.patience s'.st < D.patience s.st) := by
  unfold DRd.fillBuf at hr
  split at hr
  · rename_i he
    have he : s.buf = [] := List.isEmpty_iff.mp he
    cases hx : D.read s.st bufCapacity with
    | mk x st =>
      have hp := hL.read_patience _ _ _ _ hx
      rw [hx] at hr
      cases x with
      | ok bs =>
        cases hr
        refine ⟨⟨hp, rfl, fun hq => ?_, fun hu => ?_⟩, fun _ h => (Except.ok.inj h), fun h => by cases h⟩
        · have := hq.read _ _ _ _ hx
          show bs.length ≤ position st
          omega
        · simp only [hb] at hu; cases hu
      | error e =>
        cases hr
        refine ⟨⟨hp, rfl, fun _ => by simp [he], fun _ => he⟩, (fun _ h => by cases h), ?_⟩
        intro h
        cases h
        exact hL.interrupted _ _ _ hx
  · cases hr
    exact ⟨.refl h, fun _ h => Except.ok.inj h, fun h => by cases h⟩

theorem DRd.read_spec (hL : D.Lawful) (s : DRd σ) (h : s.Inv D position) (n : Nat)
    {r : Except ErrKind Bytes} {s' : DRd σ} (hr : s.read D n = (r, s')) :
    s.Next D position s' ∧ (∀ bs, r = .ok bs → bs.length ≤ n) ∧
      (r = .error .interrupted → D.patience s'.st < D.patience s.st) := by
  have bypass : s.buf = [] → ∀ x st, D.read s.st n = (x, st) →
      s.Next D position { s with st := st } ∧ (∀ bs, x = .ok bs → bs.length ≤ n) ∧
      (x = .error .interrupted → D.patience st < D.patience s.st) := by
    intro he x st hx
    refine ⟨⟨hL.read_patience _ _ _ _ hx, rfl, fun _ => by simp [he], fun _ => he⟩, ?_, ?_⟩
    · rintro bs rfl
      exact hL.read_le _ _ _ _ hx
    · rintro rfl
      exact hL.interrupted _ _ _ hx
  unfold DRd.read at hr
  split at hr
  · rename_i hb
    cases hx : D.read s.st n with
    | mk x st =>
      rw [hx] at hr
      cases hr
      exact bypass (h.unbuf hb) _ _ hx
  · rename_i hb
    have hb : s.buffered = true := by revert hb; cases s.buffered <;> simp
    split at hr
    · rename_i he
      cases hx : D.read s.st n with
      | mk x st =>
        rw [hx] at hr
        cases hr
        exact bypass (List.isEmpty_iff.mp he.1) _ _ hx
    · cases hx : s.fillBuf D with
      | mk x s1 =>
        obtain ⟨h1, _, h3⟩ := DRd.fillBuf_spec hL s h hb hx
        rw [hx] at hr
        cases x with
        | ok avail =>
          cases hr
          refine ⟨h1.trans (DRd.consume_next h1.inv _), fun bs hbs => ?_, fun h => by cases h⟩
          cases hbs
          simp only [List.length_take]
          omega
        | error e =>
          cases hr
          exact ⟨h1, (fun _ h => by cases h), h3⟩

theorem DRd.readExactLoop_spec (hL : D.Lawful) (fuel : Nat) (s : DRd σ) (h : s.Inv D position)
    (n : Nat) (acc : Bytes) (hf : n + D.patience s.st < fuel)
    {r : Except Fail Bytes} {s' : DRd σ} (hr : DRd.readExactLoop D fuel s n acc = (r, s')) :
    s.Next D position s' ∧
      ((∃ bs, r = .ok bs ∧ bs.length = acc.length + n) ∨ ∃ e, r = .error (.err e)) := by
  induction fuel generalizing s n acc with
  | zero => omega
  | succ fuel ih =>
    cases n with
    | zero =>
      simp only [DRd.readExactLoop] at hr
      cases hr
      exact ⟨.refl h, Or.inl ⟨acc, rfl, rfl⟩⟩
    | succ n =>
      simp only [DRd.readExactLoop] at hr
      cases hx : s.read D (n + 1) with
      | mk x s1 =>
        obtain ⟨h1, h2, h3⟩ := DRd.read_spec hL s h (n + 1) hx
        have hp := h1.patience
        rw [hx] at hr
        cases x with
        | ok bs =>
          have hle := h2 _ rfl
          simp only at hr
          split at hr
          · cases hr
            exact ⟨h1, Or.inr ⟨_, rfl⟩⟩
          · rename_i hl
            obtain ⟨i1, i2⟩ := ih s1 h1.inv _ _ (by omega) hr
            refine ⟨h1.trans i1, i2.imp ?_ id⟩
            rintro ⟨x, hx, hl'⟩
            refine ⟨x, hx, ?_⟩
            rw [List.length_append] at hl'
            omega
        | error e =>
          simp only at hr
          split at hr
          · rename_i he
            subst he
            have := h3 rfl
            obtain ⟨i1, i2⟩ := ih s1 h1.inv _ _ (by omega) hr
            exact ⟨h1.trans i1, i2⟩
          · cases hr
            exact ⟨h1, Or.inr ⟨_, rfl⟩⟩

theorem DRd.readExact_spec (hL : D.Lawful) (s : DRd σ) (h : s.Inv D position) (n : Nat)
    {r : Except Fail Bytes} {s' : DRd σ} (hr : s.readExact D n = (r, s')) :
    s.Next D position s' ∧
      ((∃ bs, r = .ok bs ∧ bs.length = n) ∨ ∃ e, r = .error (.err e)) := by
  unfold DRd.readExact at hr
  split at hr
  · rename_i hb
    cases hr
    exact ⟨DRd.consume_next h _, Or.inl ⟨_, rfl, by simp only [List.length_take]; omega⟩⟩
  · have := DRd.readExactLoop_spec hL _ s h n [] (by omega) hr
    simpa using this

theorem DRd.seek_spec (hL : D.Lawful) (s : DRd σ) (h : s.Inv D position) (p : SeekFrom)
    {q : Nat} {s' : DRd σ} (hr : s.seek D p = (.ok q, s')) : s.Next D position s' := by
  have key : ∀ st, D.patience st ≤ D.patience s.st →
      s.Next D position { s with st := st, buf := [] } := fun st hp =>
    ⟨hp, rfl, fun _ => Nat.zero_le _, fun _ => rfl⟩
  unfold DRd.seek at hr
  split at hr
  · rename_i hb
    cases hx : D.seek s.st p with
    | mk x st =>
      rw [hx] at hr
      cases hr
      have := key st (hL.seek_patience _ _ _ _ hx)
      have he := h.unbuf hb
      rw [← he] at this
      exact this
  · split at hr
    · rename_i i
      split at hr
      · cases hx : D.seek s.st (.current (i - s.buf.length)) with
        | mk x st =>
          rw [hx] at hr
          cases x with
          | ok q => cases hr; exact key st (hL.seek_patience _ _ _ _ hx)
          | error e => cases hr
      · cases hx : D.seek s.st (.current (-s.buf.length)) with
        | mk x st =>
          rw [hx] at hr
          cases x with
          | error e => cases hr
          | ok _ =>
            simp only at hr
            cases hy : D.seek st (.current i) with
            | mk y st2 =>
              rw [hy] at hr
              cases y with
              | ok q =>
                cases hr
                exact key st2 (Nat.le_trans (hL.seek_patience _ _ _ _ hy) (hL.seek_patience _ _ _ _ hx))
              | error e => cases hr
    · cases hx : D.seek s.st p with
      | mk x st =>
        rw [hx] at hr
        cases x with
        | ok q => cases hr; exact key st (hL.seek_patience _ _ _ _ hx)
        | error e => cases hr

theorem DRd.tell_spec (hL : D.Lawful) (s : DRd σ) (h : s.Inv D position)
    {r : Except Fail Nat} {s' : DRd σ} (hr : s.tell D = (r, s')) :
    ((∃ q, r = .ok q ∧ s.Next D position s') ∨ (∃ e, r = .error (.err e)) ∨
      (r = .error .panic ∧ s.buffered = true ∧ ¬ D.Positioned position)) := by
  unfold DRd.tell at hr
  cases hx : D.tell s.st with
  | mk x st =>
    have hp := hL.tell_patience _ _ _ hx
    rw [hx] at hr
    cases x with
    | error e => cases hr; exact Or.inr (Or.inl ⟨e, rfl⟩)
    | ok q =>
      have key : s.Next D position { s with st := st } := by
        refine ⟨hp, rfl, fun hq => ?_, h.unbuf⟩
        have := (hq.tell _ _ _ hx).2
        have := h.le hq
        show s.buf.length ≤ position st
        omega
      simp only at hr
      split at hr
      · cases hr; exact Or.inl ⟨_, rfl, key⟩
      · rename_i hb
        split at hr
        · cases hr; exact Or.inl ⟨_, rfl, key⟩
        · rename_i hl
          cases hr
          refine Or.inr (Or.inr ⟨rfl, ?_, fun hq => ?_⟩)
          · revert hb; cases s.buffered <;> simp
          · have := (hq.tell _ _ _ hx).1
            have := h.le hq
            omega

theorem uptoNewline_length_le (l : Bytes) : (uptoNewline l).length ≤ l.length := by
  induction l with
  | nil => simp [uptoNewline]
  | cons b t ih =>
    unfold uptoNewline
    split
    · simp
    · simp only [List.length_cons]; omega

theorem DRd.readUntilLoop_spec (hL : D.Lawful) (fuel : Nat) (s : DRd σ) (h : s.Inv D position)
    (hb : s.buffered = true) (n : Nat) (acc : Bytes) (hf : n + D.patience s.st < fuel)
    {r : Except Fail Bytes} {s' : DRd σ} (hr : DRd.readUntilLoop D fuel s n acc = (r, s')) :
    s.Next D position s' ∧
      ((∃ bs, r = .ok bs ∧ bs.length ≤ acc.length + n) ∨ ∃ e, r = .error (.err e)) := by
  induction fuel generalizing s n acc with
  | zero => omega
  | succ fuel ih =>
    cases n with
    | zero =>
      simp only [DRd.readUntilLoop] at hr
      cases hr
      exact ⟨.refl h, Or.inl ⟨acc, rfl, Nat.le_refl _⟩⟩
    | succ n =>
      simp only [DRd.readUntilLoop] at hr
      cases hx : s.fillBuf D with
      | mk x s1 =>
        obtain ⟨h1, _, h3⟩ := DRd.fillBuf_spec hL s h hb hx
        have hp := h1.patience
        rw [hx] at hr
        cases x with
        | error e =>
          simp only at hr
          split at hr
          · rename_i he
            subst he
            have := h3 rfl
            obtain ⟨i1, i2⟩ := ih s1 h1.inv (h1.buffered.trans hb) _ _ (by omega) hr
            exact ⟨h1.trans i1, i2⟩
          · cases hr
            exact ⟨h1, Or.inr ⟨_, rfl⟩⟩
        | ok buf =>
          simp only at hr
          have hu := uptoNewline_length_le (buf.take (n + 1))
          have ht : (buf.take (n + 1)).length ≤ n + 1 := by simp only [List.length_take]; omega
          generalize uptoNewline (buf.take (n + 1)) = used at hr hu
          split at hr
          · cases hr
            exact ⟨h1, Or.inl ⟨_, rfl, by omega⟩⟩
          · have hc := h1.trans (DRd.consume_next h1.inv used.length)
            split at hr
            · cases hr
              exact ⟨hc, Or.inl ⟨_, rfl, by rw [List.length_append]; omega⟩⟩
            · have hq := hc.patience
              obtain ⟨i1, i2⟩ := ih _ hc.inv (hc.buffered.trans hb) _ _ (by omega) hr
              refine ⟨hc.trans i1, i2.imp ?_ id⟩
              rintro ⟨x, hx, hl'⟩
              refine ⟨x, hx, ?_⟩
              rw [List.length_append] at hl'
              omega

theorem DRd.readUntil_spec (hL : D.Lawful) (s : DRd σ) (h : s.Inv D position)
    (hb : s.buffered = true) (n : Nat)
    {r : Except Fail Bytes} {s' : DRd σ} (hr : s.readUntil D n = (r, s')) :
    s.Next D position s' ∧
      ((∃ bs, r = .ok bs ∧ bs.length ≤ n) ∨ ∃ e, r = .error (.err e)) := by
  have := DRd.readUntilLoop_spec hL _ s h hb n [] (by omega) hr
  simpa using this

/-- The outcomes of a program on a device: the values and failures found on its paths, errors, and
a panic in `stream_position` if the device has no position of its own. -/
theorem execD_spec {α : Type} (hL : D.Lawful) {O : Op → Prop} {F : Fail → Prop} {Q : α → Prop}
    (p : Prog α) (k : Nat) (b : Bool) (hp : All O F Q p k) (hO : ∀ o, O o → o.untilBuffered b)
    (hT : D.Positioned position ∨ b = false ∨ ¬ O .tell)
    (s : DRd σ) (h : s.Inv D position) (hb : s.buffered = b) :
    (∃ a, (execD D p s).1 = .ok a ∧ Q a) ∨
      (∃ f, (execD D p s).1 = .error f ∧ (F f ∨ ∃ e, f = .err e)) := by
  induction p generalizing s k with
  | pure a => exact Or.inl ⟨a, rfl, hp⟩
  | fail f => exact Or.inr ⟨f, rfl, Or.inl hp⟩
  | readExact n c ih =>
    cases hx : s.readExact D n with
    | mk r s' =>
      obtain ⟨h1, h2⟩ := DRd.readExact_spec hL s h n hx
      simp only [execD, hx]
      rcases h2 with ⟨bs, rfl, hl⟩ | ⟨e, rfl⟩
      · exact ih bs _ (hp.2.2 bs hl) s' h1.inv (h1.buffered.trans hb)
      · exact Or.inr ⟨_, rfl, Or.inr ⟨e, rfl⟩⟩
  | read n c ih =>
    cases hx : s.read D n with
    | mk r s' =>
      obtain ⟨h1, h2, _⟩ := DRd.read_spec hL s h n hx
      simp only [execD, hx]
      cases r with
      | ok bs => exact ih bs _ (hp.2.2 bs (h2 _ rfl)) s' h1.inv (h1.buffered.trans hb)
      | error e => exact Or.inr ⟨_, rfl, Or.inr ⟨e, rfl⟩⟩
  | seek q c ih =>
    cases hx : s.seek D q with
    | mk r s' =>
      simp only [execD, hx]
      cases r with
      | ok q' =>
        have h1 := DRd.seek_spec hL s h q hx
        exact ih q' _ (hp.2.2 q') s' h1.inv (h1.buffered.trans hb)
      | error e => exact Or.inr ⟨_, rfl, Or.inr ⟨e, rfl⟩⟩
  | tell c ih =>
    cases hx : s.tell D with
    | mk r s' =>
      simp only [execD, hx]
      rcases DRd.tell_spec hL s h hx with ⟨q, rfl, h1⟩ | ⟨e, rfl⟩ | ⟨rfl, h1, h2⟩
      · exact ih q _ (hp.2.2 q) s' h1.inv (h1.buffered.trans hb)
      · exact Or.inr ⟨_, rfl, Or.inr ⟨e, rfl⟩⟩
      · exfalso
        rcases hT with hT | hT | hT
        · exact h2 hT
        · rw [hb, hT] at h1; cases h1
        · exact hT hp.1
  | readUntil n c ih =>
    have hbt : s.buffered = true := by
      have := hO _ hp.1
      rw [hb]
      simpa [Op.untilBuffered] using this
    cases hx : s.readUntil D n with
    | mk r s' =>
      obtain ⟨h1, h2⟩ := DRd.readUntil_spec hL s h hbt n hx
      simp only [execD, hx]
      rcases h2 with ⟨bs, rfl, hl⟩ | ⟨e, rfl⟩
      · exact ih bs _ (hp.2.2 bs hl) s' h1.inv (h1.buffered.trans hb)
      · exact Or.inr ⟨_, rfl, Or.inr ⟨e, rfl⟩⟩

end FF
