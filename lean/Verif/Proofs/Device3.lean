import Verif.Proofs.Device2
/-!
# The ID3v2 reader on devices that end
-/

namespace FF
open FileFormat Spec

variable {σ : Type} {D : Device σ} {position : σ → Nat} {len : Nat} {α β : Type}

/-- Unless the program ends with an error, it ends with a value and a state satisfying `Q`. -/
def W (D : Device σ) (p : Prog α) (s : DRd σ) (Q : α → DRd σ → Prop) : Prop :=
  match execD D p s with
  | (.ok a, s') => Q a s'
  | (.error (.err _), _) => True
  | _ => False

theorem execD_bind (p : Prog α) (f : α → Prog β) (s : DRd σ) :
    execD D (p >>= f) s =
      match execD D p s with
      | (.ok a, s') => execD D (f a) s'
      | (.error e, s') => (.error e, s') := by
  show execD D (p.bind f) s = _
  induction p generalizing s with
  | pure a => rfl
  | fail e => rfl
  | readExact n c ih =>
    simp only [Prog.bind, execD]
    cases s.readExact D n with
    | mk r s' => cases r with
      | ok a => exact ih _ _
      | error e => rfl
  | read n c ih =>
    simp only [Prog.bind, execD]
    cases s.read D n with
    | mk r s' => cases r with
      | ok a => exact ih _ _
      | error e => rfl
  | seek n c ih =>
    simp only [Prog.bind, execD]
    cases s.seek D n with
    | mk r s' => cases r with
      | ok a => exact ih _ _
      | error e => rfl
  | tell c ih =>
    simp only [Prog.bind, execD]
    cases s.tell D with
    | mk r s' => cases r with
      | ok a => exact ih _ _
      | error e => rfl
  | readUntil n c ih =>
    simp only [Prog.bind, execD]
    cases s.readUntil D n with
    | mk r s' => cases r with
      | ok a => exact ih _ _
      | error e => rfl

theorem W.bind {p : Prog α} {f : α → Prog β} {s : DRd σ} {P : α → DRd σ → Prop}
    {Q : β → DRd σ → Prop} (h : W D p s P) (hf : ∀ a s', P a s' → W D (f a) s' Q) :
    W D (p >>= f) s Q := by
  unfold W at h ⊢
  rw [execD_bind]
  generalize execD D p s = x at h
  obtain ⟨r, s'⟩ := x
  rcases r with (_ | _ | _) | a
  · trivial
  · exact h.elim
  · exact h.elim
  · exact hf a s' h

theorem W.pure {a : α} {s : DRd σ} {Q : α → DRd σ → Prop} (h : Q a s) :
    W D (Pure.pure a : Prog α) s Q := h

theorem W.ok {x : Except Fail α} {a : α} {f : α → Prog β} {s : DRd σ} {Q : β → DRd σ → Prop}
    (hx : x = .ok a) (h : W D (f a) s Q) : W D (Prog.lift x >>= f) s Q := by
  subst hx; exact h

/-- Working directly on the device. -/
def DRd.Direct (s : DRd σ) : Prop := s.buffered = false ∧ s.buf = []

theorem DRd.read_direct {s : DRd σ} (hs : s.Direct) {n : Nat} {r : Except ErrKind Bytes} {st : σ}
    (hx : D.read s.st n = (r, st)) : s.read D n = (r, { s with st := st }) := by
  unfold DRd.read
  rw [if_pos hs.1, hx]

theorem DRd.seek_direct {s : DRd σ} (hs : s.Direct) {p : SeekFrom} {r : Except ErrKind Nat} {st : σ}
    (hx : D.seek s.st p = (r, st)) : s.seek D p = (r, { s with st := st }) := by
  unfold DRd.seek
  rw [if_pos hs.1, hx]

theorem W.start (hE : D.Ending position len) {s : DRd σ} (hs : s.Direct) (n : Nat) :
    W D (Prog.sk (.start n)) s (fun _ s' => s'.Direct ∧ position s'.st = n) := by
  unfold W
  simp only [Prog.sk, execD]
  cases hx : D.seek s.st (.start n) with
  | mk r st =>
    rw [DRd.seek_direct hs hx]
    cases r with
    | error e => trivial
    | ok q => exact ⟨hs, hE.start _ _ _ _ hx⟩

theorem readExactLoop_position (hL : D.Lawful) (hE : D.Ending position len) (fuel : Nat) (s : DRd σ)
    (hs : s.Direct) (n : Nat) (acc bs : Bytes) (s' : DRd σ)
    (hr : DRd.readExactLoop D fuel s n acc = (.ok bs, s')) :
    s'.Direct ∧ position s'.st = position s.st + n ∧ (0 < n → position s'.st ≤ len) := by
  induction fuel generalizing s n acc with
  | zero =>
    cases n with
    | zero => simp only [DRd.readExactLoop] at hr; cases hr; exact ⟨hs, rfl, fun h => absurd h (by omega)⟩
    | succ n => simp only [DRd.readExactLoop] at hr; cases hr
  | succ fuel ih =>
    cases n with
    | zero => simp only [DRd.readExactLoop] at hr; cases hr; exact ⟨hs, rfl, fun h => absurd h (by omega)⟩
    | succ n =>
      simp only [DRd.readExactLoop] at hr
      cases hx : D.read s.st (n + 1) with
      | mk r st =>
        rw [DRd.read_direct hs hx] at hr
        cases r with
        | ok x =>
          simp only at hr
          split at hr
          · cases hr
          · rename_i hl
            have h1 := hE.positioned.read _ _ _ _ hx
            have h2 := hE.bounded _ _ _ _ hx (fun h => hl (by rw [h]; rfl))
            have h3 := hL.read_le _ _ _ _ hx
            obtain ⟨i1, i2, i3⟩ := ih ⟨st, s.buffered, s.buf⟩ hs _ _ hr
            refine ⟨i1, ?_, fun _ => ?_⟩
            · rw [i2]; show position st + _ = _; omega
            · rw [i2] at i3 ⊢
              have i3 : 0 < n + 1 - x.length → position st + (n + 1 - x.length) ≤ len := i3
              show position st + _ ≤ _
              omega
        | error e =>
          simp only at hr
          split at hr
          · rename_i he
            subst he
            have h1 := hE.interrupted _ _ _ hx
            obtain ⟨i1, i2, i3⟩ := ih ⟨st, s.buffered, s.buf⟩ hs _ _ hr
            refine ⟨i1, ?_, i3⟩
            rw [i2]; show position st + _ = _; omega
          · cases hr

theorem W.exact (hL : D.Lawful) (hE : D.Ending position len) {s : DRd σ} (hs : s.Direct) (n : Nat) :
    W D (Prog.rdExact n) s (fun x s' => x.length = n ∧ s'.Direct ∧
      position s'.st = position s.st + n ∧ (0 < n → position s'.st ≤ len)) := by
  unfold W
  simp only [Prog.rdExact, execD]
  cases hx : s.readExact D n with
  | mk r s' =>
    obtain ⟨_, h2⟩ := DRd.readExact_spec (position := position) hL s
      ⟨fun _ => by rw [hs.2]; exact Nat.zero_le _, fun _ => hs.2⟩ n hx
    rcases h2 with ⟨x, rfl, hl⟩ | ⟨e, rfl⟩
    · refine ⟨hl, ?_⟩
      unfold DRd.readExact at hx
      rw [if_neg (by rw [hs.1]; rintro ⟨h, _⟩; cases h)] at hx
      exact readExactLoop_position hL hE _ s hs n [] _ _ hx
    · trivial

theorem W.u32be (hL : D.Lawful) (hE : D.Ending position len) {s : DRd σ} (hs : s.Direct) :
    W D readU32be s (fun x s' => x < 2 ^ 32 ∧ s'.Direct) := by
  unfold readU32be
  refine (W.exact hL hE hs 4).bind fun x s' h => W.pure ⟨?_, h.2.1⟩
  have := beNat_lt x
  rw [h.1] at this
  exact this

theorem id3Loop_ends (hL : D.Lawful) (hE : D.Ending position len) (hlen : len < 2 ^ 63) (cfg : Cfg)
    (fuel off : Nat) (hf : len < off + 10 * fuel) (h0 : 0 < fuel) (s : DRd σ) (hs : s.Direct) :
    W D (id3Loop cfg fuel off) s (fun _ s' => s'.Direct) := by
  induction fuel generalizing off s with
  | zero => omega
  | succ fuel ih =>
    unfold id3Loop
    refine (W.start hE hs off).bind fun _ s1 h1 => ?_
    refine (W.exact hL hE h1.1 10).bind fun x s2 h2 => ?_
    obtain ⟨hx, hd, hp, hle⟩ := h2
    have hle := hle (by omega)
    rw [hp, h1.2] at hle
    refine W.ok (sliceIdx_ok (by omega) (by omega)) ?_
    split
    · exact W.pure hd
    · refine W.ok (index_ok (i := 6) (by omega)) (W.ok (index_ok (i := 7) (by omega))
        (W.ok (index_ok (i := 8) (by omega)) (W.ok (index_ok (i := 9) (by omega))
        (W.ok (index_ok (i := 5) (by omega)) ?_))))
      have ht := id3TagSize_lt x[6] x[7] x[8] x[9]
      generalize id3TagSize x[6] x[7] x[8] x[9] = t at ht
      refine W.ok (u64Add_ok cfg (a := off) (b := 10) (by omega))
        (W.ok (u64Add_ok cfg (a := off + 10) (b := t) (by omega)) ?_)
      refine W.bind (P := fun n s' => s'.Direct ∧ off + 10 ≤ n ∧ n < 2 ^ 63 + 2 ^ 33) ?_ ?_
      · unfold id3Extended
        split
        · refine (W.u32be hL hE hd).bind fun n s3 h3 => ?_
          have hn := h3.1
          rw [u64Add_ok cfg (a := off + 10 + t) (b := n) (by omega)]
          exact ⟨h3.2, by omega, by omega⟩
        · exact W.pure ⟨hd, by omega, by omega⟩
      · rintro n s3 ⟨hd3, hn1, hn2⟩
        have : ∃ n', id3Footer cfg x[5] n = .ok n' ∧ n ≤ n' := by
          unfold id3Footer
          split
          · exact ⟨n + 10, u64Add_ok cfg (by omega), by omega⟩
          · exact ⟨n, rfl, Nat.le_refl _⟩
        obtain ⟨n', hn', hle'⟩ := this
        refine W.ok hn' ?_
        cases fuel with
        | zero => omega
        | succ fuel => exact ih _ (by omega) (by omega) _ hd3

/-- On a device that ends, the ID3v2 reader returns, in release and checked builds. -/
theorem id3v2_ends (hL : D.Lawful) (hE : D.Ending position len) (hlen : len < 2 ^ 63) (cfg : Cfg)
    (st : σ) : NotCrash (execOnD D false (id3v2Reader cfg) st).1 := by
  have h : W D (id3v2Reader cfg) ⟨st, false, []⟩ (fun _ _ => True) := by
    unfold id3v2Reader
    refine (id3Loop_ends hL hE hlen cfg _ _ (by simp only [id3Fuel]; omega) (by simp [id3Fuel]) _
      ⟨rfl, rfl⟩).bind fun off s1 h1 => ?_
    refine (W.start hE h1 off).bind fun _ s2 h2 => ?_
    refine (W.exact hL hE h2.1 4).bind fun x s3 h3 => ?_
    split
    · trivial
    · refine W.ok (sliceIdx_ok (by have := h3.1; omega) (by omega)) ?_
      split <;> trivial
  unfold W at h
  unfold execOnD
  generalize execD D (id3v2Reader cfg) ⟨st, false, []⟩ = x at h
  obtain ⟨r, s⟩ := x
  rcases r with (_ | _ | _) | a
  · trivial
  · exact h.elim
  · exact h.elim
  · trivial

end FF
