import Verif.Proofs.Total
import Verif.Spec.Calls
/-!
# Counting the calls on the stream

`Spent bad N W s s'`: between `s` and `s'` the stream served at most `N` calls, not counting reads
that used up an event of the kind `bad`, and no read asked for more than `W` bytes.
-/

namespace FF
open FileFormat

/-- See above. -/
def Spent (bad : Ev → Bool) (N W : Nat) (s s' : Src) : Prop :=
  ∃ l, s'.log = l ++ s.log ∧ l.length + load bad s'.revs ≤ N + load bad s.revs ∧
    ∀ n, Call.read n ∈ l → n ≤ W

variable {bad : Ev → Bool} {N M W : Nat}

theorem Spent.refl (s : Src) : Spent bad 0 W s s := ⟨[], rfl, by simp, by simp⟩

theorem Spent.le {s s' : Src} (h : Spent bad N W s s') (hN : N ≤ M) : Spent bad M W s s' := by
  obtain ⟨l, h1, h2, h3⟩ := h
  exact ⟨l, h1, by omega, h3⟩

theorem Spent.mono {bad : Ev → Bool} {N W W' : Nat} {s s' : Src} (h : Spent bad N W s s')
    (hW : W ≤ W') : Spent bad N W' s s' := by
  obtain ⟨l, h1, h2, h3⟩ := h
  exact ⟨l, h1, h2, fun n hn => Nat.le_trans (h3 n hn) hW⟩

theorem Spent.trans {a b c : Src} (h : Spent bad N W a b) (k : Spent bad M W b c) :
    Spent bad (N + M) W a c := by
  obtain ⟨l, h1, h2, h3⟩ := h
  obtain ⟨m, k1, k2, k3⟩ := k
  refine ⟨m ++ l, by rw [k1, h1, List.append_assoc], by simp; omega, ?_⟩
  intro n hn
  rcases List.mem_append.mp hn with hn | hn
  · exact k3 n hn
  · exact h3 n hn

theorem Spent.step {a b c : Src} (h : Spent bad N W a b) (k : Spent bad M W b c) {K : Nat}
    (hK : N + M ≤ K) : Spent bad K W a c := (h.trans k).le hK

/-- One `read` on the stream: either it is free (its event is bad), or it costs one call and its
event is good or missing. -/
theorem Src.read_cost (bad : Ev → Bool) (s : Src) (n : Nat) (hn : n ≤ W) :
    Spent bad 1 W s (s.read n).2 ∧
    ((∃ e es, s.revs = e :: es ∧ bad e = true ∧ Spent bad 0 W s (s.read n).2) ∨
      s.revs = [] ∨ ∃ e es, s.revs = e :: es ∧ bad e = false) := by
  have hl : (s.read n).2.log = [.read n] ++ s.log := by
    unfold Src.read
    split <;> rfl
  have hr : (s.read n).2.revs = s.revs.tail := by
    unfold Src.read
    split
    · rename_i h; simp [h]
    · rename_i h; simp [h]
    · rename_i h; simp [h]
    · rename_i h; simp [h]
  refine ⟨⟨_, hl, ?_, by simpa using hn⟩, ?_⟩
  · rw [hr]
    cases s.revs with
    | nil => simp [load]
    | cons e es => simp [load, List.countP_cons]
  · cases he : s.revs with
    | nil => exact Or.inr (Or.inl rfl)
    | cons e es =>
      cases hb : bad e with
      | false => exact Or.inr (Or.inr ⟨e, es, rfl, hb⟩)
      | true =>
        refine Or.inl ⟨e, es, rfl, hb, _, hl, ?_, by simpa using hn⟩
        rw [hr, he]
        simp [load, hb]; omega

theorem Src.seek_cost (s : Src) (p : SeekFrom) : Spent bad 1 W s (s.seek p).2 := by
  refine ⟨[.seek], ?_, ?_, by simp⟩
  · unfold Src.seek
    split
    · rfl
    · split <;> rfl
  · have : (s.seek p).2.revs = s.revs := by
      unfold Src.seek
      split
      · rfl
      · split <;> rfl
    rw [this]; simp

theorem Src.tell_cost (s : Src) : Spent bad 1 W s s.tell.2 := by
  refine ⟨[.seek], ?_, ?_, by simp⟩
  · unfold Src.tell
    split <;> rfl
  · have : s.tell.2.revs = s.revs := by
      unfold Src.tell
      split <;> rfl
    rw [this]; simp

theorem Rd.seek_cost (s : Rd) (p : SeekFrom) : Spent bad 2 W s.src (s.seek p).2.src := by
  unfold Rd.seek
  split
  · exact (Src.seek_cost s.src p).le (by omega)
  · split
    · split
      · rename_i i _
        have := Src.seek_cost (bad := bad) (W := W) s.src (.current (i - s.buf.length))
        split
        · rename_i h; rw [h] at this; exact this.le (by omega)
        · rename_i h; rw [h] at this; exact this.le (by omega)
      · rename_i i _
        have h1 := Src.seek_cost (bad := bad) (W := W) s.src (.current (-s.buf.length))
        split
        · rename_i h; rw [h] at h1; exact h1.le (by omega)
        · rename_i src h
          rw [h] at h1
          have h2 := Src.seek_cost (bad := bad) (W := W) src (.current i)
          split
          · rename_i h; rw [h] at h2; exact h1.trans h2
          · rename_i h; rw [h] at h2; exact h1.trans h2
    · have := Src.seek_cost (bad := bad) (W := W) s.src p
      split
      · rename_i h; rw [h] at this; exact this.le (by omega)
      · rename_i h; rw [h] at this; exact this.le (by omega)

theorem Rd.tell_cost (s : Rd) : Spent bad 1 W s.src s.tell.2.src := by
  have := Src.tell_cost (bad := bad) (W := W) s.src
  unfold Rd.tell
  split
  · rename_i h; rw [h] at this; exact this
  · rename_i h; rw [h] at this
    split
    · exact this
    · split <;> exact this

/-- Filling the buffer costs nothing when it is not empty. -/
theorem Rd.fillBuf_cost (bad : Ev → Bool) (s : Rd) (hW : bufCapacity ≤ W) :
    Spent bad 1 W s.src s.fillBuf.2.src ∧
    (Spent bad 0 W s.src s.fillBuf.2.src ∨
      (s.buf = [] ∧ (s.src.revs = [] ∨ ∃ e es, s.src.revs = e :: es ∧ bad e = false))) := by
  unfold Rd.fillBuf
  split
  · rename_i he
    have he' : s.buf = [] := by simpa using he
    obtain ⟨h1, h2⟩ := Src.read_cost bad s.src bufCapacity hW
    have h3 : Spent bad 0 W s.src (s.src.read bufCapacity).2 ∨
        (s.buf = [] ∧ (s.src.revs = [] ∨ ∃ e es, s.src.revs = e :: es ∧ bad e = false)) := by
      rcases h2 with ⟨_, _, _, _, h⟩ | h
      · exact Or.inl h
      · exact Or.inr ⟨he', h⟩
    split
    · rename_i h; rw [h] at h1 h3; exact ⟨h1, h3⟩
    · rename_i h; rw [h] at h1 h3; exact ⟨h1, h3⟩
  · exact ⟨(Spent.refl _).le (by omega), Or.inl (Spent.refl _)⟩

theorem Rd.read_cost (bad : Ev → Bool) (s : Rd) (n : Nat) (hn : n ≤ W) (hW : bufCapacity ≤ W) :
    Spent bad 1 W s.src (s.read n).2.src ∧
    (Spent bad 0 W s.src (s.read n).2.src ∨
      ((s.buf = [] ∨ s.buffered = false) ∧
        (s.src.revs = [] ∨ ∃ e es, s.src.revs = e :: es ∧ bad e = false))) := by
  have direct : Spent bad 1 W s.src (s.src.read n).2 ∧
      (Spent bad 0 W s.src (s.src.read n).2 ∨
        (s.src.revs = [] ∨ ∃ e es, s.src.revs = e :: es ∧ bad e = false)) := by
    obtain ⟨h1, h2⟩ := Src.read_cost bad s.src n hn
    refine ⟨h1, ?_⟩
    rcases h2 with ⟨_, _, _, _, h⟩ | h
    · exact Or.inl h
    · exact Or.inr h
  unfold Rd.read
  split
  · rename_i hb
    refine ⟨direct.1, ?_⟩
    rcases direct.2 with h | h
    · exact Or.inl h
    · exact Or.inr ⟨Or.inr hb, h⟩
  · split
    · rename_i hc
      refine ⟨direct.1, ?_⟩
      rcases direct.2 with h | h
      · exact Or.inl h
      · exact Or.inr ⟨Or.inl (by simpa using hc.1), h⟩
    · obtain ⟨h1, h2⟩ := Rd.fillBuf_cost bad s hW
      split
      · rename_i h; rw [h] at h1 h2
        refine ⟨h1, ?_⟩
        rcases h2 with h | h
        · exact Or.inl h
        · exact Or.inr ⟨Or.inl h.1, h.2⟩
      · rename_i h; rw [h] at h1 h2
        refine ⟨h1, ?_⟩
        rcases h2 with h | h
        · exact Or.inl h
        · exact Or.inr ⟨Or.inl h.1, h.2⟩

/-! ## `read_exact`, counted per byte -/

theorem Rd.read_error_event (s : Rd) (n : Nat) (e : ErrKind) (h : (s.read n).1 = .error e) :
    ∃ es, s.src.revs = .error e :: es := by
  have direct : ∀ n, (s.src.read n).1 = .error e → ∃ es, s.src.revs = .error e :: es := by
    intro n h
    unfold Src.read at h
    split at h
    · cases h
    · cases h
    · cases h
    · rename_i e' es he
      cases h
      exact ⟨es, he⟩
  unfold Rd.read at h
  split at h
  · exact direct n h
  · split at h
    · exact direct n h
    · unfold Rd.fillBuf at h
      split at h
      · rename_i hx
        split at hx
        · split at hx
          · cases hx
            cases h
          · cases hx
        · cases hx
          cases h
      · rename_i e' s' hx
        cases h
        split at hx
        · split at hx
          · cases hx
          · rename_i hr
            cases hx
            exact direct _ (by rw [hr])
        · cases hx

theorem Rd.readExactLoop_costI (fuel : Nat) (s : Rd) (n : Nat) (acc : Bytes) (hn : n ≤ W)
    (hW : bufCapacity ≤ W) :
    Spent Ev.isInterrupt n W s.src (Rd.readExactLoop fuel s n acc).2.src := by
  induction fuel generalizing s n acc with
  | zero =>
    cases n with
    | zero => exact Spent.refl _
    | succ n => exact (Spent.refl _).le (by omega)
  | succ fuel ih =>
    cases n with
    | zero => exact Spent.refl _
    | succ n =>
      obtain ⟨h1, h2⟩ := Rd.read_cost Ev.isInterrupt s (n + 1) hn hW
      have he := Rd.read_error_event s (n + 1)
      simp only [Rd.readExactLoop]
      cases hx : s.read (n + 1) with
      | mk r s' =>
        rw [hx] at h1 h2 he
        cases r with
        | ok bs =>
          simp only at h1 h2 ⊢
          split
          · exact h1.le (by omega)
          · exact h1.step (ih s' (n + 1 - bs.length) _ (by omega)) (by omega)
        | error e =>
          simp only at h1 h2 ⊢
          split
          · rename_i hi
            obtain ⟨es, he⟩ := he e rfl
            rcases h2 with h2 | ⟨_, h2 | ⟨e', es', h2, h3⟩⟩
            · exact h2.step (ih s' (n + 1) _ hn) (by omega)
            · rw [he] at h2; cases h2
            · rw [he] at h2
              cases h2
              simp [Ev.isInterrupt, hi] at h3
          · exact h1.le (by omega)

theorem Rd.readExact_costI (s : Rd) (n : Nat) (hn : n ≤ W) (hW : bufCapacity ≤ W) :
    Spent Ev.isInterrupt n W s.src (s.readExact n).2.src := by
  unfold Rd.readExact
  split
  · exact (Spent.refl _).le (by omega)
  · exact Rd.readExactLoop_costI _ s n [] hn hW

theorem Rd.fillBuf_error_event (s : Rd) (e : ErrKind) (h : s.fillBuf.1 = .error e) :
    s.buf = [] ∧ ∃ es, s.src.revs = .error e :: es := by
  unfold Rd.fillBuf at h
  split at h
  · rename_i hb
    refine ⟨by simpa using hb, ?_⟩
    split at h
    · cases h
    · rename_i hx
      cases h
      unfold Src.read at hx
      split at hx
      · cases hx
      · cases hx
      · cases hx
      · rename_i e' es he
        cases hx
        exact ⟨es, he⟩
  · cases h

theorem Rd.readUntilLoop_costI (fuel : Nat) (s : Rd) (n : Nat) (acc : Bytes) (hW : bufCapacity ≤ W) :
    Spent Ev.isInterrupt n W s.src (Rd.readUntilLoop fuel s n acc).2.src := by
  induction fuel generalizing s n acc with
  | zero =>
    cases n with
    | zero => exact Spent.refl _
    | succ n => exact (Spent.refl _).le (by omega)
  | succ fuel ih =>
    cases n with
    | zero => exact Spent.refl _
    | succ n =>
      obtain ⟨h1, h2⟩ := Rd.fillBuf_cost Ev.isInterrupt s hW
      have he := Rd.fillBuf_error_event s
      simp only [Rd.readUntilLoop]
      cases hx : s.fillBuf with
      | mk r s' =>
        rw [hx] at h1 h2 he
        cases r with
        | ok bs =>
          simp only at h1 h2 ⊢
          split
          · exact h1.le (by omega)
          · split
            · exact h1.le (by omega)
            · exact h1.step (ih (s'.consume _) (n + 1 - _) _) (by omega)
        | error e =>
          simp only at h1 h2 ⊢
          split
          · rename_i hi
            obtain ⟨_, es, he⟩ := he e rfl
            rcases h2 with h2 | ⟨_, h2 | ⟨e', es', h2, h3⟩⟩
            · exact h2.step (ih s' (n + 1) _) (by omega)
            · rw [he] at h2; cases h2
            · rw [he] at h2
              cases h2
              simp [Ev.isInterrupt, hi] at h3
          · exact h1.le (by omega)

/-! ## `read_exact`, not counting disturbed reads -/

/-- An undisturbed read delivers everything there is. -/
theorem Src.read_good (s : Src) (n : Nat)
    (h : s.revs = [] ∨ ∃ e es, s.revs = e :: es ∧ Ev.disturbed e = false) :
    (s.read n).1 = .ok (slice s.data s.pos n) ∧ (s.read n).2.data = s.data ∧
      (s.read n).2.pos = s.pos + (slice s.data s.pos n).length := by
  unfold Src.read
  rcases h with h | ⟨e, es, h, he⟩
  · rw [h]
    exact ⟨rfl, rfl, rfl⟩
  · cases e with
    | full =>
      rw [h]
      exact ⟨rfl, rfl, rfl⟩
    | short k => cases he
    | error e => cases he

/-- A read that delivers less than was asked for leaves the buffer empty. -/
theorem Rd.read_short (s : Rd) (n : Nat) (bs : Bytes) (h : (s.read n).1 = .ok bs)
    (hb : s.buffered = false → s.buf = []) (hlt : bs.length < n) : (s.read n).2.buf = [] := by
  unfold Rd.read at h ⊢
  split at h
  · rename_i hbf
    simp only [hbf, if_true]
    exact hb hbf
  · rename_i hbf
    rw [if_neg hbf]
    split at h
    · rename_i hc
      rw [if_pos hc]
      simpa using hc.1
    · rename_i hc
      rw [if_neg hc]
      cases hx : s.fillBuf with
      | mk r s' =>
        rw [hx] at h
        cases r with
        | error e => cases h
        | ok avail =>
          cases h
          have : s'.buf = avail := by
            unfold Rd.fillBuf at hx
            split at hx
            · split at hx
              · cases hx; rfl
              · cases hx
            · cases hx; rfl
          simp only [Rd.consume, this]
          simp only [List.length_take] at hlt
          simp
          omega

theorem Rd.read_error_buf (s : Rd) (n : Nat) (e : ErrKind) (h : (s.read n).1 = .error e) :
    (s.read n).2.buf = s.buf := by
  unfold Rd.read at h ⊢
  split at h
  · rename_i hbf
    simp only [hbf, if_true]
  · rename_i hbf
    rw [if_neg hbf]
    split at h
    · rename_i hc
      rw [if_pos hc]
    · rename_i hc
      rw [if_neg hc]
      cases hx : s.fillBuf with
      | mk r s' =>
        rw [hx] at h
        cases r with
        | ok avail => cases h
        | error e' =>
          unfold Rd.fillBuf at hx
          split at hx
          · split at hx
            · cases hx
            · cases hx; rfl
          · cases hx

/-- Past the end, one more read is the last one. -/
theorem Rd.readExactLoop_costD_eof (fuel : Nat) (s : Rd) (n : Nat) (acc : Bytes) (h : s.Ok)
    (hl : s.src.data.length ≤ s.lpos) (hn : n ≤ W) (hW : bufCapacity ≤ W) :
    Spent Ev.disturbed 1 W s.src (Rd.readExactLoop fuel s n acc).2.src := by
  induction fuel generalizing s acc with
  | zero =>
    cases n with
    | zero => exact (Spent.refl _).le (by omega)
    | succ n => exact (Spent.refl _).le (by omega)
  | succ fuel ih =>
    cases n with
    | zero => exact (Spent.refl _).le (by omega)
    | succ n =>
      obtain ⟨h1, h2⟩ := Rd.read_cost Ev.disturbed s (n + 1) hn hW
      have he := Rd.read_error_event s (n + 1)
      obtain ⟨hle, hbf, hok, hr⟩ := Rd.read_spec s (n + 1) h
      simp only [Rd.readExactLoop]
      cases hx : s.read (n + 1) with
      | mk r s' =>
        rw [hx] at h1 h2 he hle hbf hok hr
        simp only at h1 h2 he hle hbf hok hr
        rcases hr with ⟨k, hk1, hk2, hk5, hr1, hk3, hk4⟩ | ⟨e, hr1, hr2, hr3, hr4⟩
        · subst hr1
          have : k = 0 := by omega
          subst this
          simp only [hk3, if_true]
          exact h1
        · subst hr1
          simp only
          split
          · obtain ⟨es, he⟩ := he e rfl
            rcases h2 with h2 | ⟨_, h2 | ⟨e', es', h2, h3⟩⟩
            · exact h2.step (ih s' _ hok (by rw [hr3, hle.data]; exact hl)) (by omega)
            · rw [he] at h2; cases h2
            · rw [he] at h2
              cases h2
              cases h3
          · exact h1

/-- With an empty buffer, two undisturbed reads settle `read_exact`. -/
theorem Rd.readExactLoop_costD_empty (fuel : Nat) (s : Rd) (n : Nat) (acc : Bytes) (h : s.Ok)
    (hb : s.buf = []) (hn : n ≤ W) (hW : bufCapacity ≤ W) :
    Spent Ev.disturbed 2 W s.src (Rd.readExactLoop fuel s n acc).2.src := by
  induction fuel generalizing s n acc with
  | zero =>
    cases n with
    | zero => exact (Spent.refl _).le (by omega)
    | succ n => exact (Spent.refl _).le (by omega)
  | succ fuel ih =>
    cases n with
    | zero => exact (Spent.refl _).le (by omega)
    | succ n =>
      obtain ⟨h1, h2⟩ := Rd.read_cost Ev.disturbed s (n + 1) hn hW
      have he := Rd.read_error_event s (n + 1)
      have heb := Rd.read_error_buf s (n + 1)
      obtain ⟨hle, hbf, hok, hr⟩ := Rd.read_spec s (n + 1) h
      have hsh := Rd.read_short s (n + 1)
      have hgood : s.src.revs = [] ∨ (∃ e es, s.src.revs = e :: es ∧ Ev.disturbed e = false) →
          ∃ bs, (s.read (n + 1)).1 = .ok bs ∧ (bs.length = n + 1 ∨
            s.src.data.length ≤ (s.read (n + 1)).2.src.pos) := by
        intro hg
        unfold Rd.read
        have hlen := length_slice s.src.data s.src.pos
        split
        · obtain ⟨g1, g2, g3⟩ := Src.read_good s.src (n + 1) hg
          cases hy : s.src.read (n + 1) with
          | mk r src =>
            rw [hy] at g1 g2 g3
            simp only at g1 g2 g3 ⊢
            refine ⟨_, g1, ?_⟩
            rw [g3, hlen]
            omega
        · split
          · obtain ⟨g1, g2, g3⟩ := Src.read_good s.src (n + 1) hg
            cases hy : s.src.read (n + 1) with
            | mk r src =>
              rw [hy] at g1 g2 g3
              simp only at g1 g2 g3 ⊢
              refine ⟨_, g1, ?_⟩
              rw [g3, hlen]
              omega
          · rename_i hc
            have hcap : n + 1 < bufCapacity := by
              rw [hb] at hc
              simp at hc
              omega
            obtain ⟨g1, g2, g3⟩ := Src.read_good s.src bufCapacity hg
            unfold Rd.fillBuf
            rw [if_pos (by simp [hb])]
            cases hy : s.src.read bufCapacity with
            | mk r src =>
              rw [hy] at g1 g2 g3
              simp only at g1 g2 g3
              subst g1
              simp only [Rd.consume]
              refine ⟨_, rfl, ?_⟩
              rw [g3, List.length_take, hlen]
              omega
      simp only [Rd.readExactLoop]
      cases hx : s.read (n + 1) with
      | mk r s' =>
        rw [hx] at h1 h2 he hle hbf hok hr hsh heb hgood
        simp only at h1 h2 he hle hbf hok hr hsh heb hgood
        rcases hr with ⟨k, hk1, hk2, hk5, hr1, hk3, hk4⟩ | ⟨e, hr1, hr2, hr3, hr4⟩
        · subst hr1
          simp only [hk3]
          split
          · exact h1.le (by omega)
          · by_cases hk : k = n + 1
            · subst hk
              rw [Nat.sub_self]
              have : ∀ f a, Rd.readExactLoop f s' 0 a = (.ok a, s') := by
                intro f a; cases f <;> rfl
              rw [this]
              exact h1.le (by omega)
            · have hb' := hsh _ rfl h.unbuf (by rw [hk3]; omega)
              rcases h2 with h2 | ⟨_, h2⟩
              · exact h2.step (ih s' (n + 1 - k) _ hok hb' (by omega)) (by omega)
              · obtain ⟨bs, g1, g2⟩ := hgood h2
                cases g1
                rw [hk3] at g2
                refine h1.step (Rd.readExactLoop_costD_eof fuel s' (n + 1 - k) _ hok ?_ (by omega) hW)
                  (Nat.le_refl 2)
                rw [hle.data]
                simp only [Rd.lpos, hb', List.length_nil, Nat.sub_zero]
                omega
        · subst hr1
          simp only
          split
          · obtain ⟨es, he⟩ := he e rfl
            rcases h2 with h2 | ⟨_, h2 | ⟨e', es', h2, h3⟩⟩
            · exact h2.step (ih s' _ _ hok (by rw [heb e rfl]; exact hb) hn) (by omega)
            · rw [he] at h2; cases h2
            · rw [he] at h2
              cases h2
              cases h3
          · exact h1.le (by omega)

theorem Rd.readExact_costD (s : Rd) (n : Nat) (h : s.Ok) (hn : n ≤ W) (hW : bufCapacity ≤ W) :
    Spent Ev.disturbed 2 W s.src (s.readExact n).2.src := by
  unfold Rd.readExact
  split
  · exact (Spent.refl _).le (by omega)
  · rename_i hc
    by_cases hb : s.buf = []
    · exact Rd.readExactLoop_costD_empty _ s n [] h hb hn hW
    · -- the first round drains the buffer
      have hbf : s.buffered = true := by
        cases hx : s.buffered with
        | true => rfl
        | false => exact absurd (h.unbuf hx) hb
      have hlt : s.buf.length < n := by
        rw [hbf] at hc
        simp at hc
        exact hc
      obtain ⟨m, rfl⟩ : ∃ m, n = m + 1 := ⟨n - 1, by omega⟩
      have hrd : s.read (m + 1) = (.ok (s.buf.take (m + 1)), s.consume (min (m + 1) s.buf.length)) := by
        have hne : s.buf.isEmpty = false := by simpa using hb
        simp [Rd.read, Rd.fillBuf, hbf, hb]
      simp only [Rd.readExactLoop, hrd]
      obtain ⟨hok, _⟩ := Rd.consume_ok s h (min (m + 1) s.buf.length)
      split
      · exact (Spent.refl _).le (by omega)
      · refine Rd.readExactLoop_costD_empty _ (s.consume (min (m + 1) s.buf.length)) _ _ hok ?_ ?_ hW
        · simp [Rd.consume]; omega
        · omega

/-! ## `read_until`, not counting disturbed reads -/

theorem Rd.readUntilLoop_costD_eof (fuel : Nat) (s : Rd) (n : Nat) (acc : Bytes) (h : s.Ok)
    (hbuf : s.buffered = true) (hl : s.src.data.length ≤ s.lpos) (hW : bufCapacity ≤ W) :
    Spent Ev.disturbed 1 W s.src (Rd.readUntilLoop fuel s n acc).2.src := by
  induction fuel generalizing s acc with
  | zero =>
    cases n with
    | zero => exact (Spent.refl _).le (by omega)
    | succ n => exact (Spent.refl _).le (by omega)
  | succ fuel ih =>
    cases n with
    | zero => exact (Spent.refl _).le (by omega)
    | succ n =>
      obtain ⟨h1, h2⟩ := Rd.fillBuf_cost Ev.disturbed s hW
      have he := Rd.fillBuf_error_event s
      obtain ⟨hle, hwf, hbf, hr⟩ := Rd.fillBuf_spec s h
      simp only [Rd.readUntilLoop]
      cases hx : s.fillBuf with
      | mk r s' =>
        rw [hx] at h1 h2 he hle hwf hbf hr
        simp only at h1 h2 he hle hwf hbf hr
        rcases hr with ⟨bs, hr1, hb, hbs, hlen, hlp, hemp, hok⟩ | ⟨e, hr1, hr2, hr3, hr4, hok⟩
        · subst hr1
          have : bs = [] := by
            have := congrArg List.length hbs
            rw [length_slice] at this
            exact List.length_eq_zero_iff.mp (by omega)
          subst this
          simp [uptoNewline]
          exact h1
        · subst hr1
          simp only
          split
          · obtain ⟨_, es, he⟩ := he e rfl
            rcases h2 with h2 | ⟨_, h2 | ⟨e', es', h2, h3⟩⟩
            · exact h2.step (ih s' _ hok (hbf.trans hbuf) (by rw [hr3, hle.data]; exact hl)) (by omega)
            · rw [he] at h2; cases h2
            · rw [he] at h2
              cases h2
              cases h3
          · exact h1

/-- Without a final newline, everything is taken. -/
theorem uptoNewline_all (l : Bytes) (h : (uptoNewline l).getLast? ≠ some 10) : uptoNewline l = l := by
  induction l with
  | nil => rfl
  | cons b t ih =>
    unfold uptoNewline at h ⊢
    split at h
    · rename_i hb; subst hb; simp at h
    · rename_i hb
      rw [if_neg hb]
      congr 1
      apply ih
      intro hc
      apply h
      rw [List.getLast?_cons, hc]
      rfl

theorem Rd.readUntilLoop_costD_empty (fuel : Nat) (s : Rd) (n : Nat) (acc : Bytes) (h : s.Ok)
    (hbuf : s.buffered = true) (hb : s.buf = []) (hW : bufCapacity ≤ W) :
    Spent Ev.disturbed (n / 8192 + 2) W s.src (Rd.readUntilLoop fuel s n acc).2.src := by
  induction fuel generalizing s n acc with
  | zero =>
    cases n with
    | zero => exact (Spent.refl _).le (by omega)
    | succ n => exact (Spent.refl _).le (by omega)
  | succ fuel ih =>
    cases n with
    | zero => exact (Spent.refl _).le (by omega)
    | succ n =>
      obtain ⟨h1, h2⟩ := Rd.fillBuf_cost Ev.disturbed s hW
      have he := Rd.fillBuf_error_event s
      obtain ⟨hle, hwf, hbf, hr⟩ := Rd.fillBuf_spec s h
      have hgood : s.src.revs = [] ∨ (∃ e es, s.src.revs = e :: es ∧ Ev.disturbed e = false) →
          ∃ bs, s.fillBuf.1 = .ok bs ∧ (bs.length = bufCapacity ∨
            s.src.data.length ≤ s.fillBuf.2.src.pos) := by
        intro hg
        have hlen := length_slice s.src.data s.src.pos
        obtain ⟨g1, g2, g3⟩ := Src.read_good s.src bufCapacity hg
        unfold Rd.fillBuf
        rw [if_pos (by simp [hb])]
        cases hy : s.src.read bufCapacity with
        | mk r src =>
          rw [hy] at g1 g2 g3
          simp only at g1 g2 g3
          subst g1
          refine ⟨_, rfl, ?_⟩
          simp only
          rw [g3, hlen]
          omega
      have herr : ∀ e, s.fillBuf.1 = .error e → s.fillBuf.2.buf = [] := by
        intro e hee
        unfold Rd.fillBuf at hee ⊢
        rw [if_pos (by simp [hb])] at hee ⊢
        split at hee
        · cases hee
        · exact hb
      simp only [Rd.readUntilLoop]
      cases hx : s.fillBuf with
      | mk r s' =>
        rw [hx] at h1 h2 he hle hwf hbf hr hgood herr
        simp only at h1 h2 he hle hwf hbf hr hgood herr
        rcases hr with ⟨bs, hr1, hb', hbs, hlen, hlp, hemp, hok⟩ | ⟨e, hr1, hr2, hr3, hr4, hok⟩
        · subst hr1
          have hok := hok hbuf
          simp only
          split
          · exact h1.le (by omega)
          · split
            · exact h1.le (by omega)
            · rename_i hz hnl
              have hu := uptoNewline_all _ hnl
              rw [hu, List.length_take]
              have huz : bs.length ≠ 0 := by
                intro hc
                apply hz
                rw [hu, List.length_take]
                omega
              obtain ⟨c1, c2⟩ := Rd.consume_ok s' hok (min (n + 1) bs.length)
              by_cases hfit : n + 1 ≤ bs.length
              · -- the limit is reached
                have : n + 1 - min (n + 1) bs.length = 0 := by omega
                rw [this]
                have : ∀ f (s : Rd) a, Rd.readUntilLoop f s 0 a = (.ok a, s) := by
                  intro f s a; cases f <;> rfl
                rw [this]
                exact h1.le (by omega)
              · have hbc : (s'.consume (min (n + 1) bs.length)).buf = [] := by
                  simp only [Rd.consume, hb']
                  simp
                  omega
                have hbfc : (s'.consume (min (n + 1) bs.length)).buffered = true := hbf.trans hbuf
                rcases h2 with h2 | ⟨_, h2⟩
                · refine h2.step (ih (s'.consume (min (n + 1) bs.length)) (n + 1 - min (n + 1) bs.length) _ c1 hbfc hbc) ?_
                  omega
                · obtain ⟨bs', g1, g2⟩ := hgood h2
                  cases g1
                  rcases g2 with g2 | g2
                  · refine h1.step (ih (s'.consume (min (n + 1) bs.length)) (n + 1 - min (n + 1) bs.length) _ c1 hbfc hbc) ?_
                    have : bufCapacity = 8192 := rfl
                    omega
                  · refine h1.step (Rd.readUntilLoop_costD_eof fuel (s'.consume (min (n + 1) bs.length)) (n + 1 - min (n + 1) bs.length)
                      _ c1 hbfc ?_ hW) (Nat.le_trans (Nat.le_refl 2) (by omega))
                    simp only [Rd.lpos, hbc, List.length_nil, Nat.sub_zero]
                    show s'.src.data.length ≤ s'.src.pos
                    rw [hle.data]
                    exact g2
        · subst hr1
          simp only
          split
          · obtain ⟨_, es, he⟩ := he e rfl
            rcases h2 with h2 | ⟨_, h2 | ⟨e', es', h2, h3⟩⟩
            · exact h2.step (ih s' _ _ hok (hbf.trans hbuf) (herr e rfl)) (by omega)
            · rw [he] at h2; cases h2
            · rw [he] at h2
              cases h2
              cases h3
          · exact h1.le (by omega)

theorem Rd.readUntil_costD (s : Rd) (n : Nat) (h : s.Ok) (hbuf : s.buffered = true)
    (hW : bufCapacity ≤ W) :
    Spent Ev.disturbed (n / 8192 + 2) W s.src (s.readUntil n).2.src := by
  unfold Rd.readUntil
  generalize hf : n + s.src.revs.length + 1 = fuel
  clear hf
  by_cases hb : s.buf = []
  · exact Rd.readUntilLoop_costD_empty fuel s n [] h hbuf hb hW
  · cases fuel with
    | zero =>
      cases n with
      | zero => exact (Spent.refl _).le (by omega)
      | succ n => exact (Spent.refl _).le (by omega)
    | succ fuel =>
      cases n with
      | zero => exact (Spent.refl _).le (by omega)
      | succ n =>
        have hfb : s.fillBuf = (.ok s.buf, s) := by
          unfold Rd.fillBuf
          rw [if_neg (by simpa using hb)]
        simp only [Rd.readUntilLoop, hfb]
        split
        · exact (Spent.refl _).le (by omega)
        · split
          · exact (Spent.refl _).le (by omega)
          · rename_i hz hnl
            have hu := uptoNewline_all _ hnl
            rw [hu, List.length_take]
            obtain ⟨c1, c2⟩ := Rd.consume_ok s h (min (n + 1) s.buf.length)
            by_cases hfit : n + 1 ≤ s.buf.length
            · have : n + 1 - min (n + 1) s.buf.length = 0 := by omega
              rw [this]
              have : ∀ f (s : Rd) a, Rd.readUntilLoop f s 0 a = (.ok a, s) := by
                intro f s a; cases f <;> rfl
              rw [this]
              exact (Spent.refl _).le (by omega)
            · refine (Rd.readUntilLoop_costD_empty fuel (s.consume (min (n + 1) s.buf.length))
                (n + 1 - min (n + 1) s.buf.length) _ c1 hbuf ?_ hW).le ?_
              · simp [Rd.consume]; omega
              · omega

/-! ## Programs -/

/-- Calls caused by one operation, not counting disturbed reads. -/
def Op.costD : Op → Nat
  | .readExact _ => 2
  | .read _ => 1
  | .seek _ => 2
  | .tell => 1
  | .readUntil n => n / 8192 + 2

/-- Calls caused by one operation, not counting interrupted reads. -/
def Op.costI : Op → Nat
  | .readExact n => n
  | .read _ => 1
  | .seek _ => 2
  | .tell => 1
  | .readUntil n => n

/-- The largest request of an operation. -/
def Op.request : Op → Nat
  | .readExact n => n
  | .read n => n
  | .seek _ => 0
  | .tell => 0
  | .readUntil _ => 0

variable {α : Type} {O : Op → Prop} {F : Fail → Prop} {Q : α → Prop}

theorem All.spent {bad : Ev → Bool} {cost : Op → Nat}
    (hre : ∀ (s : Rd) (n : Nat), s.Ok → n ≤ W →
      Spent bad (cost (.readExact n)) W s.src (s.readExact n).2.src)
    (hru : ∀ (s : Rd) (n : Nat), s.Ok → s.buffered = true →
      Spent bad (cost (.readUntil n)) W s.src (s.readUntil n).2.src)
    (hrd : ∀ n, 1 ≤ cost (.read n)) (hsk : ∀ p, 2 ≤ cost (.seek p)) (htl : 1 ≤ cost .tell)
    (hW : bufCapacity ≤ W) {C : Nat}
    {p : Prog α} {k : Nat} (h : All O F Q p k) (s : Rd) (hs : s.Ok)
    (hO : ∀ o, O o → Op.untilBuffered s.buffered o) (hreq : ∀ o, O o → o.request ≤ W)
    (hC : ∀ o, O o → cost o ≤ C) :
    Spent bad (k * C) W s.src (exec p s).2.src := by
  have mul : ∀ {k : Nat}, 1 ≤ k → C + (k - 1) * C ≤ k * C := by
    intro k hk
    obtain ⟨m, rfl⟩ : ∃ m, k = m + 1 := ⟨k - 1, by omega⟩
    simp only [Nat.add_sub_cancel, Nat.succ_mul]
    omega
  have mul' : ∀ {k : Nat}, 1 ≤ k → C ≤ k * C := fun {k} hk => by
    have := Nat.mul_le_mul_right C hk
    omega
  induction p generalizing k s with
  | pure b => exact (Spent.refl _).le (Nat.zero_le _)
  | fail f => exact (Spent.refl _).le (Nat.zero_le _)
  | readExact n c ih =>
    obtain ⟨hle, hbf, hok, hr⟩ := Rd.readExact_spec s n hs
    have hc := (hre s n hs (hreq _ h.1)).le (hC _ h.1)
    cases hx : s.readExact n with
    | mk r s' =>
      rw [hx] at hle hbf hok hr hc
      simp only [exec, hx] at hle hbf hok hr hc ⊢
      rcases hr with ⟨h1, h2, h3⟩ | ⟨h1, h2⟩ | ⟨h1, e, h2⟩
      · subst h2
        exact hc.step (ih _ (h.2.2 _ (by rw [length_slice]; omega)) s' hok (by rw [hbf]; exact hO))
          (mul h.2.1)
      · subst h2; exact hc.le (mul' h.2.1)
      · subst h2; exact hc.le (mul' h.2.1)
  | read n c ih =>
    obtain ⟨hle, hbf, hok, hr⟩ := Rd.read_spec s n hs
    have hc := (Rd.read_cost bad s n (hreq _ h.1) hW).1.le (Nat.le_trans (hrd n) (hC _ h.1))
    cases hx : s.read n with
    | mk r s' =>
      rw [hx] at hle hbf hok hr hc
      simp only [exec, hx] at hle hbf hok hr hc ⊢
      rcases hr with ⟨k, h1, h2, h3, h4, h5, h6⟩ | ⟨e, h2, _⟩
      · subst h4
        exact hc.step (ih _ (h.2.2 _ (by omega)) s' hok (by rw [hbf]; exact hO)) (mul h.2.1)
      · subst h2; exact hc.le (mul' h.2.1)
  | seek p c ih =>
    obtain ⟨hle, hbf, hok, hr⟩ := Rd.seek_spec s p hs
    have hc := (Rd.seek_cost (bad := bad) (W := W) s p).le (Nat.le_trans (hsk p) (hC _ h.1))
    cases hx : s.seek p with
    | mk r s' =>
      rw [hx] at hle hbf hok hr hc
      simp only [exec, hx] at hle hbf hok hr hc ⊢
      cases r with
      | ok q => exact hc.step (ih _ (h.2.2 _) s' hok (by rw [hbf]; exact hO)) (mul h.2.1)
      | error e => exact hc.le (mul' h.2.1)
  | tell c ih =>
    obtain ⟨hle, hbf, hok, hr⟩ := Rd.tell_spec s hs
    have hc := (Rd.tell_cost (bad := bad) (W := W) s).le (Nat.le_trans htl (hC _ h.1))
    cases hx : s.tell with
    | mk r s' =>
      rw [hx] at hle hbf hok hr hc
      simp only [exec, hx] at hle hbf hok hr hc ⊢
      cases r with
      | ok q => exact hc.step (ih _ (h.2.2 _) s' hok (by rw [hbf]; exact hO)) (mul h.2.1)
      | error e => exact hc.le (mul' h.2.1)
  | readUntil n c ih =>
    obtain ⟨hle, hbf, hok, hr⟩ := Rd.readUntil_spec s n hs (hO _ h.1)
    have hc := (hru s n hs (hO _ h.1)).le (hC _ h.1)
    cases hx : s.readUntil n with
    | mk r s' =>
      rw [hx] at hle hbf hok hr hc
      simp only [exec, hx] at hle hbf hok hr hc ⊢
      rcases hr with ⟨h2, h3⟩ | ⟨h1, e, h2⟩
      · subst h2
        exact hc.step (ih _ (h.2.2 _ (length_uptoNewline_slice _ _ _)) s' hok (by rw [hbf]; exact hO))
          (mul h.2.1)
      · subst h2; exact hc.le (mul' h.2.1)

theorem All.spentD (hW : bufCapacity ≤ W) {C : Nat} {p : Prog α} {k : Nat} (h : All O F Q p k)
    (s : Rd) (hs : s.Ok) (hO : ∀ o, O o → Op.untilBuffered s.buffered o)
    (hreq : ∀ o, O o → o.request ≤ W) (hC : ∀ o, O o → o.costD ≤ C) :
    Spent Ev.disturbed (k * C) W s.src (exec p s).2.src :=
  h.spent (fun s n hs hn => Rd.readExact_costD s n hs hn hW)
    (fun s n hs hb => Rd.readUntil_costD s n hs hb hW) (fun _ => Nat.le_refl _)
    (fun _ => Nat.le_refl _) (Nat.le_refl _) hW s hs hO hreq hC

theorem All.spentI (hW : bufCapacity ≤ W) {C : Nat} {p : Prog α} {k : Nat} (h : All O F Q p k)
    (s : Rd) (hs : s.Ok) (hO : ∀ o, O o → Op.untilBuffered s.buffered o)
    (hreq : ∀ o, O o → o.request ≤ W) (hC : ∀ o, O o → o.costI ≤ C) :
    Spent Ev.isInterrupt (k * C) W s.src (exec p s).2.src :=
  h.spent (fun s n _ hn => Rd.readExact_costI s n hn hW)
    (fun s n _ _ => Rd.readUntilLoop_costI _ s n [] hW) (fun _ => Nat.le_refl _)
    (fun _ => Nat.le_refl _) (Nat.le_refl _) hW s hs hO hreq hC

/-! ## ID3v2 -/

theorem exec_bind {α β : Type} (p : Prog α) (f : α → Prog β) (s : Rd) :
    exec (p >>= f) s =
      match exec p s with
      | (.ok a, s') => exec (f a) s'
      | (.error e, s') => (.error e, s') := by
  show exec (p.bind f) s = _
  induction p generalizing s with
  | pure a => rfl
  | fail e => rfl
  | readExact n c ih =>
    simp only [Prog.bind, exec]
    rcases s.readExact n with ⟨_ | _, s'⟩
    · rfl
    · exact ih _ s'
  | read n c ih =>
    simp only [Prog.bind, exec]
    rcases s.read n with ⟨_ | _, s'⟩
    · rfl
    · exact ih _ s'
  | seek p c ih =>
    simp only [Prog.bind, exec]
    rcases s.seek p with ⟨_ | _, s'⟩
    · rfl
    · exact ih _ s'
  | tell c ih =>
    simp only [Prog.bind, exec]
    rcases s.tell with ⟨_ | _, s'⟩
    · rfl
    · exact ih _ s'
  | readUntil n c ih =>
    simp only [Prog.bind, exec]
    rcases s.readUntil n with ⟨_ | _, s'⟩
    · rfl
    · exact ih _ s'

theorem exec_lift_ok' {α : Type} (a : α) (s : Rd) : exec (Prog.lift (.ok a)) s = (.ok a, s) := rfl

/-- The tag loop makes progress: `n` rounds suffice. -/
theorem id3Loop_spent {bad : Ev → Bool} {R : Nat} (cfg : Cfg)
    (hre : ∀ (s : Rd) (n : Nat), s.Ok → n ≤ 10 → Spent bad R W s.src (s.readExact n).2.src)
    (fuel n off : Nat) (s : Rd) (hs : s.Ok) (hd : s.src.data.length < 2 ^ 63)
    (hn : s.src.data.length < off + 10 * n) (h0 : 0 < n) :
    Spent bad ((2 + 2 * R) * n) W s.src (exec (id3Loop cfg fuel off) s).2.src ∧
      (exec (id3Loop cfg fuel off) s).2.Ok := by
  induction fuel generalizing s n off with
  | zero => exact ⟨(Spent.refl _).le (Nat.zero_le _), hs⟩
  | succ fuel ih =>
    obtain ⟨m, rfl⟩ : ∃ m, n = m + 1 := ⟨n - 1, by omega⟩
    have hmul : (2 + 2 * R) * (m + 1) = (2 + 2 * R) * m + 2 + R + R := by
      rw [Nat.mul_add, Nat.mul_one]; omega
    rw [hmul]
    generalize hK : (2 + 2 * R) * m = K
    simp only [id3Loop, exec_bind]
    -- the seek
    have e1 : exec (Prog.sk (.start off)) s =
        match s.seek (.start off) with
        | (.ok q, s) => (.ok q, s)
        | (.error e, s) => (.error (.err e), s) := by
      simp only [Prog.sk, exec]
      rcases s.seek (.start off) with ⟨_ | _, _⟩ <;> rfl
    obtain ⟨hle1, hbf1, hok1, hr1⟩ := Rd.seek_spec s (.start off) hs
    have hc1 := Rd.seek_cost (bad := bad) (W := W) s (.start off)
    rw [e1]
    cases hx1 : s.seek (.start off) with
    | mk r1 s1 =>
    rw [hx1] at hle1 hbf1 hok1 hr1 hc1
    simp only at hle1 hbf1 hok1 hr1 hc1
    cases r1 with
    | error e => exact ⟨hc1.le (by omega), hok1⟩
    | ok q =>
    simp only
    have hlp : s1.lpos = off := by
      rcases hr1 with ⟨q', h1, h2, h3⟩ | ⟨h1, h2⟩ | ⟨_, e, h1⟩
      · simp only [seekTarget] at h1
        split at h1
        · cases h1
          exact h3
        · cases h1
      · cases h2
      · cases h1
    -- the ten bytes
    have e2 : exec (readBytes 10) s1 =
        match s1.readExact 10 with
        | (.ok q, s) => (.ok q, s)
        | (.error e, s) => (.error e, s) := by
      simp only [readBytes, Prog.rdExact, exec]
      rcases s1.readExact 10 with ⟨_ | _, _⟩ <;> rfl
    obtain ⟨hle2, hbf2, hok2, hr2⟩ := Rd.readExact_spec s1 10 hok1
    have hc2 := hre s1 10 hok1 (by omega)
    rw [e2]
    cases hx2 : s1.readExact 10 with
    | mk r2 s2 =>
    rw [hx2] at hle2 hbf2 hok2 hr2 hc2
    simp only at hle2 hbf2 hok2 hr2 hc2
    have hc12 := hc1.trans hc2
    cases r2 with
    | error e => exact ⟨hc12.le (by omega), hok2⟩
    | ok x =>
    simp only
    have hlen : off + 10 ≤ s.src.data.length ∧ x.length = 10 := by
      rcases hr2 with ⟨h1, h2, h3⟩ | ⟨_, h2⟩ | ⟨_, e, h2⟩
      · cases h2
        rw [hlp, hle1.data] at h1 ⊢
        rw [length_slice]
        omega
      · cases h2
      · cases h2
    obtain ⟨hlen, hx⟩ := hlen
    have hdat : s2.src.data = s.src.data := by rw [hle2.data, hle1.data]
    rw [sliceIdx_ok (by omega) (by omega)]
    simp only [exec_lift_ok']
    split
    · exact ⟨hc12.le (by omega), hok2⟩
    · simp only [exec_bind]
      rw [index_ok (i := 6) (by omega), index_ok (i := 7) (by omega), index_ok (i := 8) (by omega),
        index_ok (i := 9) (by omega), index_ok (i := 5) (by omega)]
      simp only [exec_bind, exec_lift_ok']
      have ht := id3TagSize_lt x[6] x[7] x[8] x[9]
      generalize id3TagSize x[6] x[7] x[8] x[9] = t at ht
      rw [u64Add_ok cfg (a := off) (b := 10) (by omega)]
      simp only [exec_lift_ok']
      rw [u64Add_ok cfg (a := off + 10) (b := t) (by omega)]
      simp only [exec_lift_ok']
      have tail : ∀ (k : Nat) (s' : Rd), s'.Ok → s'.src.data = s.src.data → off + 10 ≤ k →
          k < 2 ^ 63 + 2 ^ 33 →
          Spent bad K W s'.src
            (exec (Prog.lift (id3Footer cfg x[5] k) >>= fun next => id3Loop cfg fuel next) s').2.src ∧
          (exec (Prog.lift (id3Footer cfg x[5] k) >>= fun next => id3Loop cfg fuel next) s').2.Ok := by
        intro k s' hs' hd' h1 h2
        have : ∃ k', id3Footer cfg x[5] k = .ok k' ∧ k ≤ k' := by
          unfold id3Footer
          split
          · exact ⟨k + 10, u64Add_ok cfg (by omega), by omega⟩
          · exact ⟨k, rfl, Nat.le_refl _⟩
        obtain ⟨k', hk', hle⟩ := this
        rw [exec_bind, hk', exec_lift_ok']
        simp only
        rw [← hK]
        exact ih m k' s' hs' (by rw [hd']; exact hd) (by rw [hd']; omega) (by omega)
      simp only [exec_bind] at tail
      unfold id3Extended
      by_cases hflag : (x[5]).toNat &&& 0x40 ≠ 0
      · rw [if_pos hflag]
        simp only [exec_bind, readU32be]
        have e3 : exec (Prog.rdExact 4) s2 =
            match s2.readExact 4 with
            | (.ok q, s) => (.ok q, s)
            | (.error e, s) => (.error e, s) := by
          simp only [Prog.rdExact, exec]
          rcases s2.readExact 4 with ⟨_ | _, _⟩ <;> rfl
        obtain ⟨hle3, hbf3, hok3, hr3⟩ := Rd.readExact_spec s2 4 hok2
        have hc3 := hre s2 4 hok2 (by omega)
        rw [e3]
        cases hx3 : s2.readExact 4 with
        | mk r3 s3 =>
        rw [hx3] at hle3 hbf3 hok3 hr3 hc3
        simp only at hle3 hbf3 hok3 hr3 hc3
        have hc123 := hc12.trans hc3
        cases r3 with
        | error e => exact ⟨hc123.le (by omega), hok3⟩
        | ok y =>
        simp only
        have hy : y.length ≤ 4 := by
          rcases hr3 with ⟨h1, h2, h3⟩ | ⟨_, h2⟩ | ⟨_, e, h2⟩
          · cases h2; rw [length_slice]; omega
          · cases h2
          · cases h2
        have : beNat y < 256 ^ 4 :=
          Nat.lt_of_lt_of_le (beNat_lt y) (Nat.pow_le_pow_right (by omega) hy)
        have e4 : exec (Pure.pure (beNat y) : Prog Nat) s3 = (.ok (beNat y), s3) := rfl
        rw [e4]
        simp only
        rw [u64Add_ok cfg (by omega), exec_lift_ok']
        simp only
        obtain ⟨t1, t2⟩ := tail (off + 10 + t + beNat y) s3 hok3 (by rw [hle3.data, hdat]) (by omega) (by omega)
        exact ⟨hc123.step t1 (by omega), t2⟩
      · rw [if_neg hflag]
        have e4 : exec (Pure.pure (off + 10 + t) : Prog Nat) s2 = (.ok (off + 10 + t), s2) := rfl
        rw [e4]
        simp only
        obtain ⟨t1, t2⟩ := tail (off + 10 + t) s2 hok2 hdat (by omega) (by omega)
        exact ⟨hc12.step t1 (by omega), t2⟩

theorem id3v2Reader_spent {bad : Ev → Bool} {R : Nat} (cfg : Cfg)
    (hre : ∀ (s : Rd) (n : Nat), s.Ok → n ≤ 10 → Spent bad R W s.src (s.readExact n).2.src)
    (s : Rd) (hs : s.Ok) (hd : s.src.data.length < 2 ^ 63) :
    Spent bad ((2 + 2 * R) * (s.src.data.length / 10 + 1) + 2 + R) W s.src
      (exec (id3v2Reader cfg) s).2.src := by
  obtain ⟨h1, hok⟩ := id3Loop_spent cfg hre id3Fuel (s.src.data.length / 10 + 1) 0 s hs hd (by omega)
    (by omega)
  generalize (2 + 2 * R) * (s.src.data.length / 10 + 1) = K at h1 ⊢
  unfold id3v2Reader
  rw [exec_bind]
  generalize exec (id3Loop cfg id3Fuel 0) s = r at h1 hok ⊢
  obtain ⟨r, s1⟩ := r
  cases r with
  | error e => exact h1.le (by omega)
  | ok off =>
  simp only at h1 hok ⊢
  rw [exec_bind]
  have e1 : exec (Prog.sk (.start off)) s1 =
      match s1.seek (.start off) with
      | (.ok q, s) => (.ok q, s)
      | (.error e, s) => (.error (.err e), s) := by
    simp only [Prog.sk, exec]
    rcases s1.seek (.start off) with ⟨_ | _, _⟩ <;> rfl
  obtain ⟨_, _, hok1, _⟩ := Rd.seek_spec s1 (.start off) hok
  have hc1 := Rd.seek_cost (bad := bad) (W := W) s1 (.start off)
  rw [e1]
  cases hx1 : s1.seek (.start off) with
  | mk r1 s2 =>
  rw [hx1] at hok1 hc1
  simp only at hok1 hc1
  have h2 := h1.trans hc1
  cases r1 with
  | error e => exact h2.le (by omega)
  | ok q =>
  simp only
  rw [exec_bind]
  have e2 : exec (readBytes 4) s2 =
      match s2.readExact 4 with
      | (.ok q, s) => (.ok q, s)
      | (.error e, s) => (.error e, s) := by
    simp only [readBytes, Prog.rdExact, exec]
    rcases s2.readExact 4 with ⟨_ | _, _⟩ <;> rfl
  obtain ⟨_, _, hok2, hr2⟩ := Rd.readExact_spec s2 4 hok1
  have hc2 := hre s2 4 hok1 (by omega)
  rw [e2]
  cases hx2 : s2.readExact 4 with
  | mk r2 s3 =>
  rw [hx2] at hok2 hr2 hc2
  simp only at hok2 hr2 hc2
  have h3 := h2.trans hc2
  cases r2 with
  | error e => exact h3.le (by omega)
  | ok x =>
  simp only
  split
  · exact h3.le (by omega)
  · rw [exec_bind]
    cases hsl : sliceIdx x 0 2 with
    | error e => exact h3.le (by omega)
    | ok y =>
      rw [exec_lift_ok']
      simp only
      split <;> exact h3.le (by omega)

/-! ## PDF -/

theorem pdfLoop_spentD_eof (fuel total : Nat) (ov : Bytes) (s : Src) (h : s.WF)
    (hl : s.data.length ≤ s.pos) (hW : 32768 ≤ W) :
    Spent Ev.disturbed 1 W s (exec (pdfLoop fuel total ov) { src := s, buffered := false, buf := [] }).2.src := by
  cases fuel with
  | zero => exact (Spent.refl _).le (by omega)
  | succ fuel =>
    unfold pdfLoop
    split
    · rw [exec_bind]
      have hc := (Src.read_cost Ev.disturbed s pdfChunkSize (W := W) hW).1
      obtain ⟨_, _, hr⟩ := Src.read_spec s pdfChunkSize h
      have e1 : exec (Prog.rd pdfChunkSize) { src := s, buffered := false, buf := [] } =
          match s.read pdfChunkSize with
          | (.ok b, src) => (.ok b, { src := src, buffered := false, buf := [] })
          | (.error e, src) => (.error (.err e), { src := src, buffered := false, buf := [] }) := by
        simp only [Prog.rd, exec, Rd.read, if_true]
        rcases s.read pdfChunkSize with ⟨_ | _, _⟩ <;> rfl
      rw [e1]
      cases hx : s.read pdfChunkSize with
      | mk r s' =>
      rw [hx] at hc hr
      simp only at hc hr
      rcases hr with ⟨k, hk1, hk2, hr1, hr2⟩ | ⟨e, hr1, _⟩
      · subst hr1
        have : (slice s.data s.pos k).length = 0 := by rw [length_slice]; omega
        simp only [this, if_true]
        exact hc
      · subst hr1
        exact hc
    · exact (Spent.refl _).le (by omega)

theorem pdfLoop_spentD (fuel n total : Nat) (ov : Bytes) (s : Src) (h : s.WF)
    (hn : pdfReadLimit ≤ total + 32768 * n) (hW : 32768 ≤ W) :
    Spent Ev.disturbed (n + 1) W s
      (exec (pdfLoop fuel total ov) { src := s, buffered := false, buf := [] }).2.src := by
  induction fuel generalizing n total ov s with
  | zero => exact (Spent.refl _).le (by omega)
  | succ fuel ih =>
    unfold pdfLoop
    split
    · rename_i hlim
      rw [exec_bind]
      obtain ⟨hc, hc2⟩ := Src.read_cost Ev.disturbed s pdfChunkSize (W := W) hW
      obtain ⟨hle, hwf, hr⟩ := Src.read_spec s pdfChunkSize h
      have hgood := Src.read_good s pdfChunkSize
      have e1 : exec (Prog.rd pdfChunkSize) { src := s, buffered := false, buf := [] } =
          match s.read pdfChunkSize with
          | (.ok b, src) => (.ok b, { src := src, buffered := false, buf := [] })
          | (.error e, src) => (.error (.err e), { src := src, buffered := false, buf := [] }) := by
        simp only [Prog.rd, exec, Rd.read, if_true]
        rcases s.read pdfChunkSize with ⟨_ | _, _⟩ <;> rfl
      rw [e1]
      cases hx : s.read pdfChunkSize with
      | mk r s' =>
      rw [hx] at hc hc2 hr hle hwf hgood
      simp only at hc hc2 hr hle hwf hgood
      cases r with
      | error e => exact hc.le (by omega)
      | ok chunk =>
      simp only
      split
      · exact hc.le (by omega)
      · rename_i hz
        -- what the rest costs
        have rest : ∀ K, 1 ≤ K + 1 → (∀ (t : Nat) (ov' : Bytes), t = total + chunk.length →
            Spent Ev.disturbed K W s' (exec (pdfLoop fuel t ov')
              { src := s', buffered := false, buf := [] }).2.src) →
            Spent Ev.disturbed K W s' (exec (do
              let window ← Prog.lift (sliceIdx (ov ++ chunk) (if total = 0 then pdfOverlapSize else 0)
                (pdfOverlapSize + chunk.length))
              let found ← Prog.lift (holdsBytes window aiMarker)
              if found then pure AdobeIllustratorArtwork
              else
                pdfLoop fuel (total + chunk.length)
                  ((rotateRight (ov ++ chunk) pdfOverlapSize).take pdfOverlapSize))
              { src := s', buffered := false, buf := [] }).2.src := by
          intro K _ hK
          rw [exec_bind]
          cases sliceIdx (ov ++ chunk) (if total = 0 then pdfOverlapSize else 0)
              (pdfOverlapSize + chunk.length) with
          | error e => exact (Spent.refl _).le (by omega)
          | ok w =>
            rw [exec_lift_ok']
            simp only
            rw [exec_bind]
            cases holdsBytes w aiMarker with
            | error e => exact (Spent.refl _).le (by omega)
            | ok found =>
              rw [exec_lift_ok']
              simp only
              split
              · exact (Spent.refl _).le (by omega)
              · exact hK _ _ rfl
        have hcases : Spent Ev.disturbed 0 W s s' ∨ chunk.length = 32768 ∨
            s'.data.length ≤ s'.pos := by
          rcases hc2 with ⟨_, _, _, _, h0⟩ | hg
          · exact Or.inl h0
          · obtain ⟨g1, g2, g3⟩ := hgood hg
            cases g1
            rw [g2, g3, length_slice, pdfChunkSize]
            omega
        rcases hcases with h0 | hfull | heof
        · exact h0.step (rest (n + 1) (by omega) (fun t ov' ht => ih n t ov' s' hwf (by omega)))
            (by omega)
        · obtain ⟨m, rfl⟩ : ∃ m, n = m + 1 := ⟨n - 1, by omega⟩
          exact hc.step (rest (m + 1) (by omega) (fun t ov' ht => ih m t ov' s' hwf (by omega)))
            (by omega)
        · exact hc.step (rest 1 (by omega) (fun t ov' ht => pdfLoop_spentD_eof fuel t ov' s' hwf heof hW))
            (by omega)
    · exact (Spent.refl _).le (by omega)

end FF
