import Verif.Proofs.Total
import Verif.Spec.Retry
/-!
# Interruptions are retried

Programs without bare reads do the same on a stream and on the same stream without its
interruptions, whatever else the schedule holds.
-/

namespace FF
open FileFormat Spec

/-- `t` is `s` without its interruptions (the log of calls does not matter). -/
structure Src.Calmed (s t : Src) : Prop where
  data : t.data = s.data
  pos : t.pos = s.pos
  maxPos : t.maxPos = s.maxPos
  revs : t.revs = calmEvents s.revs
  sevs : t.sevs = s.sevs

/-- The same for the object that the readers use. -/
structure Rd.Calmed (s t : Rd) : Prop where
  src : s.src.Calmed t.src
  buffered : t.buffered = s.buffered
  buf : t.buf = s.buf

theorem calmEvents_cons {e : Ev} (he : e ≠ .error .interrupted) (es : List Ev) :
    calmEvents (e :: es) = e :: calmEvents es := by
  simp [calmEvents, he]

theorem calmEvents_interrupted (es : List Ev) :
    calmEvents (.error .interrupted :: es) = calmEvents es := by
  simp [calmEvents]

/-- A read is interrupted on the stream, or does the same on both. -/
theorem Src.read_calmed {s t : Src} (h : s.Calmed t) (n : Nat) :
    (∃ s', s.read n = (.error .interrupted, s') ∧ s'.Calmed t ∧ s'.revs.length < s.revs.length) ∨
    (∃ r s' t', s.read n = (r, s') ∧ t.read n = (r, t') ∧ s'.Calmed t' ∧ r ≠ .error .interrupted ∧
      s'.revs.length ≤ s.revs.length ∧ t'.revs.length ≤ t.revs.length ∧
      ∀ bs, r = .ok bs → bs.length ≤ n) := by
  obtain ⟨data, pos, maxPos, revs, sevs, log⟩ := s
  obtain ⟨tdata, tpos, tmaxPos, trevs, tsevs, tlog⟩ := t
  obtain ⟨h1, h2, h3, h4, h5⟩ := h
  simp only at h1 h2 h3 h4 h5
  subst h1 h2 h3 h4 h5
  cases revs with
  | nil =>
    refine Or.inr ⟨_, _, _, rfl, rfl, ⟨rfl, rfl, rfl, rfl, rfl⟩, (by intro h; cases h), Nat.le_refl _,
      Nat.le_refl _, ?_⟩
    rintro bs h; cases h; rw [length_slice]; omega
  | cons e es =>
    by_cases he : e = .error .interrupted
    · subst he
      exact Or.inl ⟨_, rfl, ⟨rfl, rfl, rfl, calmEvents_interrupted es, rfl⟩, by simp⟩
    · rw [calmEvents_cons he]
      right
      cases e with
      | full =>
        refine ⟨_, _, _, rfl, rfl, ⟨rfl, rfl, rfl, rfl, rfl⟩, (by intro h; cases h), by simp, by simp, ?_⟩
        rintro bs h; cases h; rw [length_slice]; omega
      | short k =>
        refine ⟨_, _, _, rfl, rfl, ⟨rfl, rfl, rfl, rfl, rfl⟩, (by intro h; cases h), by simp, by simp, ?_⟩
        rintro bs h; cases h; rw [length_slice]; omega
      | error x =>
        refine ⟨_, _, _, rfl, rfl, ⟨rfl, rfl, rfl, rfl, rfl⟩, ?_, by simp, by simp, ?_⟩
        · intro h; cases h; exact he rfl
        · rintro bs h; cases h

theorem Src.seek_calmed {s t : Src} (h : s.Calmed t) (p : SeekFrom) :
    (t.seek p).1 = (s.seek p).1 ∧ (s.seek p).2.Calmed (t.seek p).2 := by
  obtain ⟨data, pos, maxPos, revs, sevs, log⟩ := s
  obtain ⟨tdata, tpos, tmaxPos, trevs, tsevs, tlog⟩ := t
  obtain ⟨h1, h2, h3, h4, h5⟩ := h
  simp only at h1 h2 h3 h4 h5
  subst h1 h2 h3 h4 h5
  unfold Src.seek
  rcases tsevs with _ | ⟨_ | e, es⟩
  · simp only
    cases seekTarget tdata.length tmaxPos tpos p with
    | none => exact ⟨rfl, ⟨rfl, rfl, rfl, rfl, rfl⟩⟩
    | some q => exact ⟨rfl, ⟨rfl, rfl, rfl, rfl, rfl⟩⟩
  · simp only
    cases seekTarget tdata.length tmaxPos tpos p with
    | none => exact ⟨rfl, ⟨rfl, rfl, rfl, rfl, rfl⟩⟩
    | some q => exact ⟨rfl, ⟨rfl, rfl, rfl, rfl, rfl⟩⟩
  · exact ⟨rfl, ⟨rfl, rfl, rfl, rfl, rfl⟩⟩

theorem Src.tell_calmed {s t : Src} (h : s.Calmed t) :
    t.tell.1 = s.tell.1 ∧ s.tell.2.Calmed t.tell.2 := by
  obtain ⟨data, pos, maxPos, revs, sevs, log⟩ := s
  obtain ⟨tdata, tpos, tmaxPos, trevs, tsevs, tlog⟩ := t
  obtain ⟨h1, h2, h3, h4, h5⟩ := h
  simp only at h1 h2 h3 h4 h5
  subst h1 h2 h3 h4 h5
  unfold Src.tell
  rcases tsevs with _ | ⟨_ | e, es⟩ <;> exact ⟨rfl, ⟨rfl, rfl, rfl, rfl, rfl⟩⟩

theorem Rd.fillBuf_calmed {s t : Rd} (h : s.Calmed t) :
    (∃ s', s.fillBuf = (.error .interrupted, s') ∧ s'.Calmed t ∧
      s'.src.revs.length < s.src.revs.length) ∨
    (∃ r s' t', s.fillBuf = (r, s') ∧ t.fillBuf = (r, t') ∧ s'.Calmed t' ∧ r ≠ .error .interrupted ∧
      s'.src.revs.length ≤ s.src.revs.length ∧ t'.src.revs.length ≤ t.src.revs.length) := by
  unfold Rd.fillBuf
  rw [h.buf]
  split
  · rcases Src.read_calmed h.src bufCapacity with ⟨x, h1, h2, h3⟩ | ⟨r, x, y, h1, h2, h3, h4, h5, h6, _⟩
    · rw [h1]
      exact Or.inl ⟨_, rfl, ⟨h2, h.buffered, h.buf⟩, h3⟩
    · rw [h1, h2]
      right
      cases r with
      | ok bs => exact ⟨_, _, _, rfl, rfl, ⟨h3, h.buffered, rfl⟩, h4, h5, h6⟩
      | error e => exact ⟨_, _, _, rfl, rfl, ⟨h3, h.buffered, rfl⟩, h4, h5, h6⟩
  · exact Or.inr ⟨_, _, _, rfl, rfl, h, (by intro h; cases h), Nat.le_refl _, Nat.le_refl _⟩

theorem Rd.consume_calmed {s t : Rd} (h : s.Calmed t) (n : Nat) : (s.consume n).Calmed (t.consume n) :=
  ⟨h.src, h.buffered, by simp only [Rd.consume]; rw [h.buf]⟩

theorem Rd.read_calmed {s t : Rd} (h : s.Calmed t) (n : Nat) :
    (∃ s', s.read n = (.error .interrupted, s') ∧ s'.Calmed t ∧
      s'.src.revs.length < s.src.revs.length) ∨
    (∃ r s' t', s.read n = (r, s') ∧ t.read n = (r, t') ∧ s'.Calmed t' ∧ r ≠ .error .interrupted ∧
      s'.src.revs.length ≤ s.src.revs.length ∧ t'.src.revs.length ≤ t.src.revs.length ∧
      ∀ bs, r = .ok bs → bs.length ≤ n) := by
  have direct : (∃ s' : Rd, (match s.src.read n with | (r, src) => (r, { s with src := src })) =
        (.error .interrupted, s') ∧ s'.Calmed t ∧ s'.src.revs.length < s.src.revs.length) ∨
      (∃ r, ∃ s' t' : Rd, (match s.src.read n with | (r, src) => (r, { s with src := src })) = (r, s') ∧
        (match t.src.read n with | (r, src) => (r, { t with src := src })) = (r, t') ∧
        s'.Calmed t' ∧ r ≠ .error .interrupted ∧
        s'.src.revs.length ≤ s.src.revs.length ∧ t'.src.revs.length ≤ t.src.revs.length ∧
        ∀ bs, r = .ok bs → bs.length ≤ n) := by
    rcases Src.read_calmed h.src n with ⟨x, h1, h2, h3⟩ | ⟨r, x, y, h1, h2, h3, h4, h5, h6, h7⟩
    · rw [h1]
      exact Or.inl ⟨_, rfl, ⟨h2, h.buffered, h.buf⟩, h3⟩
    · rw [h1, h2]
      exact Or.inr ⟨_, _, _, rfl, rfl, ⟨h3, h.buffered, h.buf⟩, h4, h5, h6, h7⟩
  rw [h.buffered, h.buf] at direct
  unfold Rd.read
  rw [h.buffered, h.buf]
  split
  · exact direct
  · split
    · exact direct
    · rcases Rd.fillBuf_calmed h with ⟨x, h1, h2, h3⟩ | ⟨r, x, y, h1, h2, h3, h4, h5, h6⟩
      · rw [h1]
        exact Or.inl ⟨_, rfl, h2, h3⟩
      · rw [h1, h2]
        right
        cases r with
        | ok bs =>
          refine ⟨_, _, _, rfl, rfl, Rd.consume_calmed h3 _, (by intro h; cases h), h5, h6, ?_⟩
          rintro _ h; cases h; simp only [List.length_take]; omega
        | error e =>
          refine ⟨_, _, _, rfl, rfl, h3, h4, h5, h6, ?_⟩
          rintro _ h; cases h

theorem Rd.readExactLoop_calmed (k l : Nat) (s t : Rd) (h : s.Calmed t) (n : Nat) (acc : Bytes)
    (hk : n + s.src.revs.length < k) (hl : n + t.src.revs.length < l) :
    (Rd.readExactLoop l t n acc).1 = (Rd.readExactLoop k s n acc).1 ∧
      (Rd.readExactLoop k s n acc).2.Calmed (Rd.readExactLoop l t n acc).2 := by
  induction k generalizing l s t n acc with
  | zero => omega
  | succ k ih =>
    cases n with
    | zero =>
      cases l with
      | zero => omega
      | succ l => exact ⟨rfl, h⟩
    | succ n =>
      rcases Rd.read_calmed h (n + 1) with ⟨x, h1, h2, h3⟩ | ⟨r, x, y, h1, h2, h3, h4, h5, h6, h7⟩
      · have : Rd.readExactLoop (k + 1) s (n + 1) acc = Rd.readExactLoop k x (n + 1) acc := by
          simp only [Rd.readExactLoop, h1]; rfl
        rw [this]
        exact ih l x t h2 _ _ (by omega) hl
      · cases l with
        | zero => omega
        | succ l =>
          simp only [Rd.readExactLoop, h1, h2]
          cases r with
          | ok bs =>
            simp only
            have := h7 _ rfl
            by_cases hb : bs.length = 0
            · simp only [if_pos hb]; exact ⟨trivial, h3⟩
            · simp only [if_neg hb]
              exact ih l x y h3 _ _ (by omega) (by omega)
          | error e =>
            have he : e ≠ .interrupted := fun h => h4 (by rw [h])
            simp only [if_neg he]
            exact ⟨trivial, h3⟩

theorem Rd.readExact_calmed {s t : Rd} (h : s.Calmed t) (n : Nat) :
    (t.readExact n).1 = (s.readExact n).1 ∧ (s.readExact n).2.Calmed (t.readExact n).2 := by
  unfold Rd.readExact
  rw [h.buffered, h.buf]
  split
  · exact ⟨rfl, Rd.consume_calmed h n⟩
  · exact Rd.readExactLoop_calmed _ _ s t h n [] (by omega) (by omega)

theorem Rd.readUntilLoop_calmed (k l : Nat) (s t : Rd) (h : s.Calmed t) (n : Nat) (acc : Bytes)
    (hk : n + s.src.revs.length < k) (hl : n + t.src.revs.length < l) :
    (Rd.readUntilLoop l t n acc).1 = (Rd.readUntilLoop k s n acc).1 ∧
      (Rd.readUntilLoop k s n acc).2.Calmed (Rd.readUntilLoop l t n acc).2 := by
  induction k generalizing l s t n acc with
  | zero => omega
  | succ k ih =>
    cases n with
    | zero =>
      cases l with
      | zero => omega
      | succ l => exact ⟨rfl, h⟩
    | succ n =>
      rcases Rd.fillBuf_calmed h with ⟨x, h1, h2, h3⟩ | ⟨r, x, y, h1, h2, h3, h4, h5, h6⟩
      · have : Rd.readUntilLoop (k + 1) s (n + 1) acc = Rd.readUntilLoop k x (n + 1) acc := by
          simp only [Rd.readUntilLoop, h1]; rfl
        rw [this]
        exact ih l x t h2 _ _ (by omega) hl
      · cases l with
        | zero => omega
        | succ l =>
          simp only [Rd.readUntilLoop, h1, h2]
          cases r with
          | ok bs =>
            simp only
            generalize uptoNewline (bs.take (n + 1)) = used
            by_cases hb : used.length = 0
            · simp only [if_pos hb]; exact ⟨trivial, h3⟩
            · simp only [if_neg hb]
              by_cases hg : used.getLast? = some 10
              · simp only [if_pos hg]; exact ⟨trivial, Rd.consume_calmed h3 _⟩
              · simp only [if_neg hg]
                have e1 : (x.consume used.length).src.revs.length = x.src.revs.length := rfl
                have e2 : (y.consume used.length).src.revs.length = y.src.revs.length := rfl
                exact ih l _ _ (Rd.consume_calmed h3 _) _ _ (by omega) (by omega)
          | error e =>
            have he : e ≠ .interrupted := fun h => h4 (by rw [h])
            simp only [if_neg he]
            exact ⟨trivial, h3⟩

theorem Rd.readUntil_calmed {s t : Rd} (h : s.Calmed t) (n : Nat) :
    (t.readUntil n).1 = (s.readUntil n).1 ∧ (s.readUntil n).2.Calmed (t.readUntil n).2 :=
  Rd.readUntilLoop_calmed _ _ s t h n [] (by omega) (by omega)

theorem Rd.seek_calmed {s t : Rd} (h : s.Calmed t) (p : SeekFrom) :
    (t.seek p).1 = (s.seek p).1 ∧ (s.seek p).2.Calmed (t.seek p).2 := by
  have step : ∀ {x y : Src}, x.Calmed y → ∀ (q : SeekFrom), ∃ r x' y', x.seek q = (r, x') ∧
      y.seek q = (r, y') ∧ x'.Calmed y' := by
    intro x y hxy q
    obtain ⟨h1, h2⟩ := Src.seek_calmed hxy q
    exact ⟨(x.seek q).1, (x.seek q).2, (y.seek q).2, rfl, Prod.ext h1 rfl, h2⟩
  unfold Rd.seek
  rw [h.buffered, h.buf]
  by_cases hb : s.buffered = false
  · simp only [if_pos hb]
    obtain ⟨r, x, y, h1, h2, h3⟩ := step h.src p
    rw [h1, h2]
    exact ⟨rfl, ⟨h3, rfl, rfl⟩⟩
  · simp only [if_neg hb]
    cases p with
    | current i =>
      by_cases hc : -2 ^ 63 ≤ i - (s.buf.length : Int)
      · simp only [if_pos hc]
        obtain ⟨r, x, y, h1, h2, h3⟩ := step h.src (.current (i - s.buf.length))
        rw [h1, h2]
        cases r with
        | ok q => exact ⟨rfl, ⟨h3, rfl, rfl⟩⟩
        | error e => exact ⟨rfl, ⟨h3, rfl, rfl⟩⟩
      · simp only [if_neg hc]
        obtain ⟨r, x, y, h1, h2, h3⟩ := step h.src (.current (-s.buf.length))
        rw [h1, h2]
        cases r with
        | error e => exact ⟨rfl, ⟨h3, rfl, rfl⟩⟩
        | ok q =>
          simp only
          obtain ⟨r, x', y', h1, h2, h3⟩ := step h3 (.current i)
          rw [h1, h2]
          cases r with
          | ok q => exact ⟨rfl, ⟨h3, rfl, rfl⟩⟩
          | error e => exact ⟨rfl, ⟨h3, rfl, rfl⟩⟩
    | start n =>
      simp only
      obtain ⟨r, x, y, h1, h2, h3⟩ := step h.src (.start n)
      rw [h1, h2]
      cases r with
      | ok q => exact ⟨rfl, ⟨h3, rfl, rfl⟩⟩
      | error e => exact ⟨rfl, ⟨h3, rfl, rfl⟩⟩
    | fromEnd n =>
      simp only
      obtain ⟨r, x, y, h1, h2, h3⟩ := step h.src (.fromEnd n)
      rw [h1, h2]
      cases r with
      | ok q => exact ⟨rfl, ⟨h3, rfl, rfl⟩⟩
      | error e => exact ⟨rfl, ⟨h3, rfl, rfl⟩⟩

theorem Rd.tell_calmed {s t : Rd} (h : s.Calmed t) :
    t.tell.1 = s.tell.1 ∧ s.tell.2.Calmed t.tell.2 := by
  obtain ⟨h1, h2⟩ := Src.tell_calmed h.src
  unfold Rd.tell
  rw [h.buffered, h.buf]
  cases hx : s.src.tell with
  | mk r x =>
    cases hy : t.src.tell with
    | mk r' y =>
      rw [hx, hy] at h1 h2
      simp only at h1 h2
      subst h1
      cases r' with
      | error e => exact ⟨rfl, ⟨h2, rfl, rfl⟩⟩
      | ok q =>
        simp only
        by_cases hb : s.buffered = false
        · simp only [if_pos hb]; exact ⟨trivial, ⟨h2, rfl, rfl⟩⟩
        · simp only [if_neg hb]
          by_cases hq : s.buf.length ≤ q
          · simp only [if_pos hq]; exact ⟨trivial, ⟨h2, rfl, rfl⟩⟩
          · simp only [if_neg hq]; exact ⟨trivial, ⟨h2, rfl, rfl⟩⟩

theorem exec_calmed {α : Type} (p : Prog α) (s t : Rd) (hp : Exact s.buffered p) (hok : s.Ok)
    (h : s.Calmed t) :
    (exec p t).1 = (exec p s).1 ∧ (exec p s).2.Calmed (exec p t).2 := by
  induction p generalizing s t with
  | pure a => exact ⟨rfl, h⟩
  | fail f => exact ⟨rfl, h⟩
  | readExact n c ih =>
    obtain ⟨h1, h2⟩ := Rd.readExact_calmed h n
    obtain ⟨_, hbf, hok', hr⟩ := Rd.readExact_spec s n hok
    simp only [exec]
    generalize s.readExact n = x at h1 h2 hbf hok' hr
    generalize t.readExact n = y at h1 h2
    obtain ⟨r, x⟩ := x
    obtain ⟨r', y⟩ := y
    simp only at h1 h2 hbf hok' hr
    subst h1
    cases r' with
    | ok a =>
      have hl : a.length = n := by
        rcases hr with ⟨h1, h2, h3⟩ | ⟨h1, h2⟩ | ⟨h1, e, h2⟩
        · cases h2
          rw [length_slice]; omega
        · cases h2
        · cases h2
      exact ih a _ _ (by rw [hbf]; exact hp a hl) hok' h2
    | error e => exact ⟨rfl, h2⟩
  | read n c ih => exact absurd hp (by simp [Exact])
  | seek q c ih =>
    obtain ⟨h1, h2⟩ := Rd.seek_calmed h q
    obtain ⟨_, hbf, hok', _⟩ := Rd.seek_spec s q hok
    simp only [exec]
    generalize s.seek q = x at h1 h2 hbf hok'
    generalize t.seek q = y at h1 h2
    obtain ⟨r, x⟩ := x
    obtain ⟨r', y⟩ := y
    simp only at h1 h2 hbf hok'
    subst h1
    cases r' with
    | ok a => exact ih a _ _ (by rw [hbf]; exact hp a) hok' h2
    | error e => exact ⟨rfl, h2⟩
  | tell c ih =>
    obtain ⟨h1, h2⟩ := Rd.tell_calmed h
    obtain ⟨_, hbf, hok', _⟩ := Rd.tell_spec s hok
    simp only [exec]
    generalize s.tell = x at h1 h2 hbf hok'
    generalize t.tell = y at h1 h2
    obtain ⟨r, x⟩ := x
    obtain ⟨r', y⟩ := y
    simp only at h1 h2 hbf hok'
    subst h1
    cases r' with
    | ok a => exact ih a _ _ (by rw [hbf]; exact hp a) hok' h2
    | error e => exact ⟨rfl, h2⟩
  | readUntil n c ih =>
    obtain ⟨h1, h2⟩ := Rd.readUntil_calmed h n
    obtain ⟨_, hbf, hok', hr⟩ := Rd.readUntil_spec s n hok hp.1
    simp only [exec]
    generalize s.readUntil n = x at h1 h2 hbf hok' hr
    generalize t.readUntil n = y at h1 h2
    obtain ⟨r, x⟩ := x
    obtain ⟨r', y⟩ := y
    simp only at h1 h2 hbf hok' hr
    subst h1
    cases r' with
    | ok a =>
      have hl : a.length ≤ n := by
        rcases hr with ⟨h2, h3⟩ | ⟨h1, e, h2⟩
        · cases h2; exact length_uptoNewline_slice _ _ _
        · cases h2
      exact ih a _ _ (by rw [hbf]; exact hp.2 a hl) hok' h2
    | error e => exact ⟨rfl, h2⟩

/-! ## Detection -/

theorem execOn_calmed {α : Type} (b : Bool) (p : Prog α) (s t : Src) (hp : Exact b p) (hs : s.WF)
    (h : s.Calmed t) :
    (execOn b p t).1 = (execOn b p s).1 ∧ (execOn b p s).2.Calmed (execOn b p t).2 := by
  obtain ⟨h1, h2⟩ := exec_calmed p { src := s, buffered := b, buf := [] }
    { src := t, buffered := b, buf := [] } hp (Rd.ok_fresh s b hs) ⟨h, rfl, rfl⟩
  exact ⟨h1, h2.src⟩

theorem fromGenericReader_calmed (ft : Features) {s t : Src} (hs : s.WF) (h : s.Calmed t) :
    (fromGenericReader ft t).1 = (fromGenericReader ft s).1 := by
  unfold fromGenericReader
  split
  · obtain ⟨h1, _⟩ := execOn_calmed true txtReader s t txt_exact hs h
    generalize execOn true txtReader s = x at h1
    generalize execOn true txtReader t = y at h1
    obtain ⟨r, x⟩ := x
    obtain ⟨r', y⟩ := y
    simp only at h1
    subst h1
    rcases r' with (e | _ | _) | f <;> rfl
  · rfl

theorem afterRead_calmed (cfg : Cfg) (ft : Features) (buf : Bytes) {s t : Src} (hs : s.WF)
    (h : s.Calmed t)
    (hb : ∀ f ∈ Feature.structured, f.enabled ft = true → fromSignature buf = some f.base →
      f.bareRead = false) :
    (afterRead cfg ft buf t).1 = (afterRead cfg ft buf s).1 := by
  unfold afterRead
  split
  · rfl
  · cases hf : fromSignature buf with
    | none => exact fromGenericReader_calmed ft hs h
    | some fmt =>
      simp only
      rcases fmtReader_cases cfg ft fmt with hn | ⟨f, hfs, he, hfmt, hr⟩
      · simp only [fromFmtReader, hn]
      · simp only [fromFmtReader, hr]
        have hbr := hb f hfs he (by rw [hf, hfmt])
        obtain ⟨h1, h2⟩ := execOn_calmed (readerOf cfg f).1 (readerOf cfg f).2 s t
          (reader_exact cfg f hbr) hs h
        obtain ⟨k, hk⟩ := reader_all cfg f
        obtain ⟨_, hwf, _⟩ := execOn_le _ _ s hs (hk.untilBuffered (fun _ => id))
        generalize execOn (readerOf cfg f).1 (readerOf cfg f).2 s = x at h1 h2 hwf
        generalize execOn (readerOf cfg f).1 (readerOf cfg f).2 t = y at h1 h2
        obtain ⟨r, x⟩ := x
        obtain ⟨r', y⟩ := y
        simp only at h1 h2 hwf
        subst h1
        rcases r' with (e | _ | _) | f'
        · exact fromGenericReader_calmed ft hwf h2
        · rfl
        · rfl
        · rfl

end FF
