import Verif.Proofs.Total
import Verif.Spec.Mend
/-!
# A stream and the same stream without its failures

Every program fails on the stream, or does the same on both.
-/

namespace FF
open FileFormat Spec

/-- `t` is `s` without its failures (the log of calls does not matter). -/
structure Src.Mended (s t : Src) : Prop where
  data : t.data = s.data
  pos : t.pos = s.pos
  maxPos : t.maxPos = s.maxPos
  revs : t.revs = mendEvents s.revs
  sevs : t.sevs = s.sevs.map fun _ => none

/-- The same for the object that the readers use. -/
structure Rd.Mended (s t : Rd) : Prop where
  src : s.src.Mended t.src
  buffered : t.buffered = s.buffered
  buf : t.buf = s.buf

/-- A read fails on the stream (if it is interrupted, nothing happens on the other), or does the same on both. -/
theorem Src.read_mended {s t : Src} (h : s.Mended t) (n : Nat) :
    (∃ e s', s.read n = (.error e, s') ∧ (e = .interrupted → s'.Mended t ∧ s'.revs.length < s.revs.length)) ∨
    (∃ bs s' t', s.read n = (.ok bs, s') ∧ t.read n = (.ok bs, t') ∧ s'.Mended t' ∧
      s'.revs.length ≤ s.revs.length ∧ t'.revs.length ≤ t.revs.length ∧ bs.length ≤ n) := by
  obtain ⟨data, pos, maxPos, revs, sevs, log⟩ := s
  obtain ⟨tdata, tpos, tmaxPos, trevs, tsevs, tlog⟩ := t
  obtain ⟨h1, h2, h3, h4, h5⟩ := h
  simp only at h1 h2 h3 h4 h5
  subst h1 h2 h3 h4 h5
  cases revs with
  | nil =>
    refine Or.inr ⟨_, _, _, rfl, rfl, ⟨rfl, rfl, rfl, rfl, rfl⟩, Nat.le_refl _, Nat.le_refl _, ?_⟩
    rw [length_slice]; omega
  | cons e es =>
    cases e with
    | full =>
      refine Or.inr ⟨_, _, _, rfl, rfl, ⟨rfl, rfl, rfl, rfl, rfl⟩, by simp, by simp [mendEvents], ?_⟩
      rw [length_slice]; omega
    | short k =>
      refine Or.inr ⟨_, _, _, rfl, rfl, ⟨rfl, rfl, rfl, rfl, rfl⟩, by simp, by simp [mendEvents], ?_⟩
      rw [length_slice]; omega
    | error x =>
      refine Or.inl ⟨_, _, rfl, ?_⟩
      rintro rfl
      exact ⟨⟨rfl, rfl, rfl, rfl, rfl⟩, by simp⟩

theorem Src.seek_mended {s t : Src} (h : s.Mended t) (p : SeekFrom) :
    (∃ e s', s.seek p = (.error e, s')) ∨
    (∃ q s' t', s.seek p = (.ok q, s') ∧ t.seek p = (.ok q, t') ∧ s'.Mended t') := by
  obtain ⟨data, pos, maxPos, revs, sevs, log⟩ := s
  obtain ⟨tdata, tpos, tmaxPos, trevs, tsevs, tlog⟩ := t
  obtain ⟨h1, h2, h3, h4, h5⟩ := h
  simp only at h1 h2 h3 h4 h5
  subst h1 h2 h3 h4 h5
  unfold Src.seek
  rcases sevs with _ | ⟨_ | e, es⟩
  · simp only [List.map_nil]
    cases seekTarget tdata.length tmaxPos tpos p with
    | none => exact Or.inl ⟨_, _, rfl⟩
    | some q => exact Or.inr ⟨_, _, _, rfl, rfl, ⟨rfl, rfl, rfl, rfl, rfl⟩⟩
  · simp only [List.map_cons]
    cases seekTarget tdata.length tmaxPos tpos p with
    | none => exact Or.inl ⟨_, _, rfl⟩
    | some q => exact Or.inr ⟨_, _, _, rfl, rfl, ⟨rfl, rfl, rfl, rfl, rfl⟩⟩
  · exact Or.inl ⟨_, _, rfl⟩

theorem Src.tell_mended {s t : Src} (h : s.Mended t) :
    (∃ e s', s.tell = (.error e, s')) ∨ (∃ q s' t', s.tell = (.ok q, s') ∧ t.tell = (.ok q, t') ∧ s'.Mended t') := by
  obtain ⟨data, pos, maxPos, revs, sevs, log⟩ := s
  obtain ⟨tdata, tpos, tmaxPos, trevs, tsevs, tlog⟩ := t
  obtain ⟨h1, h2, h3, h4, h5⟩ := h
  simp only at h1 h2 h3 h4 h5
  subst h1 h2 h3 h4 h5
  unfold Src.tell
  rcases sevs with _ | ⟨_ | e, es⟩
  · exact Or.inr ⟨_, _, _, rfl, rfl, ⟨rfl, rfl, rfl, rfl, rfl⟩⟩
  · exact Or.inr ⟨_, _, _, rfl, rfl, ⟨rfl, rfl, rfl, rfl, rfl⟩⟩
  · exact Or.inl ⟨_, _, rfl⟩

theorem Rd.fillBuf_mended {s t : Rd} (h : s.Mended t) :
    (∃ e s', s.fillBuf = (.error e, s') ∧ (e = .interrupted → s'.Mended t ∧ s'.src.revs.length < s.src.revs.length)) ∨
    (∃ bs s' t', s.fillBuf = (.ok bs, s') ∧ t.fillBuf = (.ok bs, t') ∧ s'.Mended t' ∧
      s'.src.revs.length ≤ s.src.revs.length ∧ t'.src.revs.length ≤ t.src.revs.length) := by
  unfold Rd.fillBuf
  rw [h.buf]
  split
  · rcases Src.read_mended h.src bufCapacity with ⟨e, x, h1, h2⟩ | ⟨r, x, y, h1, h2, h3, h4, h5, _⟩
    · rw [h1]
      exact Or.inl ⟨_, _, rfl, fun he => ⟨⟨(h2 he).1, h.buffered, h.buf⟩, (h2 he).2⟩⟩
    · rw [h1, h2]
      exact Or.inr ⟨_, _, _, rfl, rfl, ⟨h3, h.buffered, rfl⟩, h4, h5⟩
  · exact Or.inr ⟨_, _, _, rfl, rfl, h, Nat.le_refl _, Nat.le_refl _⟩

theorem Rd.consume_mended {s t : Rd} (h : s.Mended t) (n : Nat) : (s.consume n).Mended (t.consume n) :=
  ⟨h.src, h.buffered, by simp only [Rd.consume]; rw [h.buf]⟩

theorem Rd.read_mended {s t : Rd} (h : s.Mended t) (n : Nat) :
    (∃ e s', s.read n = (.error e, s') ∧ (e = .interrupted → s'.Mended t ∧ s'.src.revs.length < s.src.revs.length)) ∨
    (∃ bs s' t', s.read n = (.ok bs, s') ∧ t.read n = (.ok bs, t') ∧ s'.Mended t' ∧
      s'.src.revs.length ≤ s.src.revs.length ∧ t'.src.revs.length ≤ t.src.revs.length ∧ bs.length ≤ n) := by
  have direct : (∃ e, ∃ s' : Rd, (match s.src.read n with | (r, src) => (r, { s with src := src })) =
        (.error e, s') ∧ (e = .interrupted → s'.Mended t ∧ s'.src.revs.length < s.src.revs.length)) ∨
      (∃ bs, ∃ s' t' : Rd, (match s.src.read n with | (r, src) => (r, { s with src := src })) = (.ok bs, s') ∧
        (match t.src.read n with | (r, src) => (r, { t with src := src })) = (.ok bs, t') ∧
        s'.Mended t' ∧ s'.src.revs.length ≤ s.src.revs.length ∧ t'.src.revs.length ≤ t.src.revs.length ∧
        bs.length ≤ n) := by
    rcases Src.read_mended h.src n with ⟨e, x, h1, h2⟩ | ⟨r, x, y, h1, h2, h3, h4, h5, h6⟩
    · rw [h1]
      exact Or.inl ⟨_, _, rfl, fun he => ⟨⟨(h2 he).1, h.buffered, h.buf⟩, (h2 he).2⟩⟩
    · rw [h1, h2]
      exact Or.inr ⟨_, _, _, rfl, rfl, ⟨h3, h.buffered, h.buf⟩, h4, h5, h6⟩
  rw [h.buffered, h.buf] at direct
  unfold Rd.read
  rw [h.buffered, h.buf]
  split
  · exact direct
  · split
    · exact direct
    · rcases Rd.fillBuf_mended h with ⟨e, x, h1, h2⟩ | ⟨r, x, y, h1, h2, h3, h4, h5⟩
      · rw [h1]
        exact Or.inl ⟨_, _, rfl, h2⟩
      · rw [h1, h2]
        refine Or.inr ⟨_, _, _, rfl, rfl, Rd.consume_mended h3 _, h4, h5, ?_⟩
        simp only [List.length_take]; omega

theorem Rd.readExactLoop_mended (k l : Nat) (s t : Rd) (h : s.Mended t) (n : Nat) (acc : Bytes)
    (hk : n + s.src.revs.length < k) (hl : n + t.src.revs.length < l) :
    (∃ e s', Rd.readExactLoop k s n acc = (.error (.err e), s')) ∨
    (∃ bs s' t', Rd.readExactLoop k s n acc = (.ok bs, s') ∧ Rd.readExactLoop l t n acc = (.ok bs, t') ∧ s'.Mended t') := by
  induction k generalizing l s t n acc with
  | zero => omega
  | succ k ih =>
    cases n with
    | zero =>
      cases l with
      | zero => omega
      | succ l => exact Or.inr ⟨_, _, _, rfl, rfl, h⟩
    | succ n =>
      rcases Rd.read_mended h (n + 1) with ⟨e, x, h1, h2⟩ | ⟨r, x, y, h1, h2, h3, h4, h5, h6⟩
      · by_cases he : e = .interrupted
        · have : Rd.readExactLoop (k + 1) s (n + 1) acc = Rd.readExactLoop k x (n + 1) acc := by
            simp only [Rd.readExactLoop, h1, if_pos he]
          rw [this]
          exact ih l x t (h2 he).1 _ _ (by have := (h2 he).2; omega) hl
        · left
          refine ⟨e, x, ?_⟩
          simp only [Rd.readExactLoop, h1, if_neg he]
      · cases l with
        | zero => omega
        | succ l =>
          simp only [Rd.readExactLoop, h1, h2]
          by_cases hb : r.length = 0
          · simp only [if_pos hb]; exact Or.inl ⟨_, _, rfl⟩
          · simp only [if_neg hb]
            exact ih l x y h3 _ _ (by omega) (by omega)

theorem Rd.readExact_mended {s t : Rd} (h : s.Mended t) (n : Nat) :
    (∃ e s', s.readExact n = (.error (.err e), s')) ∨
    (∃ bs s' t', s.readExact n = (.ok bs, s') ∧ t.readExact n = (.ok bs, t') ∧ s'.Mended t') := by
  unfold Rd.readExact
  rw [h.buffered, h.buf]
  split
  · exact Or.inr ⟨_, _, _, rfl, rfl, Rd.consume_mended h n⟩
  · exact Rd.readExactLoop_mended _ _ s t h n [] (by omega) (by omega)

theorem Rd.readUntilLoop_mended (k l : Nat) (s t : Rd) (h : s.Mended t) (n : Nat) (acc : Bytes)
    (hk : n + s.src.revs.length < k) (hl : n + t.src.revs.length < l) :
    (∃ e s', Rd.readUntilLoop k s n acc = (.error (.err e), s')) ∨
    (∃ bs s' t', Rd.readUntilLoop k s n acc = (.ok bs, s') ∧ Rd.readUntilLoop l t n acc = (.ok bs, t') ∧ s'.Mended t') := by
  induction k generalizing l s t n acc with
  | zero => omega
  | succ k ih =>
    cases n with
    | zero =>
      cases l with
      | zero => omega
      | succ l => exact Or.inr ⟨_, _, _, rfl, rfl, h⟩
    | succ n =>
      rcases Rd.fillBuf_mended h with ⟨e, x, h1, h2⟩ | ⟨r, x, y, h1, h2, h3, h4, h5⟩
      · by_cases he : e = .interrupted
        · have : Rd.readUntilLoop (k + 1) s (n + 1) acc = Rd.readUntilLoop k x (n + 1) acc := by
            simp only [Rd.readUntilLoop, h1, if_pos he]
          rw [this]
          exact ih l x t (h2 he).1 _ _ (by have := (h2 he).2; omega) hl
        · left
          refine ⟨e, x, ?_⟩
          simp only [Rd.readUntilLoop, h1, if_neg he]
      · cases l with
        | zero => omega
        | succ l =>
          simp only [Rd.readUntilLoop, h1, h2]
          generalize uptoNewline (r.take (n + 1)) = used
          by_cases hb : used.length = 0
          · simp only [if_pos hb]; exact Or.inr ⟨_, _, _, rfl, rfl, h3⟩
          · simp only [if_neg hb]
            by_cases hg : used.getLast? = some 10
            · simp only [if_pos hg]; exact Or.inr ⟨_, _, _, rfl, rfl, Rd.consume_mended h3 _⟩
            · simp only [if_neg hg]
              have e1 : (x.consume used.length).src.revs.length = x.src.revs.length := rfl
              have e2 : (y.consume used.length).src.revs.length = y.src.revs.length := rfl
              exact ih l _ _ (Rd.consume_mended h3 _) _ _ (by omega) (by omega)

theorem Rd.readUntil_mended {s t : Rd} (h : s.Mended t) (n : Nat) :
    (∃ e s', s.readUntil n = (.error (.err e), s')) ∨
    (∃ bs s' t', s.readUntil n = (.ok bs, s') ∧ t.readUntil n = (.ok bs, t') ∧ s'.Mended t') :=
  Rd.readUntilLoop_mended _ _ s t h n [] (by omega) (by omega)

theorem Rd.seek_mended {s t : Rd} (h : s.Mended t) (p : SeekFrom) :
    (∃ e s', s.seek p = (.error e, s')) ∨
    (∃ q s' t', s.seek p = (.ok q, s') ∧ t.seek p = (.ok q, t') ∧ s'.Mended t') := by
  unfold Rd.seek
  rw [h.buffered, h.buf]
  by_cases hb : s.buffered = false
  · simp only [if_pos hb]
    rcases Src.seek_mended h.src p with ⟨e, x, h1⟩ | ⟨q, x, y, h1, h2, h3⟩
    · rw [h1]; exact Or.inl ⟨_, _, rfl⟩
    · rw [h1, h2]; exact Or.inr ⟨_, _, _, rfl, rfl, ⟨h3, rfl, rfl⟩⟩
  · simp only [if_neg hb]
    cases p with
    | current i =>
      by_cases hc : -2 ^ 63 ≤ i - (s.buf.length : Int)
      · simp only [if_pos hc]
        rcases Src.seek_mended h.src (.current (i - s.buf.length)) with ⟨e, x, h1⟩ | ⟨q, x, y, h1, h2, h3⟩
        · rw [h1]; exact Or.inl ⟨_, _, rfl⟩
        · rw [h1, h2]; exact Or.inr ⟨_, _, _, rfl, rfl, ⟨h3, rfl, rfl⟩⟩
      · simp only [if_neg hc]
        rcases Src.seek_mended h.src (.current (-s.buf.length)) with ⟨e, x, h1⟩ | ⟨q, x, y, h1, h2, h3⟩
        · rw [h1]; exact Or.inl ⟨_, _, rfl⟩
        · rw [h1, h2]
          simp only
          rcases Src.seek_mended h3 (.current i) with ⟨e, x, h1⟩ | ⟨q, x, y, h1, h2, h3⟩
          · rw [h1]; exact Or.inl ⟨_, _, rfl⟩
          · rw [h1, h2]; exact Or.inr ⟨_, _, _, rfl, rfl, ⟨h3, rfl, rfl⟩⟩
    | start n =>
      simp only
      rcases Src.seek_mended h.src (.start n) with ⟨e, x, h1⟩ | ⟨q, x, y, h1, h2, h3⟩
      · rw [h1]; exact Or.inl ⟨_, _, rfl⟩
      · rw [h1, h2]; exact Or.inr ⟨_, _, _, rfl, rfl, ⟨h3, rfl, rfl⟩⟩
    | fromEnd n =>
      simp only
      rcases Src.seek_mended h.src (.fromEnd n) with ⟨e, x, h1⟩ | ⟨q, x, y, h1, h2, h3⟩
      · rw [h1]; exact Or.inl ⟨_, _, rfl⟩
      · rw [h1, h2]; exact Or.inr ⟨_, _, _, rfl, rfl, ⟨h3, rfl, rfl⟩⟩

theorem Rd.tell_mended {s t : Rd} (h : s.Mended t) :
    (∃ e s', s.tell = (.error (.err e), s')) ∨
    (∃ r s' t', s.tell = (r, s') ∧ t.tell = (r, t') ∧ s'.Mended t') := by
  unfold Rd.tell
  rw [h.buffered, h.buf]
  rcases Src.tell_mended h.src with ⟨e, x, h1⟩ | ⟨q, x, y, h1, h2, h3⟩
  · rw [h1]; exact Or.inl ⟨_, _, rfl⟩
  · rw [h1, h2]
    simp only
    right
    by_cases hb : s.buffered = false
    · simp only [if_pos hb]; exact ⟨_, _, _, rfl, rfl, ⟨h3, rfl, rfl⟩⟩
    · simp only [if_neg hb]
      by_cases hq : s.buf.length ≤ q
      · simp only [if_pos hq]; exact ⟨_, _, _, rfl, rfl, ⟨h3, rfl, rfl⟩⟩
      · simp only [if_neg hq]; exact ⟨_, _, _, rfl, rfl, ⟨h3, rfl, rfl⟩⟩

/-- Every program fails with an error on the stream, or does the same on both. -/
theorem exec_mended {α : Type} (p : Prog α) (s t : Rd) (h : s.Mended t) :
    (∃ e s', exec p s = (.error (.err e), s')) ∨ ((exec p t).1 = (exec p s).1 ∧ (exec p s).2.Mended (exec p t).2) := by
  induction p generalizing s t with
  | pure a => exact Or.inr ⟨rfl, h⟩
  | fail f => exact Or.inr ⟨rfl, h⟩
  | readExact n c ih =>
    rcases Rd.readExact_mended h n with ⟨e, x, h1⟩ | ⟨a, x, y, h1, h2, h3⟩
    · simp only [exec, h1]; exact Or.inl ⟨_, _, rfl⟩
    · simp only [exec, h1, h2]; exact ih a x y h3
  | read n c ih =>
    rcases Rd.read_mended h n with ⟨e, x, h1, _⟩ | ⟨a, x, y, h1, h2, h3, _⟩
    · simp only [exec, h1]; exact Or.inl ⟨_, _, rfl⟩
    · simp only [exec, h1, h2]; exact ih a x y h3
  | seek q c ih =>
    rcases Rd.seek_mended h q with ⟨e, x, h1⟩ | ⟨a, x, y, h1, h2, h3⟩
    · simp only [exec, h1]; exact Or.inl ⟨_, _, rfl⟩
    · simp only [exec, h1, h2]; exact ih a x y h3
  | tell c ih =>
    rcases Rd.tell_mended h with ⟨e, x, h1⟩ | ⟨a, x, y, h1, h2, h3⟩
    · simp only [exec, h1]; exact Or.inl ⟨_, _, rfl⟩
    · simp only [exec, h1, h2]
      cases a with
      | ok a => exact ih a x y h3
      | error f => exact Or.inr ⟨rfl, h3⟩
  | readUntil n c ih =>
    rcases Rd.readUntil_mended h n with ⟨e, x, h1⟩ | ⟨a, x, y, h1, h2, h3⟩
    · simp only [exec, h1]; exact Or.inl ⟨_, _, rfl⟩
    · simp only [exec, h1, h2]; exact ih a x y h3

theorem execOn_mended {α : Type} (b : Bool) (p : Prog α) (s t : Src) (h : s.Mended t) :
    (∃ e s', execOn b p s = (.error (.err e), s')) ∨
      ((execOn b p t).1 = (execOn b p s).1 ∧ (execOn b p s).2.Mended (execOn b p t).2) := by
  rcases exec_mended p { src := s, buffered := b, buf := [] } { src := t, buffered := b, buf := [] } ⟨h, rfl, rfl⟩ with
    ⟨e, x, h1⟩ | ⟨h1, h2⟩
  · exact Or.inl ⟨e, x.src, by unfold execOn; rw [h1]⟩
  · exact Or.inr ⟨h1, h2.src⟩

theorem fromGenericReader_mended (ft : Features) {s t : Src} (h : s.Mended t) :
    (fromGenericReader ft s).1 = .ok FileFormat.default ∨ (fromGenericReader ft t).1 = (fromGenericReader ft s).1 := by
  unfold fromGenericReader
  split
  · rcases execOn_mended true txtReader s t h with ⟨e, x, h1⟩ | ⟨h1, _⟩
    · rw [h1]; exact Or.inl rfl
    · right
      generalize execOn true txtReader s = x at h1
      generalize execOn true txtReader t = y at h1
      obtain ⟨r, x⟩ := x
      obtain ⟨r', y⟩ := y
      simp only at h1
      subst h1
      rcases r' with (e | _ | _) | f <;> rfl
  · exact Or.inr rfl

/-- After the first read: the same on both, or the verdict that the content is left with when a reader gives up. -/
theorem afterRead_mended (cfg : Cfg) (ft : Features) (buf : Bytes) {s t : Src} (h : s.Mended t) (hs : s.WF) :
    (afterRead cfg ft buf t).1 = (afterRead cfg ft buf s).1 ∨ (afterRead cfg ft buf s).1 = .ok FileFormat.default ∨
      ∃ s', (afterRead cfg ft buf s).1 = (fromGenericReader ft s').1 ∧ s'.data = s.data ∧ s'.WF := by
  unfold afterRead
  split
  · exact Or.inl rfl
  · cases hf : fromSignature buf with
    | none =>
      rcases fromGenericReader_mended ft h with h' | h'
      · exact Or.inr (Or.inl h')
      · exact Or.inl h'
    | some fmt =>
      simp only
      rcases fmtReader_cases cfg ft fmt with hn | ⟨f, hfs, he, hfmt, hr⟩
      · simp only [fromFmtReader, hn]; exact Or.inl trivial
      · simp only [fromFmtReader, hr]
        obtain ⟨k, hk⟩ := reader_all cfg f
        obtain ⟨hle, hwf, _⟩ := execOn_le _ _ s hs (hk.untilBuffered (fun _ => id))
        rcases execOn_mended (readerOf cfg f).1 (readerOf cfg f).2 s t h with ⟨e, x, h1⟩ | ⟨h1, h2⟩
        · rw [h1] at hle hwf ⊢
          exact Or.inr (Or.inr ⟨x, rfl, hle.data, hwf⟩)
        · generalize execOn (readerOf cfg f).1 (readerOf cfg f).2 s = x at h1 h2 hwf hle
          generalize execOn (readerOf cfg f).1 (readerOf cfg f).2 t = y at h1 h2
          obtain ⟨r, x⟩ := x
          obtain ⟨r', y⟩ := y
          simp only at h1 h2 hwf hle
          subst h1
          rcases r' with (e | _ | _) | f'
          · exact Or.inr (Or.inr ⟨x, rfl, hle.data, hwf⟩)
          · exact Or.inl rfl
          · exact Or.inl rfl
          · exact Or.inl rfl

end FF
