import Verif.Proofs.Run
import Verif.Spec.Stream
/-!
# `exec` refines `run`

For programs that only use `read_exact`, `seek`, `stream_position` and (when buffered)
`read_until`, neither the way the stream chops its reads, nor interruptions, nor `BufReader` can be
observed; failing calls can only turn the result into that error.
-/

namespace FF

/-- `s'` is `s` after some calls. -/
structure Src.Le (s s' : Src) : Prop where
  data : s'.data = s.data
  maxPos : s'.maxPos = s.maxPos
  revs : s'.revs <:+ s.revs
  sevs : s'.sevs <:+ s.sevs

theorem Src.Le.refl (s : Src) : s.Le s := ⟨rfl, rfl, List.suffix_refl _, List.suffix_refl _⟩

theorem Src.Le.trans {a b c : Src} (h : a.Le b) (k : b.Le c) : a.Le c :=
  ⟨k.data.trans h.data, k.maxPos.trans h.maxPos, k.revs.trans h.revs, k.sevs.trans h.sevs⟩

theorem Src.Benign.mono {a b : Src} (h : a.Benign) (k : a.Le b) : b.Benign :=
  ⟨fun e he => h.reads e (k.revs.subset he), fun e he => h.seeks e (k.sevs.subset he)⟩

/-- Invariant of the stream and its buffer: the buffer holds the bytes before the stream's
position. -/
structure Rd.Ok (s : Rd) : Prop where
  wf : s.src.WF
  le : s.buf.length ≤ s.src.pos
  buf : s.buf = slice s.src.data (s.src.pos - s.buf.length) s.buf.length
  unbuf : s.buffered = false → s.buf = []

/-- The position seen by the user of the (buffered) stream. -/
def Rd.lpos (s : Rd) : Nat := s.src.pos - s.buf.length

theorem Src.read_spec (s : Src) (n : Nat) (h : s.WF) :
    s.Le (s.read n).2 ∧ (s.read n).2.WF ∧
    ((∃ k, k ≤ n ∧ (n ≠ 0 → k ≠ 0) ∧ (s.read n).1 = .ok (slice s.data s.pos k) ∧
        (s.read n).2.pos = s.pos + (slice s.data s.pos k).length) ∨
     (∃ e, (s.read n).1 = .error e ∧ Ev.error e ∈ s.revs ∧ (s.read n).2.pos = s.pos ∧
        (s.read n).2.revs.length < s.revs.length)) := by
  have hw : ∀ k, s.pos + (slice s.data s.pos k).length ≤ s.maxPos := by
    intro k
    rw [length_slice]
    have := h.len
    have := h.pos
    omega
  unfold Src.read
  split
  · exact ⟨⟨rfl, rfl, List.suffix_refl _, List.suffix_refl _⟩, ⟨h.len, hw n⟩,
      Or.inl ⟨n, Nat.le_refl _, id, rfl, rfl⟩⟩
  · rename_i es he
    exact ⟨⟨rfl, rfl, by rw [he]; exact List.suffix_cons _ _, List.suffix_refl _⟩, ⟨h.len, hw n⟩,
      Or.inl ⟨n, Nat.le_refl _, id, rfl, rfl⟩⟩
  · rename_i k es he
    exact ⟨⟨rfl, rfl, by rw [he]; exact List.suffix_cons _ _, List.suffix_refl _⟩,
      ⟨h.len, hw _⟩, Or.inl ⟨min n (k + 1), Nat.min_le_left _ _, by omega, rfl, rfl⟩⟩
  · rename_i e es he
    exact ⟨⟨rfl, rfl, by rw [he]; exact List.suffix_cons _ _, List.suffix_refl _⟩, ⟨h.len, h.pos⟩,
      Or.inr ⟨e, rfl, by rw [he]; exact List.mem_cons_self, rfl, by rw [he]; simp⟩⟩

theorem Src.seek_spec (s : Src) (p : SeekFrom) (h : s.WF) :
    s.Le (s.seek p).2 ∧ (s.seek p).2.WF ∧
    ((∃ q, seekTarget s.data.length s.maxPos s.pos p = some q ∧ (s.seek p).1 = .ok q ∧
        (s.seek p).2.pos = q) ∨
     (seekTarget s.data.length s.maxPos s.pos p = none ∧ (s.seek p).1 = .error .invalidInput ∧
        (s.seek p).2.pos = s.pos) ∨
     (∃ e, (s.seek p).1 = .error e ∧ ¬ s.Benign ∧ (s.seek p).2.pos = s.pos)) := by
  unfold Src.seek
  split
  · rename_i e es he
    refine ⟨⟨rfl, rfl, List.suffix_refl _, by rw [he]; exact List.suffix_cons _ _⟩,
      ⟨h.len, h.pos⟩, Or.inr (Or.inr ⟨e, rfl, ?_, rfl⟩)⟩
    intro hb
    have := hb.seeks (some e) (by rw [he]; exact List.mem_cons_self)
    cases this
  · rename_i he
    split
    · rename_i q hq
      refine ⟨⟨rfl, rfl, List.suffix_refl _, List.tail_suffix _⟩, ⟨h.len, ?_⟩,
        Or.inl ⟨q, hq, rfl, rfl⟩⟩
      show q ≤ s.maxPos
      revert hq
      unfold seekTarget
      split
      · split
        · rintro ⟨⟩; assumption
        · intro h; cases h
      · split
        · rintro ⟨⟩; omega
        · intro h; cases h
      · split
        · rintro ⟨⟩; omega
        · intro h; cases h
    · rename_i hq
      exact ⟨⟨rfl, rfl, List.suffix_refl _, List.tail_suffix _⟩, ⟨h.len, h.pos⟩,
        Or.inr (Or.inl ⟨hq, rfl, rfl⟩)⟩

theorem Src.tell_spec (s : Src) (h : s.WF) :
    s.Le s.tell.2 ∧ s.tell.2.WF ∧ s.tell.2.pos = s.pos ∧
    (s.tell.1 = .ok s.pos ∨ (∃ e, s.tell.1 = .error e ∧ ¬ s.Benign)) := by
  unfold Src.tell
  split
  · rename_i e es he
    refine ⟨⟨rfl, rfl, List.suffix_refl _, by rw [he]; exact List.suffix_cons _ _⟩,
      ⟨h.len, h.pos⟩, rfl, Or.inr ⟨e, rfl, ?_⟩⟩
    intro hb
    have := hb.seeks (some e) (by rw [he]; exact List.mem_cons_self)
    cases this
  · exact ⟨⟨rfl, rfl, List.suffix_refl _, List.tail_suffix _⟩, ⟨h.len, h.pos⟩, rfl, Or.inl rfl⟩

theorem slice_zero (d : Bytes) (p : Nat) : slice d p 0 = [] := by simp [slice]

theorem take_slice (d : Bytes) (p n k : Nat) : (slice d p n).take k = slice d p (min k n) := by
  simp [slice, List.take_take]

theorem drop_slice (d : Bytes) (p n k : Nat) : (slice d p n).drop k = slice d (p + k) (n - k) := by
  simp [slice, List.drop_take, List.drop_drop]

theorem slice_length_self (d : Bytes) (p n : Nat) :
    slice d p (slice d p n).length = slice d p n := by
  simp [slice, List.take_eq_take_iff]

theorem slice_append_slice (d : Bytes) (p a b : Nat) :
    slice d p a ++ slice d (p + a) b = slice d p (a + b) := by
  simp [slice, List.take_add, List.drop_drop]

/-- A result that is not a failure other than an I/O error. -/
def NotCrash {α : Type} (r : Except Fail α) : Prop :=
  match r with
  | .error .panic => False
  | .error .diverge => False
  | _ => True

/-- Filling the buffer. -/
theorem Rd.fillBuf_spec (s : Rd) (h : s.Ok) :
    s.src.Le s.fillBuf.2.src ∧ s.fillBuf.2.src.WF ∧ s.fillBuf.2.buffered = s.buffered ∧
    ((∃ bs, s.fillBuf.1 = .ok bs ∧ s.fillBuf.2.buf = bs ∧
        bs = slice s.src.data s.lpos bs.length ∧ bs.length ≤ s.fillBuf.2.src.pos ∧
        s.fillBuf.2.lpos = s.lpos ∧ (bs = [] → s.src.data.length ≤ s.lpos) ∧
        (s.buffered = true → s.fillBuf.2.Ok)) ∨
     (∃ e, s.fillBuf.1 = .error e ∧ Ev.error e ∈ s.src.revs ∧ s.fillBuf.2.lpos = s.lpos ∧
        s.fillBuf.2.src.revs.length < s.src.revs.length ∧ s.fillBuf.2.Ok)) := by
  unfold Rd.fillBuf
  split
  · rename_i he
    have he' : s.buf = [] := by simpa using he
    obtain ⟨hle, hwf, hr⟩ := Src.read_spec s.src bufCapacity h.wf
    have hl : s.lpos = s.src.pos := by simp [Rd.lpos, he']
    cases hx : s.src.read bufCapacity with
    | mk r src =>
      rw [hx] at hle hwf hr
      simp only at hle hwf hr ⊢
      rcases hr with ⟨k, hk1, hk2, hr1, hr2⟩ | ⟨e, hr1, hr2, hr3, hr4⟩
      · subst hr1
        refine ⟨hle, hwf, rfl, Or.inl ⟨_, rfl, rfl, ?_, ?_, ?_, ?_, ?_⟩⟩
        · rw [hl, slice_length_self]
        · simp only [hr2]; omega
        · simp only [Rd.lpos, hr2, he']; simp
        · intro hb
          have : (slice s.src.data s.src.pos k).length = 0 := by rw [hb]; rfl
          rw [length_slice] at this
          have : k ≠ 0 := hk2 (by simp [bufCapacity])
          omega
        · intro hbuf
          refine ⟨hwf, ?_, ?_, ?_⟩
          · simp only [hr2]; omega
          · simp only [hr2, hle.data, Nat.add_sub_cancel]; rw [slice_length_self]
          · simp [hbuf]
      · subst hr1
        refine ⟨hle, hwf, rfl, Or.inr ⟨e, rfl, hr2, ?_, hr4, ?_⟩⟩
        · simp [Rd.lpos, hr3]
        · exact ⟨hwf, by simp [he'], by simp [he', slice_zero], by simp [he']⟩
  · rename_i he
    refine ⟨Src.Le.refl _, h.wf, rfl, Or.inl ⟨s.buf, rfl, rfl, h.buf, h.le, rfl, ?_, fun _ => h⟩⟩
    intro hb
    simp [hb] at he

theorem Rd.consume_ok (s : Rd) (h : s.Ok) (n : Nat) :
    (s.consume n).Ok ∧ (s.consume n).lpos = s.lpos + min n s.buf.length := by
  have hle := h.le
  refine ⟨⟨h.wf, ?_, ?_, ?_⟩, ?_⟩
  · simp [Rd.consume]; omega
  · by_cases hn : n ≤ s.buf.length
    · conv => lhs; simp only [Rd.consume]
      rw [show s.buf.drop n = _ from congrArg (List.drop n) h.buf]
      rw [drop_slice]
      simp only [Rd.consume, List.length_drop]
      congr 1
      omega
    · have : s.buf.drop n = [] := by simp; omega
      simp [Rd.consume, this, slice_zero]
  · intro hb
    simp [Rd.consume, h.unbuf hb]
  · simp [Rd.consume, Rd.lpos]; omega

theorem Rd.read_spec (s : Rd) (n : Nat) (h : s.Ok) :
    s.src.Le (s.read n).2.src ∧ (s.read n).2.buffered = s.buffered ∧ (s.read n).2.Ok ∧
    ((∃ k, k ≤ n ∧ (n ≠ 0 → s.lpos < s.src.data.length → k ≠ 0) ∧
        s.lpos + k ≤ max s.lpos s.src.data.length ∧
        (s.read n).1 = .ok (slice s.src.data s.lpos k) ∧
        (slice s.src.data s.lpos k).length = k ∧ (s.read n).2.lpos = s.lpos + k) ∨
     (∃ e, (s.read n).1 = .error e ∧ Ev.error e ∈ s.src.revs ∧ (s.read n).2.lpos = s.lpos ∧
        (s.read n).2.src.revs.length < s.src.revs.length)) := by
  have direct : s.buf = [] →
      s.src.Le (s.src.read n).2 ∧ ({ s with src := (s.src.read n).2 } : Rd).Ok ∧
      ((∃ k, k ≤ n ∧ (n ≠ 0 → s.lpos < s.src.data.length → k ≠ 0) ∧
        s.lpos + k ≤ max s.lpos s.src.data.length ∧
        (s.src.read n).1 = .ok (slice s.src.data s.lpos k) ∧
        (slice s.src.data s.lpos k).length = k ∧
        ({ s with src := (s.src.read n).2 } : Rd).lpos = s.lpos + k) ∨
       (∃ e, (s.src.read n).1 = .error e ∧ Ev.error e ∈ s.src.revs ∧
        ({ s with src := (s.src.read n).2 } : Rd).lpos = s.lpos ∧
        (s.src.read n).2.revs.length < s.src.revs.length)) := by
    intro hb
    obtain ⟨hle, hwf, hr⟩ := Src.read_spec s.src n h.wf
    have hl : s.lpos = s.src.pos := by simp [Rd.lpos, hb]
    refine ⟨hle, ⟨hwf, by simp [hb], by simp [hb, slice_zero], by simp [hb]⟩, ?_⟩
    rcases hr with ⟨k, hk1, hk2, hr1, hr2⟩ | ⟨e, hr1, hr2, hr3, hr4⟩
    · left
      refine ⟨(slice s.src.data s.src.pos k).length, ?_, ?_, ?_, ?_, ?_, ?_⟩
      · rw [length_slice]; omega
      · intro h1 h2
        have := hk2 h1
        rw [length_slice]; omega
      · rw [length_slice]; omega
      · rw [hr1, hl, slice_length_self]
      · rw [hl, slice_length_self]
      · simp [Rd.lpos, hb, hr2]
    · right
      exact ⟨e, hr1, hr2, by simp [Rd.lpos, hr3], hr4⟩
  unfold Rd.read
  split
  · rename_i hbf
    obtain ⟨h1, h2, h3⟩ := direct (h.unbuf hbf)
    exact ⟨h1, rfl, h2, h3⟩
  · rename_i hbf
    split
    · rename_i hc
      obtain ⟨h1, h2, h3⟩ := direct (by simpa using hc.1)
      exact ⟨h1, rfl, h2, h3⟩
    · obtain ⟨h1, h2, h3, h4⟩ := Rd.fillBuf_spec s h
      cases hx : s.fillBuf with
      | mk r s' =>
        rw [hx] at h1 h2 h3 h4
        simp only at h1 h2 h3 h4
        rcases h4 with ⟨bs, hr, hbuf, hbs, hle, hlp, hemp, hok⟩ | ⟨e, hr, he, hlp, hlt, hok⟩
        · subst hr
          have hok := hok (by simpa using hbf)
          obtain ⟨c1, c2⟩ := Rd.consume_ok s' hok (min n bs.length)
          have hlenmax : bs.length ≤ s.src.data.length - s.lpos := by
            have := congrArg List.length hbs
            rw [length_slice] at this
            omega
          refine ⟨h1, h3, c1, Or.inl ⟨min n bs.length, by omega, ?_, ?_, ?_, ?_, ?_⟩⟩
          · intro hn hlt hz
            have : bs = [] := List.length_eq_zero_iff.mp (by omega)
            have := hemp this
            omega
          · omega
          · simp only
            congr 1
            conv => lhs; rw [hbs]
            rw [take_slice]
          · rw [length_slice]; omega
          · show (s'.consume _).lpos = _
            rw [c2, hlp, hbuf]
            omega
        · subst hr
          exact ⟨h1, h3, hok, Or.inr ⟨e, rfl, he, hlp, hlt⟩⟩

theorem Rd.readExactLoop_spec (fuel : Nat) (s : Rd) (n : Nat) (acc : Bytes) (h : s.Ok)
    (hf : n + s.src.revs.length ≤ fuel) :
    let r := Rd.readExactLoop fuel s n acc
    s.src.Le r.2.src ∧ r.2.buffered = s.buffered ∧ r.2.Ok ∧
    (((n = 0 ∨ s.lpos + n ≤ s.src.data.length) ∧ r.1 = .ok (acc ++ slice s.src.data s.lpos n) ∧
        r.2.lpos = s.lpos + n) ∨
     (¬ (n = 0 ∨ s.lpos + n ≤ s.src.data.length) ∧ r.1 = .error (.err .unexpectedEof)) ∨
     (¬ s.src.Benign ∧ ∃ e, r.1 = .error (.err e))) := by
  induction fuel generalizing s n acc with
  | zero =>
    have : n = 0 := by omega
    subst this
    simp [Rd.readExactLoop, slice_zero, Src.Le.refl, h]
  | succ fuel ih =>
    cases n with
    | zero => simp [Rd.readExactLoop, slice_zero, Src.Le.refl, h]
    | succ n =>
      obtain ⟨hle, hbf, hok, hr⟩ := Rd.read_spec s (n + 1) h
      simp only [Rd.readExactLoop]
      cases hx : s.read (n + 1) with
      | mk r s' =>
        rw [hx] at hle hbf hok hr
        simp only at hle hbf hok hr
        rcases hr with ⟨k, hk1, hk2, hk5, hr1, hk3, hk4⟩ | ⟨e, hr1, hr2, hr3, hr4⟩
        · subst hr1
          simp only [hk3]
          by_cases hz : k = 0
          · subst hz
            simp only [if_true]
            refine ⟨hle, hbf, hok, Or.inr (Or.inl ⟨?_, trivial⟩)⟩
            intro hc
            exact hk2 (by omega) (by omega) rfl
          · simp only [if_neg hz]
            have hrl := hle.revs.length_le
            obtain ⟨i1, i2, i3, i4⟩ := ih s' (n + 1 - k) (acc ++ slice s.src.data s.lpos k) hok
              (by omega)
            refine ⟨hle.trans i1, i2.trans hbf, i3, ?_⟩
            rw [hle.data, hk4] at i4
            rcases i4 with ⟨j1, j2, j3⟩ | ⟨j1, j2⟩ | ⟨j1, j2⟩
            · left
              refine ⟨by omega, ?_, by omega⟩
              rw [j2, List.append_assoc, slice_append_slice]
              congr 3
              omega
            · right; left
              exact ⟨by omega, j2⟩
            · right; right
              exact ⟨fun hb => j1 (hb.mono hle), j2⟩
        · subst hr1
          simp only
          by_cases he : e = .interrupted
          · simp only [if_pos he]
            obtain ⟨i1, i2, i3, i4⟩ := ih s' (n + 1) acc hok (by omega)
            refine ⟨hle.trans i1, i2.trans hbf, i3, ?_⟩
            rw [hle.data, hr3] at i4
            rcases i4 with h | h | ⟨j1, j2⟩
            · exact Or.inl h
            · exact Or.inr (Or.inl h)
            · exact Or.inr (Or.inr ⟨fun hb => j1 (hb.mono hle), j2⟩)
          · simp only [if_neg he]
            exact ⟨hle, hbf, hok, Or.inr (Or.inr ⟨fun hb => he (hb.reads e hr2), e, rfl⟩)⟩

theorem Rd.readExact_spec (s : Rd) (n : Nat) (h : s.Ok) :
    let r := s.readExact n
    s.src.Le r.2.src ∧ r.2.buffered = s.buffered ∧ r.2.Ok ∧
    (((n = 0 ∨ s.lpos + n ≤ s.src.data.length) ∧ r.1 = .ok (slice s.src.data s.lpos n) ∧
        r.2.lpos = s.lpos + n) ∨
     (¬ (n = 0 ∨ s.lpos + n ≤ s.src.data.length) ∧ r.1 = .error (.err .unexpectedEof)) ∨
     (¬ s.src.Benign ∧ ∃ e, r.1 = .error (.err e))) := by
  unfold Rd.readExact
  split
  · rename_i hc
    obtain ⟨c1, c2⟩ := Rd.consume_ok s h n
    refine ⟨Src.Le.refl _, rfl, c1, Or.inl ⟨?_, ?_, ?_⟩⟩
    · have h1 := congrArg List.length h.buf
      rw [length_slice] at h1
      simp only [Rd.lpos]
      have h2 := h.le
      have h3 := hc.2
      omega
    · simp only
      congr 1
      conv => lhs; rw [h.buf]
      rw [take_slice]
      rw [Nat.min_eq_left hc.2]
      rfl
    · rw [c2, Nat.min_eq_left hc.2]
  · have := Rd.readExactLoop_spec (n + s.src.revs.length + 1) s n [] h (by omega)
    simpa using this

theorem seekTarget_shift (len maxPos p l : Nat) (i : Int) (h : l ≤ p) :
    seekTarget len maxPos p (.current (i - l)) = seekTarget len maxPos (p - l) (.current i) := by
  unfold seekTarget
  have : (p : Int) + (i - l) = ((p - l : Nat) : Int) + i := by omega
  simp only [this]

theorem Rd.seek_spec (s : Rd) (p : SeekFrom) (h : s.Ok) :
    let r := s.seek p
    s.src.Le r.2.src ∧ r.2.buffered = s.buffered ∧ r.2.Ok ∧
    ((∃ q, seekTarget s.src.data.length s.src.maxPos s.lpos p = some q ∧ r.1 = .ok q ∧
        r.2.lpos = q) ∨
     (seekTarget s.src.data.length s.src.maxPos s.lpos p = none ∧ r.1 = .error .invalidInput) ∨
     (¬ s.src.Benign ∧ ∃ e, r.1 = .error e)) := by
  have okEmpty : ∀ src : Src, src.WF → ({ s with src := src, buf := [] } : Rd).Ok := by
    intro src hw
    exact ⟨hw, by simp, by simp [slice_zero], by simp⟩
  have okSame : ∀ src : Src, src.WF → src.data = s.src.data → src.pos = s.src.pos →
      ({ s with src := src } : Rd).Ok := by
    intro src hw hd hp
    exact ⟨hw, by simpa [hp] using h.le, by simpa [hp, hd] using h.buf, h.unbuf⟩
  have simple : ∀ p' : SeekFrom,
      seekTarget s.src.data.length s.src.maxPos s.src.pos p' =
        seekTarget s.src.data.length s.src.maxPos s.lpos p →
      let r : Except ErrKind Nat × Rd := match s.src.seek p' with
        | (.ok q, src) => (.ok q, { s with src := src, buf := [] })
        | (.error e, src) => (.error e, { s with src := src })
      s.src.Le r.2.src ∧ r.2.buffered = s.buffered ∧ r.2.Ok ∧
      ((∃ q, seekTarget s.src.data.length s.src.maxPos s.lpos p = some q ∧ r.1 = .ok q ∧
          r.2.lpos = q) ∨
       (seekTarget s.src.data.length s.src.maxPos s.lpos p = none ∧ r.1 = .error .invalidInput) ∨
       (¬ s.src.Benign ∧ ∃ e, r.1 = .error e)) := by
    intro p' hp'
    obtain ⟨hle, hwf, hr⟩ := Src.seek_spec s.src p' h.wf
    rw [hp'] at hr
    cases hx : s.src.seek p' with
    | mk r src =>
      rw [hx] at hle hwf hr
      simp only at hle hwf hr ⊢
      rcases hr with ⟨q, h1, h2, h3⟩ | ⟨h1, h2, h3⟩ | ⟨e, h1, h2, h3⟩
      · subst h2
        exact ⟨hle, rfl, okEmpty _ hwf, Or.inl ⟨q, h1, rfl, by simp [Rd.lpos, h3]⟩⟩
      · subst h2
        exact ⟨hle, rfl, okSame _ hwf hle.data h3, Or.inr (Or.inl ⟨h1, rfl⟩)⟩
      · subst h1
        exact ⟨hle, rfl, okSame _ hwf hle.data h3, Or.inr (Or.inr ⟨h2, e, rfl⟩)⟩
  unfold Rd.seek
  split
  · rename_i hbf
    have hb := h.unbuf hbf
    have hl : s.lpos = s.src.pos := by simp [Rd.lpos, hb]
    have := simple p (by rw [hl])
    revert this
    cases hx : s.src.seek p with
    | mk r src =>
      cases r with
      | ok q =>
        simp only
        intro this
        simpa [hb, Rd.Ok, Rd.lpos] using this
      | error e => simp only; exact id
  · rename_i hbf
    cases p with
    | current i =>
      simp only
      split
      · exact simple (.current (i - s.buf.length)) (by
          rw [seekTarget_shift _ _ _ _ _ h.le]; rfl)
      · obtain ⟨hle, hwf, hr⟩ := Src.seek_spec s.src (.current (-(s.buf.length : Int))) h.wf
        have ht : seekTarget s.src.data.length s.src.maxPos s.src.pos
            (.current (-(s.buf.length : Int))) = some s.lpos := by
          unfold seekTarget
          have h1 := h.le
          have h2 := h.wf.pos
          have : (s.src.pos : Int) + -(s.buf.length : Int) = (s.lpos : Int) := by
            simp only [Rd.lpos]; omega
          simp only [this]
          rw [if_pos (by simp only [Rd.lpos]; omega)]
          simp
        rw [ht] at hr
        cases hx : s.src.seek (.current (-(s.buf.length : Int))) with
        | mk r src =>
          rw [hx] at hle hwf hr
          simp only at hle hwf hr ⊢
          rcases hr with ⟨q, h1, h2, h3⟩ | ⟨h1, h2, h3⟩ | ⟨e, h1, h2, h3⟩
          · subst h2
            simp only at h1 ⊢
            cases h1
            obtain ⟨hle', hwf', hr'⟩ := Src.seek_spec src (.current i) hwf
            rw [h3, hle.data, hle.maxPos] at hr'
            cases hy : src.seek (.current i) with
            | mk r' src' =>
              rw [hy] at hle' hwf' hr'
              simp only at hle' hwf' hr' ⊢
              rcases hr' with ⟨q, h1, h2, h3⟩ | ⟨h1, h2, h3⟩ | ⟨e, h1, h2, h3⟩
              · subst h2
                exact ⟨hle.trans hle', rfl, okEmpty _ hwf',
                  Or.inl ⟨q, h1, rfl, by simp [Rd.lpos, h3]⟩⟩
              · subst h2
                exact ⟨hle.trans hle', rfl, okEmpty _ hwf', Or.inr (Or.inl ⟨h1, rfl⟩)⟩
              · subst h1
                exact ⟨hle.trans hle', rfl, okEmpty _ hwf',
                  Or.inr (Or.inr ⟨fun hb => h2 (hb.mono hle), e, rfl⟩)⟩
          · cases h1
          · subst h1
            exact ⟨hle, rfl, okSame _ hwf hle.data h3, Or.inr (Or.inr ⟨h2, e, rfl⟩)⟩
    | start n => exact simple (.start n) rfl
    | fromEnd i => exact simple (.fromEnd i) rfl

theorem Rd.tell_spec (s : Rd) (h : s.Ok) :
    let r := s.tell
    s.src.Le r.2.src ∧ r.2.buffered = s.buffered ∧ r.2.Ok ∧
    ((r.1 = .ok s.lpos ∧ r.2.lpos = s.lpos) ∨
     (¬ s.src.Benign ∧ ∃ e, r.1 = .error (.err e))) := by
  obtain ⟨hle, hwf, hp, hr⟩ := Src.tell_spec s.src h.wf
  unfold Rd.tell
  cases hx : s.src.tell with
  | mk r src =>
    rw [hx] at hle hwf hp hr
    simp only at hle hwf hp hr ⊢
    have okSame : ({ s with src := src } : Rd).Ok :=
      ⟨hwf, by simpa [hp] using h.le, by simpa [hp, hle.data] using h.buf, h.unbuf⟩
    rcases hr with hr | ⟨e, hr, hb⟩
    · subst hr
      simp only
      split
      · rename_i hbf
        have hb := h.unbuf hbf
        exact ⟨hle, rfl, okSame, Or.inl ⟨by simp [Rd.lpos, hb], by simp [Rd.lpos, hp]⟩⟩
      · rw [if_pos h.le]
        exact ⟨hle, rfl, okSame, Or.inl ⟨rfl, by simp [Rd.lpos, hp]⟩⟩
    · subst hr
      exact ⟨hle, rfl, okSame, Or.inr ⟨hb, e, rfl⟩⟩

theorem uptoNewline_append (a b : Bytes) :
    uptoNewline (a ++ b) = if (10 : UInt8) ∈ a then uptoNewline a else a ++ uptoNewline b := by
  induction a with
  | nil => simp
  | cons x t ih =>
    simp only [List.cons_append, uptoNewline, ih, List.mem_cons]
    by_cases hx : x = 10
    · simp [hx]
    · simp only [if_neg hx]
      have : (10 = x ∨ (10 : UInt8) ∈ t) ↔ (10 : UInt8) ∈ t := by
        constructor
        · rintro (h | h)
          · exact absurd h.symm hx
          · exact h
        · exact Or.inr
      simp only [this]
      split <;> rfl

theorem uptoNewline_of_not_mem (l : Bytes) (h : (10 : UInt8) ∉ l) : uptoNewline l = l := by
  have := uptoNewline_append l []
  simpa [h, uptoNewline] using this

theorem uptoNewline_getLast (l : Bytes) (h : (10 : UInt8) ∈ l) :
    (uptoNewline l).getLast? = some 10 := by
  induction l with
  | nil => cases h
  | cons x t ih =>
    unfold uptoNewline
    split
    · rename_i hx; simp [hx]
    · rename_i hx
      have ht : (10 : UInt8) ∈ t := by
        rcases List.mem_cons.mp h with h | h
        · exact absurd h.symm hx
        · exact h
      have := ih ht
      rw [List.getLast?_cons, this]
      rfl

theorem uptoNewline_prefix (l : Bytes) : uptoNewline l <+: l := by
  induction l with
  | nil => simp [uptoNewline]
  | cons x t ih =>
    unfold uptoNewline
    split
    · simp
    · exact (List.prefix_cons_inj x).mpr ih

theorem uptoNewline_eq_nil (l : Bytes) : uptoNewline l = [] ↔ l = [] := by
  cases l with
  | nil => simp [uptoNewline]
  | cons x t => unfold uptoNewline; split <;> simp

theorem length_uptoNewline_slice (d : Bytes) (p n : Nat) :
    (uptoNewline (slice d p n)).length ≤ n := by
  have := (uptoNewline_prefix (slice d p n)).length_le
  rw [length_slice] at this
  omega

theorem Rd.readUntilLoop_spec (fuel : Nat) (s : Rd) (n : Nat) (acc : Bytes) (h : s.Ok)
    (hbuf : s.buffered = true) (hf : n + s.src.revs.length ≤ fuel) :
    let r := Rd.readUntilLoop fuel s n acc
    s.src.Le r.2.src ∧ r.2.buffered = s.buffered ∧ r.2.Ok ∧
    ((r.1 = .ok (acc ++ uptoNewline (slice s.src.data s.lpos n)) ∧
        r.2.lpos = s.lpos + (uptoNewline (slice s.src.data s.lpos n)).length) ∨
     (¬ s.src.Benign ∧ ∃ e, r.1 = .error (.err e))) := by
  induction fuel generalizing s n acc with
  | zero =>
    have : n = 0 := by omega
    subst this
    simp [Rd.readUntilLoop, slice_zero, Src.Le.refl, h, uptoNewline]
  | succ fuel ih =>
    cases n with
    | zero => simp [Rd.readUntilLoop, slice_zero, Src.Le.refl, h, uptoNewline]
    | succ n =>
      obtain ⟨hle, hwf, hbf, hr⟩ := Rd.fillBuf_spec s h
      simp only [Rd.readUntilLoop]
      cases hx : s.fillBuf with
      | mk r s' =>
        rw [hx] at hle hwf hbf hr
        simp only at hle hwf hbf hr
        rcases hr with ⟨bs, hr1, hb, hbs, hlen, hlp, hemp, hok⟩ | ⟨e, hr1, hr2, hr3, hr4, hok⟩
        · subst hr1
          have hok := hok hbuf
          simp only
          have hav : bs.take (n + 1) = slice s.src.data s.lpos (min (n + 1) bs.length) := by
            conv => lhs; rw [hbs]
            rw [take_slice]
          have hlenmax : bs.length ≤ s.src.data.length - s.lpos := by
            have := congrArg List.length hbs
            rw [length_slice] at this
            omega
          have hsplit : slice s.src.data s.lpos (n + 1) = bs.take (n + 1) ++
              slice s.src.data (s.lpos + min (n + 1) bs.length) (n + 1 - min (n + 1) bs.length) := by
            rw [hav, slice_append_slice]
            congr 1
            omega
          by_cases hz : (uptoNewline (bs.take (n + 1))).length = 0
          · simp only [hz, if_true]
            refine ⟨hle, hbf, hok, Or.inl ?_⟩
            have h1 : bs.take (n + 1) = [] :=
              (uptoNewline_eq_nil _).mp (List.length_eq_zero_iff.mp hz)
            have h2 : bs = [] := by
              cases bs with
              | nil => rfl
              | cons x t => simp at h1
            have h3 := hemp h2
            have h4 : slice s.src.data s.lpos (n + 1) = [] := by
              apply List.length_eq_zero_iff.mp
              rw [length_slice]; omega
            simp [h4, uptoNewline, hlp]
          · simp only [if_neg hz]
            by_cases hm : (10 : UInt8) ∈ bs.take (n + 1)
            · have hg := uptoNewline_getLast _ hm
              simp only [hg, if_true]
              obtain ⟨c1, c2⟩ := Rd.consume_ok s' hok (uptoNewline (bs.take (n + 1))).length
              have hpl := (uptoNewline_prefix (bs.take (n + 1))).length_le
              have htl : (bs.take (n + 1)).length ≤ bs.length := by simp; omega
              refine ⟨hle, hbf, c1, Or.inl ?_⟩
              rw [hsplit, uptoNewline_append, if_pos hm]
              refine ⟨rfl, ?_⟩
              rw [c2, hlp, hb]
              omega
            · have hu := uptoNewline_of_not_mem _ hm
              have hg : (uptoNewline (bs.take (n + 1))).getLast? ≠ some 10 := by
                rw [hu]
                intro hc
                exact hm (List.mem_of_getLast? hc)
              simp only [if_neg hg]
              rw [hu] at hz ⊢
              have hk : (bs.take (n + 1)).length = min (n + 1) bs.length := by simp
              obtain ⟨c1, c2⟩ := Rd.consume_ok s' hok (bs.take (n + 1)).length
              have hrl := hle.revs.length_le
              obtain ⟨i1, i2, i3, i4⟩ := ih (s'.consume (bs.take (n + 1)).length)
                (n + 1 - (bs.take (n + 1)).length) (acc ++ bs.take (n + 1)) c1
                (by show s'.buffered = true; rw [hbf, hbuf])
                (by show _ + s'.src.revs.length ≤ _; omega)
              refine ⟨hle.trans i1, i2.trans hbf, i3, ?_⟩
              have hlp2 : (s'.consume (bs.take (n + 1)).length).lpos =
                  s.lpos + min (n + 1) bs.length := by
                rw [c2, hlp, hb, hk]; omega
              rw [hlp2] at i4
              have hd : (s'.consume (bs.take (n + 1)).length).src.data = s.src.data := hle.data
              rw [hd, hk] at i4
              rw [hsplit, uptoNewline_append, if_neg hm]
              rcases i4 with ⟨j1, j2⟩ | ⟨j1, j2⟩
              · left
                rw [hk]
                refine ⟨by rw [j1, List.append_assoc], ?_⟩
                rw [j2, List.length_append, hk]
                omega
              · right
                rw [hk]
                exact ⟨fun hbn => j1 (hbn.mono hle), j2⟩
        · subst hr1
          simp only
          by_cases he : e = .interrupted
          · simp only [if_pos he]
            obtain ⟨i1, i2, i3, i4⟩ := ih s' (n + 1) acc hok (hbf.trans hbuf) (by omega)
            refine ⟨hle.trans i1, i2.trans hbf, i3, ?_⟩
            rw [hle.data, hr3] at i4
            rcases i4 with h | ⟨j1, j2⟩
            · exact Or.inl h
            · exact Or.inr ⟨fun hb => j1 (hb.mono hle), j2⟩
          · simp only [if_neg he]
            exact ⟨hle, hbf, hok, Or.inr ⟨fun hb => he (hb.reads e hr2), e, rfl⟩⟩

theorem Rd.readUntil_spec (s : Rd) (n : Nat) (h : s.Ok) (hbuf : s.buffered = true) :
    let r := s.readUntil n
    s.src.Le r.2.src ∧ r.2.buffered = s.buffered ∧ r.2.Ok ∧
    ((r.1 = .ok (uptoNewline (slice s.src.data s.lpos n)) ∧
        r.2.lpos = s.lpos + (uptoNewline (slice s.src.data s.lpos n)).length) ∨
     (¬ s.src.Benign ∧ ∃ e, r.1 = .error (.err e))) := by
  have := Rd.readUntilLoop_spec (n + s.src.revs.length + 1) s n [] h hbuf (by omega)
  simpa [Rd.readUntil] using this

/-- The program uses no bare `read`, and `read_until` only on a buffered stream. -/
def Exact {α : Type} (buffered : Bool) : Prog α → Prop
  | .pure _ => True
  | .fail _ => True
  | .readExact n k => ∀ x : Bytes, x.length = n → Exact buffered (k x)
  | .read _ _ => False
  | .seek _ k => ∀ q, Exact buffered (k q)
  | .tell k => ∀ q, Exact buffered (k q)
  | .readUntil n k => buffered = true ∧ ∀ x : Bytes, x.length ≤ n → Exact buffered (k x)

/-- Projects the value out of an ideal result. -/
def val {α : Type} (r : Except Fail (α × Nat)) : Except Fail α :=
  match r with
  | .ok (a, _) => .ok a
  | .error e => .error e

@[simp] theorem val_ok {α : Type} (a : α) (p : Nat) : val (.ok (a, p)) = .ok a := rfl
@[simp] theorem val_error {α : Type} (e : Fail) : val (.error e : Except Fail (α × Nat)) = .error e := rfl

/-- Refinement: on any stream the program gives its ideal result, or, if some call failed, that
error. -/
theorem exec_exact {α : Type} (p : Prog α) (s : Rd) (h : s.Ok) (hp : Exact s.buffered p) :
    (exec p s).1 = val (run s.src.data s.src.maxPos p s.lpos) ∨
    (¬ s.src.Benign ∧ ∃ e, (exec p s).1 = .error (.err e)) := by
  induction p generalizing s with
  | pure a => exact Or.inl rfl
  | fail e => exact Or.inl rfl
  | readExact n k ih =>
    obtain ⟨hle, hbf, hok, hr⟩ := Rd.readExact_spec s n h
    cases hx : s.readExact n with
    | mk r s' =>
      rw [hx] at hle hbf hok hr
      simp only [exec, run, hx] at hle hbf hok hr ⊢
      rcases hr with ⟨h1, h2, h3⟩ | ⟨h1, h2⟩ | ⟨h1, e, h2⟩
      · subst h2
        simp only [if_pos h1]
        have hlen : (slice s.src.data s.lpos n).length = n := by
          rw [length_slice]; omega
        rcases ih _ s' hok (by rw [hbf]; exact hp _ hlen) with h | ⟨h, h'⟩
        · left; rw [h, hle.data, hle.maxPos, h3]
        · right; exact ⟨fun hb => h (hb.mono hle), h'⟩
      · subst h2
        left
        rw [if_neg h1]
        rfl
      · subst h2
        exact Or.inr ⟨h1, e, rfl⟩
  | read n k ih => exact absurd hp (by simp [Exact])
  | seek p k ih =>
    obtain ⟨hle, hbf, hok, hr⟩ := Rd.seek_spec s p h
    cases hx : s.seek p with
    | mk r s' =>
      rw [hx] at hle hbf hok hr
      simp only [exec, run, hx] at hle hbf hok hr ⊢
      rcases hr with ⟨q, h1, h2, h3⟩ | ⟨h1, h2⟩ | ⟨h1, e, h2⟩
      · subst h2
        simp only [h1]
        rcases ih _ s' hok (hbf ▸ hp _) with h | ⟨h, h'⟩
        · left; rw [h, hle.data, hle.maxPos, h3]
        · right; exact ⟨fun hb => h (hb.mono hle), h'⟩
      · subst h2
        left
        simp only [h1, val_error]
      · subst h2
        exact Or.inr ⟨h1, e, rfl⟩
  | tell k ih =>
    obtain ⟨hle, hbf, hok, hr⟩ := Rd.tell_spec s h
    cases hx : s.tell with
    | mk r s' =>
      rw [hx] at hle hbf hok hr
      simp only [exec, run, hx] at hle hbf hok hr ⊢
      rcases hr with ⟨h2, h3⟩ | ⟨h1, e, h2⟩
      · subst h2
        rcases ih _ s' hok (hbf ▸ hp _) with h | ⟨h, h'⟩
        · left; simp only; rw [h, hle.data, hle.maxPos, h3]
        · right; exact ⟨fun hb => h (hb.mono hle), h'⟩
      · subst h2
        exact Or.inr ⟨h1, e, rfl⟩
  | readUntil n k ih =>
    obtain ⟨hle, hbf, hok, hr⟩ := Rd.readUntil_spec s n h hp.1
    cases hx : s.readUntil n with
    | mk r s' =>
      rw [hx] at hle hbf hok hr
      simp only [exec, run, hx] at hle hbf hok hr ⊢
      rcases hr with ⟨h2, h3⟩ | ⟨h1, e, h2⟩
      · subst h2
        rcases ih _ s' hok (hbf ▸ hp.2 _ (length_uptoNewline_slice _ _ _)) with h | ⟨h, h'⟩
        · left; simp only; rw [h, hle.data, hle.maxPos, h3]
        · right; exact ⟨fun hb => h (hb.mono hle), h'⟩
      · subst h2
        exact Or.inr ⟨h1, e, rfl⟩

/-- A program cannot change the content of the stream, and leaves it well-formed. -/
def UntilBuffered {α : Type} (buffered : Bool) : Prog α → Prop
  | .pure _ => True
  | .fail _ => True
  | .readExact n k => ∀ x : Bytes, x.length = n → UntilBuffered buffered (k x)
  | .read n k => ∀ x : Bytes, x.length ≤ n → UntilBuffered buffered (k x)
  | .seek _ k => ∀ q, UntilBuffered buffered (k q)
  | .tell k => ∀ q, UntilBuffered buffered (k q)
  | .readUntil n k => buffered = true ∧ ∀ x : Bytes, x.length ≤ n → UntilBuffered buffered (k x)

/-- All `fail` leaves are plain errors (for results the calls can return). -/
def NoCrash {α : Type} : Prog α → Prop
  | .pure _ => True
  | .fail f => ∃ e, f = .err e
  | .readExact n k => ∀ x : Bytes, x.length = n → NoCrash (k x)
  | .read n k => ∀ x : Bytes, x.length ≤ n → NoCrash (k x)
  | .seek _ k => ∀ q, NoCrash (k q)
  | .tell k => ∀ q, NoCrash (k q)
  | .readUntil n k => ∀ x : Bytes, x.length ≤ n → NoCrash (k x)

theorem exec_le {α : Type} (p : Prog α) (s : Rd) (h : s.Ok) (hp : UntilBuffered s.buffered p) :
    s.src.Le (exec p s).2.src ∧ (exec p s).2.Ok ∧ (NoCrash p → NotCrash (exec p s).1) := by
  induction p generalizing s with
  | pure a => exact ⟨Src.Le.refl _, h, fun _ => trivial⟩
  | fail e =>
    refine ⟨Src.Le.refl _, h, ?_⟩
    rintro ⟨e, rfl⟩
    trivial
  | readExact n k ih =>
    obtain ⟨hle, hbf, hok, hr⟩ := Rd.readExact_spec s n h
    cases hx : s.readExact n with
    | mk r s' =>
      rw [hx] at hle hbf hok hr
      simp only [exec, hx] at hle hbf hok hr ⊢
      cases r with
      | ok bs =>
        have hl : bs.length = n := by
          rcases hr with ⟨h1, h2, h3⟩ | ⟨h1, h2⟩ | ⟨h1, e, h2⟩
          · cases h2
            rw [length_slice]; omega
          · cases h2
          · cases h2
        obtain ⟨i1, i2, i3⟩ := ih bs s' hok (by rw [hbf]; exact hp _ hl)
        exact ⟨hle.trans i1, i2, fun hn => i3 (hn _ hl)⟩
      | error f =>
        refine ⟨hle, hok, fun _ => ?_⟩
        rcases hr with ⟨h1, h2, h3⟩ | ⟨h1, h2⟩ | ⟨h1, e, h2⟩
        · cases h2
        · cases h2; trivial
        · cases h2; trivial
  | read n k ih =>
    obtain ⟨hle, hbf, hok, hr⟩ := Rd.read_spec s n h
    cases hx : s.read n with
    | mk r s' =>
      rw [hx] at hle hbf hok hr
      simp only [exec, hx] at hle hbf hok hr ⊢
      cases r with
      | ok bs =>
        have hl : bs.length ≤ n := by
          rcases hr with ⟨k, h1, h2, h3, h4, h5, h6⟩ | ⟨e, h2, _⟩
          · cases h4
            omega
          · cases h2
        obtain ⟨i1, i2, i3⟩ := ih bs s' hok (by rw [hbf]; exact hp _ hl)
        exact ⟨hle.trans i1, i2, fun hn => i3 (hn _ hl)⟩
      | error f => exact ⟨hle, hok, fun _ => trivial⟩
  | seek p k ih =>
    obtain ⟨hle, hbf, hok, hr⟩ := Rd.seek_spec s p h
    cases hx : s.seek p with
    | mk r s' =>
      rw [hx] at hle hbf hok hr
      simp only [exec, hx] at hle hbf hok hr ⊢
      cases r with
      | ok q =>
        obtain ⟨i1, i2, i3⟩ := ih q s' hok (by rw [hbf]; exact hp _)
        exact ⟨hle.trans i1, i2, fun hn => i3 (hn _)⟩
      | error f => exact ⟨hle, hok, fun _ => trivial⟩
  | tell k ih =>
    obtain ⟨hle, hbf, hok, hr⟩ := Rd.tell_spec s h
    cases hx : s.tell with
    | mk r s' =>
      rw [hx] at hle hbf hok hr
      simp only [exec, hx] at hle hbf hok hr ⊢
      cases r with
      | ok q =>
        obtain ⟨i1, i2, i3⟩ := ih q s' hok (by rw [hbf]; exact hp _)
        exact ⟨hle.trans i1, i2, fun hn => i3 (hn _)⟩
      | error f =>
        refine ⟨hle, hok, fun _ => ?_⟩
        rcases hr with ⟨h2, h3⟩ | ⟨h1, e, h2⟩
        · cases h2
        · cases h2; trivial
  | readUntil n k ih =>
    obtain ⟨hle, hbf, hok, hr⟩ := Rd.readUntil_spec s n h hp.1
    cases hx : s.readUntil n with
    | mk r s' =>
      rw [hx] at hle hbf hok hr
      simp only [exec, hx] at hle hbf hok hr ⊢
      cases r with
      | ok bs =>
        have hl : bs.length ≤ n := by
          rcases hr with ⟨h2, h3⟩ | ⟨h1, e, h2⟩
          · cases h2
            exact length_uptoNewline_slice _ _ _
          · cases h2
        obtain ⟨i1, i2, i3⟩ := ih bs s' hok (by rw [hbf]; exact hp.2 _ hl)
        exact ⟨hle.trans i1, i2, fun hn => i3 (hn _ hl)⟩
      | error f =>
        refine ⟨hle, hok, fun _ => ?_⟩
        rcases hr with ⟨h2, h3⟩ | ⟨h1, e, h2⟩
        · cases h2
        · cases h2; trivial

theorem Src.Calm.benign {s : Src} (h : s.Calm) : s.Benign :=
  ⟨fun e he => (by have := h.reads _ he; simp at this), h.seeks⟩

theorem Src.Calm.mono {a b : Src} (h : a.Calm) (k : a.Le b) : b.Calm :=
  ⟨fun e he => h.reads e (k.revs.subset he), fun e he => h.seeks e (k.sevs.subset he)⟩

theorem Src.read_calm (s : Src) (n : Nat) (h : s.Calm) :
    (s.read n).1 = .ok (slice s.data s.pos n) ∧
    (s.read n).2.pos = s.pos + (slice s.data s.pos n).length := by
  unfold Src.read
  split
  · exact ⟨rfl, rfl⟩
  · exact ⟨rfl, rfl⟩
  · rename_i he
    have := h.reads _ (by rw [he]; exact List.mem_cons_self)
    cases this
  · rename_i he
    have := h.reads _ (by rw [he]; exact List.mem_cons_self)
    cases this

/-- On a stream that serves all calls in full, an unbuffered program gives its ideal result. -/
theorem exec_calm {α : Type} (p : Prog α) (s : Rd) (h : s.Ok) (hb : s.buffered = false)
    (hc : s.src.Calm) (hp : UntilBuffered s.buffered p) :
    (exec p s).1 = val (run s.src.data s.src.maxPos p s.lpos) := by
  induction p generalizing s with
  | pure a => rfl
  | fail e => rfl
  | readExact n k ih =>
    obtain ⟨hle, hbf, hok, hr⟩ := Rd.readExact_spec s n h
    cases hx : s.readExact n with
    | mk r s' =>
      rw [hx] at hle hbf hok hr
      simp only [exec, run, hx] at hle hbf hok hr ⊢
      rcases hr with ⟨h1, h2, h3⟩ | ⟨h1, h2⟩ | ⟨h1, e, h2⟩
      · subst h2
        simp only [if_pos h1]
        have hlen : (slice s.src.data s.lpos n).length = n := by
          rw [length_slice]; omega
        rw [ih _ s' hok (hbf.trans hb) (hc.mono hle) (by rw [hbf]; exact hp _ hlen),
          hle.data, hle.maxPos, h3]
      · subst h2
        rw [if_neg h1]
        rfl
      · exact absurd hc.benign h1
  | read n k ih =>
    have hbuf := h.unbuf hb
    have hl : s.lpos = s.src.pos := by simp [Rd.lpos, hbuf]
    obtain ⟨hle, hbf, hok, _⟩ := Rd.read_spec s n h
    obtain ⟨h1, h2⟩ := Src.read_calm s.src n hc
    have h0 : s.read n = ((s.src.read n).1, { s with src := (s.src.read n).2 }) := by
      simp [Rd.read, hb]
    rw [h0] at hle hbf hok
    simp only [exec, run, h0, h1]
    rw [ih _ _ hok hb (hc.mono hle) (hp _ (by rw [length_slice]; omega))]
    simp only at hle
    rw [hle.data, hle.maxPos, hl]
    simp [Rd.lpos, h2, hbuf]
  | seek p k ih =>
    obtain ⟨hle, hbf, hok, hr⟩ := Rd.seek_spec s p h
    cases hx : s.seek p with
    | mk r s' =>
      rw [hx] at hle hbf hok hr
      simp only [exec, run, hx] at hle hbf hok hr ⊢
      rcases hr with ⟨q, h1, h2, h3⟩ | ⟨h1, h2⟩ | ⟨h1, e, h2⟩
      · subst h2
        simp only [h1]
        rw [ih _ s' hok (hbf.trans hb) (hc.mono hle) (by rw [hbf]; exact hp _),
          hle.data, hle.maxPos, h3]
      · subst h2
        simp only [h1, val_error]
      · exact absurd hc.benign h1
  | tell k ih =>
    obtain ⟨hle, hbf, hok, hr⟩ := Rd.tell_spec s h
    cases hx : s.tell with
    | mk r s' =>
      rw [hx] at hle hbf hok hr
      simp only [exec, run, hx] at hle hbf hok hr ⊢
      rcases hr with ⟨h2, h3⟩ | ⟨h1, e, h2⟩
      · subst h2
        simp only
        rw [ih _ s' hok (hbf.trans hb) (hc.mono hle) (by rw [hbf]; exact hp _),
          hle.data, hle.maxPos, h3]
      · exact absurd hc.benign h1
  | readUntil n k ih =>
    have := hp.1
    rw [hb] at this
    cases this

theorem Exact.untilBuffered {α : Type} {b : Bool} (p : Prog α) (h : Exact b p) :
    UntilBuffered b p := by
  induction p with
  | pure a => trivial
  | fail e => trivial
  | readExact n k ih => exact fun x hx => ih x (h x hx)
  | read n k ih => exact absurd h (by simp [Exact])
  | seek p k ih => exact fun x => ih x (h x)
  | tell k ih => exact fun x => ih x (h x)
  | readUntil n k ih => exact ⟨h.1, fun x hx => ih x (h.2 x hx)⟩

end FF
