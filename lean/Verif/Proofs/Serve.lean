import Verif.Spec.Serve
import Verif.Spec.Stream
import Verif.Proofs.Device2
/-!
# A device that serves a content behaves like a stream with a schedule

The schedule is collected from the calls as they are made.
-/

namespace FF
open FileFormat

variable {σ : Type}

/-- What is fixed in this file: the device, its content, its laws. `safe` says whether it is reliable. -/
structure Served (σ : Type) where
  D : Device σ
  data : Bytes
  top : Nat
  position : σ → Nat
  I : σ → Prop
  safe : Prop
  may : ErrKind → Prop
  full : Prop
  lawful : D.Lawful
  serves : D.Serves data top position I
  reliable : safe → D.Reliable data top position I may
  complete : full → D.Full data position I

/-- The events that may be collected. -/
def Served.ok (X : Served σ) : Ev → Prop
  | .error e => X.may e
  | .short _ => ¬ X.full
  | .full => True

variable (X : Served σ)

/-- The stream with a schedule that stands for the device. -/
def Served.src (st : σ) (lr : List Ev) (ls : List (Option ErrKind)) (lg : List Call) : Src :=
  { data := X.data, pos := X.position st, maxPos := X.top, revs := lr, sevs := ls, log := lg }

/-- The same with a `BufReader` around, or not. -/
def Served.rd (s : DRd σ) (lr : List Ev) (ls : List (Option ErrKind)) (lg : List Call) : Rd :=
  { src := X.src s.st lr ls lg, buffered := s.buffered, buf := s.buf }

/-- No event of the schedule is a failure. -/
def CleanEvents (ok : Ev → Prop) (lr : List Ev) (ls : List (Option ErrKind)) : Prop :=
  (∀ ev ∈ lr, ok ev) ∧ ∀ e ∈ ls, e = none

theorem CleanEvents.append {ok : Ev → Prop} {lr lr' : List Ev} {ls ls' : List (Option ErrKind)} (h : CleanEvents ok lr ls)
    (h' : CleanEvents ok lr' ls') : CleanEvents ok (lr ++ lr') (ls ++ ls') := by
  refine ⟨fun e he => ?_, fun e he => ?_⟩
  · rcases List.mem_append.mp he with he | he
    · exact h.1 e he
    · exact h'.1 e he
  · rcases List.mem_append.mp he with he | he
    · exact h.2 e he
    · exact h'.2 e he

/-- On the stream, `y` does what took the device from `s` to `s'` with result `r`. -/
def ServeFollows {ρ : Type} (s : DRd σ) (r : ρ) (s' : DRd σ) (lr : List Ev) (ls : List (Option ErrKind)) (y : Rd → ρ × Rd) : Prop :=
  X.I s'.st ∧ (X.safe → CleanEvents X.ok lr ls) ∧
    ∀ lr' ls' lg, ∃ lg', y (X.rd s (lr ++ lr') (ls ++ ls') lg) = (r, X.rd s' lr' ls' lg')

theorem clean_nil {ok : Ev → Prop} : CleanEvents ok [] [] := ⟨(fun _ h => nomatch h), (fun _ h => nomatch h)⟩

theorem slice_min {d : Bytes} {p n k : Nat} {bs : Bytes} (h : bs = slice d p bs.length) (hn : bs.length ≤ n)
    (hk : bs.length = k + 1) : slice d p (min n (k + 1)) = bs := by
  rw [← hk, Nat.min_eq_right hn]; exact h.symm

/-- One read. -/
theorem src_read (st : σ) (n : Nat) (hI : X.I st) :
    ∃ ev, (X.safe → X.ok ev) ∧ ∀ lr' ls lg,
      (X.src st (ev :: lr') ls lg).read n = ((X.D.read st n).1, X.src (X.D.read st n).2 lr' ls (.read n :: lg)) := by
  cases hx : X.D.read st n with
  | mk r st' =>
    cases r with
    | error e =>
      have h := X.serves.read_error _ _ _ _ hI hx
      refine ⟨.error e, fun hc => ?_, fun lr' ls lg => ?_⟩
      · exact (X.reliable hc).read _ _ _ _ hI hx
      · simp only [Src.read, Served.src, h]
    | ok bs =>
      obtain ⟨h1, h2, h3, h4⟩ := X.serves.read_ok _ _ _ _ hI hx
      cases hk : bs.length with
      | zero =>
        have hb : bs = [] := List.eq_nil_of_length_eq_zero hk
        subst hb
        have hs : slice X.data (X.position st) n = [] := by
          rcases h3 rfl with h | h
          · subst h; exact (h2 : [] = _).symm
          · apply List.eq_nil_of_length_eq_zero; rw [length_slice]; omega
        refine ⟨.full, fun _ => trivial, fun lr' ls lg => ?_⟩
        simp only [Src.read, Served.src, hs, h4]
      | succ k =>
        by_cases hf : bs = slice X.data (X.position st) n
        · refine ⟨.full, fun _ => trivial, fun lr' ls lg => ?_⟩
          simp only [Src.read, Served.src, ← hf, h4]
        · have hs := slice_min h2 h1 hk
          refine ⟨.short k, fun _ h => hf (X.complete h _ _ _ _ hI hx), fun lr' ls lg => ?_⟩
          simp only [Src.read, Served.src, hs, h4]

/-- One seek. -/
theorem src_seek (st : σ) (p : SeekFrom) (hI : X.I st) :
    ∃ ev, (X.safe → ev = none) ∧ ∀ lr ls' lg,
      (X.src st lr (ev :: ls') lg).seek p = ((X.D.seek st p).1, X.src (X.D.seek st p).2 lr ls' (.seek :: lg)) := by
  cases hx : X.D.seek st p with
  | mk r st' =>
    cases r with
    | error e =>
      have h := X.serves.seek_error _ _ _ _ hI hx
      by_cases hc : X.safe
      · obtain ⟨he, ht⟩ := (X.reliable hc).seek _ _ _ _ hI hx
        subst he
        refine ⟨none, fun _ => rfl, fun lr ls' lg => ?_⟩
        simp only [Src.seek, Served.src, h, ht, List.tail_cons]
      · refine ⟨some e, fun h => absurd h hc, fun lr ls' lg => ?_⟩
        simp only [Src.seek, Served.src, h]
    | ok q =>
      obtain ⟨h1, h2⟩ := X.serves.seek_ok _ _ _ _ hI hx
      refine ⟨none, fun _ => rfl, fun lr ls' lg => ?_⟩
      simp only [Src.seek, Served.src, h1, h2, List.tail_cons]

/-- One question for the position. -/
theorem src_tell (st : σ) (hI : X.I st) :
    ∃ ev, (X.safe → ev = none) ∧ ∀ lr ls' lg,
      (X.src st lr (ev :: ls') lg).tell = ((X.D.tell st).1, X.src (X.D.tell st).2 lr ls' (.seek :: lg)) := by
  cases hx : X.D.tell st with
  | mk r st' =>
    cases r with
    | error e =>
      have h := X.serves.tell_error _ _ _ hI hx
      refine ⟨some e, fun hc => absurd hx ((X.reliable hc).tell _ _ _ hI), fun lr ls' lg => ?_⟩
      simp only [Src.tell, Served.src, h]
    | ok q =>
      obtain ⟨h1, h2⟩ := X.serves.tell_ok _ _ _ hI hx
      refine ⟨none, fun _ => rfl, fun lr ls' lg => ?_⟩
      simp only [Src.tell, Served.src, h1, h2, List.tail_cons]

theorem clean_one {ok : Ev → Prop} {ev : Ev} (h : ok ev) : CleanEvents ok [ev] [] :=
  ⟨fun e he => by
    rw [List.mem_singleton] at he
    exact he ▸ h, (fun _ h => nomatch h)⟩

theorem clean_seek {ok : Ev → Prop} {ev : Option ErrKind} (h : ev = none) : CleanEvents ok [] [ev] :=
  ⟨(fun _ h => nomatch h), fun e he => by rw [List.mem_singleton] at he; rw [he, h]⟩

theorem serve_fillBuf (s : DRd σ) (hI : X.I s.st) :
    ∃ lr, ((∃ e, (s.fillBuf X.D).1 = .error e) → 1 ≤ lr.length) ∧
      ServeFollows X s (s.fillBuf X.D).1 (s.fillBuf X.D).2 lr [] Rd.fillBuf := by
  unfold DRd.fillBuf
  by_cases hb : s.buf.isEmpty = true
  · simp only [hb, if_true]
    obtain ⟨ev, hc, h⟩ := src_read X s.st bufCapacity hI
    have hi := X.serves.read_inv s.st bufCapacity hI
    refine ⟨[ev], fun _ => Nat.le_refl 1, ?_⟩
    cases hx : X.D.read s.st bufCapacity with
    | mk r st' =>
      rw [hx] at h hi
      cases r with
      | error e =>
        refine ⟨hi, fun k => clean_one (hc k), fun lr' ls' lg => ⟨.read bufCapacity :: lg, ?_⟩⟩
        simp only [Rd.fillBuf, Served.rd, hb, if_true, List.singleton_append, List.nil_append, h]
      | ok bs =>
        refine ⟨hi, fun k => clean_one (hc k), fun lr' ls' lg => ⟨.read bufCapacity :: lg, ?_⟩⟩
        simp only [Rd.fillBuf, Served.rd, hb, if_true, List.singleton_append, List.nil_append, h]
  · simp only [hb, Bool.false_eq_true, if_false]
    refine ⟨[], (fun ⟨_, h⟩ => by cases h), hI, fun _ => clean_nil, fun lr' ls' lg => ⟨lg, ?_⟩⟩
    simp only [Rd.fillBuf, Served.rd, hb, Bool.false_eq_true, if_false, List.nil_append]

theorem serve_direct (s : DRd σ) (hI : X.I s.st) (n : Nat) :
    ∃ lr, 1 ≤ lr.length ∧ ServeFollows X s (X.D.read s.st n).1 { s with st := (X.D.read s.st n).2 } lr []
      (fun t => ((t.src.read n).1, { t with src := (t.src.read n).2 })) := by
  obtain ⟨ev, hc, h⟩ := src_read X s.st n hI
  refine ⟨[ev], Nat.le_refl 1, X.serves.read_inv s.st n hI, fun k => clean_one (hc k), fun lr' ls' lg =>
    ⟨.read n :: lg, ?_⟩⟩
  simp only [Served.rd, List.singleton_append, List.nil_append, h]

theorem serve_read (s : DRd σ) (hI : X.I s.st) (n : Nat) :
    ∃ lr, ((∃ e, (s.read X.D n).1 = .error e) → 1 ≤ lr.length) ∧
      ServeFollows X s (s.read X.D n).1 (s.read X.D n).2 lr [] (fun t => t.read n) := by
  unfold DRd.read
  by_cases h1 : s.buffered = false
  · rw [if_pos h1]
    obtain ⟨lr, hl, hi, hc, h⟩ := serve_direct X s hI n
    refine ⟨lr, fun _ => hl, ?_⟩
    refine ⟨hi, hc, fun lr' ls' lg => ?_⟩
    obtain ⟨lg', h⟩ := h lr' ls' lg
    refine ⟨lg', ?_⟩
    simp only [Rd.read]
    rw [if_pos (show (X.rd s (lr ++ lr') ([] ++ ls') lg).buffered = false from h1)]
    exact h
  · rw [if_neg h1]
    by_cases h2 : s.buf.isEmpty = true ∧ bufCapacity ≤ n
    · rw [if_pos h2]
      obtain ⟨lr, hl, hi, hc, h⟩ := serve_direct X s hI n
      refine ⟨lr, fun _ => hl, ?_⟩
      refine ⟨hi, hc, fun lr' ls' lg => ?_⟩
      obtain ⟨lg', h⟩ := h lr' ls' lg
      refine ⟨lg', ?_⟩
      simp only [Rd.read]
      rw [if_neg (show ¬ (X.rd s (lr ++ lr') ([] ++ ls') lg).buffered = false from h1),
        if_pos (show (X.rd s (lr ++ lr') ([] ++ ls') lg).buf.isEmpty = true ∧ bufCapacity ≤ n from h2)]
      exact h
    · rw [if_neg h2]
      obtain ⟨lr, hl, hi, hc, h⟩ := serve_fillBuf X s hI
      generalize hx : s.fillBuf X.D = x at hl hi h
      obtain ⟨r, s'⟩ := x
      cases r with
      | error e =>
        refine ⟨lr, fun _ => hl ⟨e, rfl⟩, hi, hc, fun lr' ls' lg => ?_⟩
        obtain ⟨lg', h⟩ := h lr' ls' lg
        refine ⟨lg', ?_⟩
        simp only [Rd.read]
        rw [if_neg (show ¬ (X.rd s (lr ++ lr') ([] ++ ls') lg).buffered = false from h1),
          if_neg (show ¬ ((X.rd s (lr ++ lr') ([] ++ ls') lg).buf.isEmpty = true ∧ bufCapacity ≤ n) from h2), h]
      | ok bs =>
        refine ⟨lr, (fun ⟨_, h⟩ => by cases h), hi, hc, fun lr' ls' lg => ?_⟩
        obtain ⟨lg', h⟩ := h lr' ls' lg
        refine ⟨lg', ?_⟩
        simp only [Rd.read]
        rw [if_neg (show ¬ (X.rd s (lr ++ lr') ([] ++ ls') lg).buffered = false from h1),
          if_neg (show ¬ ((X.rd s (lr ++ lr') ([] ++ ls') lg).buf.isEmpty = true ∧ bufCapacity ≤ n) from h2), h]
        rfl

theorem serve_readExactLoop (fuel : Nat) (s : DRd σ) (hI : X.I s.st) (hv : s.Inv X.D X.position) (n : Nat)
    (acc : Bytes) (hf : n + X.D.patience s.st < fuel) :
    ∃ lr, X.I (DRd.readExactLoop X.D fuel s n acc).2.st ∧ (X.safe → CleanEvents X.ok lr []) ∧
      ∀ lr' ls' lg fuel', n + (lr ++ lr').length < fuel' →
        ∃ lg', Rd.readExactLoop fuel' (X.rd s (lr ++ lr') ls' lg) n acc =
          ((DRd.readExactLoop X.D fuel s n acc).1, X.rd (DRd.readExactLoop X.D fuel s n acc).2 lr' ls' lg') := by
  induction fuel generalizing s n acc with
  | zero => omega
  | succ fuel ih =>
    cases n with
    | zero =>
      refine ⟨[], hI, fun _ => clean_nil, fun lr' ls' lg fuel' _ => ⟨lg, ?_⟩⟩
      simp only [DRd.readExactLoop, Rd.readExactLoop, List.nil_append]
    | succ n =>
      obtain ⟨lr1, hl1, hi1, hc1, h1⟩ := serve_read X s hI (n + 1)
      simp only [DRd.readExactLoop]
      generalize hx : s.read X.D (n + 1) = x at hl1 hi1 h1
      obtain ⟨r, s1⟩ := x
      obtain ⟨hn, hle, hint⟩ := DRd.read_spec X.lawful s hv (n + 1) hx
      have hp := hn.patience
      cases r with
      | ok bs =>
        have hle := hle _ rfl
        simp only
        by_cases h0 : bs.length = 0
        · rw [if_pos h0]
          refine ⟨lr1, hi1, hc1, fun lr' ls' lg fuel' hf' => ?_⟩
          obtain ⟨fuel', rfl⟩ : ∃ k, fuel' = k + 1 := ⟨fuel' - 1, by omega⟩
          obtain ⟨lg', h⟩ := h1 lr' ls' lg
          refine ⟨lg', ?_⟩
          simp only [Rd.readExactLoop, List.nil_append] at h ⊢
          rw [h]
          simp only
          rw [if_pos h0]
        · rw [if_neg h0]
          obtain ⟨lr2, hi2, hc2, h2⟩ := ih s1 hi1 hn.inv (n + 1 - bs.length) (acc ++ bs) (by omega)
          refine ⟨lr1 ++ lr2, hi2, fun k => (hc1 k).append (hc2 k), fun lr' ls' lg fuel' hf' => ?_⟩
          obtain ⟨fuel', rfl⟩ : ∃ k, fuel' = k + 1 := ⟨fuel' - 1, by omega⟩
          obtain ⟨lg1, h⟩ := h1 (lr2 ++ lr') ls' lg
          obtain ⟨lg2, h'⟩ := h2 lr' ls' lg1 fuel' (by simp only [List.length_append] at hf' ⊢; omega)
          refine ⟨lg2, ?_⟩
          simp only [Rd.readExactLoop, List.nil_append, List.append_assoc] at h ⊢
          rw [h]
          simp only
          rw [if_neg h0]
          exact h'
      | error e =>
        have hl1 := hl1 ⟨e, rfl⟩
        simp only
        by_cases he : e = .interrupted
        · rw [if_pos he]
          have hlt := hint (by rw [he])
          obtain ⟨lr2, hi2, hc2, h2⟩ := ih s1 hi1 hn.inv (n + 1) acc (by omega)
          refine ⟨lr1 ++ lr2, hi2, fun k => (hc1 k).append (hc2 k), fun lr' ls' lg fuel' hf' => ?_⟩
          obtain ⟨fuel', rfl⟩ : ∃ k, fuel' = k + 1 := ⟨fuel' - 1, by omega⟩
          obtain ⟨lg1, h⟩ := h1 (lr2 ++ lr') ls' lg
          obtain ⟨lg2, h'⟩ := h2 lr' ls' lg1 fuel' (by simp only [List.length_append] at hf' ⊢; omega)
          refine ⟨lg2, ?_⟩
          simp only [Rd.readExactLoop, List.nil_append, List.append_assoc] at h ⊢
          rw [h]
          simp only
          rw [if_pos he]
          exact h'
        · rw [if_neg he]
          refine ⟨lr1, hi1, hc1, fun lr' ls' lg fuel' hf' => ?_⟩
          obtain ⟨fuel', rfl⟩ : ∃ k, fuel' = k + 1 := ⟨fuel' - 1, by omega⟩
          obtain ⟨lg', h⟩ := h1 lr' ls' lg
          refine ⟨lg', ?_⟩
          simp only [Rd.readExactLoop, List.nil_append] at h ⊢
          rw [h]
          simp only
          rw [if_neg he]

theorem serve_readExact (s : DRd σ) (hI : X.I s.st) (hv : s.Inv X.D X.position) (n : Nat) :
    ∃ lr, ServeFollows X s (s.readExact X.D n).1 (s.readExact X.D n).2 lr [] (fun t => t.readExact n) := by
  unfold DRd.readExact
  by_cases h : s.buffered = true ∧ n ≤ s.buf.length
  · rw [if_pos h]
    refine ⟨[], hI, fun _ => clean_nil, fun lr' ls' lg => ⟨lg, ?_⟩⟩
    simp only [Rd.readExact]
    rw [if_pos (show (X.rd s ([] ++ lr') ([] ++ ls') lg).buffered = true ∧
      n ≤ (X.rd s ([] ++ lr') ([] ++ ls') lg).buf.length from h)]
    rfl
  · rw [if_neg h]
    obtain ⟨lr, hi, hc, h1⟩ := serve_readExactLoop X (n + X.D.patience s.st + 1) s hI hv n [] (by omega)
    refine ⟨lr, hi, hc, fun lr' ls' lg => ?_⟩
    obtain ⟨lg', h2⟩ := h1 lr' ls' lg (n + (lr ++ lr').length + 1) (by omega)
    refine ⟨lg', ?_⟩
    simp only [Rd.readExact]
    rw [if_neg (show ¬ ((X.rd s (lr ++ lr') ([] ++ ls') lg).buffered = true ∧
      n ≤ (X.rd s (lr ++ lr') ([] ++ ls') lg).buf.length) from h)]
    exact h2

theorem serve_readUntilLoop (fuel : Nat) (s : DRd σ) (hI : X.I s.st) (hv : s.Inv X.D X.position)
    (hb : s.buffered = true) (n : Nat) (acc : Bytes) (hf : n + X.D.patience s.st < fuel) :
    ∃ lr, X.I (DRd.readUntilLoop X.D fuel s n acc).2.st ∧ (X.safe → CleanEvents X.ok lr []) ∧
      ∀ lr' ls' lg fuel', n + (lr ++ lr').length < fuel' →
        ∃ lg', Rd.readUntilLoop fuel' (X.rd s (lr ++ lr') ls' lg) n acc =
          ((DRd.readUntilLoop X.D fuel s n acc).1, X.rd (DRd.readUntilLoop X.D fuel s n acc).2 lr' ls' lg') := by
  induction fuel generalizing s n acc with
  | zero => omega
  | succ fuel ih =>
    cases n with
    | zero =>
      refine ⟨[], hI, fun _ => clean_nil, fun lr' ls' lg fuel' _ => ⟨lg, ?_⟩⟩
      simp only [DRd.readUntilLoop, Rd.readUntilLoop, List.nil_append]
    | succ n =>
      obtain ⟨lr1, hl1, hi1, hc1, h1⟩ := serve_fillBuf X s hI
      simp only [DRd.readUntilLoop]
      generalize hx : s.fillBuf X.D = x at hl1 hi1 h1
      obtain ⟨r, s1⟩ := x
      obtain ⟨hn, _, hint⟩ := DRd.fillBuf_spec X.lawful s hv hb hx
      have hp := hn.patience
      cases r with
      | error e =>
        have hl1 := hl1 ⟨e, rfl⟩
        simp only
        by_cases he : e = .interrupted
        · rw [if_pos he]
          have hlt := hint (by rw [he])
          obtain ⟨lr2, hi2, hc2, h2⟩ := ih s1 hi1 hn.inv (hn.buffered.trans hb) (n + 1) acc (by omega)
          refine ⟨lr1 ++ lr2, hi2, fun k => (hc1 k).append (hc2 k), fun lr' ls' lg fuel' hf' => ?_⟩
          obtain ⟨fuel', rfl⟩ : ∃ k, fuel' = k + 1 := ⟨fuel' - 1, by omega⟩
          obtain ⟨lg1, h⟩ := h1 (lr2 ++ lr') ls' lg
          obtain ⟨lg2, h'⟩ := h2 lr' ls' lg1 fuel' (by simp only [List.length_append] at hf' ⊢; omega)
          refine ⟨lg2, ?_⟩
          simp only [Rd.readUntilLoop, List.nil_append, List.append_assoc] at h ⊢
          rw [h]
          simp only
          rw [if_pos he]
          exact h'
        · rw [if_neg he]
          refine ⟨lr1, hi1, hc1, fun lr' ls' lg fuel' hf' => ?_⟩
          obtain ⟨fuel', rfl⟩ : ∃ k, fuel' = k + 1 := ⟨fuel' - 1, by omega⟩
          obtain ⟨lg', h⟩ := h1 lr' ls' lg
          refine ⟨lg', ?_⟩
          simp only [Rd.readUntilLoop, List.nil_append] at h ⊢
          rw [h]
          simp only
          rw [if_neg he]
      | ok buf =>
        simp only
        have hu := uptoNewline_length_le (buf.take (n + 1))
        have ht : (buf.take (n + 1)).length ≤ n + 1 := by simp only [List.length_take]; omega
        generalize hg : uptoNewline (buf.take (n + 1)) = used at hu
        by_cases h0 : used.length = 0
        · rw [if_pos h0]
          refine ⟨lr1, hi1, hc1, fun lr' ls' lg fuel' hf' => ?_⟩
          obtain ⟨fuel', rfl⟩ : ∃ k, fuel' = k + 1 := ⟨fuel' - 1, by omega⟩
          obtain ⟨lg', h⟩ := h1 lr' ls' lg
          refine ⟨lg', ?_⟩
          simp only [Rd.readUntilLoop, List.nil_append] at h ⊢
          rw [h]
          simp only [hg]
          rw [if_pos h0]
        · rw [if_neg h0]
          by_cases h10 : used.getLast? = some 10
          · rw [if_pos h10]
            refine ⟨lr1, hi1, hc1, fun lr' ls' lg fuel' hf' => ?_⟩
            obtain ⟨fuel', rfl⟩ : ∃ k, fuel' = k + 1 := ⟨fuel' - 1, by omega⟩
            obtain ⟨lg', h⟩ := h1 lr' ls' lg
            refine ⟨lg', ?_⟩
            simp only [Rd.readUntilLoop, List.nil_append] at h ⊢
            rw [h]
            simp only [hg]
            rw [if_neg h0, if_pos h10]
            rfl
          · rw [if_neg h10]
            have hcn := hn.trans (DRd.consume_next hn.inv used.length)
            have hq := hcn.patience
            obtain ⟨lr2, hi2, hc2, h2⟩ := ih (s1.consume used.length) hi1 hcn.inv (hcn.buffered.trans hb)
              (n + 1 - used.length) (acc ++ used) (by omega)
            refine ⟨lr1 ++ lr2, hi2, fun k => (hc1 k).append (hc2 k), fun lr' ls' lg fuel' hf' => ?_⟩
            obtain ⟨fuel', rfl⟩ : ∃ k, fuel' = k + 1 := ⟨fuel' - 1, by omega⟩
            obtain ⟨lg1, h⟩ := h1 (lr2 ++ lr') ls' lg
            obtain ⟨lg2, h'⟩ := h2 lr' ls' lg1 fuel' (by simp only [List.length_append] at hf' ⊢; omega)
            refine ⟨lg2, ?_⟩
            simp only [Rd.readUntilLoop, List.nil_append, List.append_assoc] at h ⊢
            rw [h]
            simp only [hg]
            rw [if_neg h0, if_neg h10]
            exact h'

theorem serve_readUntil (s : DRd σ) (hI : X.I s.st) (hv : s.Inv X.D X.position) (hb : s.buffered = true) (n : Nat) :
    ∃ lr, ServeFollows X s (s.readUntil X.D n).1 (s.readUntil X.D n).2 lr [] (fun t => t.readUntil n) := by
  unfold DRd.readUntil
  obtain ⟨lr, hi, hc, h1⟩ := serve_readUntilLoop X (n + X.D.patience s.st + 1) s hI hv hb n [] (by omega)
  refine ⟨lr, hi, hc, fun lr' ls' lg => ?_⟩
  obtain ⟨lg', h2⟩ := h1 lr' ls' lg (n + (lr ++ lr').length + 1) (by omega)
  exact ⟨lg', h2⟩

theorem serve_tell (s : DRd σ) (hI : X.I s.st) :
    ∃ ls, ServeFollows X s (s.tell X.D).1 (s.tell X.D).2 [] ls Rd.tell := by
  obtain ⟨ev, hc, h⟩ := src_tell X s.st hI
  have hi := X.serves.tell_inv s.st hI
  unfold DRd.tell
  generalize hx : X.D.tell s.st = x at h hi
  obtain ⟨r, st⟩ := x
  refine ⟨[ev], ?_⟩
  cases r with
  | error e =>
    refine ⟨hi, fun k => clean_seek (hc k), fun lr' ls' lg => ⟨.seek :: lg, ?_⟩⟩
    simp only [Rd.tell, Served.rd, List.singleton_append, List.nil_append, h]
  | ok q =>
    simp only
    refine ⟨?_, fun k => clean_seek (hc k), fun lr' ls' lg => ⟨.seek :: lg, ?_⟩⟩
    · split
      · exact hi
      · split <;> exact hi
    · simp only [Rd.tell, Served.rd, List.singleton_append, List.nil_append, h]
      by_cases h1 : s.buffered = false
      · simp only [h1, if_true]
      · by_cases h2 : s.buf.length ≤ q
        · simp only [h1, h2, if_true, Bool.true_eq_false, if_false]
        · simp only [h1, h2, Bool.true_eq_false, if_false]

theorem serve_seek (s : DRd σ) (hI : X.I s.st) (p : SeekFrom) :
    ∃ ls, ServeFollows X s (s.seek X.D p).1 (s.seek X.D p).2 [] ls (fun t => t.seek p) := by
  have simple : ∀ p' : SeekFrom, ∃ ls, X.I (X.D.seek s.st p').2 ∧ (X.safe → CleanEvents X.ok [] ls) ∧
      ∀ lr' ls' lg, (X.src s.st lr' (ls ++ ls') lg).seek p' =
        ((X.D.seek s.st p').1, X.src (X.D.seek s.st p').2 lr' ls' (.seek :: lg)) := by
    intro p'
    obtain ⟨ev, hc, h⟩ := src_seek X s.st p' hI
    exact ⟨[ev], X.serves.seek_inv _ _ hI, fun k => clean_seek (hc k), fun lr' ls' lg => h lr' ls' lg⟩
  unfold DRd.seek
  by_cases hb : s.buffered = false
  · rw [if_pos hb]
    obtain ⟨ls, hi, hc, h⟩ := simple p
    refine ⟨ls, hi, hc, fun lr' ls' lg => ⟨.seek :: lg, ?_⟩⟩
    simp only [Rd.seek, Served.rd, hb, if_true, List.nil_append, h]
  · rw [if_neg hb]
    have plain : ∀ p' : SeekFrom, ∃ ls, X.I (X.D.seek s.st p').2 ∧ (X.safe → CleanEvents X.ok [] ls) ∧
      ∀ lr' ls' lg, (X.src s.st lr' (ls ++ ls') lg).seek p' =
        ((X.D.seek s.st p').1, X.src (X.D.seek s.st p').2 lr' ls' (.seek :: lg)) := simple
    have other : ∀ p' : SeekFrom, ∃ ls, ServeFollows X s
        (match X.D.seek s.st p' with
        | (.ok q, st) => (.ok q, { s with st := st, buf := [] })
        | (.error e, st) => (.error e, { s with st := st }) : Except ErrKind Nat × DRd σ).1
        (match X.D.seek s.st p' with
        | (.ok q, st) => (.ok q, { s with st := st, buf := [] })
        | (.error e, st) => (.error e, { s with st := st }) : Except ErrKind Nat × DRd σ).2 [] ls
        (fun t => match t.src.seek p' with
          | (.ok q, src) => (.ok q, { t with src := src, buf := [] })
          | (.error e, src) => (.error e, { t with src := src })) := by
      intro p'
      obtain ⟨ls, hi, hc, h⟩ := simple p'
      generalize X.D.seek s.st p' = x at hi h
      obtain ⟨r, st⟩ := x
      refine ⟨ls, ?_, hc, fun lr' ls' lg => ⟨.seek :: lg, ?_⟩⟩
      · cases r <;> exact hi
      · cases r <;> simp only [Served.rd, List.nil_append, h]
    cases p with
    | start n =>
      obtain ⟨ls, hi, hc, h⟩ := other (.start n)
      refine ⟨ls, hi, hc, fun lr' ls' lg => ?_⟩
      obtain ⟨lg', h⟩ := h lr' ls' lg
      refine ⟨lg', ?_⟩
      simp only [Rd.seek]
      rw [if_neg (show ¬ (X.rd s ([] ++ lr') (ls ++ ls') lg).buffered = false from hb)]
      exact h
    | fromEnd n =>
      obtain ⟨ls, hi, hc, h⟩ := other (.fromEnd n)
      refine ⟨ls, hi, hc, fun lr' ls' lg => ?_⟩
      obtain ⟨lg', h⟩ := h lr' ls' lg
      refine ⟨lg', ?_⟩
      simp only [Rd.seek]
      rw [if_neg (show ¬ (X.rd s ([] ++ lr') (ls ++ ls') lg).buffered = false from hb)]
      exact h
    | current i =>
      simp only
      by_cases hi63 : -2 ^ 63 ≤ i - s.buf.length
      · rw [if_pos hi63]
        obtain ⟨ls, hi, hc, h⟩ := other (.current (i - s.buf.length))
        refine ⟨ls, hi, hc, fun lr' ls' lg => ?_⟩
        obtain ⟨lg', h⟩ := h lr' ls' lg
        refine ⟨lg', ?_⟩
        simp only [Rd.seek]
        rw [if_neg (show ¬ (X.rd s ([] ++ lr') (ls ++ ls') lg).buffered = false from hb),
          if_pos (show -2 ^ 63 ≤ i - (X.rd s ([] ++ lr') (ls ++ ls') lg).buf.length from hi63)]
        exact h
      · rw [if_neg hi63]
        obtain ⟨ls1, hi1, hc1, h1⟩ := simple (.current (-s.buf.length))
        generalize hx : X.D.seek s.st (.current (-s.buf.length)) = x at hi1 h1
        obtain ⟨r, st⟩ := x
        cases r with
        | error e =>
          refine ⟨ls1, hi1, hc1, fun lr' ls' lg => ⟨.seek :: lg, ?_⟩⟩
          simp only [Rd.seek]
          rw [if_neg (show ¬ (X.rd s ([] ++ lr') (ls1 ++ ls') lg).buffered = false from hb),
            if_neg (show ¬ -2 ^ 63 ≤ i - (X.rd s ([] ++ lr') (ls1 ++ ls') lg).buf.length from hi63)]
          simp only [Served.rd, List.nil_append, h1]
        | ok q =>
          simp only
          obtain ⟨ev, hc2, h2⟩ := src_seek X st (.current i) hi1
          have hi2 := X.serves.seek_inv st (.current i) hi1
          generalize hy : X.D.seek st (.current i) = y at h2 hi2
          obtain ⟨r2, st2⟩ := y
          refine ⟨ls1 ++ [ev], ?_, fun k => (hc1 k).append (clean_seek (hc2 k)), fun lr' ls' lg => ⟨.seek :: .seek :: lg, ?_⟩⟩
          · cases r2 <;> exact hi2
          · simp only [Rd.seek]
            rw [if_neg (show ¬ (X.rd s ([] ++ lr') (ls1 ++ [ev] ++ ls') lg).buffered = false from hb),
              if_neg (show ¬ -2 ^ 63 ≤ i - (X.rd s ([] ++ lr') (ls1 ++ [ev] ++ ls') lg).buf.length from hi63)]
            simp only [Served.rd, List.nil_append, List.append_assoc, List.singleton_append, h1, h2]
            cases r2 <;> rfl

/-- A program. -/
theorem serve_exec {α : Type} {O : Op → Prop} {F : Fail → Prop} {Q : α → Prop} (p : Prog α) (k : Nat) (b : Bool)
    (hp : All O F Q p k) (hO : ∀ o, O o → o.untilBuffered b) (s : DRd σ) (hI : X.I s.st)
    (hv : s.Inv X.D X.position) (hb : s.buffered = b) :
    ∃ lr ls, ServeFollows X s (execD X.D p s).1 (execD X.D p s).2 lr ls (exec p) := by
  induction p generalizing s k with
  | pure a => exact ⟨[], [], hI, fun _ => clean_nil, fun lr' ls' lg => ⟨lg, rfl⟩⟩
  | fail f => exact ⟨[], [], hI, fun _ => clean_nil, fun lr' ls' lg => ⟨lg, rfl⟩⟩
  | readExact n c ih =>
    obtain ⟨lr1, hi1, hc1, h1⟩ := serve_readExact X s hI hv n
    simp only [execD]
    generalize hx : s.readExact X.D n = x at hi1 h1
    obtain ⟨r, s1⟩ := x
    obtain ⟨hn, hr⟩ := DRd.readExact_spec X.lawful s hv n hx
    rcases hr with ⟨bs, rfl, hl⟩ | ⟨e, rfl⟩
    · simp only
      obtain ⟨lr2, ls2, hi2, hc2, h2⟩ := ih bs _ (hp.2.2 bs hl) s1 hi1 hn.inv (hn.buffered.trans hb)
      refine ⟨lr1 ++ lr2, ls2, hi2, fun k => ((hc1 k).append (hc2 k) : CleanEvents _ _ ([] ++ ls2)), fun lr' ls' lg => ?_⟩
      obtain ⟨lg1, h⟩ := h1 (lr2 ++ lr') (ls2 ++ ls') lg
      obtain ⟨lg2, h'⟩ := h2 lr' ls' lg1
      refine ⟨lg2, ?_⟩
      simp only [exec, List.append_assoc, List.nil_append] at h ⊢
      rw [h]
      exact h'
    · refine ⟨lr1, [], hi1, hc1, fun lr' ls' lg => ?_⟩
      obtain ⟨lg1, h⟩ := h1 lr' ls' lg
      refine ⟨lg1, ?_⟩
      simp only [exec] at h ⊢
      rw [h]
  | read n c ih =>
    obtain ⟨lr1, _, hi1, hc1, h1⟩ := serve_read X s hI n
    simp only [execD]
    generalize hx : s.read X.D n = x at hi1 h1
    obtain ⟨r, s1⟩ := x
    obtain ⟨hn, hl, _⟩ := DRd.read_spec X.lawful s hv n hx
    cases r with
    | ok bs =>
      simp only
      obtain ⟨lr2, ls2, hi2, hc2, h2⟩ := ih bs _ (hp.2.2 bs (hl bs rfl)) s1 hi1 hn.inv (hn.buffered.trans hb)
      refine ⟨lr1 ++ lr2, ls2, hi2, fun k => ((hc1 k).append (hc2 k) : CleanEvents _ _ ([] ++ ls2)), fun lr' ls' lg => ?_⟩
      obtain ⟨lg1, h⟩ := h1 (lr2 ++ lr') (ls2 ++ ls') lg
      obtain ⟨lg2, h'⟩ := h2 lr' ls' lg1
      refine ⟨lg2, ?_⟩
      simp only [exec, List.append_assoc, List.nil_append] at h ⊢
      rw [h]
      exact h'
    | error e =>
      refine ⟨lr1, [], hi1, hc1, fun lr' ls' lg => ?_⟩
      obtain ⟨lg1, h⟩ := h1 lr' ls' lg
      refine ⟨lg1, ?_⟩
      simp only [exec] at h ⊢
      rw [h]
  | seek p c ih =>
    obtain ⟨ls1, hi1, hc1, h1⟩ := serve_seek X s hI p
    simp only [execD]
    generalize hx : s.seek X.D p = x at hi1 h1
    obtain ⟨r, s1⟩ := x
    cases r with
    | ok q =>
      have hn := DRd.seek_spec X.lawful s hv p hx
      simp only
      obtain ⟨lr2, ls2, hi2, hc2, h2⟩ := ih q _ (hp.2.2 q) s1 hi1 hn.inv (hn.buffered.trans hb)
      refine ⟨lr2, ls1 ++ ls2, hi2, fun k => ((hc1 k).append (hc2 k) : CleanEvents _ ([] ++ lr2) _), fun lr' ls' lg => ?_⟩
      obtain ⟨lg1, h⟩ := h1 (lr2 ++ lr') (ls2 ++ ls') lg
      obtain ⟨lg2, h'⟩ := h2 lr' ls' lg1
      refine ⟨lg2, ?_⟩
      simp only [exec, List.append_assoc, List.nil_append] at h ⊢
      rw [h]
      exact h'
    | error e =>
      refine ⟨[], ls1, hi1, hc1, fun lr' ls' lg => ?_⟩
      obtain ⟨lg1, h⟩ := h1 lr' ls' lg
      refine ⟨lg1, ?_⟩
      simp only [exec] at h ⊢
      rw [h]
  | tell c ih =>
    obtain ⟨ls1, hi1, hc1, h1⟩ := serve_tell X s hI
    simp only [execD]
    generalize hx : s.tell X.D = x at hi1 h1
    obtain ⟨r, s1⟩ := x
    have hr := DRd.tell_spec X.lawful s hv hx
    cases r with
    | ok q =>
      have hn : s.Next X.D X.position s1 := by
        rcases hr with ⟨_, _, hn⟩ | ⟨_, h⟩ | ⟨h, _⟩
        · exact hn
        · cases h
        · cases h
      simp only
      obtain ⟨lr2, ls2, hi2, hc2, h2⟩ := ih q _ (hp.2.2 q) s1 hi1 hn.inv (hn.buffered.trans hb)
      refine ⟨lr2, ls1 ++ ls2, hi2, fun k => ((hc1 k).append (hc2 k) : CleanEvents _ ([] ++ lr2) _), fun lr' ls' lg => ?_⟩
      obtain ⟨lg1, h⟩ := h1 (lr2 ++ lr') (ls2 ++ ls') lg
      obtain ⟨lg2, h'⟩ := h2 lr' ls' lg1
      refine ⟨lg2, ?_⟩
      simp only [exec, List.append_assoc, List.nil_append] at h ⊢
      rw [h]
      exact h'
    | error e =>
      refine ⟨[], ls1, hi1, hc1, fun lr' ls' lg => ?_⟩
      obtain ⟨lg1, h⟩ := h1 lr' ls' lg
      refine ⟨lg1, ?_⟩
      simp only [exec] at h ⊢
      rw [h]
  | readUntil n c ih =>
    have hbt : s.buffered = true := hb.trans (hO _ hp.1)
    obtain ⟨lr1, hi1, hc1, h1⟩ := serve_readUntil X s hI hv hbt n
    simp only [execD]
    generalize hx : s.readUntil X.D n = x at hi1 h1
    obtain ⟨r, s1⟩ := x
    obtain ⟨hn, hr⟩ := DRd.readUntil_spec X.lawful s hv hbt n hx
    rcases hr with ⟨bs, rfl, hl⟩ | ⟨e, rfl⟩
    · simp only
      obtain ⟨lr2, ls2, hi2, hc2, h2⟩ := ih bs _ (hp.2.2 bs hl) s1 hi1 hn.inv (hn.buffered.trans hb)
      refine ⟨lr1 ++ lr2, ls2, hi2, fun k => ((hc1 k).append (hc2 k) : CleanEvents _ _ ([] ++ ls2)), fun lr' ls' lg => ?_⟩
      obtain ⟨lg1, h⟩ := h1 (lr2 ++ lr') (ls2 ++ ls') lg
      obtain ⟨lg2, h'⟩ := h2 lr' ls' lg1
      refine ⟨lg2, ?_⟩
      simp only [exec, List.append_assoc, List.nil_append] at h ⊢
      rw [h]
      exact h'
    · refine ⟨lr1, [], hi1, hc1, fun lr' ls' lg => ?_⟩
      obtain ⟨lg1, h⟩ := h1 lr' ls' lg
      refine ⟨lg1, ?_⟩
      simp only [exec] at h ⊢
      rw [h]

/-- `ServeFollowsS` for what works on the bare stream. -/
def ServeFollowsS {ρ : Type} (st : σ) (r : ρ) (st' : σ) (lr : List Ev) (ls : List (Option ErrKind)) (y : Src → ρ × Src) : Prop :=
  X.I st' ∧ (X.safe → CleanEvents X.ok lr ls) ∧
    ∀ lr' ls' lg, ∃ lg', y (X.src st (lr ++ lr') (ls ++ ls') lg) = (r, X.src st' lr' ls' lg')

theorem serve_execOn {α : Type} {O : Op → Prop} {F : Fail → Prop} {Q : α → Prop} (p : Prog α) (k : Nat) (b : Bool)
    (hp : All O F Q p k) (hO : ∀ o, O o → o.untilBuffered b) (st : σ) (hI : X.I st) :
    ∃ lr ls, ServeFollowsS X st (execOnD X.D b p st).1 (execOnD X.D b p st).2 lr ls (execOn b p) := by
  obtain ⟨lr, ls, hi, hc, h⟩ := serve_exec X p k b hp hO ⟨st, b, []⟩ hI (DRd.inv_nil st b) rfl
  refine ⟨lr, ls, hi, hc, fun lr' ls' lg => ?_⟩
  obtain ⟨lg', h⟩ := h lr' ls' lg
  refine ⟨lg', ?_⟩
  unfold execOn execOnD
  have h' : exec p { src := X.src st (lr ++ lr') (ls ++ ls') lg, buffered := b, buf := [] } =
    ((execD X.D p ⟨st, b, []⟩).1, X.rd (execD X.D p ⟨st, b, []⟩).2 lr' ls' lg') := h
  rw [h']
  rfl

theorem serve_generic (ft : Features) (st : σ) (hI : X.I st) :
    ∃ lr ls, ServeFollowsS X st (fromGenericReaderD X.D ft st).1 (fromGenericReaderD X.D ft st).2 lr ls (fromGenericReader ft) := by
  unfold fromGenericReaderD
  by_cases ht : ft.txt = true
  · rw [if_pos ht]
    obtain ⟨lr, ls, hi, hc, h⟩ := serve_execOn X txtReader _ true txtReader_all OpEx.until st hI
    generalize execOnD X.D true txtReader st = x at hi h
    obtain ⟨r, st'⟩ := x
    refine ⟨lr, ls, ?_, hc, fun lr' ls' lg => ?_⟩
    · rcases r with (_ | _ | _) | f <;> exact hi
    · obtain ⟨lg', h⟩ := h lr' ls' lg
      refine ⟨lg', ?_⟩
      unfold fromGenericReader
      rw [if_pos ht, h]
      rcases r with (_ | _ | _) | f <;> rfl
  · rw [if_neg ht]
    refine ⟨[], [], hI, fun _ => clean_nil, fun lr' ls' lg => ⟨lg, ?_⟩⟩
    unfold fromGenericReader
    rw [if_neg ht]
    rfl

/-- Detection. The first event is the first read. -/
theorem serve_detect (cfg : Cfg) (ft : Features) (st : σ) (hI : X.I st) :
    ∃ lr ls, (∀ lr' ls' lg n, n = bufferSize → ((X.src st (lr ++ lr') ls' lg).read n).1 = (X.D.read st n).1) ∧
      ServeFollowsS X st (fromDevice X.D cfg ft st).1 (fromDevice X.D cfg ft st).2 lr ls (fromReader cfg ft) := by
  obtain ⟨ev, hc, h⟩ := src_read X st bufferSize hI
  have hi := X.serves.read_inv st bufferSize hI
  unfold fromDevice
  generalize hx : X.D.read st bufferSize = x at h hi
  obtain ⟨r, st1⟩ := x
  have first : ∀ lr lr' ls' lg n, n = bufferSize →
      ((X.src st ((ev :: lr) ++ lr') ls' lg).read n).1 = (X.D.read st n).1 := by
    intro lr lr' ls' lg n hn
    subst hn
    rw [hx, List.cons_append, h]
  have gen : ∀ (lr1 : List Ev) (ls1 : List (Option ErrKind)) (st2 : σ), X.I st2 → (X.safe → CleanEvents X.ok lr1 ls1) →
      (∀ lr' ls' lg, ∃ lg', ∀ y, fromGenericReader ft (X.src st2 lr' ls' lg') = y →
        fromReader cfg ft (X.src st (ev :: (lr1 ++ lr')) (ls1 ++ ls') lg) = y) →
      ∃ lr ls, ServeFollowsS X st (fromGenericReaderD X.D ft st2).1 (fromGenericReaderD X.D ft st2).2 (ev :: lr) ls
        (fromReader cfg ft) := by
    intro lr1 ls1 st2 hi2 hc1 h1
    obtain ⟨lr2, ls2, hi3, hc2, h2⟩ := serve_generic X ft st2 hi2
    refine ⟨lr1 ++ lr2, ls1 ++ ls2, hi3, fun k => ((clean_one (hc k)).append ((hc1 k).append (hc2 k)) :
      CleanEvents _ ([ev] ++ (lr1 ++ lr2)) ([] ++ (ls1 ++ ls2))), fun lr' ls' lg => ?_⟩
    obtain ⟨lg1, h1⟩ := h1 (lr2 ++ lr') (ls2 ++ ls') lg
    obtain ⟨lg2, h2⟩ := h2 lr' ls' lg1
    refine ⟨lg2, ?_⟩
    rw [List.cons_append, List.append_assoc, List.append_assoc]
    exact h1 _ h2
  cases r with
  | error e =>
    refine ⟨[ev], [], first [], hi, fun k => clean_one (hc k), fun lr' ls' lg => ⟨.read bufferSize :: lg, ?_⟩⟩
    unfold fromReader
    rw [List.singleton_append, h]
    rfl
  | ok buf =>
    simp only
    by_cases h0 : buf.length = 0
    · rw [if_pos h0]
      refine ⟨[ev], [], first [], hi, fun k => clean_one (hc k), fun lr' ls' lg => ⟨.read bufferSize :: lg, ?_⟩⟩
      unfold fromReader
      rw [List.singleton_append, h]
      simp only [h0, if_true]
      rfl
    · rw [if_neg h0]
      cases hs : fromSignature buf with
      | none =>
        simp only
        obtain ⟨lr, ls, hf⟩ := gen [] [] st1 hi (fun _ => clean_nil) (by
          intro lr' ls' lg
          refine ⟨.read bufferSize :: lg, fun y hy => ?_⟩
          unfold fromReader
          rw [h]
          simp only [h0, if_false, hs]
          exact hy)
        exact ⟨ev :: lr, ls, first lr, hf⟩
      | some fmt =>
        simp only
        rcases fmtReader_cases cfg ft fmt with hn | ⟨g, hg, he, rfl, hrd⟩
        · simp only [fromFmtReaderD, hn]
          refine ⟨[ev], [], first [], hi, fun k => clean_one (hc k), fun lr' ls' lg => ⟨.read bufferSize :: lg, ?_⟩⟩
          unfold fromReader
          rw [List.singleton_append, h]
          simp only [h0, if_false, hs, fromFmtReader, hn]
          rfl
        · obtain ⟨k, hk⟩ := reader_failure cfg g
          obtain ⟨lr1, ls1, hi1, hc1, h1⟩ := serve_execOn X _ k _ hk (fun _ => id) st1 hi
          simp only [fromFmtReaderD, hrd]
          generalize execOnD X.D (readerOf cfg g).1 (readerOf cfg g).2 st1 = x at hi1 h1
          obtain ⟨r, st2⟩ := x
          have done : ∀ f : Except Fail FileFormat, r = f → (∀ e, f ≠ .error (.err e)) →
              ∃ lr ls, ServeFollowsS X st f st2 (ev :: lr) ls (fromReader cfg ft) := by
            intro f hf hne
            subst hf
            refine ⟨lr1, ls1, hi1, fun k => ((clean_one (hc k)).append (hc1 k) :
              CleanEvents _ ([ev] ++ lr1) ([] ++ ls1)), fun lr' ls' lg => ?_⟩
            obtain ⟨lg1, h1⟩ := h1 lr' ls' (.read bufferSize :: lg)
            refine ⟨lg1, ?_⟩
            unfold fromReader
            rw [List.cons_append, h]
            simp only [h0, if_false, hs, fromFmtReader, hrd]
            rw [h1]
            rcases r with (e | _ | _) | f
            · exact absurd rfl (hne e)
            all_goals rfl
          rcases r with (e | _ | _) | f
          · simp only
            obtain ⟨lr, ls, hf⟩ := gen lr1 ls1 st2 hi1 hc1 (by
              intro lr' ls' lg
              obtain ⟨lg1, h1⟩ := h1 lr' ls' (.read bufferSize :: lg)
              refine ⟨lg1, fun y hy => ?_⟩
              unfold fromReader
              rw [h]
              simp only [h0, if_false, hs, fromFmtReader, hrd]
              rw [h1]
              exact hy)
            exact ⟨ev :: lr, ls, first lr, hf⟩
          · obtain ⟨lr, ls, hf⟩ := done _ rfl (fun e h => by cases h)
            exact ⟨ev :: lr, ls, first lr, hf⟩
          · obtain ⟨lr, ls, hf⟩ := done _ rfl (fun e h => by cases h)
            exact ⟨ev :: lr, ls, first lr, hf⟩
          · obtain ⟨lr, ls, hf⟩ := done _ rfl (fun e h => by cases h)
            exact ⟨ev :: lr, ls, first lr, hf⟩

end FF
