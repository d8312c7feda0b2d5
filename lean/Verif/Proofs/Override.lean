import Verif.Spec.Override
import Verif.Proofs.Serve
/-!
# A device with a `read_exact` of its own behaves like a stream with a schedule
-/

namespace FF
open FileFormat Spec

variable {σ : Type}

/-- What is fixed in this file. -/
structure ServedO (σ : Type) extends Served σ where
  own : σ → Nat → Except ErrKind Bytes × σ
  exact : Device.ServesExact own data position I
  certain : safe → Device.ReliableExact own data position I

/-! ## Behind a `BufReader` nothing changes -/

theorem readExactO_buffered (D : Device σ) (own : σ → Nat → Except ErrKind Bytes × σ) (s : DRd σ) (hb : s.buffered = true)
    (n : Nat) : s.readExactO D own n = s.readExact D n := by
  unfold DRd.readExactO
  rw [if_pos hb]

theorem execO_buffered {α : Type} {O : Op → Prop} {F : Fail → Prop} {Q : α → Prop} {D : Device σ} (hL : D.Lawful)
    (own : σ → Nat → Except ErrKind Bytes × σ) {position : σ → Nat} (p : Prog α) (k : Nat)
    (hp : All O F Q p k) (s : DRd σ) (hv : s.Inv D position) (hb : s.buffered = true) :
    execO D own p s = execD D p s := by
  induction p generalizing s k with
  | pure a => rfl
  | fail f => rfl
  | readExact n c ih =>
    simp only [execO, execD, readExactO_buffered D own s hb]
    cases hx : s.readExact D n with
    | mk r s1 =>
      obtain ⟨hn, hr⟩ := DRd.readExact_spec hL s hv n hx
      rcases hr with ⟨bs, rfl, hl⟩ | ⟨e, rfl⟩
      · exact ih bs _ (hp.2.2 bs hl) s1 hn.inv (hn.buffered.trans hb)
      · rfl
  | read n c ih =>
    simp only [execO, execD]
    cases hx : s.read D n with
    | mk r s1 =>
      obtain ⟨hn, hl, _⟩ := DRd.read_spec hL s hv n hx
      cases r with
      | ok bs => exact ih bs _ (hp.2.2 bs (hl bs rfl)) s1 hn.inv (hn.buffered.trans hb)
      | error e => rfl
  | seek q c ih =>
    simp only [execO, execD]
    cases hx : s.seek D q with
    | mk r s1 =>
      cases r with
      | ok q =>
        have hn := DRd.seek_spec hL s hv _ hx
        exact ih q _ (hp.2.2 q) s1 hn.inv (hn.buffered.trans hb)
      | error e => rfl
  | tell c ih =>
    simp only [execO, execD]
    cases hx : s.tell D with
    | mk r s1 =>
      have hr := DRd.tell_spec hL s hv hx
      cases r with
      | ok q =>
        have hn : s.Next D position s1 := by
          rcases hr with ⟨_, _, hn⟩ | ⟨_, h⟩ | ⟨h, _⟩
          · exact hn
          · cases h
          · cases h
        exact ih q _ (hp.2.2 q) s1 hn.inv (hn.buffered.trans hb)
      | error e => rfl
  | readUntil n c ih =>
    simp only [execO, execD]
    cases hx : s.readUntil D n with
    | mk r s1 =>
      obtain ⟨hn, hr⟩ := DRd.readUntil_spec hL s hv hb n hx
      rcases hr with ⟨bs, rfl, hl⟩ | ⟨e, rfl⟩
      · exact ih bs _ (hp.2.2 bs hl) s1 hn.inv (hn.buffered.trans hb)
      · rfl

theorem execOnO_buffered {α : Type} {O : Op → Prop} {F : Fail → Prop} {Q : α → Prop} {D : Device σ} (hL : D.Lawful)
    (own : σ → Nat → Except ErrKind Bytes × σ) (p : Prog α) (k : Nat) (hp : All O F Q p k) (st : σ) :
    execOnO D own true p st = execOnD D true p st := by
  unfold execOnO execOnD
  rw [execO_buffered hL own (position := fun _ => 0) p k hp _ (DRd.inv_nil st true) rfl]

theorem fromGenericReaderO_eq {D : Device σ} (hL : D.Lawful) (own : σ → Nat → Except ErrKind Bytes × σ) (ft : Features)
    (st : σ) : fromGenericReaderO D own ft st = fromGenericReaderD D ft st := by
  unfold fromGenericReaderO fromGenericReaderD
  rw [execOnO_buffered hL own txtReader _ txtReader_all]
  rfl

/-! ## Without a `BufReader` -/

variable (X : ServedO σ)

/-- The stream that stands for the device, but at position `q`. -/
def ServedO.at (s : DRd σ) (q : Nat) (lr : List Ev) (ls : List (Option ErrKind)) (lg : List Call) : Rd :=
  { src := { data := X.data, pos := q, maxPos := X.top, revs := lr, sevs := ls, log := lg }, buffered := s.buffered,
    buf := s.buf }

/-- On the stream, `y` does what took the device from `s` to `s'` with result `r`; if `r` is a failure, the kind of error
and the position may be others. -/
def EndsLike {ρ : Type} (s : DRd σ) (r : Except Fail ρ) (s' : DRd σ) (lr : List Ev) (ls : List (Option ErrKind))
    (y : Rd → Except Fail ρ × Rd) : Prop :=
  X.I s'.st ∧ (X.safe → CleanEvents X.ok lr ls) ∧
    ∀ lr' ls' lg, ∃ lg' r' q, y (X.rd s (lr ++ lr') (ls ++ ls') lg) = (r', X.at s' q lr' ls' lg') ∧
      ((r' = r ∧ q = X.position s'.st) ∨ ∃ e e', r = .error (.err e) ∧ r' = .error (.err e'))

theorem EndsLike.of {ρ : Type} {s s' : DRd σ} {r : Except Fail ρ} {lr : List Ev} {ls : List (Option ErrKind)}
    {y : Rd → Except Fail ρ × Rd} (h : ServeFollows X.toServed s r s' lr ls y) : EndsLike X s r s' lr ls y := by
  refine ⟨h.1, h.2.1, fun lr' ls' lg => ?_⟩
  obtain ⟨lg', h⟩ := h.2.2 lr' ls' lg
  exact ⟨lg', r, X.position s'.st, h, .inl ⟨rfl, rfl⟩⟩

/-- A read that is served in full. -/
theorem rd_read_full (s : DRd σ) (hb : s.buffered = false) (q n : Nat) (lr : List Ev) (ls : List (Option ErrKind)) (lg : List Call) :
    (X.at s q (.full :: lr) ls lg).read n =
      (.ok (slice X.data q n), X.at s (q + (slice X.data q n).length) lr ls (.read n :: lg)) := by
  unfold Rd.read
  rw [if_pos (show (X.at s q (.full :: lr) ls lg).buffered = false from hb)]
  rfl

theorem rd_read_error (s : DRd σ) (hb : s.buffered = false) (q n : Nat) (e : ErrKind) (lr : List Ev) (ls : List (Option ErrKind))
    (lg : List Call) :
    (X.at s q (.error e :: lr) ls lg).read n = (.error e, X.at s q lr ls (.read n :: lg)) := by
  unfold Rd.read
  rw [if_pos (show (X.at s q (.error e :: lr) ls lg).buffered = false from hb)]
  rfl

theorem rd_readExact_unbuffered (s : DRd σ) (hb : s.buffered = false) (q n : Nat) (lr : List Ev) (ls : List (Option ErrKind))
    (lg : List Call) :
    (X.at s q lr ls lg).readExact n = Rd.readExactLoop (n + lr.length + 1) (X.at s q lr ls lg) n [] := by
  unfold Rd.readExact
  rw [if_neg]
  · rfl
  · rintro ⟨h, _⟩
    exact absurd (h.symm.trans (show (X.at s q lr ls lg).buffered = false from hb)) (by decide)

theorem own_exact (s : DRd σ) (hI : X.I s.st) (hb : s.buffered = false) (n : Nat) :
    ∃ lr, EndsLike X s (s.readExactO X.D X.own n).1 (s.readExactO X.D X.own n).2 lr [] (fun t => t.readExact n) := by
  have hbt : ¬ s.buffered = true := by rw [hb]; decide
  unfold DRd.readExactO
  rw [if_neg hbt]
  have hi := X.exact.inv s.st n hI
  cases hx : X.own s.st n with
  | mk r st' =>
    rw [hx] at hi
    cases r with
    | ok bs =>
      obtain ⟨h1, h2, h3⟩ := X.exact.ok _ _ _ _ hI hx
      simp only
      cases n with
      | zero =>
        refine ⟨[], hi, fun _ => clean_nil, fun lr' ls' lg => ⟨lg, .ok bs, X.position st', ?_, .inl ⟨rfl, rfl⟩⟩⟩
        have : bs = [] := List.eq_nil_of_length_eq_zero h1
        subst this
        show (X.at s (X.position s.st) ([] ++ lr') ([] ++ ls') lg).readExact 0 = _
        rw [rd_readExact_unbuffered X s hb]
        rw [Rd.readExactLoop, h3]
        rfl
      | succ m =>
        refine ⟨[.full], hi, fun _ => ⟨fun e he => ?_, (fun _ h => nomatch h)⟩, fun lr' ls' lg =>
          ⟨.read (m + 1) :: lg, .ok bs, X.position st', ?_, .inl ⟨rfl, rfl⟩⟩⟩
        · rcases List.mem_singleton.mp he with rfl
          exact trivial
        show (X.at s (X.position s.st) (.full :: lr') ls' lg).readExact (m + 1) = _
        rw [rd_readExact_unbuffered X s hb, Rd.readExactLoop, rd_read_full X s hb, ← h2]
        simp only [h1]
        rw [if_neg (by omega), Nat.sub_self]
        simp only [List.nil_append]
        rw [h3]
        show Rd.readExactLoop (m + (lr'.length + 1) + 1) _ 0 bs = _
        rw [Rd.readExactLoop]
        rfl
    | error e =>
      have hn := X.exact.error _ _ _ _ hI hx
      obtain ⟨m, rfl⟩ : ∃ m, n = m + 1 := ⟨n - 1, by omega⟩
      simp only
      by_cases hc : X.safe
      · obtain ⟨rfl, hlt⟩ := X.certain hc _ _ _ _ hI hx
        by_cases hz : slice X.data (X.position s.st) (m + 1) = []
        · refine ⟨[.full], hi, fun _ => ⟨fun e he => ?_, (fun _ h => nomatch h)⟩, fun lr' ls' lg =>
            ⟨.read (m + 1) :: lg, .error (.err .unexpectedEof), X.position s.st, ?_, .inr ⟨_, _, rfl, rfl⟩⟩⟩
          · rcases List.mem_singleton.mp he with rfl
            exact trivial
          show (X.at s (X.position s.st) (.full :: lr') ls' lg).readExact (m + 1) = _
          rw [rd_readExact_unbuffered X s hb, Rd.readExactLoop, rd_read_full X s hb, hz]
          rfl
        · have hlen := length_slice X.data (X.position s.st) (m + 1)
          have hz' : (slice X.data (X.position s.st) (m + 1)).length ≠ 0 := fun h => hz (List.eq_nil_of_length_eq_zero h)
          have hsh : (slice X.data (X.position s.st) (m + 1)).length ≤ m := by omega
          generalize hbs : slice X.data (X.position s.st) (m + 1) = bs at hlen hz' hsh
          obtain ⟨k, hk⟩ : ∃ k, m + 1 - bs.length = k + 1 := ⟨m - bs.length, by omega⟩
          have hend : slice X.data (X.position s.st + bs.length) (k + 1) = [] := by
            apply List.eq_nil_of_length_eq_zero
            rw [length_slice]
            omega
          refine ⟨[.full, .full], hi, fun _ => ⟨fun e he => ?_, (fun _ h => nomatch h)⟩, fun lr' ls' lg =>
            ⟨.read (k + 1) :: .read (m + 1) :: lg, .error (.err .unexpectedEof), X.position s.st + bs.length, ?_,
              .inr ⟨_, _, rfl, rfl⟩⟩⟩
          · have : e = .full := by
              rcases List.mem_cons.mp he with h | h
              · exact h
              · exact List.mem_singleton.mp h
            subst this
            exact trivial
          show (X.at s (X.position s.st) (.full :: .full :: lr') ls' lg).readExact (m + 1) = _
          rw [rd_readExact_unbuffered X s hb, Rd.readExactLoop, rd_read_full X s hb, hbs]
          simp only
          rw [if_neg hz', hk]
          have hf : m + 1 + (Ev.full :: Ev.full :: lr').length = (m + (lr'.length + 2)) + 1 := by
            simp only [List.length_cons]
            omega
          rw [hf, Rd.readExactLoop, rd_read_full X s hb, hend]
          rfl
      · by_cases he : e = .interrupted
        · refine ⟨[.error .unexpectedEof], hi, fun h => absurd h hc, fun lr' ls' lg =>
            ⟨.read (m + 1) :: lg, .error (.err .unexpectedEof), X.position s.st, ?_, .inr ⟨_, _, rfl, rfl⟩⟩⟩
          show (X.at s (X.position s.st) (.error .unexpectedEof :: lr') ls' lg).readExact (m + 1) = _
          rw [rd_readExact_unbuffered X s hb, Rd.readExactLoop, rd_read_error X s hb]
          rfl
        · refine ⟨[.error e], hi, fun h => absurd h hc, fun lr' ls' lg =>
            ⟨.read (m + 1) :: lg, .error (.err e), X.position s.st, ?_, .inr ⟨_, _, rfl, rfl⟩⟩⟩
          show (X.at s (X.position s.st) (.error e :: lr') ls' lg).readExact (m + 1) = _
          rw [rd_readExact_unbuffered X s hb, Rd.readExactLoop, rd_read_error X s hb]
          simp only
          rw [if_neg he]
          rfl

theorem endsLike_trans {α ρ : Type} {s s1 s2 : DRd σ} {v : ρ} {r : Except Fail α} {lr1 lr2 : List Ev} {ls1 ls2 : List (Option ErrKind)}
    {y : Rd → Except Fail ρ × Rd} {c : ρ → Rd → Except Fail α × Rd} {z : Rd → Except Fail α × Rd}
    (h1 : EndsLike X s (.ok v) s1 lr1 ls1 y) (h2 : EndsLike X s1 r s2 lr2 ls2 (c v))
    (hz : ∀ t t', y t = (.ok v, t') → z t = c v t') : EndsLike X s r s2 (lr1 ++ lr2) (ls1 ++ ls2) z := by
  refine ⟨h2.1, fun k => (h1.2.1 k).append (h2.2.1 k), fun lr' ls' lg => ?_⟩
  obtain ⟨lg1, r1, q1, e1, ⟨rfl, rfl⟩ | ⟨_, _, h, _⟩⟩ := h1.2.2 (lr2 ++ lr') (ls2 ++ ls') lg
  · obtain ⟨lg2, r2, q2, e2, o2⟩ := h2.2.2 lr' ls' lg1
    refine ⟨lg2, r2, q2, ?_, o2⟩
    rw [List.append_assoc, List.append_assoc, hz _ _ e1]
    exact e2
  · cases h

theorem endsLike_error {α ρ : Type} {s s1 : DRd σ} {e : ErrKind} {lr1 : List Ev} {ls1 : List (Option ErrKind)}
    {y : Rd → Except Fail ρ × Rd} {z : Rd → Except Fail α × Rd} (h1 : EndsLike X s (.error (.err e)) s1 lr1 ls1 y)
    (hz : ∀ t t' e', y t = (.error e', t') → z t = (.error e', t')) : EndsLike X s (.error (.err e)) s1 lr1 ls1 z := by
  refine ⟨h1.1, h1.2.1, fun lr' ls' lg => ?_⟩
  obtain ⟨lg1, r1, q1, e1, ⟨rfl, rfl⟩ | ⟨_, e', _, rfl⟩⟩ := h1.2.2 lr' ls' lg
  · exact ⟨lg1, _, _, hz _ _ _ e1, .inl ⟨rfl, rfl⟩⟩
  · exact ⟨lg1, _, _, hz _ _ _ e1, .inr ⟨_, _, rfl, rfl⟩⟩

/-- A program without `BufReader`. -/
theorem own_exec {α : Type} {O : Op → Prop} {F : Fail → Prop} {Q : α → Prop} (p : Prog α) (k : Nat)
    (hp : All O F Q p k) (hO : ∀ o, O o → o.untilBuffered false) (s : DRd σ) (hI : X.I s.st)
    (hv : s.Inv X.D X.position) (hb : s.buffered = false) :
    ∃ lr ls, EndsLike X s (execO X.D X.own p s).1 (execO X.D X.own p s).2 lr ls (exec p) := by
  induction p generalizing s k with
  | pure a => exact ⟨[], [], EndsLike.of X ⟨hI, fun _ => clean_nil, fun lr' ls' lg => ⟨lg, rfl⟩⟩⟩
  | fail f => exact ⟨[], [], EndsLike.of X ⟨hI, fun _ => clean_nil, fun lr' ls' lg => ⟨lg, rfl⟩⟩⟩
  | readExact n c ih =>
    obtain ⟨lr1, h1⟩ := own_exact X s hI hb n
    simp only [execO]
    have hlen : ∀ bs s1, s.readExactO X.D X.own n = (.ok bs, s1) → bs.length = n ∧ s1.buffered = false ∧ s1.buf = [] := by
      intro bs s1 hx
      unfold DRd.readExactO at hx
      rw [if_neg (by rw [hb]; decide)] at hx
      cases hy : X.own s.st n with
      | mk r st' =>
        rw [hy] at hx
        cases r with
        | ok b => cases hx; exact ⟨(X.exact.ok _ _ _ _ hI hy).1, hb, hv.unbuf hb⟩
        | error e => cases hx
    have herr : ∀ f s1, s.readExactO X.D X.own n = (.error f, s1) → ∃ e, f = .err e := by
      intro f s1 hx
      unfold DRd.readExactO at hx
      rw [if_neg (by rw [hb]; decide)] at hx
      cases hy : X.own s.st n with
      | mk r st' =>
        rw [hy] at hx
        cases r with
        | ok b => cases hx
        | error e => cases hx; exact ⟨_, rfl⟩
    cases hx : s.readExactO X.D X.own n with
    | mk r s1 =>
      rw [hx] at h1
      cases r with
      | ok bs =>
        obtain ⟨l1, l2, l3⟩ := hlen bs s1 hx
        obtain ⟨lr2, ls2, h2⟩ := ih bs _ (hp.2.2 bs l1) s1 h1.1 ⟨fun _ => by rw [l3]; exact Nat.zero_le _, fun _ => l3⟩ l2
        refine ⟨lr1 ++ lr2, [] ++ ls2, endsLike_trans X h1 h2 (c := fun b t => exec (c b) t) fun t t' h => ?_⟩
        simp only [exec, h]
      | error f =>
        obtain ⟨e, rfl⟩ := herr f s1 hx
        refine ⟨lr1, [], endsLike_error X h1 fun t t' e' h => ?_⟩
        simp only [exec, h]
  | read n c ih =>
    obtain ⟨lr1, _, h1⟩ := serve_read X.toServed s hI n
    simp only [execO]
    cases hx : s.read X.D n with
    | mk r s1 =>
      rw [hx] at h1
      obtain ⟨hn, hl, _⟩ := DRd.read_spec X.lawful s hv n hx
      cases r with
      | ok bs =>
        obtain ⟨lr2, ls2, h2⟩ := ih bs _ (hp.2.2 bs (hl bs rfl)) s1 h1.1 hn.inv (hn.buffered.trans hb)
        refine ⟨lr1 ++ lr2, [] ++ ls2, h2.1, fun k => (h1.2.1 k).append (h2.2.1 k), fun lr' ls' lg => ?_⟩
        obtain ⟨lg1, e1⟩ := h1.2.2 (lr2 ++ lr') (ls2 ++ ls') lg
        obtain ⟨lg2, r2, q2, e2, o2⟩ := h2.2.2 lr' ls' lg1
        refine ⟨lg2, r2, q2, ?_, o2⟩
        simp only [exec, List.append_assoc, List.nil_append] at e1 ⊢
        rw [e1]
        exact e2
      | error e =>
        refine ⟨lr1, [], EndsLike.of X ⟨h1.1, h1.2.1, fun lr' ls' lg => ?_⟩⟩
        obtain ⟨lg1, e1⟩ := h1.2.2 lr' ls' lg
        refine ⟨lg1, ?_⟩
        simp only [exec, e1]
  | seek q c ih =>
    obtain ⟨ls1, h1⟩ := serve_seek X.toServed s hI q
    simp only [execO]
    cases hx : s.seek X.D q with
    | mk r s1 =>
      rw [hx] at h1
      cases r with
      | ok q =>
        have hn := DRd.seek_spec X.lawful s hv _ hx
        obtain ⟨lr2, ls2, h2⟩ := ih q _ (hp.2.2 q) s1 h1.1 hn.inv (hn.buffered.trans hb)
        refine ⟨[] ++ lr2, ls1 ++ ls2, h2.1, fun k => (h1.2.1 k).append (h2.2.1 k), fun lr' ls' lg => ?_⟩
        obtain ⟨lg1, e1⟩ := h1.2.2 (lr2 ++ lr') (ls2 ++ ls') lg
        obtain ⟨lg2, r2, q2, e2, o2⟩ := h2.2.2 lr' ls' lg1
        refine ⟨lg2, r2, q2, ?_, o2⟩
        simp only [exec, List.append_assoc, List.nil_append] at e1 ⊢
        rw [e1]
        exact e2
      | error e =>
        refine ⟨[], ls1, EndsLike.of X ⟨h1.1, h1.2.1, fun lr' ls' lg => ?_⟩⟩
        obtain ⟨lg1, e1⟩ := h1.2.2 lr' ls' lg
        refine ⟨lg1, ?_⟩
        simp only [exec, e1]
  | tell c ih =>
    obtain ⟨ls1, h1⟩ := serve_tell X.toServed s hI
    simp only [execO]
    cases hx : s.tell X.D with
    | mk r s1 =>
      rw [hx] at h1
      have hr := DRd.tell_spec X.lawful s hv hx
      cases r with
      | ok q =>
        have hn : s.Next X.D X.position s1 := by
          rcases hr with ⟨_, _, hn⟩ | ⟨_, h⟩ | ⟨h, _⟩
          · exact hn
          · cases h
          · cases h
        obtain ⟨lr2, ls2, h2⟩ := ih q _ (hp.2.2 q) s1 h1.1 hn.inv (hn.buffered.trans hb)
        refine ⟨[] ++ lr2, ls1 ++ ls2, h2.1, fun k => (h1.2.1 k).append (h2.2.1 k), fun lr' ls' lg => ?_⟩
        obtain ⟨lg1, e1⟩ := h1.2.2 (lr2 ++ lr') (ls2 ++ ls') lg
        obtain ⟨lg2, r2, q2, e2, o2⟩ := h2.2.2 lr' ls' lg1
        refine ⟨lg2, r2, q2, ?_, o2⟩
        simp only [exec, List.append_assoc, List.nil_append] at e1 ⊢
        rw [e1]
        exact e2
      | error e =>
        refine ⟨[], ls1, EndsLike.of X ⟨h1.1, h1.2.1, fun lr' ls' lg => ?_⟩⟩
        obtain ⟨lg1, e1⟩ := h1.2.2 lr' ls' lg
        refine ⟨lg1, ?_⟩
        simp only [exec, e1]
  | readUntil n c ih => exact absurd (hO _ hp.1) (by intro h; cases h)

/-! ## Detection -/

/-- The text reader rewinds the stream first. -/
theorem generic_anywhere (ft : Features) (s : Src) (q : Nat) :
    (fromGenericReader ft { s with pos := q }).1 = (fromGenericReader ft s).1 := by
  unfold fromGenericReader
  by_cases ht : ft.txt = true
  · rw [if_pos ht, if_pos ht]
    have key : (execOn true txtReader { s with pos := q }).1 = (execOn true txtReader s).1 := by
      unfold execOn
      obtain ⟨data, pos, maxPos, revs, sevs, log⟩ := s
      rcases sevs with _ | ⟨_ | e, es⟩
      · rfl
      · rfl
      · rfl
    generalize execOn true txtReader { s with pos := q } = x at key
    generalize execOn true txtReader s = y at key
    obtain ⟨r, x⟩ := x
    obtain ⟨r', y⟩ := y
    cases key
    rcases r with (_ | _ | _) | f <;> rfl
  · rw [if_neg ht, if_neg ht]

/-- A reader, with or without `BufReader`. -/
theorem own_execOn {α : Type} {F : Fail → Prop} {Q : α → Prop} (p : Prog α) (k : Nat) (b : Bool)
    (hp : All (Op.untilBuffered b) F Q p k) (st : σ) (hI : X.I st) :
    ∃ lr ls, X.I (execOnO X.D X.own b p st).2 ∧ (X.safe → CleanEvents X.ok lr ls) ∧
      ∀ lr' ls' lg, ∃ lg' r' q, execOn b p (X.src st (lr ++ lr') (ls ++ ls') lg) =
        (r', { X.src (execOnO X.D X.own b p st).2 lr' ls' lg' with pos := q }) ∧
        (r' = (execOnO X.D X.own b p st).1 ∨ ∃ e e', (execOnO X.D X.own b p st).1 = .error (.err e) ∧ r' = .error (.err e')) := by
  cases b with
  | true =>
    rw [execOnO_buffered X.lawful X.own p k hp st]
    obtain ⟨lr, ls, hi, hc, h⟩ := serve_execOn X.toServed p k true hp (fun _ => id) st hI
    refine ⟨lr, ls, hi, hc, fun lr' ls' lg => ?_⟩
    obtain ⟨lg', h⟩ := h lr' ls' lg
    exact ⟨lg', _, _, h, .inl rfl⟩
  | false =>
    obtain ⟨lr, ls, hi, hc, h⟩ := own_exec X p k hp (fun _ => id) ⟨st, false, []⟩ hI (DRd.inv_nil st false) rfl
    refine ⟨lr, ls, hi, hc, fun lr' ls' lg => ?_⟩
    obtain ⟨lg', r', q, h, o⟩ := h lr' ls' lg
    refine ⟨lg', r', q, ?_, ?_⟩
    · unfold execOn execOnO
      have h' : exec p { src := X.src st (lr ++ lr') (ls ++ ls') lg, buffered := false, buf := [] } =
        (r', X.at (execO X.D X.own p ⟨st, false, []⟩).2 q lr' ls' lg') := h
      rw [h']
      rfl
    · rcases o with ⟨h1, _⟩ | h2
      · exact .inl h1
      · exact .inr h2

/-- Detection. The first event is the first read. -/
theorem own_detect (cfg : Cfg) (ft : Features) (st : σ) (hI : X.I st) :
    ∃ lr ls, ((X.src st lr ls []).read bufferSize).1 = (X.D.read st bufferSize).1 ∧ (X.safe → CleanEvents X.ok lr ls) ∧
      X.I (fromOwn X.D X.own cfg ft st).2 ∧
      (fromReader cfg ft (X.src st lr ls [])).1 = (fromOwn X.D X.own cfg ft st).1 := by
  obtain ⟨ev, hc, h⟩ := src_read X.toServed st bufferSize hI
  have hi := X.serves.read_inv st bufferSize hI
  unfold fromOwn
  cases hx : X.D.read st bufferSize with
  | mk r st1 =>
  rw [hx] at h hi
  have first : ∀ lr ls, ((X.src st (ev :: lr) ls []).read bufferSize).1 = r := by
    intro lr ls
    rw [h]
  cases r with
  | error e =>
    refine ⟨[ev], [], first _ _, fun k => clean_one (hc k), hi, ?_⟩
    unfold fromReader
    rw [h]
  | ok buf =>
    simp only
    by_cases h0 : buf.length = 0
    · rw [if_pos h0]
      refine ⟨[ev], [], first _ _, fun k => clean_one (hc k), hi, ?_⟩
      unfold fromReader
      rw [h]
      simp only [h0, if_true]
    · rw [if_neg h0]
      cases hs : fromSignature buf with
      | none =>
        simp only
        rw [fromGenericReaderO_eq X.lawful]
        obtain ⟨lr2, ls2, hi3, hc2, h2⟩ := serve_generic X.toServed ft st1 hi
        refine ⟨ev :: lr2, ls2, first _ _, fun k => ((clean_one (hc k)).append (hc2 k) :
          CleanEvents _ ([ev] ++ lr2) ([] ++ ls2)), hi3, ?_⟩
        obtain ⟨lg2, h2⟩ := h2 [] [] [.read bufferSize]
        rw [List.append_nil, List.append_nil] at h2
        unfold fromReader
        rw [h]
        simp only [h0, if_false, hs]
        rw [h2]
      | some fmt =>
        simp only
        rcases fmtReader_cases cfg ft fmt with hn | ⟨g, hg, he, rfl, hrd⟩
        · simp only [fromFmtReaderO, hn]
          refine ⟨[ev], [], first _ _, fun k => clean_one (hc k), hi, ?_⟩
          unfold fromReader
          rw [h]
          simp only [h0, if_false, hs, fromFmtReader, hn]
        · obtain ⟨k, hk⟩ := reader_failure cfg g
          obtain ⟨lr1, ls1, hi1, hc1, h1⟩ := own_execOn X _ k _ hk st1 hi
          simp only [fromFmtReaderO, hrd]
          generalize execOnO X.D X.own (readerOf cfg g).1 (readerOf cfg g).2 st1 = x at hi1 h1
          obtain ⟨r, st2⟩ := x
          have done : ∀ f : Except Fail FileFormat, r = f → (∀ e, f ≠ .error (.err e)) →
              ∃ lr ls, ((X.src st lr ls []).read bufferSize).1 = .ok buf ∧ (X.safe → CleanEvents X.ok lr ls) ∧
                X.I st2 ∧ (fromReader cfg ft (X.src st lr ls [])).1 = f := by
            intro f hf hne
            subst hf
            refine ⟨ev :: lr1, ls1, first _ _, fun k => ((clean_one (hc k)).append (hc1 k) :
              CleanEvents _ ([ev] ++ lr1) ([] ++ ls1)), hi1, ?_⟩
            obtain ⟨lg1, r', q, h1, o⟩ := h1 [] [] [.read bufferSize]
            rw [List.append_nil, List.append_nil] at h1
            have hr' : r' = r := by
              rcases o with h | ⟨e, _, h, _⟩
              · exact h
              · exact absurd h (hne e)
            subst hr'
            unfold fromReader
            rw [h]
            simp only [h0, if_false, hs, fromFmtReader, hrd]
            rw [h1]
            rcases r' with (e | _ | _) | f
            · exact absurd rfl (hne e)
            all_goals rfl
          rcases r with (e | _ | _) | f
          · simp only
            rw [fromGenericReaderO_eq X.lawful]
            obtain ⟨lr2, ls2, hi3, hc2, h2⟩ := serve_generic X.toServed ft st2 hi1
            refine ⟨ev :: (lr1 ++ lr2), ls1 ++ ls2, first _ _, fun k => ((clean_one (hc k)).append ((hc1 k).append (hc2 k)) :
              CleanEvents _ ([ev] ++ (lr1 ++ lr2)) ([] ++ (ls1 ++ ls2))), hi3, ?_⟩
            obtain ⟨lg1, r', q, h1, o⟩ := h1 lr2 ls2 [.read bufferSize]
            obtain ⟨e', rfl⟩ : ∃ e', r' = .error (.err e') := by
              rcases o with rfl | ⟨_, e', _, h⟩
              · exact ⟨e, rfl⟩
              · exact ⟨e', h⟩
            obtain ⟨lg2, h2⟩ := h2 [] [] lg1
            rw [List.append_nil, List.append_nil] at h2
            unfold fromReader
            rw [h]
            simp only [h0, if_false, hs, fromFmtReader, hrd]
            rw [h1]
            simp only
            rw [generic_anywhere, h2]
          · obtain ⟨lr, ls, h3, h4, h5, h6⟩ := done _ rfl (fun e h => by cases h)
            exact ⟨lr, ls, h3, h4, h5, h6⟩
          · obtain ⟨lr, ls, h3, h4, h5, h6⟩ := done _ rfl (fun e h => by cases h)
            exact ⟨lr, ls, h3, h4, h5, h6⟩
          · obtain ⟨lr, ls, h3, h4, h5, h6⟩ := done _ rfl (fun e h => by cases h)
            exact ⟨lr, ls, h3, h4, h5, h6⟩

/-! ## Any `read_exact` -/

section
variable {D : Device σ} {own : σ → Nat → Except ErrKind Bytes × σ}

/-- Outcome of a program without `BufReader`, whatever `own` does. -/
theorem execO_spec {α : Type} (hL : D.Lawful) (hW : ∀ s n bs s', own s n = (.ok bs, s') → bs.length = n) {O : Op → Prop}
    {F : Fail → Prop} {Q : α → Prop} (p : Prog α) (k : Nat) (hp : All O F Q p k) (hO : ∀ o, O o → o.untilBuffered false)
    (s : DRd σ) (hv : s.Inv D (fun _ => 0)) (hb : s.buffered = false) :
    (∃ a, (execO D own p s).1 = .ok a ∧ Q a) ∨
      (∃ f, (execO D own p s).1 = .error f ∧ (F f ∨ ∃ e, f = .err e)) := by
  induction p generalizing s k with
  | pure a => exact .inl ⟨a, rfl, hp⟩
  | fail f => exact .inr ⟨f, rfl, .inl hp⟩
  | readExact n c ih =>
    simp only [execO, DRd.readExactO]
    rw [if_neg (by rw [hb]; decide)]
    cases hx : own s.st n with
    | mk r st =>
      cases r with
      | ok bs =>
        exact ih bs _ (hp.2.2 bs (hW _ _ _ _ hx)) { s with st := st }
          ⟨fun _ => by rw [show ({ s with st := st } : DRd σ).buf = [] from hv.unbuf hb]; exact Nat.zero_le _,
            fun _ => hv.unbuf hb⟩ hb
      | error e => exact .inr ⟨_, rfl, .inr ⟨e, rfl⟩⟩
  | read n c ih =>
    simp only [execO]
    cases hx : s.read D n with
    | mk r s1 =>
      obtain ⟨hn, hl, _⟩ := DRd.read_spec hL s hv n hx
      cases r with
      | ok bs => exact ih bs _ (hp.2.2 bs (hl bs rfl)) s1 hn.inv (hn.buffered.trans hb)
      | error e => exact .inr ⟨_, rfl, .inr ⟨e, rfl⟩⟩
  | seek q c ih =>
    simp only [execO]
    cases hx : s.seek D q with
    | mk r s1 =>
      cases r with
      | ok q =>
        have hn := DRd.seek_spec hL s hv _ hx
        exact ih q _ (hp.2.2 q) s1 hn.inv (hn.buffered.trans hb)
      | error e => exact .inr ⟨_, rfl, .inr ⟨e, rfl⟩⟩
  | tell c ih =>
    simp only [execO]
    cases hx : s.tell D with
    | mk r s1 =>
      rcases DRd.tell_spec hL s hv hx with ⟨q, rfl, hn⟩ | ⟨e, rfl⟩ | ⟨rfl, h1, _⟩
      · exact ih q _ (hp.2.2 q) s1 hn.inv (hn.buffered.trans hb)
      · exact .inr ⟨_, rfl, .inr ⟨e, rfl⟩⟩
      · exact absurd (h1.symm.trans hb) (by decide)
  | readUntil n c ih => exact absurd (hO _ hp.1) (by intro h; cases h)

theorem execOnO_reader (hL : D.Lawful) (hW : ∀ s n bs s', own s n = (.ok bs, s') → bs.length = n) (cfg : Cfg) (g : Feature)
    (st : σ) (hP : (∃ position, D.Positioned position) ∨ g.asksPosition = false) :
    (∃ a, (execOnO D own (readerOf cfg g).1 (readerOf cfg g).2 st).1 = .ok a ∧ InFamily g a) ∨
      (∃ f, (execOnO D own (readerOf cfg g).1 (readerOf cfg g).2 st).1 = .error f ∧ Failure cfg g f) := by
  obtain ⟨k, hk⟩ := reader_failure cfg g
  by_cases hb : (readerOf cfg g).1 = true
  · have h := execOnD_reader hL cfg g st hP
    rw [hb] at h ⊢
    rw [execOnO_buffered hL own _ k hk st]
    exact h
  · have hb' : (readerOf cfg g).1 = false := by simpa using hb
    rw [hb'] at hk ⊢
    rcases execO_spec hL hW _ k hk (fun _ => id) ⟨st, false, []⟩ (DRd.inv_nil st false) rfl with h | ⟨f, h1, h2⟩
    · exact .inl h
    · exact .inr ⟨f, h1, h2.elim id .inl⟩

/-- Detection after a successful first read. -/
theorem fromOwn_outcome (hL : D.Lawful) (hW : ∀ s n bs s', own s n = (.ok bs, s') → bs.length = n) (cfg : Cfg) (ft : Features)
    (st : σ) {buf : Bytes} {st' : σ} (hr : D.read st bufferSize = (.ok buf, st'))
    (hP : (∃ position, D.Positioned position) ∨
      ∀ g ∈ Feature.structured, g.enabled ft = true → fromSignature buf = some g.base → g.asksPosition = false) :
    (∃ f, (fromOwn D own cfg ft st).1 = .ok f ∧
      ((buf = [] ∧ f = FileFormat.Empty) ∨
       (fromSignature buf = some f) ∨
       (∃ g ∈ Feature.structured, g.enabled ft = true ∧ fromSignature buf = some g.base ∧ InFamily g f) ∨
       (ft.txt = true ∧ f = PlainText) ∨ f = ArbitraryBinaryData)) ∨
    (∃ g ∈ Feature.structured, g.enabled ft = true ∧ fromSignature buf = some g.base ∧
      ∃ f, (fromOwn D own cfg ft st).1 = .error f ∧ ¬ IsErr f ∧ Failure cfg g f) := by
  have hgen : ∀ s : σ, ∃ f, (fromGenericReaderO D own ft s).1 = .ok f ∧
      ((ft.txt = true ∧ f = PlainText) ∨ f = ArbitraryBinaryData) := by
    intro s
    rw [fromGenericReaderO_eq hL]
    rcases fromGenericReaderD_spec hL ft s with h | ⟨h1, h2⟩
    · exact ⟨_, h, .inr rfl⟩
    · exact ⟨_, h2, .inl ⟨h1, rfl⟩⟩
  simp only [fromOwn, hr]
  by_cases h0 : buf.length = 0
  · rw [if_pos h0]
    exact .inl ⟨_, rfl, .inl ⟨List.eq_nil_of_length_eq_zero h0, rfl⟩⟩
  · rw [if_neg h0]
    cases hs : fromSignature buf with
    | none =>
      obtain ⟨f, h1, h2⟩ := hgen st'
      exact .inl ⟨f, h1, .inr (.inr (.inr h2))⟩
    | some fmt =>
      simp only
      rcases fmtReader_cases cfg ft fmt with hn | ⟨g, hg, he, rfl, hrd⟩
      · simp only [fromFmtReaderO, hn]
        exact .inl ⟨fmt, rfl, .inr (.inl rfl)⟩
      · simp only [fromFmtReaderO, hrd]
        have hx := execOnO_reader hL hW cfg g st' (hP.imp id fun h => h g hg he hs)
        generalize execOnO D own (readerOf cfg g).1 (readerOf cfg g).2 st' = x at hx
        obtain ⟨r, s⟩ := x
        rcases hx with ⟨a, ha, hfam⟩ | ⟨f, hf, hfail⟩
        · simp only at ha
          subst ha
          exact .inl ⟨a, rfl, .inr (.inr (.inl ⟨g, hg, he, rfl, hfam⟩))⟩
        · simp only at hf
          subst hf
          cases f with
          | err e =>
            obtain ⟨f, h1, h2⟩ := hgen s
            exact .inl ⟨f, h1, .inr (.inr (.inr h2))⟩
          | panic => exact .inr ⟨g, hg, he, rfl, _, rfl, (by rintro ⟨e, h⟩; cases h), hfail⟩
          | diverge => exact .inr ⟨g, hg, he, rfl, _, rfl, (by rintro ⟨e, h⟩; cases h), hfail⟩

/-! ## A `read_exact` that does what the default body does -/

theorem execO_same {α : Type} (hL : D.Lawful)
    (h : ∀ st n, (⟨st, false, []⟩ : DRd σ).readExactO D own n = (⟨st, false, []⟩ : DRd σ).readExact D n) {O : Op → Prop}
    {F : Fail → Prop} {Q : α → Prop} (p : Prog α) (k : Nat) (hp : All O F Q p k) (hO : ∀ o, O o → o.untilBuffered false)
    (s : DRd σ) (hv : s.Inv D (fun _ => 0)) (hb : s.buffered = false) : execO D own p s = execD D p s := by
  induction p generalizing s k with
  | pure a => rfl
  | fail f => rfl
  | readExact n c ih =>
    have hs : s = ⟨s.st, false, []⟩ := by
      have h1 := hv.unbuf hb
      obtain ⟨st, b, bf⟩ := s
      cases hb
      cases h1
      rfl
    have he : s.readExactO D own n = s.readExact D n := by
      rw [hs]
      exact h _ _
    simp only [execO, execD, he]
    cases hx : s.readExact D n with
    | mk r s1 =>
      obtain ⟨hn, hr⟩ := DRd.readExact_spec hL s hv n hx
      rcases hr with ⟨bs, rfl, hl⟩ | ⟨e, rfl⟩
      · exact ih bs _ (hp.2.2 bs hl) s1 hn.inv (hn.buffered.trans hb)
      · rfl
  | read n c ih =>
    simp only [execO, execD]
    cases hx : s.read D n with
    | mk r s1 =>
      obtain ⟨hn, hl, _⟩ := DRd.read_spec hL s hv n hx
      cases r with
      | ok bs => exact ih bs _ (hp.2.2 bs (hl bs rfl)) s1 hn.inv (hn.buffered.trans hb)
      | error e => rfl
  | seek q c ih =>
    simp only [execO, execD]
    cases hx : s.seek D q with
    | mk r s1 =>
      cases r with
      | ok q =>
        have hn := DRd.seek_spec hL s hv _ hx
        exact ih q _ (hp.2.2 q) s1 hn.inv (hn.buffered.trans hb)
      | error e => rfl
  | tell c ih =>
    simp only [execO, execD]
    cases hx : s.tell D with
    | mk r s1 =>
      rcases DRd.tell_spec hL s hv hx with ⟨q, rfl, hn⟩ | ⟨e, rfl⟩ | ⟨rfl, h1, _⟩
      · exact ih q _ (hp.2.2 q) s1 hn.inv (hn.buffered.trans hb)
      · rfl
      · rfl
  | readUntil n c ih => exact absurd (hO _ hp.1) (by intro h; cases h)

theorem fromOwn_same (hL : D.Lawful)
    (h : ∀ st n, (⟨st, false, []⟩ : DRd σ).readExactO D own n = (⟨st, false, []⟩ : DRd σ).readExact D n)
    (cfg : Cfg) (ft : Features) (st : σ) : fromOwn D own cfg ft st = fromDevice D cfg ft st := by
  have hf : ∀ fmt st, fromFmtReaderO D own cfg ft fmt st = fromFmtReaderD D cfg ft fmt st := by
    intro fmt st
    rcases fmtReader_cases cfg ft fmt with hn | ⟨g, hg, he, rfl, hrd⟩
    · simp only [fromFmtReaderO, fromFmtReaderD, hn]
    · simp only [fromFmtReaderO, fromFmtReaderD, hrd]
      obtain ⟨k, hk⟩ := reader_failure cfg g
      by_cases hb : (readerOf cfg g).1 = true
      · rw [hb]
        exact execOnO_buffered hL own _ k hk st
      · have hb' : (readerOf cfg g).1 = false := by simpa using hb
        rw [hb'] at hk ⊢
        unfold execOnO execOnD
        rw [execO_same hL h _ k hk (fun _ => id) _ (DRd.inv_nil st false) rfl]
  unfold fromOwn fromDevice
  simp only [hf, fromGenericReaderO_eq hL own]
  rfl

end

end FF
