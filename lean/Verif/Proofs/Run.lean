import Verif.Model.IO
/-!
# Evaluating programs under the ideal semantics
-/

namespace FF

theorem Prog.bind_eq {α β : Type} (p : Prog α) (f : α → Prog β) : (p >>= f) = p.bind f := rfl
theorem Prog.pure_eq {α : Type} (a : α) : (pure a : Prog α) = Prog.pure a := rfl

/-- Sequencing of ideal results. -/
def andThen {α β : Type} (r : Except Fail (α × Nat)) (f : α → Nat → Except Fail (β × Nat)) :
    Except Fail (β × Nat) :=
  match r with
  | .ok (a, p) => f a p
  | .error e => .error e

@[simp] theorem andThen_ok {α β : Type} (a : α) (p : Nat) (f : α → Nat → Except Fail (β × Nat)) :
    andThen (.ok (a, p)) f = f a p := rfl
@[simp] theorem andThen_error {α β : Type} (e : Fail) (f : α → Nat → Except Fail (β × Nat)) :
    andThen (.error e) f = .error e := rfl

variable {α β : Type} {d : Bytes} {m : Nat}

theorem run_bind' (p : Prog α) (f : α → Prog β) (q : Nat) :
    run d m (p.bind f) q = andThen (run d m p q) (fun a q' => run d m (f a) q') := by
  induction p generalizing q with
  | pure a => rfl
  | fail e => rfl
  | readExact n k ih => simp only [Prog.bind, run]; split <;> simp [ih]
  | read n k ih => simp only [Prog.bind, run, ih]
  | seek s k ih =>
    simp only [Prog.bind, run]
    split <;> simp [ih]
  | tell k ih => simp only [Prog.bind, run, ih]
  | readUntil l k ih => simp only [Prog.bind, run, ih]

@[simp] theorem run_bind (p : Prog α) (f : α → Prog β) (q : Nat) :
    run d m (p >>= f) q = andThen (run d m p q) (fun a q' => run d m (f a) q') := run_bind' p f q

@[simp] theorem run_pure (a : α) (q : Nat) : run d m (pure a : Prog α) q = .ok (a, q) := rfl
@[simp] theorem run_pure' (a : α) (q : Nat) : run d m (Prog.pure a) q = .ok (a, q) := rfl
@[simp] theorem run_fail (e : Fail) (q : Nat) : run d m (Prog.fail e : Prog α) q = .error e := rfl
@[simp] theorem run_throwErr (e : ErrKind) (q : Nat) :
    run d m (Prog.throwErr e : Prog α) q = .error (.err e) := rfl
@[simp] theorem run_lift_ok (a : α) (q : Nat) :
    run d m (Prog.lift (.ok a)) q = .ok (a, q) := rfl
@[simp] theorem run_lift_error (e : Fail) (q : Nat) :
    run d m (Prog.lift (.error e) : Prog α) q = .error e := rfl
@[simp] theorem run_pos (q : Nat) : run d m Prog.pos q = .ok (q, q) := rfl

theorem run_rdExact (n q : Nat) : run d m (Prog.rdExact n) q =
    if n = 0 ∨ q + n ≤ d.length then .ok (slice d q n, q + n) else .error (.err .unexpectedEof) := by
  simp [Prog.rdExact, run]

theorem run_rd (n q : Nat) : run d m (Prog.rd n) q =
    .ok (slice d q n, q + (slice d q n).length) := by
  simp [Prog.rd, run]

theorem run_rdUntil (n q : Nat) : run d m (Prog.rdUntil n) q =
    .ok (uptoNewline (slice d q n), q + (uptoNewline (slice d q n)).length) := by
  simp [Prog.rdUntil, run]

theorem run_sk (s : SeekFrom) (q : Nat) : run d m (Prog.sk s) q =
    match seekTarget d.length m q s with
    | some q' => .ok (q', q')
    | none => .error (.err .invalidInput) := by
  simp only [Prog.sk, run]
  split <;> simp_all

theorem run_sk_start (n q : Nat) (h : n ≤ m) :
    run d m (Prog.sk (.start n)) q = .ok (n, n) := by
  simp [run_sk, seekTarget, h]

theorem run_sk_end (q : Nat) (h : d.length ≤ m) :
    run d m (Prog.sk (.fromEnd 0)) q = .ok (d.length, d.length) := by
  have h2 : (0 : Int) ≤ (d.length : Int) + 0 ∧ (d.length : Int) + 0 ≤ m := by omega
  simp only [run_sk, seekTarget, if_pos h2]
  simp

theorem run_sk_current (i : Int) (q t : Nat) (h : (q : Int) + i = t) (ht : t ≤ m) :
    run d m (Prog.sk (.current i)) q = .ok (t, t) := by
  have h2 : (0 : Int) ≤ (t : Int) ∧ (t : Int) ≤ m := by omega
  simp only [run_sk, seekTarget, h, if_pos h2]
  simp

theorem run_rdExact_ok (n q : Nat) (h : q + n ≤ d.length) :
    run d m (Prog.rdExact n) q = .ok (slice d q n, q + n) := by
  rw [run_rdExact, if_pos (Or.inr h)]

theorem run_rdExact_eof (n q : Nat) (h : d.length < q + n) (hn : n ≠ 0) :
    run d m (Prog.rdExact n : Prog Bytes) q = .error (.err .unexpectedEof) := by
  rw [run_rdExact, if_neg (by omega)]

/-- `slice` at a known place. -/
theorem slice_append (a x b : Bytes) (n p : Nat) (hp : p = a.length) (hn : n = x.length) :
    slice (a ++ (x ++ b)) p n = x := by
  subst hp hn
  simp [slice]

theorem length_slice (d : Bytes) (p n : Nat) : (slice d p n).length = min n (d.length - p) := by
  simp [slice]

theorem length_slice_eq (d : Bytes) (p n : Nat) (h : p + n ≤ d.length) :
    (slice d p n).length = n := by
  rw [length_slice]; omega

end FF
