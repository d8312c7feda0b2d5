import Verif.Proofs.Invert
import Verif.Spec.Walk
/-!
# When a program comes to a verdict, step by step
-/

namespace FF
open Spec FileFormat

/-- The program comes to this result. -/
def Ends {α : Type} (d : Bytes) (m : Nat) (x : Prog α) (p : Nat) (r : α) : Prop := ∃ q, run d m x p = .ok (r, q)

section
variable {α β : Type} {d : Bytes} {m p : Nat} {r : β}

theorem ends_ok {x : Prog α} {k : α → Prog β} {a : α} {p' : Nat} (h : run d m x p = .ok (a, p')) :
    Ends d m (x >>= k) p r ↔ Ends d m (k a) p' r := by
  unfold Ends
  rw [run_bind, h, andThen_ok]

theorem ends_error {x : Prog α} {k : α → Prog β} {e : Fail} (h : run d m x p = .error e) :
    ¬ Ends d m (x >>= k) p r := by
  unfold Ends
  rw [run_bind, h, andThen_error]
  rintro ⟨_, h⟩
  cases h

theorem ends_assoc {γ : Type} {x : Prog γ} {f : γ → Prog α} {k : α → Prog β} :
    Ends d m ((x >>= f) >>= k) p r ↔ Ends d m (x >>= fun a => f a >>= k) p r := by
  unfold Ends
  simp only [run_bind]
  cases run d m x p with
  | error e => rfl
  | ok v => obtain ⟨a, q⟩ := v; simp only [andThen_ok, run_bind]

theorem ends_pure {a : β} : Ends d m (pure a : Prog β) p r ↔ r = a := by
  constructor
  · rintro ⟨_, h⟩; cases h; rfl
  · rintro rfl; exact ⟨p, rfl⟩

theorem ends_throw {e : ErrKind} : ¬ Ends d m (Prog.throwErr e : Prog β) p r := by
  rintro ⟨_, h⟩; cases h

theorem ends_bytes {n : Nat} {k : Bytes → Prog β} :
    Ends d m (readBytes n >>= k) p r ↔ (n = 0 ∨ p + n ≤ d.length) ∧ Ends d m (k (slice d p n)) (p + n) r := by
  by_cases h : n = 0 ∨ p + n ≤ d.length
  · rw [ends_ok (show run d m (readBytes n) p = _ from (run_rdExact n p).trans (if_pos h))]
    exact ⟨fun x => ⟨h, x⟩, fun x => x.2⟩
  · exact ⟨fun x => absurd x (ends_error (show run d m (readBytes n) p = _ from (run_rdExact n p).trans (if_neg h))),
      fun x => absurd x.1 h⟩

/-! ### Numbers -/

theorem length_pos_slice {b : Bytes} {p n : Nat} (h : p + n ≤ b.length) : (slice b p n).length = n := length_slice_eq b p n h

theorem beNat_at (b : Bytes) (p n : Nat) (h : p + n ≤ b.length) : beNat (slice b p n) = beAt b p n := by
  induction n with
  | zero => simp [slice, beNat, beAt]
  | succ n ih =>
    rw [slice_add b p n 1, slice_one b (p + n) (by omega), beNat_append, ih (by omega)]
    simp only [beAt, byteAt, List.length_singleton]
    simp only [beNat, List.foldl]
    omega

theorem leNat_at (b : Bytes) (p n : Nat) (h : p + n ≤ b.length) : leNat (slice b p n) = leAt b p n := by
  induction n generalizing p with
  | zero => simp [slice, leNat, leAt]
  | succ n ih =>
    rw [show n + 1 = 1 + n by omega, slice_add b p 1 n, slice_one b p (by omega)]
    show leNat ([b.getD p 0] ++ slice b (p + 1) n) = _
    rw [List.singleton_append, leNat, ih (p + 1) (by omega), show 1 + n = n + 1 by omega, leAt, byteAt]

theorem ends_map {γ : Type} {n : Nat} (hn : n ≠ 0) (g : Bytes → γ) {k : γ → Prog β} :
    Ends d m ((do let buf ← Prog.rdExact n; pure (g buf)) >>= k) p r ↔
      p + n ≤ d.length ∧ Ends d m (k (g (slice d p n))) (p + n) r := by
  by_cases h : p + n ≤ d.length
  · have hr : run d m (do let buf ← Prog.rdExact n; pure (g buf)) p = .ok (g (slice d p n), p + n) := by
      rw [run_bind, run_rdExact_ok n p h, andThen_ok]
      rfl
    rw [ends_ok hr]
    exact ⟨fun x => ⟨h, x⟩, fun x => x.2⟩
  · have hr : run d m (do let buf ← Prog.rdExact n; pure (g buf)) p = .error (.err .unexpectedEof) := by
      rw [run_bind, run_rdExact_eof n p (by omega) hn]
      rfl
    exact ⟨fun x => absurd x (ends_error hr), fun x => absurd x.1 h⟩

theorem ends_u16le {k : Nat → Prog β} :
    Ends d m (readU16le >>= k) p r ↔ p + 2 ≤ d.length ∧ Ends d m (k (leAt d p 2)) (p + 2) r := by
  refine (ends_map (by decide) leNat).trans (and_congr_right fun h => ?_)
  rw [leNat_at _ _ _ h]

theorem ends_u32le {k : Nat → Prog β} :
    Ends d m (readU32le >>= k) p r ↔ p + 4 ≤ d.length ∧ Ends d m (k (leAt d p 4)) (p + 4) r := by
  refine (ends_map (by decide) leNat).trans (and_congr_right fun h => ?_)
  rw [leNat_at _ _ _ h]

theorem ends_u64le {k : Nat → Prog β} :
    Ends d m (readU64le >>= k) p r ↔ p + 8 ≤ d.length ∧ Ends d m (k (leAt d p 8)) (p + 8) r := by
  refine (ends_map (by decide) leNat).trans (and_congr_right fun h => ?_)
  rw [leNat_at _ _ _ h]

theorem ends_u32be {k : Nat → Prog β} :
    Ends d m (readU32be >>= k) p r ↔ p + 4 ≤ d.length ∧ Ends d m (k (beAt d p 4)) (p + 4) r := by
  refine (ends_map (by decide) beNat).trans (and_congr_right fun h => ?_)
  rw [beNat_at _ _ _ h]

theorem ends_u64be {k : Nat → Prog β} :
    Ends d m (readU64be >>= k) p r ↔ p + 8 ≤ d.length ∧ Ends d m (k (beAt d p 8)) (p + 8) r := by
  refine (ends_map (by decide) beNat).trans (and_congr_right fun h => ?_)
  rw [beNat_at _ _ _ h]

theorem ends_string {n : Nat} {k : Str → Prog β} :
    Ends d m (readString n >>= k) p r ↔
      (n = 0 ∨ p + n ≤ d.length) ∧ Ends d m (k (decodeLossy (slice d p n))) (p + n) r := by
  by_cases h : n = 0 ∨ p + n ≤ d.length
  · have hr : run d m (readString n) p = .ok (decodeLossy (slice d p n), p + n) := by
      unfold readString readBytes
      rw [run_bind, run_rdExact, if_pos h]
      rfl
    rw [ends_ok hr]
    exact ⟨fun x => ⟨h, x⟩, fun x => x.2⟩
  · have hr : run d m (readString n) p = .error (.err .unexpectedEof) := by
      unfold readString readBytes
      rw [run_bind, run_rdExact, if_neg h]
      rfl
    exact ⟨fun x => absurd x (ends_error hr), fun x => absurd x.1 h⟩

theorem ends_u8 {k : UInt8 → Prog β} :
    Ends d m (readU8 >>= k) p r ↔ p + 1 ≤ d.length ∧ Ends d m (k (d.getD p 0)) (p + 1) r := by
  by_cases h : p + 1 ≤ d.length
  · have hr : run d m readU8 p = .ok (d.getD p 0, p + 1) := by
      unfold readU8
      rw [run_bind, run_rdExact_ok 1 p h, andThen_ok, slice_one d p (by omega)]
      rfl
    rw [ends_ok hr]
    exact ⟨fun x => ⟨h, x⟩, fun x => x.2⟩
  · have hr : run d m readU8 p = .error (.err .unexpectedEof) := by
      unfold readU8
      rw [run_bind, run_rdExact_eof 1 p (by omega) (by decide)]
      rfl
    exact ⟨fun x => absurd x (ends_error hr), fun x => absurd x.1 h⟩

theorem ends_guid {k : Str → Prog β} :
    Ends d m (readGuid >>= k) p r ↔ p + 16 ≤ d.length ∧ Ends d m (k (guidStr (slice d p 16))) (p + 16) r := by
  by_cases h : p + 16 ≤ d.length
  · rw [ends_ok (run_guid_ok h)]
    exact ⟨fun x => ⟨h, x⟩, fun x => x.2⟩
  · exact ⟨fun x => absurd x (ends_error (run_guid_eof (by omega))), fun x => absurd x.1 h⟩

/-! ### Positions -/

theorem ends_start {n : Nat} {k : Nat → Prog β} :
    Ends d m (Prog.sk (.start n) >>= k) p r ↔ n ≤ m ∧ Ends d m (k n) n r := by
  by_cases h : n ≤ m
  · rw [ends_ok (run_sk_start n p h)]
    exact ⟨fun x => ⟨h, x⟩, fun x => x.2⟩
  · have hr : run d m (Prog.sk (.start n)) p = .error (.err .invalidInput) := by
      rw [run_sk, show seekTarget d.length m p (.start n) = none from if_neg h]
    exact ⟨fun x => absurd x (ends_error hr), fun x => absurd x.1 h⟩

theorem ends_current {i : Int} {k : Nat → Prog β} :
    Ends d m (Prog.sk (.current i) >>= k) p r ↔ ∃ q, Goes m p i q ∧ Ends d m (k q) q r := by
  constructor
  · intro h
    by_cases hc : 0 ≤ (p : Int) + i ∧ (p : Int) + i ≤ m
    · obtain ⟨t, ht⟩ : ∃ t : Nat, (p : Int) + i = t := ⟨((p : Int) + i).toNat, by omega⟩
      rw [ends_ok (run_sk_current i p t ht (by omega))] at h
      exact ⟨t, ⟨ht.symm, by omega⟩, h⟩
    · have hr : run d m (Prog.sk (.current i)) p = .error (.err .invalidInput) := by
        rw [run_sk, show seekTarget d.length m p (.current i) = none from if_neg hc]
      exact absurd h (ends_error hr)
  · rintro ⟨q, ⟨h1, h2⟩, h⟩
    rwa [ends_ok (run_sk_current i p q h1.symm h2)]

theorem ends_end (h : d.length ≤ m) {k : Nat → Prog β} :
    Ends d m (Prog.sk (.fromEnd 0) >>= k) p r ↔ Ends d m (k d.length) d.length r := ends_ok (run_sk_end p h)

theorem ends_pos {k : Nat → Prog β} : Ends d m (Prog.pos >>= k) p r ↔ Ends d m (k p) p r := ends_ok (run_pos p)

theorem ends_lift {x : Except Fail α} {a : α} (h : x = .ok a) {k : α → Prog β} :
    Ends d m (Prog.lift x >>= k) p r ↔ Ends d m (k a) p r := by
  subst h
  exact ends_ok (run_lift_ok a p)

/-- A step by a fixed distance. -/
theorem goes_lit {m p q : Nat} (n : Nat) (i : Int) (h : i = n) : Goes m p i q ↔ q = p + n ∧ p + n ≤ m := by
  unfold Goes
  omega

/-- A step by a distance that is known not to be negative. -/
theorem goes_nat {m p n q : Nat} : Goes m p (n : Int) q ↔ q = p + n ∧ p + n ≤ m := by
  unfold Goes
  omega

end

/-- Bytes at an offset, as a slice. -/
theorem magicAt_slice_iff {d x : Bytes} {p n : Nat} : (MagicAt p x d ∧ x.length = n) ↔ (p + n ≤ d.length ∧ x = slice d p n) := by
  rw [magicAt_iff]
  constructor
  · rintro ⟨⟨h1, h2⟩, rfl⟩
    exact ⟨h1, h2.symm⟩
  · rintro ⟨h1, rfl⟩
    rw [length_slice_eq _ _ _ h1]
    exact ⟨⟨h1, rfl⟩, rfl⟩

/-- `i64` subtraction in release builds. -/
theorem i64Sub_release {a : Nat} (ha : a < 2 ^ 64) (b : Int) (hb : 0 ≤ b ∧ b < 2 ^ 62) :
    i64Sub Cfg.release (asI64 a) b = .ok (wrapped ((a : Int) - b)) := by
  have hw : ((a : Int) - b).bmod (2 ^ 64) = (asI64 a - b).bmod (2 ^ 64) := by
    unfold asI64
    split
    · rfl
    · simp only [Int.bmod_def]
      omega
  unfold i64Sub wrapped
  rw [hw]
  split
  · rename_i h
    rw [Int.bmod_eq_of_le (by omega) (by omega)]
  · rfl

theorem u64Add_release (a b : Nat) : u64Add Cfg.release a b = .ok ((a + b) % 2 ^ 64) := by
  unfold u64Add
  split
  · rename_i h; rw [Nat.mod_eq_of_lt h]
  · rfl

theorem u64Sub_release {a b : Nat} (ha : a < 2 ^ 64) : u64Sub Cfg.release a b = .ok ((a + 2 ^ 64 - b) % 2 ^ 64) := by
  unfold u64Sub
  split
  · rename_i h
    congr 1
    omega
  · rfl

theorem beAt_lt (b : Bytes) (p n : Nat) : beAt b p n < 256 ^ n := by
  induction n with
  | zero => simp [beAt]
  | succ n ih =>
    have : byteAt b (p + n) < 256 := UInt8.toNat_lt _
    rw [beAt, Nat.pow_succ]
    omega

theorem leAt_lt (b : Bytes) (p n : Nat) : leAt b p n < 256 ^ n := by
  induction n generalizing p with
  | zero => simp [leAt]
  | succ n ih =>
    have : byteAt b p < 256 := UInt8.toNat_lt _
    have := ih (p + 1)
    rw [leAt, Nat.pow_succ]
    omega

end FF
