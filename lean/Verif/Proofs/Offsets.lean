import Verif.Spec.Offsets
import Verif.Proofs.Parse
/-!
# Reading fields at fixed offsets
-/

namespace FF
open Spec FileFormat

theorem magicAt_iff (off : Nat) (m b : Bytes) :
    MagicAt off m b ↔ off + m.length ≤ b.length ∧ slice b off m.length = m := by
  constructor
  · rintro ⟨pre, suf, rfl, rfl⟩
    refine ⟨by simp, ?_⟩
    rw [List.append_assoc]
    exact slice_append pre m suf _ _ rfl rfl
  · rintro ⟨hl, h⟩
    refine ⟨b.take off, b.drop (off + m.length), ?_, by simp; omega⟩
    conv => rhs; rw [← h]
    rw [length_slice_eq b off m.length hl]
    unfold slice
    rw [List.append_assoc, ← List.drop_drop, List.take_append_drop, List.take_append_drop]

theorem magicAt_slice {off n : Nat} {m b : Bytes} (hm : m.length = n) (hl : off + n ≤ b.length) :
    MagicAt off m b ↔ slice b off n = m := by
  subst hm
  rw [magicAt_iff]
  exact ⟨fun h => h.2, fun h => ⟨hl, h⟩⟩

theorem slice_one (b : Bytes) (p : Nat) (h : p < b.length) : slice b p 1 = [b.getD p 0] := by
  rw [slice, List.drop_eq_getElem_cons h, List.take_succ_cons, List.take_zero]
  simp [h]

theorem slice_add (b : Bytes) (p n k : Nat) : slice b p (n + k) = slice b p n ++ slice b (p + n) k := by
  unfold slice
  rw [List.take_add, List.drop_drop]

theorem leNat_append (a b : Bytes) : leNat (a ++ b) = leNat a + 256 ^ a.length * leNat b := by
  induction a with
  | nil => simp [leNat]
  | cons x a ih =>
    simp only [List.cons_append, leNat, ih, List.length_cons, Nat.pow_succ]
    rw [Nat.mul_add, ← Nat.mul_assoc, Nat.mul_comm 256 (256 ^ a.length)]
    omega

theorem leNat_u16 (b : Bytes) (p : Nat) (h : p + 2 ≤ b.length) : leNat (slice b p 2) = u16At b p := by
  rw [slice_add b p 1 1, slice_one b p (by omega), slice_one b (p + 1) (by omega)]
  rfl

theorem leNat_u32 (b : Bytes) (p : Nat) (h : p + 4 ≤ b.length) : leNat (slice b p 4) = u32At b p := by
  rw [slice_add b p 2 2, leNat_append, leNat_u16 b p (by omega), leNat_u16 b (p + 2) (by omega),
    length_slice_eq b p 2 (by omega)]
  rfl

theorem byteAt_lt (b : Bytes) (p : Nat) : byteAt b p < 256 := UInt8.toNat_lt _

theorem u16At_lt (b : Bytes) (p : Nat) : u16At b p < 2 ^ 16 := by
  have h1 := byteAt_lt b p
  have h2 := byteAt_lt b (p + 1)
  unfold u16At
  omega

theorem u32At_lt (b : Bytes) (p : Nat) : u32At b p < 2 ^ 32 := by
  have h1 := u16At_lt b p
  have h2 := u16At_lt b (p + 2)
  unfold u32At
  omega

theorem and_two_pow (v i : Nat) : v &&& 2 ^ i = if v.testBit i = true then 2 ^ i else 0 := by
  apply Nat.eq_of_testBit_eq
  intro j
  rw [Nat.testBit_and, Nat.testBit_two_pow]
  by_cases h : i = j
  · subst h
    cases v.testBit i <;> simp
  · simp only [h, decide_false, Bool.and_false]
    split
    · rw [Nat.testBit_two_pow]; simp [h]
    · simp

section
variable {d : Bytes} {m p : Nat}

theorem run_readBytes_ok {n : Nat} (h : p + n ≤ d.length) :
    run d m (readBytes n) p = .ok (slice d p n, p + n) := run_rdExact_ok n p h

theorem run_readBytes_eof {n : Nat} (h : d.length < p + n) (hn : n ≠ 0) :
    run d m (readBytes n) p = .error (.err .unexpectedEof) := run_rdExact_eof n p h hn

theorem run_u16le_ok (h : p + 2 ≤ d.length) : run d m readU16le p = .ok (u16At d p, p + 2) := by
  unfold readU16le
  rw [run_bind, run_rdExact_ok _ _ h, andThen_ok, run_pure, leNat_u16 _ _ h]

theorem run_u16le_eof (h : d.length < p + 2) : run d m readU16le p = .error (.err .unexpectedEof) := by
  unfold readU16le
  rw [run_bind, run_rdExact_eof _ _ h (by decide), andThen_error]

theorem run_u32le_ok (h : p + 4 ≤ d.length) : run d m readU32le p = .ok (u32At d p, p + 4) := by
  unfold readU32le
  rw [run_bind, run_rdExact_ok _ _ h, andThen_ok, run_pure, leNat_u32 _ _ h]

theorem run_u32le_eof (h : d.length < p + 4) : run d m readU32le p = .error (.err .unexpectedEof) := by
  unfold readU32le
  rw [run_bind, run_rdExact_eof _ _ h (by decide), andThen_error]

theorem run_guid_ok (h : p + 16 ≤ d.length) :
    run d m readGuid p = .ok (guidStr (slice d p 16), p + 16) := by
  unfold readGuid
  rw [run_bind, run_readBytes_ok h, andThen_ok, guidText_ok _ (length_slice_eq _ _ _ h), run_lift_ok]

theorem run_guid_eof (h : d.length < p + 16) : run d m readGuid p = .error (.err .unexpectedEof) := by
  unfold readGuid
  rw [run_bind, run_readBytes_eof h (by decide), andThen_error]

end

/-- A reader that runs into the end of the input leads to the generic verdict. -/
theorem recognised_error (cfg : Cfg) (ft : Features) (b : Bytes) (hb : IsSlice b) (g : Feature)
    (hg : g ∈ Feature.structured) (he : g.enabled ft = true) (hr : Recognised b g.base) (e : ErrKind)
    (hv : val (run b (2 ^ 64 - 1) (readerOf cfg g).2 0) = .error (.err e)) :
    ∃ f, fromBytes cfg ft b = .ok f ∧ Props.Generic ft b f := by
  rw [recognised_reader cfg ft b hb g hg he hr, hv]
  rcases idealGeneric_cases ft b (2 ^ 64 - 1) with ⟨_, _, h⟩ | ⟨_, h⟩
  · exact ⟨_, h, Props.generic_of_ideal h⟩
  · exact ⟨_, h, Props.generic_of_ideal h⟩

end FF
