import Verif.Spec.Encode
import Verif.Proofs.Dispatch
/-!
# Running readers on encoded data
-/

namespace FF
open Spec

@[simp] theorem length_leBytes (n v : Nat) : (leBytes n v).length = n := by
  induction n generalizing v with
  | zero => rfl
  | succ n ih => simp [leBytes, ih]

@[simp] theorem length_beBytes (n v : Nat) : (beBytes n v).length = n := by simp [beBytes]

theorem leNat_leBytes (n v : Nat) (h : v < 256 ^ n) : leNat (leBytes n v) = v := by
  induction n generalizing v with
  | zero => simp at h; subst h; rfl
  | succ n ih =>
    have h1 : v / 256 < 256 ^ n := by
      rw [Nat.div_lt_iff_lt_mul (by decide)]; rwa [Nat.pow_succ] at h
    rw [leBytes, leNat, ih _ h1, toNat_ofNat_lt (by omega)]
    omega

theorem beNat_append (a b : Bytes) : beNat (a ++ b) = b.foldl (fun acc b => acc * 256 + b.toNat) (beNat a) := by
  simp [beNat, List.foldl_append]

theorem beNat_reverse (l : Bytes) : beNat l.reverse = leNat l := by
  induction l with
  | nil => rfl
  | cons b l ih =>
    rw [List.reverse_cons, beNat_append, ih]
    simp [leNat]
    omega

theorem beNat_beBytes (n v : Nat) (h : v < 256 ^ n) : beNat (beBytes n v) = v := by
  rw [beBytes, beNat_reverse, leNat_leBytes n v h]

/-- The content from position `p` on is `r`. -/
structure At (d : Bytes) (p : Nat) (r : Bytes) : Prop where
  le : p ≤ d.length
  eq : d.drop p = r

theorem At.start (d : Bytes) : At d 0 d := ⟨Nat.zero_le _, rfl⟩

theorem At.of_append (a r : Bytes) : At (a ++ r) a.length r := ⟨by simp, by simp⟩

theorem At.of_append' {a r : Bytes} {p : Nat} (h : p = a.length) : At (a ++ r) p r := h ▸ At.of_append a r

theorem At.len {d r : Bytes} {p : Nat} (h : At d p r) : d.length = p + r.length := by
  have := congrArg List.length h.eq
  have := h.le
  simp only [List.length_drop] at *
  omega

theorem At.skip {d x r : Bytes} {p : Nat} (h : At d p (x ++ r)) : At d (p + x.length) r := by
  have hl := h.len
  rw [List.length_append] at hl
  refine ⟨by omega, ?_⟩
  rw [← List.drop_drop, h.eq, List.drop_left]

theorem At.skip' {d x r : Bytes} {p n : Nat} (h : At d p (x ++ r)) (hn : x.length = n) : At d (p + n) r :=
  hn ▸ h.skip

theorem At.slice {d x r : Bytes} {p n : Nat} (h : At d p (x ++ r)) (hn : x.length = n) :
    FF.slice d p n = x := by
  subst hn
  rw [FF.slice, h.eq, List.take_left]

section
variable {α : Type} {d x r : Bytes} {m p : Nat}

theorem At.rdExact {n : Nat} (h : At d p (x ++ r)) (hn : x.length = n) :
    run d m (Prog.rdExact n) p = .ok (x, p + n) := by
  have hl := h.len
  rw [List.length_append] at hl
  rw [run_rdExact_ok _ _ (by omega), h.slice hn]

theorem At.readBytes {n : Nat} (h : At d p (x ++ r)) (hn : x.length = n) :
    run d m (FF.readBytes n) p = .ok (x, p + n) := h.rdExact hn

theorem At.readU8 {b : UInt8} (h : At d p (b :: r)) : run d m readU8 p = .ok (b, p + 1) := by
  have h' : At d p ([b] ++ r) := h
  unfold FF.readU8
  rw [run_bind, h'.rdExact (n := 1) rfl]
  rfl

theorem At.readU16le {v : Nat} (h : At d p (leBytes 2 v ++ r)) (hv : v < 2 ^ 16) :
    run d m readU16le p = .ok (v, p + 2) := by
  unfold FF.readU16le
  rw [run_bind, h.rdExact (length_leBytes 2 v), andThen_ok, run_pure, leNat_leBytes 2 v hv]

theorem At.readU32le {v : Nat} (h : At d p (leBytes 4 v ++ r)) (hv : v < 2 ^ 32) :
    run d m readU32le p = .ok (v, p + 4) := by
  unfold FF.readU32le
  rw [run_bind, h.rdExact (length_leBytes 4 v), andThen_ok, run_pure, leNat_leBytes 4 v hv]

theorem At.readU64le {v : Nat} (h : At d p (leBytes 8 v ++ r)) (hv : v < 2 ^ 64) :
    run d m readU64le p = .ok (v, p + 8) := by
  unfold FF.readU64le
  rw [run_bind, h.rdExact (length_leBytes 8 v), andThen_ok, run_pure, leNat_leBytes 8 v hv]

theorem At.readU32be {v : Nat} (h : At d p (beBytes 4 v ++ r)) (hv : v < 2 ^ 32) :
    run d m readU32be p = .ok (v, p + 4) := by
  unfold FF.readU32be
  rw [run_bind, h.rdExact (length_beBytes 4 v), andThen_ok, run_pure, beNat_beBytes 4 v hv]

theorem At.readU64be {v : Nat} (h : At d p (beBytes 8 v ++ r)) (hv : v < 2 ^ 64) :
    run d m readU64be p = .ok (v, p + 8) := by
  unfold FF.readU64be
  rw [run_bind, h.rdExact (length_beBytes 8 v), andThen_ok, run_pure, beNat_beBytes 8 v hv]

theorem At.readGuid (h : At d p (x ++ r)) (hn : x.length = 16) :
    run d m readGuid p = .ok (guidStr x, p + 16) := by
  unfold FF.readGuid
  rw [run_bind, h.readBytes hn, andThen_ok, guidText_ok x hn, run_lift_ok]

theorem At.readString {n : Nat} (h : At d p (x ++ r)) (hn : x.length = n) :
    run d m (readString n) p = .ok (decodeLossy x, p + n) := by
  unfold FF.readString
  rw [run_bind, h.readBytes hn, andThen_ok, run_pure]

/-- A relative seek within the content. -/
theorem At.sk {i : Int} (h : At d p (x ++ r)) (hi : i = x.length) (hm : d.length ≤ m) :
    run d m (Prog.sk (.current i)) p = .ok (p + x.length, p + x.length) := by
  have hl := h.len
  rw [List.length_append] at hl
  exact run_sk_current i p _ (by omega) (by omega)

end

theorem asI64_small {n : Nat} (h : n < 2 ^ 63) : asI64 n = n := if_pos h

theorem i64Sub_ok (cfg : Cfg) {a b : Int} (h : -2 ^ 63 ≤ a - b) (h' : a - b < 2 ^ 63) :
    i64Sub cfg a b = .ok (a - b) := if_pos ⟨h, h'⟩

end FF
