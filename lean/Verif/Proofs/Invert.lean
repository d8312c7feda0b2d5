import Verif.Proofs.Asf
import Verif.Proofs.Ebml
import Verif.Proofs.Offsets
import Verif.Proofs.Realmedia
import Verif.Proofs.ZipName
/-!
# What a successful run tells about the content
-/

namespace FF
open Spec FileFormat

section
variable {α β : Type} {d : Bytes} {m p q : Nat}

theorem run_bind_inv {x : Prog α} {f : α → Prog β} {r : β} (h : run d m (x >>= f) p = .ok (r, q)) :
    ∃ a p', run d m x p = .ok (a, p') ∧ run d m (f a) p' = .ok (r, q) := by
  rw [run_bind] at h
  cases hx : run d m x p with
  | error e => rw [hx] at h; cases h
  | ok v => rw [hx] at h; exact ⟨v.1, v.2, rfl, h⟩

theorem run_pure_inv {a r : α} (h : run d m (pure a : Prog α) p = .ok (r, q)) : r = a ∧ q = p := by
  cases h; exact ⟨rfl, rfl⟩

theorem run_lift_inv {x : Except Fail α} {r : α} (h : run d m (Prog.lift x) p = .ok (r, q)) : x = .ok r ∧ q = p := by
  cases x with
  | error e => cases h
  | ok a => cases h; exact ⟨rfl, rfl⟩

theorem run_rdExact_inv {n : Nat} {x : Bytes} (h : run d m (Prog.rdExact n) p = .ok (x, q)) :
    (n = 0 ∨ p + n ≤ d.length) ∧ x = slice d p n ∧ q = p + n := by
  rw [run_rdExact] at h
  split at h
  · rename_i hc
    cases h
    exact ⟨hc, rfl, rfl⟩
  · cases h

/-- A successful read of `n` bytes. -/
theorem run_readBytes_inv {n : Nat} {x : Bytes} (h : run d m (readBytes n) p = .ok (x, q)) :
    (n = 0 ∨ p + n ≤ d.length) ∧ x = slice d p n ∧ q = p + n := run_rdExact_inv h

theorem run_u8_inv {v : UInt8} (h : run d m readU8 p = .ok (v, q)) :
    p + 1 ≤ d.length ∧ v = d.getD p 0 ∧ q = p + 1 := by
  unfold readU8 at h
  obtain ⟨x, p', h1, h2⟩ := run_bind_inv h
  obtain ⟨hl, rfl, rfl⟩ := run_rdExact_inv h1
  have hl' : p + 1 ≤ d.length := by omega
  rw [slice_one d p (by omega)] at h2
  obtain ⟨h3, rfl⟩ := run_lift_inv h2
  cases h3
  exact ⟨hl', rfl, rfl⟩

theorem run_u16le_inv {v : Nat} (h : run d m readU16le p = .ok (v, q)) :
    p + 2 ≤ d.length ∧ v = u16At d p ∧ q = p + 2 := by
  by_cases hl : p + 2 ≤ d.length
  · rw [run_u16le_ok hl] at h; cases h; exact ⟨hl, rfl, rfl⟩
  · rw [run_u16le_eof (by omega)] at h; cases h

theorem run_u32le_inv {v : Nat} (h : run d m readU32le p = .ok (v, q)) :
    p + 4 ≤ d.length ∧ v = u32At d p ∧ q = p + 4 := by
  by_cases hl : p + 4 ≤ d.length
  · rw [run_u32le_ok hl] at h; cases h; exact ⟨hl, rfl, rfl⟩
  · rw [run_u32le_eof (by omega)] at h; cases h

theorem run_u64le_inv {v : Nat} (h : run d m readU64le p = .ok (v, q)) :
    p + 8 ≤ d.length ∧ v = leNat (slice d p 8) ∧ q = p + 8 := by
  unfold readU64le at h
  obtain ⟨x, p', h1, h2⟩ := run_bind_inv h
  obtain ⟨hl, rfl, rfl⟩ := run_rdExact_inv h1
  obtain ⟨rfl, rfl⟩ := run_pure_inv h2
  exact ⟨by omega, rfl, rfl⟩

theorem run_u32be_inv {v : Nat} (h : run d m readU32be p = .ok (v, q)) :
    p + 4 ≤ d.length ∧ v = beNat (slice d p 4) ∧ q = p + 4 := by
  unfold readU32be at h
  obtain ⟨x, p', h1, h2⟩ := run_bind_inv h
  obtain ⟨hl, rfl, rfl⟩ := run_rdExact_inv h1
  obtain ⟨rfl, rfl⟩ := run_pure_inv h2
  exact ⟨by omega, rfl, rfl⟩

theorem run_u64be_inv {v : Nat} (h : run d m readU64be p = .ok (v, q)) :
    p + 8 ≤ d.length ∧ v = beNat (slice d p 8) ∧ q = p + 8 := by
  unfold readU64be at h
  obtain ⟨x, p', h1, h2⟩ := run_bind_inv h
  obtain ⟨hl, rfl, rfl⟩ := run_rdExact_inv h1
  obtain ⟨rfl, rfl⟩ := run_pure_inv h2
  exact ⟨by omega, rfl, rfl⟩

theorem run_guid_inv {v : Str} (h : run d m readGuid p = .ok (v, q)) :
    p + 16 ≤ d.length ∧ v = guidStr (slice d p 16) ∧ q = p + 16 := by
  by_cases hl : p + 16 ≤ d.length
  · rw [run_guid_ok hl] at h; cases h; exact ⟨hl, rfl, rfl⟩
  · rw [run_guid_eof (by omega)] at h; cases h

theorem run_string_inv {n : Nat} {v : Str} (h : run d m (readString n) p = .ok (v, q)) :
    (n = 0 ∨ p + n ≤ d.length) ∧ v = decodeLossy (slice d p n) ∧ q = p + n := by
  unfold readString at h
  obtain ⟨x, p', h1, h2⟩ := run_bind_inv h
  obtain ⟨hl, rfl, rfl⟩ := run_readBytes_inv h1
  obtain ⟨rfl, rfl⟩ := run_pure_inv h2
  exact ⟨hl, rfl, rfl⟩

theorem run_start_inv {n v : Nat} (h : run d m (Prog.sk (.start n)) p = .ok (v, q)) : n ≤ m ∧ v = n ∧ q = n := by
  rw [run_sk] at h
  by_cases hn : n ≤ m
  · rw [show seekTarget d.length m p (.start n) = some n from if_pos hn] at h
    cases h
    exact ⟨hn, rfl, rfl⟩
  · rw [show seekTarget d.length m p (.start n) = none from if_neg hn] at h
    cases h

theorem run_current_inv {i : Int} {v : Nat} (h : run d m (Prog.sk (.current i)) p = .ok (v, q)) :
    (q : Int) = p + i ∧ q = v ∧ q ≤ m := by
  rw [run_sk] at h
  simp only [seekTarget] at h
  by_cases hc : 0 ≤ (p : Int) + i ∧ (p : Int) + i ≤ m
  · rw [if_pos hc] at h
    cases h
    omega
  · rw [if_neg hc] at h
    cases h

theorem run_end_inv {v : Nat} (h : run d m (Prog.sk (.fromEnd 0)) p = .ok (v, q)) : v = d.length ∧ q = d.length := by
  rw [run_sk] at h
  simp only [seekTarget] at h
  by_cases hc : 0 ≤ (d.length : Int) + 0 ∧ (d.length : Int) + 0 ≤ m
  · rw [if_pos hc] at h
    cases h
    omega
  · rw [if_neg hc] at h
    cases h

theorem run_pos_inv {v : Nat} (h : run d m Prog.pos p = .ok (v, q)) : p = v ∧ p = q := by cases h; exact ⟨rfl, rfl⟩

end

theorem magicAt_of_slice {d x : Bytes} {p n : Nat} (h : slice d p n = x) (hn : x.length = n) (hl : p + n ≤ d.length) :
    MagicAt p x d := (magicAt_slice hn hl).mpr h

/-- The beginning of a slice. -/
theorem magicAt_prefix {d x : Bytes} {p n : Nat} (h : x <+: slice d p n) (hl : p + n ≤ d.length) : MagicAt p x d := by
  obtain ⟨t, ht⟩ := h
  have hlen := congrArg List.length ht
  rw [List.length_append, length_slice_eq d p n hl] at hlen
  rw [magicAt_iff]
  refine ⟨by omega, ?_⟩
  have h1 : slice d p x.length = (slice d p n).take x.length := by
    rw [slice, slice, List.take_take]
    congr 1
    omega
  rw [h1, ← ht, List.take_left]

theorem beNat_inj {x y : Bytes} (hl : x.length = y.length) (h : beNat x = beNat y) : x = y := by
  have key : ∀ (a b : Bytes), a.length = b.length → leNat a = leNat b → a = b := by
    intro a
    induction a with
    | nil => intro b hl _; cases b with | nil => rfl | cons => cases hl
    | cons c a ih =>
      intro b hl h
      cases b with
      | nil => cases hl
      | cons e b =>
        simp only [leNat] at h
        have h1 := UInt8.toNat_lt c
        have h2 := UInt8.toNat_lt e
        have h3 : c.toNat = e.toNat := by omega
        have h4 : leNat a = leNat b := by omega
        rw [UInt8.toNat_inj.mp h3, ih b (by simpa using hl) h4]
  have := key x.reverse y.reverse (by simpa using hl) (by
    rw [← beNat_reverse, ← beNat_reverse, List.reverse_reverse, List.reverse_reverse]; exact h)
  exact List.reverse_inj.mp this

end FF
