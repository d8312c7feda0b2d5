import Verif.Model.Target32
import Verif.Spec.Fields32
import Verif.Proofs.Same2
import Verif.Proofs.Agree
import Verif.Proofs.Ebml
import Verif.Proofs.Lossy
/-!
# The 32-bit readers compared with the 64-bit ones
-/

namespace FF.Target32
open FF Spec FileFormat

theorem readBytes_small {n : Nat} (h : n < 2 ^ 31) : readBytes n = FF.readBytes n := by
  unfold readBytes; rw [if_pos h]

theorem readString_small {n : Nat} (h : n < 2 ^ 31) : readString n = FF.readString n := by
  unfold readString FF.readString; rw [readBytes_small h]

/-! ## The programs seek and read exactly -/

theorem ebmlLoop_all (len n : Nat) (t : Tracks) :
    All (OpEx true 64) IsErr (InFamily .ebml) (ebmlLoop len n t) (15 * n) := by
  induction n generalizing t with
  | zero => exact FF.ebmlLoop_all len 0 t
  | succ n ih =>
    simp only [ebmlLoop, all_pos_bind, opEx_tell, true_and]
    refine ⟨by omega, fun q => ?_⟩
    split
    · refine All.bind (k' := 15 * n + 10) ebmlId_all (by omega) (fun id _ => ?_)
      refine All.bind (k' := 15 * n + 2) ebmlSize_all (by omega) (fun size _ => ?_)
      have h8 : ebmlDocTypeLimit = 8 := rfl
      have h64 : ebmlCodecIdLimit = 64 := rfl
      rw [readBytes_small (by omega), readBytes_small (by omega)]
      split
      · exact (ih _).le (by omega)
      · split
        · simp only [all_readBytes_bind, opEx_readExact]
          refine ⟨by omega, by omega, fun x hx => ?_⟩
          split
          · simp; decide
          · split
            · simp; decide
            · simp only [all_sk_bind, opEx_seek, true_and]
              exact ⟨by omega, fun _ => (ih _).le (by omega)⟩
        · split
          · simp only [all_readBytes_bind, opEx_readExact, all_sk_bind, opEx_seek, true_and]
            exact ⟨by omega, by omega, fun x hx => ⟨by omega, fun _ => (ih _).le (by omega)⟩⟩
          · split
            · simp only [all_readU8_bind, opEx_readExact]
              refine ⟨by omega, by omega, fun b => ?_⟩
              split
              · simp; decide
              · exact (ih _).le (by omega)
            · split
              · simp [ebmlVerdict_mem]
              · simp only [all_sk_bind, opEx_seek, true_and]
                exact ⟨by omega, fun _ => (ih _).le (by omega)⟩
    · simp [ebmlVerdict_mem]

theorem ebmlReader_all :
    All (OpEx true 64) IsErr (InFamily .ebml) ebmlReader (2 + 15 * 256) := by
  simp only [ebmlReader, all_sk_bind, opEx_seek, true_and]
  exact ⟨by omega, fun _ => ⟨by omega, fun _ => ebmlLoop_all _ _ _⟩⟩

/-- The failure is an `Err` or a panic. -/
def IsErrP (f : Fail) : Prop := IsErr f ∨ f = .panic

theorem readString_all {b : Bool} {m n k : Nat} {f : Str → Prog FileFormat} {Q : FileFormat → Prop} (hn : n ≤ m) (hk : 1 ≤ k)
    (h : ∀ x : Bytes, x.length = n → All (OpEx b m) IsErrP Q (f (decodeLossy x)) (k - 1)) :
    All (OpEx b m) IsErrP Q (readString n >>= f) k := by
  by_cases hs : n < 2 ^ 31
  · rw [readString_small hs]
    simp only [all_readString_bind, opEx_readExact]
    exact ⟨hn, hk, h⟩
  · unfold readString readBytes
    rw [if_neg hs]
    exact Or.inr rfl

theorem zipMimetype_all {b : Bool} (cs offset : Nat) (hcs : cs < 2 ^ 32) :
    All (OpEx b (2 ^ 32 - 1)) IsErrP (InFamily .zip) (zipMimetype cs offset) 5 := by
  simp only [zipMimetype, all_sk_bind, all_readU16le_bind, opEx_readExact, opEx_seek, true_and]
  refine ⟨by omega, fun _ => ⟨by omega, by omega, fun x hx => ⟨by omega, by omega, fun y hy =>
    ⟨by omega, fun _ => readString_all ?_ (by omega) fun z hz => ?_⟩⟩⟩⟩
  · have := Nat.mod_lt cs (show 0 < 2 ^ 32 by decide)
    unfold asUsize
    omega
  · split
    · rename_i f hf
      exact mem_all_of_decide (P := InFamily .zip) (by decide) (lookup_mem hf)
    · simp; decide

theorem zipEntries_all {b : Bool} (n : Nat) (fmt : FileFormat) (hfmt : InFamily .zip fmt) :
    All (OpEx b (2 ^ 32 - 1)) IsErrP (InFamily .zip) (zipEntries n fmt) (10 * n + 5) := by
  induction n generalizing fmt with
  | zero => simpa [zipEntries] using hfmt
  | succ n ih =>
    simp only [zipEntries, all_sk_bind, all_readU16le_bind, all_readU32le_bind,
      opEx_readExact, opEx_seek, true_and]
    refine ⟨by omega, fun _ => ⟨by omega, by omega, fun cs hcs => ⟨by omega, by omega, fun us hus =>
      ⟨by omega, by omega, fun fl hfl => ⟨by omega, by omega, fun el hel => ⟨by omega, by omega, fun cl hcl =>
      ⟨by omega, fun _ => ⟨by omega, by omega, fun off hoff => readString_all ?_ (by omega) fun name hname => ?_⟩⟩⟩⟩⟩⟩⟩⟩
    · have := Nat.mod_lt (leNat fl) (show 0 < 2 ^ 32 by decide)
      unfold asUsize
      omega
    · split
      · rename_i f hf
        exact mem_all_of_decide (P := InFamily .zip) (by decide) (lookup_mem hf)
      · split
        · simp only [all_sk_bind, opEx_seek, true_and]
          exact ⟨by omega, fun _ => (ih _ (by decide)).le (by omega)⟩
        · split
          · refine (zipMimetype_all _ _ ?_).le (by omega)
            have := leNat_lt cs
            rw [hcs] at this
            omega
          · split
            · rename_i f hf
              simpa using zipPatterns_mem hf
            · simp only [all_sk_bind, opEx_seek, true_and]
              exact ⟨by omega, fun _ => (ih _ hfmt).le (by omega)⟩

theorem isErrP_of {cfg : Cfg} {f : Fail} (h : IsErrC cfg f) : IsErrP f := h.imp id And.right

theorem zipReader_all {b : Bool} (cfg : Cfg) :
    All (OpEx b (2 ^ 32 - 1)) IsErrP (InFamily .zip) (zipReader cfg) (12 + (10 * zipEntryLimit + 5)) := by
  generalize hM : 10 * zipEntryLimit + 5 = M
  have h1 : zipEocdMinSize = 22 := rfl
  have h2 : zipEocdMaxSize = 65557 := rfl
  have hrb : ∀ len, readBytes (max zipEocdMinSize (min (asUsize len) zipEocdMaxSize)) =
      FF.readBytes (max zipEocdMinSize (min (asUsize len) zipEocdMaxSize)) := fun len => readBytes_small (by omega)
  simp only [zipReader, hrb, all_sk_bind, all_readBytes_bind, opEx_seek, opEx_readExact, true_and]
  refine ⟨by omega, fun len => ⟨by omega, fun _ => ⟨by omega, by omega, fun x hx => ?_⟩⟩⟩
  obtain ⟨r, hr, _⟩ := rfindBytes_spec x zipEocdSignature
  rw [hr]
  simp only [all_lift_ok_bind]
  cases r with
  | none => exact Or.inl ⟨_, rfl⟩
  | some i =>
    simp only
    refine All.lift_bind (fun e he => isErrP_of (cfg := cfg) (u64Add_err he)) (fun i _ => ?_)
    refine All.bind (k := 2) (k' := 6 + 1 + M) (Q := fun _ => True) ?_ (by omega) (fun z _ => ?_)
    · unfold zipIsZip64
      split
      · rw [readBytes_small (by decide)]
        simp only [all_sk_bind, all_readBytes_bind, opEx_seek, opEx_readExact, true_and, all_pure]
        exact ⟨by omega, fun _ => ⟨by omega, by omega, fun _ _ => trivial⟩⟩
      · trivial
    · refine All.bind (k := 6) (k' := 1 + M) (Q := fun _ => True) ?_ (by omega) (fun d _ => ?_)
      · unfold zipEnd
        refine All.bind (k := 6) (k' := 0) (Q := fun _ => True)
          ((zipEnd_all cfg z i (2 ^ 32 - 1) (by omega)).mono (fun _ => id) (fun f h => isErrP_of h) (fun _ => id)
            (Nat.le_refl _)) (by omega) (fun d _ => trivial)
      · simp only [all_sk_bind, opEx_seek, true_and]
        refine ⟨by omega, fun _ => ?_⟩
        exact (zipEntries_all _ _ (by decide)).le (by omega)

/-! ## Positions and values along a run -/

variable {d : Bytes} {m : Nat}

theorem sk_current_inv {i : Int} {q a q' : Nat} (h : run d m (Prog.sk (.current i)) q = .ok (a, q')) : (q' : Int) = q + i := by
  rw [run_sk] at h
  simp only [seekTarget] at h
  by_cases hc : 0 ≤ (q : Int) + i ∧ (q : Int) + i ≤ m
  · rw [if_pos hc] at h
    simp only [Except.ok.injEq, Prod.mk.injEq] at h
    omega
  · rw [if_neg hc] at h
    cases h

theorem sk_start_inv {n q a q' : Nat} (h : run d m (Prog.sk (.start n)) q = .ok (a, q')) : q' = n := by
  rw [run_sk] at h
  simp only [seekTarget] at h
  by_cases hc : n ≤ m
  · rw [if_pos hc] at h
    simp only [Except.ok.injEq, Prod.mk.injEq] at h
    omega
  · rw [if_neg hc] at h
    cases h

theorem readBytes_inv {n q q' : Nat} {x : Bytes} (h : run d m (FF.readBytes n) q = .ok (x, q')) :
    x = slice d q n ∧ q' = q + n ∧ (n = 0 ∨ q + n ≤ d.length) := by
  rw [run_readBytes] at h
  split at h
  · rename_i hc; cases h; exact ⟨rfl, rfl, hc⟩
  · cases h

theorem readU8_inv {q q' : Nat} {b : UInt8} (h : run d m readU8 q = .ok (b, q')) :
    slice d q 1 = [b] ∧ q' = q + 1 ∧ q + 1 ≤ d.length := by
  have e : run d m readU8 q = andThen (run d m (FF.readBytes 1) q) fun a q' => run d m (Prog.lift (index a 0)) q' :=
    run_bind (FF.readBytes 1) _ q
  rw [e, run_readBytes] at h
  split at h
  · rename_i hc
    have hlen : q + 1 ≤ d.length := by omega
    have hl : (slice d q 1).length = 1 := length_slice_eq _ _ _ hlen
    obtain ⟨c, hx⟩ := List.length_eq_one_iff.mp hl
    rw [hx] at h
    simp only [andThen_ok] at h
    rw [show index [c] 0 = .ok c from rfl, run_lift_ok] at h
    cases h
    exact ⟨hx, rfl, hlen⟩
  · cases h

theorem bytes_inv {γ : Type} {g : Bytes → γ} {n q q' : Nat} {v : γ}
    (h : run d m (Prog.rdExact n >>= fun buf => Pure.pure (g buf)) q = .ok (v, q')) :
    v = g (slice d q n) ∧ q' = q + n := by
  rw [run_bind, run_rdExact] at h
  split at h
  · simp only [andThen_ok, run_pure] at h; cases h; exact ⟨rfl, rfl⟩
  · cases h

theorem readMore_inv {n acc q q' v : Nat} (h : run d m (readMore n acc) q = .ok (v, q')) :
    v = acc * 256 ^ n + beNat (slice d q n) ∧ q' = q + n ∧ (n = 0 ∨ q + n ≤ d.length) := by
  by_cases hn : n = 0
  · subst hn
    cases h
    exact ⟨by simp [slice, beNat], rfl, Or.inl rfl⟩
  · by_cases hq : q + n ≤ d.length
    · have hat : At d q (slice d q n ++ d.drop (q + n)) :=
        ⟨by omega, by rw [slice, ← List.drop_drop, List.take_append_drop]⟩
      have hr := readMore_run d m q (slice d q n) (d.drop (q + n)) acc hat
      rw [length_slice_eq _ _ _ hq] at hr
      rw [hr] at h
      cases h
      exact ⟨rfl, rfl, Or.inr hq⟩
    · exfalso
      have key : ∀ (n acc q : Nat) (r : Nat × Nat), n ≠ 0 → d.length < q + n → run d m (readMore n acc) q ≠ .ok r := by
        intro n
        induction n with
        | zero => intro _ _ _ h; exact absurd rfl h
        | succ n ih =>
          intro acc q r _ hlt h
          rw [readMore, run_bind] at h
          cases hr : run d m readU8 q with
          | error e => rw [hr] at h; cases h
          | ok x =>
            obtain ⟨b, q2⟩ := x
            rw [hr] at h
            simp only [andThen_ok] at h
            obtain ⟨_, rfl, hl⟩ := readU8_inv hr
            by_cases h0 : n = 0
            · subst h0; omega
            · exact ih _ _ r h0 (by omega) h
      exact key n acc q (v, q') hn (by omega) h

theorem leadingZeros_log (b : UInt8) :
    (if b.toNat = 0 then 9 else 8 - Nat.log2 b.toNat) = leadingZeros8 b + 1 := by
  have key : ∀ n, n < 256 → (if (UInt8.ofNat n).toNat = 0 then 9 else 8 - Nat.log2 (UInt8.ofNat n).toNat) =
      leadingZeros8 (UInt8.ofNat n) + 1 := by decide +kernel
  have := key b.toNat b.toNat_lt
  rwa [UInt8.ofNat_toNat] at this

theorem vintLength_of {p : Nat} {b : UInt8} (h : slice d p 1 = [b]) : vintLength d p = leadingZeros8 b + 1 := by
  unfold vintLength
  rw [h, ← leadingZeros_log]
  simp [beNat]

theorem slice_succ {p n : Nat} {b : UInt8} (h : slice d p 1 = [b]) : slice d p (n + 1) = b :: slice d (p + 1) n := by
  unfold slice at *
  rw [← List.drop_drop]
  cases hd : d.drop p with
  | nil => rw [hd] at h; simp at h
  | cons c r => rw [hd] at h; simp at h; subst h; simp

theorem beNat_cons (b : UInt8) (x : Bytes) : beNat (b :: x) = b.toNat * 256 ^ x.length + beNat x := by
  have e : beNat (b :: x) = (0 * 256 + b.toNat) * 256 ^ x.length + beNat x := foldl_be x (0 * 256 + b.toNat)
  rw [Nat.zero_mul, Nat.zero_add] at e
  exact e

theorem ebmlId_inv {p q id : Nat} (h : run d m ebmlId p = .ok (id, q)) : id = ebmlIdAt d p ∧ q = p + vintLength d p := by
  unfold ebmlId at h
  rw [run_bind] at h
  cases hr : run d m readU8 p with
  | error e => rw [hr] at h; cases h
  | ok x =>
    obtain ⟨b, p1⟩ := x
    rw [hr] at h
    simp only [andThen_ok] at h
    obtain ⟨hb, rfl, hl⟩ := readU8_inv hr
    have hv := vintLength_of hb
    by_cases h4 : leadingZeros8 b + 1 > 4
    · rw [if_pos h4] at h; cases h
    · rw [if_neg h4] at h
      obtain ⟨h1, h2, h3⟩ := readMore_inv h
      unfold ebmlIdAt
      rw [hv, slice_succ hb, beNat_cons]
      rw [Nat.add_sub_cancel] at *
      have hlen : (slice d (p + 1) (leadingZeros8 b)).length = leadingZeros8 b := by
        rw [length_slice]; omega
      rw [hlen]
      exact ⟨h1, by omega⟩

theorem first_mod (b : UInt8) (h : leadingZeros8 b + 1 ≤ 8) :
    b.toNat &&& ((128 >>> leadingZeros8 b) - 1) = b.toNat % 2 ^ (7 - leadingZeros8 b) := by
  have key : ∀ n, n < 256 → leadingZeros8 (UInt8.ofNat n) + 1 ≤ 8 →
      (UInt8.ofNat n).toNat &&& ((128 >>> leadingZeros8 (UInt8.ofNat n)) - 1) =
        (UInt8.ofNat n).toNat % 2 ^ (7 - leadingZeros8 (UInt8.ofNat n)) := by decide +kernel
  have := key b.toNat b.toNat_lt
  rw [UInt8.ofNat_toNat] at this
  exact this h

theorem ebmlSize_inv {p q size : Nat} (h : run d m ebmlSize p = .ok (size, q)) : size = vintValue d p ∧ q = p + vintLength d p := by
  unfold ebmlSize at h
  rw [run_bind] at h
  cases hr : run d m readU8 p with
  | error e => rw [hr] at h; cases h
  | ok x =>
    obtain ⟨b, p1⟩ := x
    rw [hr] at h
    simp only [andThen_ok] at h
    obtain ⟨hb, rfl, hl⟩ := readU8_inv hr
    have hv := vintLength_of hb
    by_cases h4 : leadingZeros8 b + 1 > 8
    · rw [if_pos h4] at h; cases h
    · rw [if_neg h4, first_mod b (by omega)] at h
      obtain ⟨h1, h2, h3⟩ := readMore_inv h
      unfold vintValue
      rw [hv, slice_succ hb, beNat_cons]
      rw [Nat.add_sub_cancel] at *
      have hlen : (slice d (p + 1) (leadingZeros8 b)).length = leadingZeros8 b := by
        rw [length_slice]; omega
      rw [hlen]
      refine ⟨?_, by omega⟩
      rw [h1]
      have hlt : beNat (slice d (p + 1) (leadingZeros8 b)) < 256 ^ leadingZeros8 b := by
        have := beNat_lt (slice d (p + 1) (leadingZeros8 b))
        rwa [hlen] at this
      generalize beNat (slice d (p + 1) (leadingZeros8 b)) = r at hlt
      have hz : leadingZeros8 b ≤ 7 := by omega
      generalize leadingZeros8 b = k at *
      rw [← vint_marker k hz]
      generalize hM : 256 ^ k = M at *
      generalize 2 ^ (7 - k) = N
      rw [Nat.mul_comm N M, Nat.mod_mul]
      have e1 : (b.toNat * M + r) % M = r := by
        rw [Nat.add_comm, Nat.add_mul_mod_self_right, Nat.mod_eq_of_lt hlt]
      have e2 : (b.toNat * M + r) / M = b.toNat := by
        rw [Nat.add_comm, Nat.add_mul_div_right _ _ (by omega), Nat.div_eq_of_lt hlt, Nat.zero_add]
      rw [e1, e2, Nat.mul_comm, Nat.add_comm]

/-! ## EBML -/

theorem asI64_lt {n : Nat} (h : n < 2 ^ 62) : asI64 n = n := asI64_small (by omega)

theorem vintLength_bounds (d : Bytes) (p : Nat) : 1 ≤ vintLength d p ∧ vintLength d p ≤ 9 := by
  unfold vintLength
  split
  · omega
  · have : Nat.log2 (beNat (slice d p 1)) < 8 := by
      rw [Nat.log2_lt (by assumption)]
      have := beNat_lt (slice d p 1)
      rw [length_slice] at this
      exact Nat.lt_of_lt_of_le this (Nat.le_trans (Nat.pow_le_pow_right (by decide) (show _ ≤ 1 by omega)) (by decide))
    omega

theorem ebmlSize_bound {p q size : Nat} (h : run d m ebmlSize p = .ok (size, q)) : size < 2 ^ 56 := by
  unfold ebmlSize at h
  rw [run_bind] at h
  cases hr : run d m readU8 p with
  | error e => rw [hr] at h; cases h
  | ok x =>
    obtain ⟨b, p1⟩ := x
    rw [hr] at h
    simp only [andThen_ok] at h
    by_cases h4 : leadingZeros8 b + 1 > 8
    · rw [if_pos h4] at h; cases h
    · rw [if_neg h4] at h
      obtain ⟨h0, rfl, hl⟩ := readU8_inv hr
      have hv := vintLength_of h0
      have hs : run d m ebmlSize p = .ok (size, q) := by
        unfold ebmlSize
        rw [run_bind, hr]
        simp only [andThen_ok]
        rw [if_neg h4]; exact h
      rw [(ebmlSize_inv hs).1]
      unfold vintValue
      refine Nat.lt_of_lt_of_le (Nat.mod_lt _ (Nat.pow_pos (by decide))) (Nat.pow_le_pow_right (by decide) ?_)
      omega

theorem alike_ebmlLoop (hs : Elements32 d) (len n : Nat) (t : Tracks) (q : Nat) (hq : EbmlAt d q) :
    Alike true d m (ebmlLoop len n t) (FF.ebmlLoop len n t) q := by
  induction n generalizing t q with
  | zero => exact Alike.refl _ _
  | succ n ih =>
    rw [ebmlLoop, FF.ebmlLoop]
    refine Alike.next exact_pos fun a q0 h0 => ?_
    rw [run_pos] at h0
    cases h0
    by_cases hlt : q < len
    · rw [if_pos hlt, if_pos hlt]
      refine Alike.next (by exactly) fun id q1 h1 => Alike.next (by exactly) fun size q2 h2 => ?_
      obtain ⟨hid, rfl⟩ := ebmlId_inv h1
      have hbound := ebmlSize_bound h2
      obtain ⟨hsz, rfl⟩ := ebmlSize_inv h2
      have hsz' : size = ebmlSizeAt d q := hsz
      have hbody : q + vintLength d q + vintLength d (q + vintLength d q) = ebmlBodyAt d q := rfl
      rw [hbody]
      have hnext := hq.next
      unfold ebmlNext at hnext
      rw [← hid, ← hsz'] at hnext
      have hsmall := hs q hq
      rw [← hid, ← hsz'] at hsmall
      generalize ebmlBodyAt d q = r at hnext
      by_cases c1 : id = ebmlEbmlId ∨ id = ebmlSegmentId ∨ id = ebmlTracksId ∨ id = ebmlTrackEntryId ∨ id = ebmlVideoId
      · rw [if_pos c1, if_pos c1]
        rw [if_pos (by simpa [ebmlEbmlId, ebmlSegmentId, ebmlTracksId, ebmlTrackEntryId, ebmlVideoId] using c1)] at hnext
        exact ih _ _ hnext
      · rw [if_neg c1, if_neg c1]
        rw [if_neg (by simpa [ebmlEbmlId, ebmlSegmentId, ebmlTracksId, ebmlTrackEntryId, ebmlVideoId] using c1)] at hnext
        have h8 : ebmlDocTypeLimit = 8 := rfl
        have h64 : ebmlCodecIdLimit = 64 := rfl
        by_cases c2 : id = ebmlDocTypeId
        · rw [if_pos c2, if_pos c2]
          have hlt32 : size < 2 ^ 32 := hsmall (by rw [c2]; decide)
          rw [if_neg (by rw [c2]; decide)] at hnext
          rw [asUsize, Nat.mod_eq_of_lt hlt32, readBytes_small (by omega)]
          refine Alike.next (by exactly) fun x q3 h3 => ?_
          obtain ⟨_, rfl, _⟩ := readBytes_inv h3
          split
          · exact Alike.refl _ _
          · split
            · exact Alike.refl _ _
            · refine Alike.next (by exactly) fun a q4 h4 => ih _ _ ?_
              have := sk_current_inv h4
              rw [asI64_lt (by omega)] at this
              have e : q4 = r + size := by omega
              rw [e]; exact hnext
        · rw [if_neg c2, if_neg c2]
          by_cases c3 : id = ebmlCodecIdId
          · rw [if_pos c3, if_pos c3]
            have hlt32 : size < 2 ^ 32 := hsmall (by rw [c3]; decide)
            rw [if_neg (by rw [c3]; decide)] at hnext
            rw [asUsize, Nat.mod_eq_of_lt hlt32, readBytes_small (by omega)]
            refine Alike.next (by exactly) fun x q3 h3 => ?_
            obtain ⟨_, rfl, _⟩ := readBytes_inv h3
            refine Alike.next (by exactly) fun a q4 h4 => ih _ _ ?_
            have := sk_current_inv h4
            rw [asI64_lt (by omega)] at this
            have e : q4 = r + size := by omega
            rw [e]; exact hnext
          · rw [if_neg c3, if_neg c3]
            by_cases c4 : id = ebmlStereoModeId
            · rw [if_pos c4, if_pos c4]
              rw [if_pos (by rw [c4]; decide)] at hnext
              refine Alike.next (by exactly) fun b q3 h3 => ?_
              obtain ⟨_, rfl, _⟩ := readU8_inv h3
              split
              · exact Alike.refl _ _
              · exact ih _ _ hnext
            · rw [if_neg c4, if_neg c4]
              rw [if_neg (by simpa [ebmlStereoModeId] using c4)] at hnext
              by_cases c5 : id = ebmlClusterId
              · rw [if_pos c5, if_pos c5]; exact Alike.refl _ _
              · rw [if_neg c5, if_neg c5]
                refine Alike.next (by exactly) fun a q4 h4 => ih _ _ ?_
                have := sk_current_inv h4
                rw [asI64_lt (by omega)] at this
                have e : q4 = r + size := by omega
                rw [e]; exact hnext
    · rw [if_neg hlt, if_neg hlt]; exact Alike.refl _ _

theorem alike_ebml (hs : Elements32 d) (q : Nat) : Alike true d m ebmlReader FF.ebmlReader q := by
  unfold ebmlReader FF.ebmlReader
  refine Alike.next (by exactly) fun len q1 _ => Alike.next (by exactly) fun a q2 h2 => ?_
  rw [sk_start_inv h2]
  exact alike_ebmlLoop hs _ _ _ _ .first

/-! ## ZIP -/

theorem alike_zipMimetype {cs off q : Nat} (h : cs < 2 ^ 31) : Alike true d m (zipMimetype cs off) (FF.zipMimetype cs off) q := by
  unfold zipMimetype FF.zipMimetype
  have e : asUsize cs = cs := Nat.mod_eq_of_lt (by omega)
  rw [e, readString_small h]
  exact Alike.refl _ _

theorem alike_zipEntries (hmt : Mimetypes31 d) (n : Nat) (fmt : FileFormat) (q : Nat) :
    Alike true d m (zipEntries n fmt) (FF.zipEntries n fmt) q := by
  induction n generalizing fmt q with
  | zero => exact Alike.refl _ _
  | succ n ih =>
    unfold zipEntries FF.zipEntries
    refine Alike.next (by exactly) fun a q1 h1 => Alike.next (by exactly) fun cs q2 h2 => Alike.next (by exactly) fun us q3 h3 => Alike.next (by exactly) fun fl q4 h4 =>
      Alike.next (by exactly) fun el q5 h5 => Alike.next (by exactly) fun cl q6 h6 => Alike.next (by exactly) fun b q7 h7 => Alike.next (by exactly) fun off q8 h8 => ?_
    have p1 := sk_current_inv h1
    obtain ⟨hcs, p2⟩ := bytes_inv (g := leNat) h2
    obtain ⟨_, p3⟩ := bytes_inv (g := leNat) h3
    obtain ⟨hfl, p4⟩ := bytes_inv (g := leNat) h4
    obtain ⟨_, p5⟩ := bytes_inv (g := leNat) h5
    obtain ⟨_, p6⟩ := bytes_inv (g := leNat) h6
    have p7 := sk_current_inv h7
    obtain ⟨_, p8⟩ := bytes_inv (g := leNat) h8
    have hflt := leNat_slice d q3 2
    rw [← hfl] at hflt
    have e : asUsize fl = fl := Nat.mod_eq_of_lt (by omega)
    rw [e, readString_small (by omega)]
    refine Alike.next (by exactly) fun name q9 h9 => ?_
    cases zipNames.lookup name with
    | some f => exact Alike.refl _ _
    | none =>
      simp only
      split
      · exact Alike.next (by exactly) fun _ _ _ => ih _ _
      · split
        · rename_i hc
          refine alike_zipMimetype ?_
          simp only [FF.readString, run_bind] at h9
          cases hr : run d m (FF.readBytes fl) q8 with
          | error e => rw [hr] at h9; cases h9
          | ok x =>
            obtain ⟨x, q10⟩ := x
            rw [hr] at h9
            simp only [andThen_ok, run_pure] at h9
            obtain ⟨hx, _, hl⟩ := readBytes_inv hr
            have hname : x = b!"mimetype" := by
              have : decodeLossy x = s!!"mimetype" := by rw [← hc.1]; cases h9; rfl
              exact (lossy_eq b!"mimetype" (by decide) x).mp this
            have hfl8 : fl = 8 := by
              have h0 := congrArg List.length hname
              rw [hx, length_slice] at h0
              have : (b!"mimetype" : Bytes).length = 8 := rfl
              omega
            have hq8 : q8 = q + 46 := by omega
            have hq3 : q3 = q + 28 := by omega
            have hq1 : q1 = q + 20 := by omega
            have := hmt q (by rw [← hq3, ← hfl, hfl8]) (by rw [← hq8, ← hname, hx, hfl8])
            rw [hcs, hq1]
            exact this
        · cases zipPatterns name with
          | some f => exact Alike.refl _ _
          | none => exact Alike.next (by exactly) fun _ _ _ => ih _ _

theorem u64Add_inv {cfg : Cfg} {a b c : Nat} (h : u64Add cfg a b = .ok c) : c = (a + b) % 2 ^ 64 := by
  unfold u64Add at h
  split at h
  · rename_i hc; cases h; exact (Nat.mod_eq_of_lt hc).symm
  · split at h
    · cases h
    · cases h; rfl

theorem lift_inv {α : Type} {x : Except Fail α} {a : α} {q q' : Nat} (h : run d m (Prog.lift x) q = .ok (a, q')) : x = .ok a ∧ q' = q := by
  cases x with
  | error e => cases h
  | ok v => cases h; exact ⟨rfl, rfl⟩

theorem zipDirectory64_entries {cfg : Cfg} {q q' : Nat} {dir : Nat × Nat} (h : run d m (zipDirectory64 cfg) q = .ok (dir, q')) :
    dir.1 = leNat (slice d ((leNat (slice d (q + 4) 8) + 32) % 2 ^ 64) 8) := by
  unfold zipDirectory64 at h
  rw [run_bind] at h
  cases h1 : run d m (Prog.sk (.current 4)) q with
  | error e => rw [h1] at h; cases h
  | ok x1 =>
    obtain ⟨a1, q1⟩ := x1
    rw [h1] at h
    simp only [andThen_ok] at h
    have p1 := sk_current_inv h1
    have e1 : q1 = q + 4 := by omega
    subst e1
    rw [run_bind] at h
    cases h2 : run d m readU64le (q + 4) with
    | error e => rw [h2] at h; cases h
    | ok x2 =>
      obtain ⟨o, q2⟩ := x2
      rw [h2] at h
      simp only [andThen_ok] at h
      obtain ⟨ho, _⟩ := bytes_inv (g := leNat) h2
      rw [run_bind] at h
      cases h3 : run d m (Prog.lift (u64Add cfg o 32)) q2 with
      | error e => rw [h3] at h; cases h
      | ok x3 =>
        obtain ⟨s, q3⟩ := x3
        rw [h3] at h
        simp only [andThen_ok] at h
        have hsv := u64Add_inv (lift_inv h3).1
        rw [run_bind] at h
        cases h4 : run d m (Prog.sk (.start s)) q3 with
        | error e => rw [h4] at h; cases h
        | ok x4 =>
          obtain ⟨a4, q4⟩ := x4
          rw [h4] at h
          simp only [andThen_ok] at h
          have p4 := sk_start_inv h4
          subst p4
          rw [run_bind] at h
          cases h5 : run d m readU64le q4 with
          | error e => rw [h5] at h; cases h
          | ok x5 =>
            obtain ⟨n, q5⟩ := x5
            rw [h5] at h
            simp only [andThen_ok] at h
            obtain ⟨hn, _⟩ := bytes_inv (g := leNat) h5
            rw [run_bind] at h
            cases h6 : run d m (Prog.sk (.current 8)) q5 with
            | error e => rw [h6] at h; cases h
            | ok x6 =>
              obtain ⟨a6, q6⟩ := x6
              rw [h6] at h
              simp only [andThen_ok] at h
              rw [run_bind] at h
              cases h7 : run d m readU64le q6 with
              | error e => rw [h7] at h; cases h
              | ok x7 =>
                obtain ⟨a7, q7⟩ := x7
                rw [h7] at h
                simp only [andThen_ok, run_pure] at h
                cases h
                rw [← ho, ← hsv]
                exact hn

theorem zipDirectory_entries {cfg : Cfg} {e q q' : Nat} {dir : Nat × Nat} (h : run d m (zipDirectory cfg e) q = .ok (dir, q')) :
    dir.1 < 2 ^ 16 := by
  unfold zipDirectory at h
  rw [run_bind] at h
  cases h1 : run d m (Prog.lift (u64Add cfg e 10)) q with
  | error e => rw [h1] at h; cases h
  | ok x1 =>
    obtain ⟨a1, q1⟩ := x1
    rw [h1] at h
    simp only [andThen_ok] at h
    rw [run_bind] at h
    cases h4 : run d m (Prog.sk (.start a1)) q1 with
    | error e => rw [h4] at h; cases h
    | ok x4 =>
      obtain ⟨a4, q4⟩ := x4
      rw [h4] at h
      simp only [andThen_ok] at h
      rw [run_bind] at h
      cases h5 : run d m readU16le q4 with
      | error e => rw [h5] at h; cases h
      | ok x5 =>
        obtain ⟨n, q5⟩ := x5
        rw [h5] at h
        simp only [andThen_ok] at h
        obtain ⟨hn, _⟩ := bytes_inv (g := leNat) h5
        rw [run_bind] at h
        cases h6 : run d m (Prog.sk (.current 4)) q5 with
        | error e => rw [h6] at h; cases h
        | ok x6 =>
          obtain ⟨a6, q6⟩ := x6
          rw [h6] at h
          simp only [andThen_ok] at h
          rw [run_bind] at h
          cases h7 : run d m readU32le q6 with
          | error e => rw [h7] at h; cases h
          | ok x7 =>
            obtain ⟨a7, q7⟩ := x7
            rw [h7] at h
            simp only [andThen_ok, run_pure] at h
            cases h
            show n < 2 ^ 16
            rw [hn]
            exact leNat_slice _ _ 2

theorem alike_zip (cfg : Cfg) (hd : d.length < 2 ^ 32) (he : Entries32 d) (hmt : Mimetypes31 d) (q : Nat) :
    Alike true d m (zipReader cfg) (FF.zipReader cfg) q := by
  unfold zipReader FF.zipReader
  have h1 : zipEocdMinSize = 22 := rfl
  have h2 : zipEocdMaxSize = 65557 := rfl
  refine Alike.next (by exactly) fun len q1 hl => ?_
  have hlen : len = d.length := by
    rw [run_sk] at hl
    simp only [seekTarget] at hl
    by_cases hc : 0 ≤ (d.length : Int) + 0 ∧ (d.length : Int) + 0 ≤ m
    · rw [if_pos hc] at hl
      simp only [Except.ok.injEq, Prod.mk.injEq] at hl
      omega
    · rw [if_neg hc] at hl; cases hl
  subst hlen
  have e : asUsize d.length = d.length := Nat.mod_eq_of_lt hd
  simp only [e]
  rw [readBytes_small (by omega)]
  refine Alike.next (by exactly) fun a q2 hst => Alike.next (by exactly) fun buf q3 hbuf => Alike.next (by exactly) fun found q4 hf => ?_
  have p2 := sk_start_inv hst
  obtain ⟨hx, _, hxl⟩ := readBytes_inv hbuf
  obtain ⟨hfound, _⟩ := lift_inv hf
  cases found with
  | none => exact Alike.refl _ _
  | some i =>
    obtain ⟨r, hr, hsp⟩ := rfindBytes_spec buf zipEocdSignature
    rw [hfound] at hr
    cases hr
    have hp := hsp.1
    have hpl := hp.length_le
    have h4 : zipEocdSignature.length = 4 := rfl
    rw [List.length_drop, hx, length_slice, h4] at hpl
    simp only
    refine Alike.next (by exactly) fun eo q5 heo => ?_
    obtain ⟨heo, _⟩ := lift_inv heo
    have hoff : eo = d.length - zipEocdMaxSize + i := by
      have := u64Add_inv heo
      rw [this]; exact Nat.mod_eq_of_lt (by omega)
    have hsig : slice d eo 4 = b!"PK\x05\x06" := by
      have hpre : zipEocdSignature <+: d.drop eo := by
        rw [hx, p2] at hp
        unfold OccursAt slice at hp
        rw [List.drop_take, List.drop_drop] at hp
        rw [hoff]
        exact hp.trans (List.take_prefix _ _)
      exact (List.prefix_iff_eq_take.mp hpre).symm
    have eeo : asUsize eo = eo := Nat.mod_eq_of_lt (by omega)
    have hz : zipIsZip64 eo = FF.zipIsZip64 eo := by
      unfold zipIsZip64 FF.zipIsZip64
      rw [eeo, readBytes_small (by decide)]
    rw [hz]
    refine Alike.next (by exactly) fun z q6 hzz => ?_
    refine Alike.bind (p := zipEnd cfg z eo) (p' := FF.zipEnd cfg z eo) ?_ (by exactly) fun dir q7 _ =>
      Alike.next (by exactly) fun _ q8 _ => alike_zipEntries hmt _ _ _
    unfold zipEnd
    show Alike true d m (FF.zipEnd cfg z eo >>= fun dir => Pure.pure (asUsize dir.1, dir.2)) _ q6
    refine Alike.map (g := fun dir : Nat × Nat => (asUsize dir.1, dir.2)) (by exactly) fun dir q7 hdir => ?_
    have hlt : dir.1 < 2 ^ 32 := by
      cases z with
      | false =>
        have : run d m (zipDirectory cfg eo) q6 = .ok (dir, q7) := hdir
        have := zipDirectory_entries this
        omega
      | true =>
        have hdir' : run d m (zipDirectory64 cfg) q6 = .ok (dir, q7) := hdir
        rw [zipDirectory64_entries hdir']
        unfold FF.zipIsZip64 at hzz
        by_cases hc : eo ≥ zipEocd64LocatorSize
        · have hc' : 20 ≤ eo := hc
          have h20 : zipEocd64LocatorSize = 20 := rfl
          rw [if_pos hc, run_bind] at hzz
          cases h5 : run d m (Prog.sk (.start (eo - zipEocd64LocatorSize))) q5 with
          | error e => rw [h5] at hzz; cases hzz
          | ok x5 =>
            obtain ⟨a5, q5'⟩ := x5
            rw [h5] at hzz
            simp only [andThen_ok] at hzz
            have p5 := sk_start_inv h5
            rw [run_bind] at hzz
            cases h6 : run d m (FF.readBytes 4) q5' with
            | error e => rw [h6] at hzz; cases hzz
            | ok x6 =>
              obtain ⟨sg, q6'⟩ := x6
              rw [h6] at hzz
              simp only [andThen_ok, run_pure, Except.ok.injEq, Prod.mk.injEq] at hzz
              obtain ⟨hs1, hs2, _⟩ := readBytes_inv h6
              have hb : sg = zipEocd64LocatorSignature := eq_of_beq hzz.1
              have := he (eo - 20) (by rw [← h20, ← p5, ← hs1, hb]; rfl) (by rw [show eo - 20 + 20 = eo by omega]; exact hsig)
              rw [show eo - 20 + 8 = q6 + 4 by omega] at this
              exact this
        · rw [if_neg hc] at hzz; cases hzz
    show (asUsize dir.1, dir.2) = dir
    rw [asUsize, Nat.mod_eq_of_lt hlt]

end FF.Target32
