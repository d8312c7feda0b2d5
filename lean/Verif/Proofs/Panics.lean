import Verif.Spec.Overflow
import Verif.Proofs.Walk2
import Verif.Proofs.Walk4
import Verif.Proofs.Total
/-!
# When a program panics, step by step
-/

namespace FF
open Spec FileFormat

/-- The program panics. -/
def Panics {α : Type} (d : Bytes) (m : Nat) (x : Prog α) (p : Nat) : Prop := run d m x p = .error .panic

section
variable {α β : Type} {d : Bytes} {m p : Nat}

theorem panics_ok {x : Prog α} {k : α → Prog β} {a : α} {p' : Nat} (h : run d m x p = .ok (a, p')) :
    Panics d m (x >>= k) p ↔ Panics d m (k a) p' := by
  unfold Panics
  rw [run_bind, h, andThen_ok]

theorem panics_error {x : Prog α} {k : α → Prog β} {e : ErrKind} (h : run d m x p = .error (.err e)) :
    ¬ Panics d m (x >>= k) p := by
  unfold Panics
  rw [run_bind, h, andThen_error]
  intro h; cases h

theorem panics_first {x : Prog α} {k : α → Prog β} (h : run d m x p = .error .panic) : Panics d m (x >>= k) p := by
  unfold Panics
  rw [run_bind, h, andThen_error]

/-- If the first part never panics. -/
theorem panics_bind {x : Prog α} {k : α → Prog β} (h : ¬ Panics d m x p) :
    Panics d m (x >>= k) p ↔ ∃ a q, run d m x p = .ok (a, q) ∧ Panics d m (k a) q := by
  unfold Panics at h ⊢
  rw [run_bind]
  cases hx : run d m x p with
  | error e =>
    rw [andThen_error]
    constructor
    · intro he; injection he with he; subst he; exact absurd hx h
    · rintro ⟨_, _, h, _⟩; cases h
  | ok v =>
    obtain ⟨a, q⟩ := v
    rw [andThen_ok]
    constructor
    · intro he; exact ⟨a, q, rfl, he⟩
    · rintro ⟨a', q', h, h'⟩; injection h with h; injection h with h1 h2; subst h1; subst h2; exact h'

theorem panics_assoc {γ : Type} {x : Prog γ} {f : γ → Prog α} {k : α → Prog β} :
    Panics d m ((x >>= f) >>= k) p ↔ Panics d m (x >>= fun a => f a >>= k) p := by
  unfold Panics
  simp only [run_bind]
  cases run d m x p with
  | error e => rfl
  | ok v => obtain ⟨a, q⟩ := v; simp only [andThen_ok, run_bind]

theorem panics_pure {a : β} : ¬ Panics d m (pure a : Prog β) p := by
  intro h; cases h

theorem panics_throw {e : ErrKind} : ¬ Panics d m (Prog.throwErr e : Prog β) p := by
  intro h; cases h

theorem panics_bytes {n : Nat} {k : Bytes → Prog β} :
    Panics d m (readBytes n >>= k) p ↔ (n = 0 ∨ p + n ≤ d.length) ∧ Panics d m (k (slice d p n)) (p + n) := by
  by_cases h : n = 0 ∨ p + n ≤ d.length
  · rw [panics_ok (show run d m (readBytes n) p = _ from (run_rdExact n p).trans (if_pos h))]
    exact ⟨fun x => ⟨h, x⟩, fun x => x.2⟩
  · exact ⟨fun x => absurd x (panics_error (show run d m (readBytes n) p = _ from (run_rdExact n p).trans (if_neg h))),
      fun x => absurd x.1 h⟩

theorem panics_map {γ : Type} {n : Nat} (hn : n ≠ 0) (g : Bytes → γ) {k : γ → Prog β} :
    Panics d m ((do let buf ← Prog.rdExact n; pure (g buf)) >>= k) p ↔
      p + n ≤ d.length ∧ Panics d m (k (g (slice d p n))) (p + n) := by
  by_cases h : p + n ≤ d.length
  · have hr : run d m (do let buf ← Prog.rdExact n; pure (g buf)) p = .ok (g (slice d p n), p + n) := by
      rw [run_bind, run_rdExact_ok n p h, andThen_ok]
      rfl
    rw [panics_ok hr]
    exact ⟨fun x => ⟨h, x⟩, fun x => x.2⟩
  · have hr : run d m (do let buf ← Prog.rdExact n; pure (g buf)) p = .error (.err .unexpectedEof) := by
      rw [run_bind, run_rdExact_eof n p (by omega) hn]
      rfl
    exact ⟨fun x => absurd x (panics_error hr), fun x => absurd x.1 h⟩

theorem panics_u16le {k : Nat → Prog β} :
    Panics d m (readU16le >>= k) p ↔ p + 2 ≤ d.length ∧ Panics d m (k (leAt d p 2)) (p + 2) := by
  refine (panics_map (by decide) leNat).trans (and_congr_right fun h => ?_)
  rw [leNat_at _ _ _ h]

theorem panics_u32le {k : Nat → Prog β} :
    Panics d m (readU32le >>= k) p ↔ p + 4 ≤ d.length ∧ Panics d m (k (leAt d p 4)) (p + 4) := by
  refine (panics_map (by decide) leNat).trans (and_congr_right fun h => ?_)
  rw [leNat_at _ _ _ h]

theorem panics_u64le {k : Nat → Prog β} :
    Panics d m (readU64le >>= k) p ↔ p + 8 ≤ d.length ∧ Panics d m (k (leAt d p 8)) (p + 8) := by
  refine (panics_map (by decide) leNat).trans (and_congr_right fun h => ?_)
  rw [leNat_at _ _ _ h]

theorem panics_u32be {k : Nat → Prog β} :
    Panics d m (readU32be >>= k) p ↔ p + 4 ≤ d.length ∧ Panics d m (k (beAt d p 4)) (p + 4) := by
  refine (panics_map (by decide) beNat).trans (and_congr_right fun h => ?_)
  rw [beNat_at _ _ _ h]

theorem panics_u64be {k : Nat → Prog β} :
    Panics d m (readU64be >>= k) p ↔ p + 8 ≤ d.length ∧ Panics d m (k (beAt d p 8)) (p + 8) := by
  refine (panics_map (by decide) beNat).trans (and_congr_right fun h => ?_)
  rw [beNat_at _ _ _ h]

theorem panics_guid {k : Str → Prog β} :
    Panics d m (readGuid >>= k) p ↔ p + 16 ≤ d.length ∧ Panics d m (k (guidStr (slice d p 16))) (p + 16) := by
  by_cases h : p + 16 ≤ d.length
  · rw [panics_ok (run_guid_ok h)]
    exact ⟨fun x => ⟨h, x⟩, fun x => x.2⟩
  · exact ⟨fun x => absurd x (panics_error (run_guid_eof (by omega))), fun x => absurd x.1 h⟩

theorem panics_start {n : Nat} {k : Nat → Prog β} :
    Panics d m (Prog.sk (.start n) >>= k) p ↔ n ≤ m ∧ Panics d m (k n) n := by
  by_cases h : n ≤ m
  · rw [panics_ok (run_sk_start n p h)]
    exact ⟨fun x => ⟨h, x⟩, fun x => x.2⟩
  · have hr : run d m (Prog.sk (.start n)) p = .error (.err .invalidInput) := by
      rw [run_sk, show seekTarget d.length m p (.start n) = none from if_neg h]
    exact ⟨fun x => absurd x (panics_error hr), fun x => absurd x.1 h⟩

theorem panics_current {i : Int} {k : Nat → Prog β} :
    Panics d m (Prog.sk (.current i) >>= k) p ↔ ∃ q, Goes m p i q ∧ Panics d m (k q) q := by
  constructor
  · intro h
    by_cases hc : 0 ≤ (p : Int) + i ∧ (p : Int) + i ≤ m
    · obtain ⟨t, ht⟩ : ∃ t : Nat, (p : Int) + i = t := ⟨((p : Int) + i).toNat, by omega⟩
      rw [panics_ok (run_sk_current i p t ht (by omega))] at h
      exact ⟨t, ⟨ht.symm, by omega⟩, h⟩
    · have hr : run d m (Prog.sk (.current i)) p = .error (.err .invalidInput) := by
        rw [run_sk, show seekTarget d.length m p (.current i) = none from if_neg hc]
      exact absurd h (panics_error hr)
  · rintro ⟨q, ⟨h1, h2⟩, h⟩
    rwa [panics_ok (run_sk_current i p q h1.symm h2)]

theorem panics_skip {k : Nat → Prog β} (n : Nat) {i : Int} (h : i = n) :
    Panics d m (Prog.sk (.current i) >>= k) p ↔ p + n ≤ m ∧ Panics d m (k (p + n)) (p + n) := by
  rw [panics_current]
  constructor
  · rintro ⟨q, hq, hk⟩
    obtain ⟨rfl, h2⟩ := (goes_lit n i h).mp hq
    exact ⟨h2, hk⟩
  · rintro ⟨h2, hk⟩
    exact ⟨_, (goes_lit n i h).mpr ⟨rfl, h2⟩, hk⟩

theorem panics_end (h : d.length ≤ m) {k : Nat → Prog β} :
    Panics d m (Prog.sk (.fromEnd 0) >>= k) p ↔ Panics d m (k d.length) d.length := panics_ok (run_sk_end p h)

theorem panics_pos {k : Nat → Prog β} : Panics d m (Prog.pos >>= k) p ↔ Panics d m (k p) p := panics_ok (run_pos p)

theorem panics_lift {x : Except Fail α} {a : α} (h : x = .ok a) {k : α → Prog β} :
    Panics d m (Prog.lift x >>= k) p ↔ Panics d m (k a) p := by
  subst h
  exact panics_ok (run_lift_ok a p)

theorem panics_lifted {x : Except Fail α} (h : x = .error .panic) {k : α → Prog β} :
    Panics d m (Prog.lift x >>= k) p := by
  subst h
  exact panics_first (run_lift_error .panic p)

end

/-! ### Checked arithmetic -/

theorem i64Sub_debug {a : Nat} (ha : a < 2 ^ 64) (b : Nat) (i : Int) (hi : i = b) (hb : b < 2 ^ 62) (h : ¬ Underflows a b) :
    i64Sub Cfg.debug (asI64 a) i = .ok (wrapped ((a : Int) - i)) := by
  subst hi
  unfold Underflows at h
  have hr := i64Sub_release ha (b : Int) (by omega)
  unfold i64Sub at hr ⊢
  split
  · rename_i h'
    rwa [if_pos h'] at hr
  · rename_i h'
    exfalso
    apply h'
    unfold asI64
    split <;> omega

theorem i64Sub_panics {a : Nat} (b : Nat) (h : Underflows a b) : i64Sub Cfg.debug (asI64 a) b = .error .panic := by
  unfold Underflows at h
  unfold i64Sub
  rw [if_neg]
  · rfl
  · unfold asI64
    split <;> omega

/-! ### MP4 -/

theorem panics_box {β : Type} {d : Bytes} {m p : Nat} {k : Bytes → Nat → Prog β} :
    Panics d m (readU32be >>= fun s => readBytes 4 >>= fun t => mp4Size s >>= fun z => k t z) p ↔
      ∃ t z q, BoxAt d p t z q ∧ z < 2 ^ 64 ∧ Panics d m (k t z) q := by
  rw [panics_u32be, panics_bytes]
  unfold BoxAt
  constructor
  · rintro ⟨h1, h2, h⟩
    have h2' : p + 4 + 4 ≤ d.length := by omega
    have hm := magicAt_slice_iff.mpr ⟨h2', rfl⟩
    unfold mp4Size at h
    split at h
    · rename_i h3
      rw [panics_u64be] at h
      exact ⟨_, _, _, ⟨hm.1, hm.2, Or.inr ⟨h3, by omega, rfl, rfl⟩⟩, beAt_lt _ _ 8, h.2⟩
    · rename_i h3
      rw [panics_ok rfl] at h
      exact ⟨_, _, _, ⟨hm.1, hm.2, Or.inl ⟨h3, rfl, rfl⟩⟩, Nat.lt_trans (beAt_lt _ _ 4) (by decide), h⟩
  · rintro ⟨t, z, q, ⟨hm, hl, hb⟩, _, h⟩
    obtain ⟨h2, rfl⟩ := magicAt_slice_iff.mp ⟨hm, hl⟩
    refine ⟨by omega, Or.inr h2, ?_⟩
    unfold mp4Size
    rcases hb with ⟨h3, rfl, rfl⟩ | ⟨h3, h4, rfl, rfl⟩
    · rw [if_neg h3, panics_ok rfl]
      exact h
    · rw [if_pos h3, panics_u64be]
      exact ⟨by omega, h⟩

theorem mp4Loop_panics (d : Bytes) (m : Nat) (hm : d.length ≤ m) (n : Nat) (t : Tracks) (p : Nat) :
    Panics d m (mp4Loop Cfg.debug d.length n t) p ↔ Mp4Overflow d m n p := by
  induction n generalizing t p with
  | zero =>
    unfold mp4Loop
    exact ⟨fun h => absurd h panics_pure, fun h => nomatch h⟩
  | succ n ih =>
    unfold mp4Loop
    rw [panics_pos]
    by_cases hp : p < d.length
    · rw [if_pos hp, panics_box]
      constructor
      · rintro ⟨ty, z, q, hb, hz, h⟩
        split at h
        · rename_i ht
          exact .enter hb (by simpa using ht) ((ih _ _).mp h)
        split at h
        · rename_i _ ht
          subst ht
          rw [panics_skip 8 (i := 8) rfl, panics_bytes] at h
          obtain ⟨_, hl, h⟩ := h
          have hl' : q + 12 ≤ d.length := by omega
          by_cases ho : Underflows z 20
          · exact .handler hb hl' ho
          · rw [panics_lift (i64Sub_debug hz 20 20 rfl (by decide) ho), panics_current] at h
            obtain ⟨r, hr, h⟩ := h
            exact .pastHandler hb hl' hr ((ih _ _).mp h)
        · rename_i ht1 ht2
          have hty : ty ∉ [b!"moov", b!"trak", b!"mdia", b!"hdlr"] := by simp only [not_or] at ht1; simp [ht1, ht2]
          by_cases ho : Underflows z 8
          · exact .other hb hty ho
          · rw [panics_lift (i64Sub_debug hz 8 8 rfl (by decide) ho), panics_current] at h
            obtain ⟨r, hr, h⟩ := h
            exact .past hb hty hr ((ih _ _).mp h)
      · have hhdlr : ∀ {size q}, BoxAt d p b!"hdlr" size q → q + 12 ≤ d.length →
            (Underflows size 20 ∨ ∃ r, Goes m (q + 12) (wrapped (size - 20)) r ∧ Mp4Overflow d m n r) →
            ∃ ty z q, BoxAt d p ty z q ∧ z < 2 ^ 64 ∧ Panics d m
              (if ty = b!"moov" ∨ ty = b!"trak" ∨ ty = b!"mdia" then mp4Loop Cfg.debug d.length n t
              else if ty = b!"hdlr" then do
                let _ ← Prog.sk (.current 8)
                let handlerType ← readBytes 4
                let dist ← Prog.lift (i64Sub Cfg.debug (asI64 z) 20)
                let _ ← Prog.sk (.current dist)
                mp4Loop Cfg.debug d.length n (mp4Handler handlerType t)
              else do
                let dist ← Prog.lift (i64Sub Cfg.debug (asI64 z) 8)
                let _ ← Prog.sk (.current dist)
                mp4Loop Cfg.debug d.length n t) q := by
          intro size q hb hl ho
          refine ⟨_, _, _, hb, boxAt_size hb, ?_⟩
          rw [if_neg (by decide), if_pos rfl, panics_skip 8 (i := 8) rfl, panics_bytes]
          refine ⟨by omega, Or.inr (by omega), ?_⟩
          by_cases hu : Underflows size 20
          · exact panics_lifted (i64Sub_panics 20 hu)
          · obtain ⟨r, hg, hw⟩ := ho.resolve_left hu
            rw [panics_lift (i64Sub_debug (boxAt_size hb) 20 20 rfl (by decide) hu), panics_current]
            exact ⟨_, hg, (ih _ _).mpr hw⟩
        have hother : ∀ {ty size q}, BoxAt d p ty size q → ty ∉ [b!"moov", b!"trak", b!"mdia", b!"hdlr"] →
            (Underflows size 8 ∨ ∃ r, Goes m q (wrapped (size - 8)) r ∧ Mp4Overflow d m n r) →
            ∃ ty z q, BoxAt d p ty z q ∧ z < 2 ^ 64 ∧ Panics d m
              (if ty = b!"moov" ∨ ty = b!"trak" ∨ ty = b!"mdia" then mp4Loop Cfg.debug d.length n t
              else if ty = b!"hdlr" then do
                let _ ← Prog.sk (.current 8)
                let handlerType ← readBytes 4
                let dist ← Prog.lift (i64Sub Cfg.debug (asI64 z) 20)
                let _ ← Prog.sk (.current dist)
                mp4Loop Cfg.debug d.length n (mp4Handler handlerType t)
              else do
                let dist ← Prog.lift (i64Sub Cfg.debug (asI64 z) 8)
                let _ ← Prog.sk (.current dist)
                mp4Loop Cfg.debug d.length n t) q := by
          intro ty size q hb ht ho
          refine ⟨_, _, _, hb, boxAt_size hb, ?_⟩
          simp only [List.mem_cons, List.not_mem_nil, or_false, not_or] at ht
          rw [if_neg (by simp [ht]), if_neg ht.2.2.2]
          by_cases hu : Underflows size 8
          · exact panics_lifted (i64Sub_panics 8 hu)
          · obtain ⟨r, hg, hw⟩ := ho.resolve_left hu
            rw [panics_lift (i64Sub_debug (boxAt_size hb) 8 8 rfl (by decide) hu), panics_current]
            exact ⟨_, hg, (ih _ _).mpr hw⟩
        intro h
        cases h with
        | handler hb hl ho => exact hhdlr hb hl (.inl ho)
        | other hb ht ho => exact hother hb ht (.inl ho)
        | enter hb ht hw =>
          refine ⟨_, _, _, hb, boxAt_size hb, ?_⟩
          rw [if_pos (by simpa using ht)]
          exact (ih _ _).mpr hw
        | pastHandler hb hl hg hw => exact hhdlr hb hl (.inr ⟨_, hg, hw⟩)
        | past hb ht hg hw => exact hother hb ht (.inr ⟨_, hg, hw⟩)
    · rw [if_neg hp]
      constructor
      · intro h; exact absurd h panics_pure
      · intro h
        cases h with
        | handler hb => have := boxAt_inside hb; omega
        | other hb => have := boxAt_inside hb; omega
        | enter hb => have := boxAt_inside hb; omega
        | pastHandler hb => have := boxAt_inside hb; omega
        | past hb => have := boxAt_inside hb; omega

theorem mp4Reader_panics (d : Bytes) (m : Nat) (hm : d.length ≤ m) :
    Panics d m (mp4Reader Cfg.debug) 0 ↔ Mp4Overflow d m 256 0 := by
  unfold mp4Reader
  rw [panics_end hm, panics_start, and_iff_right (Nat.zero_le _), mp4Loop_panics d m hm]
  exact Iff.rfl

/-! ### ASF -/

theorem asfDescriptors_calm (d : Bytes) (m : Nat) (n p : Nat) : ¬ Panics d m (asfDescriptors n) p := by
  induction n generalizing p with
  | zero => exact panics_pure
  | succ n ih =>
    unfold asfDescriptors
    rw [panics_u16le, panics_bytes]
    rintro ⟨_, _, h⟩
    split at h
    · exact panics_pure h
    · rw [panics_current] at h
      obtain ⟨q, _, h⟩ := h
      rw [panics_u16le, panics_current] at h
      obtain ⟨_, q', _, h⟩ := h
      exact ih _ h

theorem asfEnd_add {p z : Nat} (h : p + 26 + z < 2 ^ 64) : u64Add Cfg.debug (p + 16 + 8 + 2) z = .ok (p + 26 + z) :=
  u64Add_ok Cfg.debug h

theorem asfEnd_sub (p z : Nat) : u64Sub Cfg.debug (p + 26 + z) 26 = .ok (p + z) := by
  unfold u64Sub
  rw [if_pos (by omega)]
  congr 1
  omega

theorem asfObjects_panics (d : Bytes) (m : Nat) (hm : d.length ≤ m) (n : Nat) (audio video : Bool)
    (p : Nat) : Panics d m (asfObjects Cfg.debug n audio video) p ↔ AsfOverflow d m n p := by
  induction n generalizing audio video p with
  | zero =>
    unfold asfObjects
    exact ⟨fun h => absurd h panics_pure, fun h => nomatch h⟩
  | succ n ih =>
    unfold asfObjects
    rw [panics_guid, panics_u64le]
    have hguid : ∀ q (g : Guid), q + 16 ≤ d.length → (guidStr (slice d q 16) = guidStr g.bytes ↔ MagicAt q g.bytes d) := by
      intro q g hq
      rw [guidStr_eq_iff (length_slice_eq _ _ _ hq), magicAt_slice (length_guid g) hq]
    have hsz : leAt d (p + 16) 8 < 2 ^ 64 := leAt_lt _ _ 8
    have hne : asfExtendedContent.bytes ≠ asfStreamProperties.bytes := by decide
    have hboth : MagicAt p asfExtendedContent.bytes d → ¬ MagicAt p asfStreamProperties.bytes d := by
      intro he hs
      have e1 := (magicAt_iff _ _ _).mp hs
      have e2 := (magicAt_iff _ _ _).mp he
      rw [length_guid] at e1 e2
      exact hne (e2.2.symm.trans e1.2)
    by_cases hl24 : p + 24 ≤ d.length
    case neg =>
      constructor
      · rintro ⟨_, _, _⟩; omega
      · intro h; cases h <;> omega
    have e1 := hguid p asfStreamProperties (by omega)
    have e2 := hguid p asfExtendedContent (by omega)
    rw [asfStreamPropsGuid_eq, asfExtContentGuid_eq, and_iff_right (by omega : p + 16 ≤ d.length),
      and_iff_right (by omega : p + 16 + 8 ≤ d.length)]
    by_cases hs : MagicAt p asfStreamProperties.bytes d
    · rw [if_pos (e1.mpr hs), panics_guid]
      constructor
      · rintro ⟨h3, h⟩
        by_cases ho : Underflows (leAt d (p + 16) 8) 40
        · exact .stream hs (by omega) ho
        · dsimp only at h
          rw [panics_lift (i64Sub_debug hsz 40 40 rfl (by decide) ho), panics_current] at h
          obtain ⟨r, hr, h⟩ := h
          exact .pastStream hs (by omega) hr ((ih _ _ _).mp h)
      · intro h
        have hl : p + 40 ≤ d.length := by
          cases h with
          | stream _ hl => exact hl
          | pastStream _ hl => exact hl
          | content he => exact absurd hs (hboth he)
          | pastContent he => exact absurd hs (hboth he)
          | other _ h => exact absurd hs h
          | past _ h => exact absurd hs h
        refine ⟨by omega, ?_⟩
        dsimp only
        by_cases ho : Underflows (leAt d (p + 16) 8) 40
        · exact panics_lifted (i64Sub_panics 40 ho)
        · rw [panics_lift (i64Sub_debug hsz 40 40 rfl (by decide) ho), panics_current]
          cases h with
          | stream _ _ h => exact absurd h ho
          | pastStream _ _ hg hw => exact ⟨_, hg, (ih _ _ _).mpr hw⟩
          | content he => exact absurd hs (hboth he)
          | pastContent he => exact absurd hs (hboth he)
          | other _ h => exact absurd hs h
          | past _ h => exact absurd hs h
    rw [if_neg (fun h => hs (e1.mp h))]
    by_cases he : MagicAt p asfExtendedContent.bytes d
    · rw [if_pos (e2.mpr he), panics_u16le]
      constructor
      · rintro ⟨h3, h⟩
        rw [panics_pos, panics_bind (asfDescriptors_calm _ _ _ _)] at h
        obtain ⟨r, q, hr, h⟩ := h
        have hdesc := (asfDescriptors_walk d m hm _ _ _).mp ⟨q, hr⟩
        split at h
        · exact absurd h panics_pure
        · rename_i hrf
          rw [Bool.not_eq_true] at hrf
          subst hrf
          rcases Nat.lt_or_ge (p + 26 + leAt d (p + 16) 8) (2 ^ 64) with ho | ho
          · rw [panics_lift (asfEnd_add ho), panics_lift (asfEnd_sub _ _), panics_start] at h
            exact .pastContent he (by omega) hdesc rfl h.1 ((ih _ _ _).mp h.2)
          · exact .content he (by omega) hdesc ho
      · intro h
        have hx : (p + 26 ≤ d.length ∧ DescriptorsAt d m (min 32 (leAt d (p + 24) 2)) (p + 26) false) ∧
            (2 ^ 64 ≤ p + 26 + leAt d (p + 16) 8 ∨ (p + leAt d (p + 16) 8 ≤ m ∧ AsfOverflow d m n (p + leAt d (p + 16) 8))) := by
          cases h with
          | stream h => exact absurd h hs
          | pastStream h => exact absurd h hs
          | content _ hl hd ho => exact ⟨⟨hl, hd⟩, .inl ho⟩
          | pastContent _ hl hd hr ht hw => subst hr; exact ⟨⟨hl, hd⟩, .inr ⟨ht, hw⟩⟩
          | other _ _ h => exact absurd he h
          | past _ _ h => exact absurd he h
        obtain ⟨⟨hl, hd⟩, ho⟩ := hx
        refine ⟨by omega, ?_⟩
        obtain ⟨q, hq⟩ := (asfDescriptors_walk d m hm _ _ _).mpr hd
        rw [panics_pos]
        refine (panics_ok hq).mpr ?_
        rw [if_neg (by decide)]
        rcases Nat.lt_or_ge (p + 26 + leAt d (p + 16) 8) (2 ^ 64) with hlt | hge
        · rw [panics_lift (asfEnd_add hlt), panics_lift (asfEnd_sub _ _), panics_start]
          rcases ho with ho | ho
          · omega
          · exact ⟨ho.1, (ih _ _ _).mpr ho.2⟩
        · refine panics_lifted ?_
          unfold u64Add
          rw [if_neg (by omega)]
          rfl
    · rw [if_neg (fun h => he (e2.mp h))]
      constructor
      · intro h
        by_cases ho : Underflows (leAt d (p + 16) 8) 24
        · exact .other hl24 hs he ho
        · rw [panics_lift (i64Sub_debug hsz 24 24 rfl (by decide) ho), panics_current] at h
          obtain ⟨r, hr, h⟩ := h
          exact .past hl24 hs he hr ((ih _ _ _).mp h)
      · intro h
        by_cases ho : Underflows (leAt d (p + 16) 8) 24
        · exact panics_lifted (i64Sub_panics 24 ho)
        · rw [panics_lift (i64Sub_debug hsz 24 24 rfl (by decide) ho), panics_current]
          cases h with
          | stream h => exact absurd h hs
          | pastStream h => exact absurd h hs
          | content h => exact absurd h he
          | pastContent h => exact absurd h he
          | other _ _ _ h => exact absurd h ho
          | past _ _ _ hg hw => exact ⟨_, hg, (ih _ _ _).mpr hw⟩

theorem asfReader_panics (d : Bytes) (m : Nat) (hm : d.length ≤ m) :
    Panics d m (asfReader Cfg.debug) 0 ↔
      28 ≤ d.length ∧ 30 ≤ m ∧ AsfOverflow d m (min 256 (leAt d 24 4)) 30 := by
  unfold asfReader
  rw [panics_start, panics_u32le, panics_skip 2 (i := 2) rfl, asfObjects_panics d m hm]
  constructor
  · rintro ⟨_, h1, h2, h3⟩; exact ⟨h1, h2, h3⟩
  · rintro ⟨h1, h2, h3⟩; exact ⟨by omega, h1, h2, h3⟩

/-! ### ZIP -/

theorem panics_noCrash {α : Type} {d : Bytes} {m p : Nat} {x : Prog α} (h : NotCrash (run d m x p)) : ¬ Panics d m x p := by
  intro hp
  unfold Panics at hp
  rw [hp] at h
  cases h

theorem length_uptoNewline_le (x : Bytes) : (uptoNewline x).length ≤ x.length := by
  induction x with
  | nil => simp [uptoNewline]
  | cons a x ih =>
    unfold uptoNewline
    split
    · simp
    · simp only [List.length_cons]; omega

theorem noCrash_run {α : Type} (x : Prog α) (h : NoCrash x) (d : Bytes) (m p : Nat) : NotCrash (run d m x p) := by
  induction x generalizing p with
  | pure a => trivial
  | fail e => obtain ⟨e, rfl⟩ := h; trivial
  | readExact n k ih =>
    unfold run
    split
    · rename_i hn
      by_cases h0 : n = 0
      · exact ih _ (h _ (by subst h0; simp [slice])) _
      · exact ih _ (h _ (length_slice_eq _ _ _ (by omega))) _
    · trivial
  | read n k ih => exact ih _ (h _ (by simp only [slice, List.length_take]; omega)) _
  | seek s k ih =>
    unfold run
    split
    · exact ih _ (h _) _
    · trivial
  | tell k ih => exact ih _ (h _) _
  | readUntil n k ih =>
    refine ih _ (h _ ?_) _
    refine Nat.le_trans (length_uptoNewline_le _) ?_
    simp only [slice, List.length_take]; omega

theorem zipEntries_calm (d : Bytes) (m : Nat) (n p : Nat) : ¬ Panics d m (zipEntries n Zip) p :=
  panics_noCrash (noCrash_run _ ((zipEntries_all (b := true) n Zip (by decide) (fun _ => False)).noCrash
    (fun _ h => h.elim)) d m p)

theorem zipEnd_panics (d : Bytes) (m e p : Nat) (hm : d.length ≤ m) (hd : d.length < 2 ^ 63) (he : e + 4 ≤ d.length)
    {k : Nat × Nat → Prog FileFormat} (hk : ∀ x q, ¬ Panics d m (k x) q) :
    Panics d m (zipIsZip64 e >>= fun z => zipEnd Cfg.debug z e >>= k) p ↔
      20 ≤ e ∧ MagicAt (e - 20) b!"PK\x06\x07" d ∧ 2 ^ 64 ≤ leAt d (e - 12) 8 + 32 := by
  have hclassic : ∀ q, ¬ Panics d m (zipEnd Cfg.debug false e >>= k) q := by
    intro q
    unfold zipEnd zipDirectory
    rw [if_neg (by decide), panics_assoc, panics_lift (u64Add_ok Cfg.debug (by omega)), panics_assoc, panics_start, panics_assoc,
      panics_u16le, panics_assoc, panics_skip 4 (i := 4) rfl, panics_assoc, panics_u32le,
      panics_ok (show run d m (Pure.pure (leAt d (e + 10) 2, leAt d (e + 10 + 2 + 4) 4) : Prog (Nat × Nat)) _ = .ok (_, _) from rfl)]
    rintro ⟨_, _, _, _, h⟩
    exact hk _ _ h
  have h64 : 20 ≤ e → (Panics d m (zipEnd Cfg.debug true e >>= k) (e - 20 + 4) ↔ 2 ^ 64 ≤ leAt d (e - 12) 8 + 32) := by
    intro h20
    unfold zipEnd zipDirectory64
    rw [if_pos rfl, panics_assoc, panics_skip 4 (i := 4) rfl, panics_assoc, panics_u64le, panics_assoc]
    rw [show e - 20 + 4 + 4 = e - 12 by omega, and_iff_right (by omega : e - 12 ≤ m), and_iff_right (by omega : e - 12 + 8 ≤ d.length)]
    rcases Nat.lt_or_ge (leAt d (e - 12) 8 + 32) (2 ^ 64) with ho | ho
    · rw [panics_lift (u64Add_ok Cfg.debug ho), panics_assoc, panics_start, panics_assoc, panics_u64le, panics_assoc,
        panics_skip 8 (i := 8) rfl, panics_assoc, panics_u64le]
      constructor
      · rintro ⟨_, _, _, _, h⟩
        exact absurd ((panics_ok rfl).mp h) (hk _ _)
      · intro h; omega
    · refine ⟨fun _ => ho, fun _ => panics_lifted ?_⟩
      unfold u64Add
      rw [if_neg (by omega)]
      rfl
  unfold zipIsZip64
  have hs20 : zipEocd64LocatorSize = 20 := rfl
  have hsig : zipEocd64LocatorSignature = b!"PK\x06\x07" := rfl
  rw [hs20, hsig]
  split
  · rename_i h20
    rw [panics_assoc, panics_start, panics_assoc, panics_bytes,
      panics_ok (show run d m (Pure.pure _ : Prog Bool) _ = .ok (_, _) from rfl)]
    have hmag : (slice d (e - 20) 4 == b!"PK\x06\x07") = true ↔ MagicAt (e - 20) b!"PK\x06\x07" d := by
      rw [beq_iff_eq]; exact (magicAt_slice (by decide) (by omega)).symm
    rw [and_iff_right (by omega : e - 20 ≤ m), and_iff_right (Or.inr (by omega))]
    by_cases hmg : MagicAt (e - 20) b!"PK\x06\x07" d
    · rw [hmag.mpr hmg, h64 h20]
      exact ⟨fun h => ⟨h20, hmg, h⟩, fun h => h.2.2⟩
    · rw [show (slice d (e - 20) 4 == b!"PK\x06\x07") = false by
        rw [Bool.eq_false_iff]; exact fun h => hmg (hmag.mp h)]
      exact ⟨fun h => absurd h (hclassic _), fun h => absurd h.2.1 hmg⟩
  · rename_i h20
    rw [panics_ok (show run d m (Pure.pure false : Prog Bool) _ = .ok (_, _) from rfl)]
    exact ⟨fun h => absurd h (hclassic _), fun h => absurd h.1 h20⟩

/-- The end record, as the search for it finds it. -/
theorem endAt_search (d : Bytes) (hl : 22 ≤ d.length) (r : Option Nat)
    (hlast : IsLast b!"PK\x05\x06" (slice d (d.length - 65557) (max 22 (min d.length 65557))) r) (e : Nat) :
    EndAt d e ↔ ∃ i, r = some i ∧ e = d.length - 65557 + i := by
  have hn : d.length - 65557 + max 22 (min d.length 65557) = d.length := by omega
  have hocc : ∀ i, OccursAt b!"PK\x05\x06" (slice d (d.length - 65557) (max 22 (min d.length 65557))) i ↔
      MagicAt (d.length - 65557 + i) b!"PK\x05\x06" d := fun i => occursAt_slice (by decide) hn
  have hblen : (slice d (d.length - 65557) (max 22 (min d.length 65557))).length = max 22 (min d.length 65557) :=
    length_slice_eq _ _ _ (by omega)
  have h4 : b!"PK\x05\x06".length = 4 := rfl
  cases r with
  | none =>
    constructor
    · rintro ⟨_, h1, h2, _⟩
      refine absurd ((hocc (e - (d.length - 65557))).mpr ?_) (hlast _)
      rwa [show d.length - 65557 + (e - (d.length - 65557)) = e by omega]
    · rintro ⟨_, h, _⟩; cases h
  | some i =>
    have hat := (hocc i).mp hlast.1
    have hin := ((magicAt_iff _ _ _).mp hat).1
    rw [h4] at hin
    constructor
    · rintro ⟨_, h1, h2, h3⟩
      refine ⟨i, rfl, ?_⟩
      rcases Nat.lt_trichotomy e (d.length - 65557 + i) with h | h | h
      · exact absurd hat (h3 _ h)
      · exact h
      · exfalso
        have hin' := ((magicAt_iff _ _ _).mp h2).1
        rw [h4] at hin'
        refine hlast.2 (e - (d.length - 65557)) (by omega) (by rw [hblen]; omega) ((hocc _).mpr ?_)
        rwa [show d.length - 65557 + (e - (d.length - 65557)) = e by omega]
    · rintro ⟨_, h, rfl⟩
      injection h with h
      subst h
      refine ⟨hl, by omega, hat, fun e' he' hm' => ?_⟩
      have hin' := ((magicAt_iff _ _ _).mp hm').1
      rw [h4] at hin'
      refine hlast.2 (e' - (d.length - 65557)) (by omega) (by rw [hblen]; omega) ((hocc _).mpr ?_)
      rwa [show d.length - 65557 + (e' - (d.length - 65557)) = e' by omega]

theorem zipReader_panics (d : Bytes) (m : Nat) (hm : d.length ≤ m) (hd : d.length < 2 ^ 63) :
    Panics d m (zipReader Cfg.debug) 0 ↔ ZipOverflow d := by
  have hmax : zipEocdMaxSize = 65557 := rfl
  have hmin : zipEocdMinSize = 22 := rfl
  have hsig : zipEocdSignature = b!"PK\x05\x06" := rfl
  unfold zipReader
  rw [panics_end hm]
  dsimp only
  rw [panics_start, panics_bytes, hmax, hmin, hsig]
  by_cases hl : 22 ≤ d.length
  · rw [and_iff_right (by omega : d.length - 65557 ≤ m), and_iff_right (Or.inr (by omega))]
    obtain ⟨r, hr, hlast⟩ := rfindBytes_spec (slice d (d.length - 65557) (max 22 (min d.length 65557))) b!"PK\x05\x06"
    rw [panics_lift hr]
    have hend := endAt_search d hl r hlast
    unfold ZipOverflow
    simp only [hend]
    cases r with
    | none =>
      dsimp only
      exact ⟨fun h => absurd h panics_throw, fun ⟨_, ⟨_, h, _⟩, _⟩ => nomatch h⟩
    | some i =>
      have hin : d.length - 65557 + i + 4 ≤ d.length := by
        obtain ⟨_, _, h, _⟩ := (hend (d.length - 65557 + i)).mpr ⟨i, rfl, rfl⟩
        exact ((magicAt_iff _ _ _).mp h).1
      dsimp only
      rw [panics_lift (u64Add_ok Cfg.debug (by omega)), zipEnd_panics d m _ _ hm hd hin]
      · constructor
        · intro h; exact ⟨_, ⟨i, rfl, rfl⟩, h⟩
        · rintro ⟨_, ⟨_, h, rfl⟩, h'⟩
          injection h with h
          subst h
          exact h'
      · intro x q h
        exact zipEntries_calm _ _ _ _ (panics_start.mp h).2
  · constructor
    · rintro ⟨_, h, _⟩; omega
    · rintro ⟨_, ⟨h, _⟩, _⟩; omega

/-! ### All readers -/

theorem reader_panics (d : Bytes) (m : Nat) (hm : d.length ≤ m) (hd : d.length < 2 ^ 63) (g : Feature) :
    Panics d m (readerOf Cfg.debug g).2 0 ↔ ReaderOverflows d m g := by
  have hsafe : g.unchecked = false → ¬ Panics d m (readerOf Cfg.debug g).2 0 := by
    intro hg
    by_cases h3 : g = .id3v2
    · subst h3
      exact panics_noCrash (id3v2_total Cfg.debug d m hd 0)
    · exact panics_noCrash (noCrash_run _ (reader_noCrash Cfg.debug g h3 (Or.inr hg)) d m 0)
  cases g with
  | asf => exact asfReader_panics d m hm
  | mp4 => exact mp4Reader_panics d m hm
  | zip => exact zipReader_panics d m hm hd
  | cfb => exact ⟨fun h => absurd h (hsafe rfl), fun h => h.elim⟩
  | ebml => exact ⟨fun h => absurd h (hsafe rfl), fun h => h.elim⟩
  | exe => exact ⟨fun h => absurd h (hsafe rfl), fun h => h.elim⟩
  | id3v2 => exact ⟨fun h => absurd h (hsafe rfl), fun h => h.elim⟩
  | pdf => exact ⟨fun h => absurd h (hsafe rfl), fun h => h.elim⟩
  | rm => exact ⟨fun h => absurd h (hsafe rfl), fun h => h.elim⟩
  | sqlite3 => exact ⟨fun h => absurd h (hsafe rfl), fun h => h.elim⟩
  | txt => exact ⟨fun h => absurd h (hsafe rfl), fun h => h.elim⟩
  | xml => exact ⟨fun h => absurd h (hsafe rfl), fun h => h.elim⟩

end FF
