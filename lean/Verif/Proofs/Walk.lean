import Verif.Proofs.Ends
import Verif.Proofs.Evidence
/-!
# The readers walk as specified, on any content
-/

namespace FF
open Spec FileFormat

/-! ## MP4 -/

/-- The flags after these handler types. -/
def mp4Tracks (seen : List Bytes) : Tracks :=
  ⟨decide (b!"soun" ∈ seen), decide (b!"vide" ∈ seen), decide (b!"sbtl" ∈ seen ∨ b!"subt" ∈ seen ∨ b!"text" ∈ seen)⟩

theorem mp4Verdict_tracks (seen : List Bytes) : mp4Verdict (mp4Tracks seen) = mp4Of seen := by
  simp only [mp4Verdict, mp4Tracks, mp4Of, decide_eq_true_eq]

theorem mp4Handler_tracks (x : Bytes) (seen : List Bytes) : mp4Handler x (mp4Tracks seen) = mp4Tracks (x :: seen) := by
  unfold mp4Handler
  split
  · rename_i h; subst h
    simp only [mp4Tracks, List.mem_cons]
    congr 1 <;> simp
  split
  · rename_i h1 h; subst h
    simp only [mp4Tracks, List.mem_cons]
    congr 1 <;> simp
  split
  · rename_i h1 h2 h
    simp only [mp4Tracks, List.mem_cons]
    rcases h with rfl | rfl | rfl <;> congr 1 <;> simp
  · rename_i h1 h2 h3
    simp only [not_or] at h3
    simp only [mp4Tracks, List.mem_cons, eq_comm (b := x), h1, h2, h3.1, h3.2.1, h3.2.2, false_or]

theorem ends_box {β : Type} {d : Bytes} {m p : Nat} {r : β} {k : Bytes → Nat → Prog β} :
    Ends d m (readU32be >>= fun s => readBytes 4 >>= fun t => mp4Size s >>= fun z => k t z) p r ↔
      ∃ t z q, BoxAt d p t z q ∧ z < 2 ^ 64 ∧ Ends d m (k t z) q r := by
  rw [ends_u32be, ends_bytes]
  unfold BoxAt
  constructor
  · rintro ⟨h1, h2, h⟩
    have h2' : p + 4 + 4 ≤ d.length := by omega
    have hm := magicAt_slice_iff.mpr ⟨h2', rfl⟩
    unfold mp4Size at h
    split at h
    · rename_i h3
      rw [ends_u64be] at h
      exact ⟨_, _, _, ⟨hm.1, hm.2, Or.inr ⟨h3, by omega, rfl, rfl⟩⟩, beAt_lt _ _ 8, h.2⟩
    · rename_i h3
      rw [ends_ok rfl] at h
      exact ⟨_, _, _, ⟨hm.1, hm.2, Or.inl ⟨h3, rfl, rfl⟩⟩, Nat.lt_trans (beAt_lt _ _ 4) (by decide), h⟩
  · rintro ⟨t, z, q, ⟨hm, hl, hb⟩, _, h⟩
    obtain ⟨h2, rfl⟩ := magicAt_slice_iff.mp ⟨hm, hl⟩
    refine ⟨by omega, Or.inr h2, ?_⟩
    unfold mp4Size
    rcases hb with ⟨h3, rfl, rfl⟩ | ⟨h3, h4, rfl, rfl⟩
    · rw [if_neg h3, ends_ok rfl]
      exact h
    · rw [if_pos h3, ends_u64be]
      exact ⟨by omega, h⟩

theorem boxAt_inside {b : Bytes} {p size q : Nat} {type : Bytes} (h : BoxAt b p type size q) : p + 8 ≤ q ∧ q ≤ b.length := by
  have := (magicAt_slice_iff.mp ⟨h.1, h.2.1⟩).1
  rcases h.2.2 with ⟨_, _, rfl⟩ | ⟨_, _, _, rfl⟩ <;> omega

theorem boxAt_size {b : Bytes} {p size q : Nat} {type : Bytes} (h : BoxAt b p type size q) : size < 2 ^ 64 := by
  rcases h.2.2 with ⟨_, rfl, _⟩ | ⟨_, _, rfl, _⟩
  · exact Nat.lt_trans (beAt_lt _ _ 4) (by decide)
  · exact beAt_lt _ _ 8

theorem mp4Loop_walk (d : Bytes) (m : Nat) (hm : d.length ≤ m) (n : Nat) (seen : List Bytes) (p : Nat) (f : FileFormat) :
    Ends d m (mp4Loop Cfg.release d.length n (mp4Tracks seen)) p f ↔ Mp4Walk d m n p seen f := by
  induction n generalizing seen p with
  | zero =>
    unfold mp4Loop
    rw [ends_pure, mp4Verdict_tracks]
    exact ⟨fun h => h ▸ .limit, fun h => by cases h; rfl⟩
  | succ n ih =>
    unfold mp4Loop
    rw [ends_pos]
    by_cases hp : p < d.length
    · rw [if_pos hp, ends_box]
      constructor
      · rintro ⟨t, z, q, hb, hz, h⟩
        split at h
        · rename_i ht
          exact .enter hb (by simpa using ht) ((ih _ _).mp h)
        split at h
        · rename_i _ ht
          subst ht
          rw [ends_current] at h
          obtain ⟨q1, hq1, h⟩ := h
          obtain ⟨rfl, _⟩ := (goes_lit 8 _ rfl).mp hq1
          rw [ends_bytes] at h
          obtain ⟨hl, h⟩ := h
          rw [ends_lift (i64Sub_release hz 20 (by decide)), ends_current] at h
          obtain ⟨r, hr, h⟩ := h
          rw [mp4Handler_tracks] at h
          have hx := magicAt_slice_iff.mpr ⟨show q + 8 + 4 ≤ d.length by omega, rfl⟩
          exact .handler hb hx.1 hx.2 hr ((ih _ _).mp h)
        · rename_i ht1 ht2
          rw [ends_lift (i64Sub_release hz 8 (by decide)), ends_current] at h
          obtain ⟨r, hr, h⟩ := h
          exact .skip hb (by simp only [not_or] at ht1; simp [ht1, ht2]) hr ((ih _ _).mp h)
      · intro h
        cases h with
        | finish h => omega
        | enter hb ht hw =>
          refine ⟨_, _, _, hb, boxAt_size hb, ?_⟩
          rw [if_pos (by simpa using ht)]
          exact (ih _ _).mpr hw
        | handler hb hx hl hg hw =>
          refine ⟨_, _, _, hb, boxAt_size hb, ?_⟩
          rw [if_neg (by decide), if_pos rfl]
          obtain ⟨h1, rfl⟩ := magicAt_slice_iff.mp ⟨hx, hl⟩
          rw [ends_current]
          refine ⟨_, (goes_lit 8 _ rfl).mpr ⟨rfl, by omega⟩, ?_⟩
          rw [ends_bytes]
          refine ⟨Or.inr (by omega), ?_⟩
          rw [ends_lift (i64Sub_release (boxAt_size hb) 20 (by decide)), ends_current]
          refine ⟨_, hg, ?_⟩
          rw [mp4Handler_tracks]
          exact (ih _ _).mpr hw
        | skip hb ht hg hw =>
          refine ⟨_, _, _, hb, boxAt_size hb, ?_⟩
          simp only [List.mem_cons, List.not_mem_nil, or_false, not_or] at ht
          rw [if_neg (by simp [ht]), if_neg ht.2.2.2]
          rw [ends_lift (i64Sub_release (boxAt_size hb) 8 (by decide)), ends_current]
          exact ⟨_, hg, (ih _ _).mpr hw⟩
    · rw [if_neg hp, ends_pure, mp4Verdict_tracks]
      constructor
      · rintro rfl
        exact .finish (by omega)
      · intro h
        cases h with
        | finish h => rfl
        | enter hb => have := boxAt_inside hb; omega
        | handler hb => have := boxAt_inside hb; omega
        | skip hb => have := boxAt_inside hb; omega

theorem mp4Reader_walk (d : Bytes) (m : Nat) (hm : d.length ≤ m) (f : FileFormat) :
    Ends d m (mp4Reader Cfg.release) 0 f ↔ Mp4Walk d m 256 0 [] f := by
  unfold mp4Reader
  rw [ends_end hm, ends_start]
  exact (and_iff_right (Nat.zero_le _)).trans (mp4Loop_walk d m hm 256 [] 0 f)

/-! ## EBML -/

theorem beAt_front (b : Bytes) (p n : Nat) : beAt b p (n + 1) = byteAt b p * 256 ^ n + beAt b (p + 1) n := by
  induction n with
  | zero => simp [beAt]
  | succ n ih =>
    rw [beAt, ih, beAt, Nat.pow_succ, Nat.mul_add, show p + 1 + n = p + (n + 1) by omega]
    have : 256 * (byteAt b p * 256 ^ n) = byteAt b p * (256 ^ n * 256) := by
      rw [Nat.mul_comm, Nat.mul_assoc]
    omega

theorem run_readMore {d : Bytes} {m n acc p : Nat} (h : n = 0 ∨ p + n ≤ d.length) :
    run d m (readMore n acc) p = .ok (acc * 256 ^ n + beAt d p n, p + n) := by
  induction n generalizing acc p with
  | zero => simp [readMore, run, beAt]
  | succ n ih =>
    have hl : p + (n + 1) ≤ d.length := by omega
    have h1 : run d m readU8 p = .ok (d.getD p 0, p + 1) := by
      unfold readU8
      rw [run_bind, run_rdExact_ok 1 p (by omega), andThen_ok, slice_one d p (by omega)]
      rfl
    rw [readMore, run_bind, h1, andThen_ok, ih (by omega), beAt_front]
    have hor : (acc <<< 8) ||| (d.getD p 0).toNat = acc * 256 + byteAt d p := by
      rw [← Nat.shiftLeft_add_eq_or_of_lt (UInt8.toNat_lt _), Nat.shiftLeft_eq]
      rfl
    rw [hor, Nat.add_mul, Nat.pow_succ, Nat.mul_assoc, Nat.mul_comm 256 (256 ^ n)]
    congr 2
    · omega
    · omega

theorem ends_more {β : Type} {d : Bytes} {m n acc p : Nat} {r : β} {k : Nat → Prog β} :
    Ends d m (readMore n acc >>= k) p r ↔
      (n = 0 ∨ p + n ≤ d.length) ∧ Ends d m (k (acc * 256 ^ n + beAt d p n)) (p + n) r := by
  by_cases h : n = 0 ∨ p + n ≤ d.length
  · rw [ends_ok (run_readMore h)]
    exact ⟨fun x => ⟨h, x⟩, fun x => x.2⟩
  · refine ⟨fun x => ?_, fun x => absurd x.1 h⟩
    cases hr : run d m (readMore n acc) p with
    | error e => exact absurd x (ends_error hr)
    | ok v => exact absurd (readMore_value _ _ _ _ _ _ _ hr).1 h

theorem vintAt_iff {d : Bytes} {p w : Nat} :
    VintAt d p w ↔ 1 ≤ w ∧ w ≤ 8 ∧ p + w ≤ d.length ∧ leadingZeros8 (d.getD p 0) = w - 1 := by
  unfold VintAt byteAt
  constructor
  · rintro ⟨h1, h2, h3, h4, h5⟩
    refine ⟨h1, h2, h3, leadingZeros_of (by omega) ?_ ?_⟩
    · rwa [show 7 - (w - 1) = 8 - w by omega]
    · rwa [show 8 - (w - 1) = 9 - w by omega]
  · rintro ⟨h1, h2, h3, h4⟩
    have := leadingZeros_bounds (d.getD p 0).toNat (UInt8.toNat_lt _)
    rw [UInt8.ofNat_toNat, h4, show 7 - (w - 1) = 8 - w by omega, show 8 - (w - 1) = 9 - w by omega] at this
    obtain ⟨a, b⟩ := this (by omega)
    exact ⟨h1, h2, h3, a, b⟩

/-- The marker of a number. -/
theorem vintAt_range {d : Bytes} {p w : Nat} (h : VintAt d p w) :
    2 ^ (7 * w) ≤ beAt d p w ∧ beAt d p w < 2 ^ (7 * w + 1) := by
  obtain ⟨h1, h2, _, h4, h5⟩ := h
  obtain ⟨n, rfl⟩ : ∃ n, w = n + 1 := ⟨w - 1, by omega⟩
  rw [beAt_front]
  have hlt := beAt_lt d (p + 1) n
  rw [show 8 - (n + 1) = 7 - n by omega] at h4
  rw [show 9 - (n + 1) = 8 - n by omega] at h5
  constructor
  · rw [← vint_marker n (by omega)]
    exact Nat.le_trans (Nat.mul_le_mul_right _ h4) (Nat.le_add_right _ _)
  · have e : 2 ^ (7 * (n + 1) + 1) = 2 ^ (8 - n) * 256 ^ n := by
      rw [Nat.pow_succ, ← vint_marker n (by omega), show 8 - n = (7 - n) + 1 by omega, Nat.pow_succ]
      rw [Nat.mul_right_comm]
    rw [e]
    calc byteAt d p * 256 ^ n + beAt d (p + 1) n < byteAt d p * 256 ^ n + 256 ^ n := Nat.add_lt_add_left hlt _
      _ = (byteAt d p + 1) * 256 ^ n := by rw [Nat.add_mul, Nat.one_mul]
      _ ≤ 2 ^ (8 - n) * 256 ^ n := Nat.mul_le_mul_right _ h5

theorem ends_id {β : Type} {d : Bytes} {m p : Nat} {r : β} {k : Nat → Prog β} :
    Ends d m (ebmlId >>= k) p r ↔ ∃ w, VintAt d p w ∧ w ≤ 4 ∧ Ends d m (k (beAt d p w)) (p + w) r := by
  unfold ebmlId
  rw [ends_assoc, ends_u8]
  constructor
  · rintro ⟨h1, h⟩
    dsimp only at h
    split at h
    · exact absurd h (ends_error rfl)
    · rename_i hz
      rw [ends_more] at h
      obtain ⟨h2, h⟩ := h
      generalize hw : leadingZeros8 (d.getD p 0) = w at *
      rw [show w + 1 - 1 = w by omega] at h2 h
      refine ⟨w + 1, vintAt_iff.mpr ⟨by omega, by omega, by omega, by omega⟩, by omega, ?_⟩
      rw [beAt_front, show p + (w + 1) = p + 1 + w by omega]
      exact h
  · rintro ⟨w, hv, hw, h⟩
    obtain ⟨h1, h2, h3, h4⟩ := vintAt_iff.mp hv
    obtain ⟨n, rfl⟩ : ∃ n, w = n + 1 := ⟨w - 1, by omega⟩
    refine ⟨by omega, ?_⟩
    dsimp only
    rw [h4, show n + 1 - 1 = n by omega, if_neg (by omega), ends_more, show n + 1 - 1 = n by omega]
    rw [beAt_front, show p + (n + 1) = p + 1 + n by omega] at h
    exact ⟨by omega, h⟩

theorem ends_size {β : Type} {d : Bytes} {m p : Nat} {r : β} {k : Nat → Prog β} :
    Ends d m (ebmlSize >>= k) p r ↔
      ∃ w v, VintAt d p w ∧ v + 2 ^ (7 * w) = beAt d p w ∧ Ends d m (k v) (p + w) r := by
  have key : ∀ n, VintAt d p (n + 1) →
      ((d.getD p 0).toNat &&& ((128 >>> n) - 1)) * 256 ^ n + beAt d (p + 1) n + 2 ^ (7 * (n + 1)) = beAt d p (n + 1) := by
    intro n hv
    obtain ⟨_, h2, _, h4, h5⟩ := hv
    rw [show 8 - (n + 1) = 7 - n by omega] at h4
    rw [show 9 - (n + 1) = 8 - n by omega] at h5
    have hs : (128 >>> n : Nat) = 2 ^ (7 - n) := by
      rw [Nat.shiftRight_eq_div_pow, show (128 : Nat) = 2 ^ 7 from rfl, Nat.pow_div (by omega) (by decide)]
    have hp : 2 ^ (8 - n) = 2 ^ (7 - n) + 2 ^ (7 - n) := by
      rw [show 8 - n = 7 - n + 1 by omega, Nat.pow_succ]; omega
    have hmask : (d.getD p 0).toNat &&& ((128 >>> n) - 1) = byteAt d p - 2 ^ (7 - n) := by
      show byteAt d p &&& _ = _
      rw [hs, Nat.and_two_pow_sub_one_eq_mod, Nat.mod_eq_sub_mod h4, Nat.mod_eq_of_lt (by omega)]
    have hle : 2 ^ (7 - n) * 256 ^ n ≤ byteAt d p * 256 ^ n := Nat.mul_le_mul_right _ h4
    rw [hmask, beAt_front, ← vint_marker n (by omega), Nat.sub_mul]
    omega
  unfold ebmlSize
  rw [ends_assoc, ends_u8]
  constructor
  · rintro ⟨h1, h⟩
    dsimp only at h
    split at h
    · exact absurd h (ends_error rfl)
    · rename_i hz
      rw [ends_more] at h
      obtain ⟨h2, h⟩ := h
      generalize hw : leadingZeros8 (d.getD p 0) = w at *
      rw [show w + 1 - 1 = w by omega] at h2 h
      have hv : VintAt d p (w + 1) := vintAt_iff.mpr ⟨by omega, by omega, by omega, by omega⟩
      refine ⟨w + 1, _, hv, key w hv, ?_⟩
      rw [show p + (w + 1) = p + 1 + w by omega]
      exact h
  · rintro ⟨w, v, hv, hw, h⟩
    obtain ⟨h1, h2, h3, h4⟩ := vintAt_iff.mp hv
    obtain ⟨n, rfl⟩ : ∃ n, w = n + 1 := ⟨w - 1, by omega⟩
    have hk := key n hv
    refine ⟨by omega, ?_⟩
    dsimp only
    rw [h4, show n + 1 - 1 = n by omega, if_neg (by omega), ends_more, show n + 1 - 1 = n by omega]
    rw [show p + (n + 1) = p + 1 + n by omega, show v = _ from (Nat.add_right_cancel (hw.trans hk.symm))] at h
    exact ⟨by omega, h⟩

/-- Bytes that start with the marker of their length. -/
def IdBytes (x : Bytes) : Prop := 2 ^ (7 * x.length) ≤ beNat x ∧ beNat x < 2 ^ (7 * x.length + 1)

theorem idBytes_eq {x c : Bytes} (hx : IdBytes x) (hc : IdBytes c) : beNat x = beNat c ↔ x = c := by
  refine ⟨fun h => beNat_inj ?_ h, fun h => h ▸ rfl⟩
  have a : 7 * x.length < 7 * c.length + 1 := (Nat.pow_lt_pow_iff_right (by decide)).mp (Nat.lt_of_le_of_lt hx.1 (h ▸ hc.2))
  have b : 7 * c.length < 7 * x.length + 1 := (Nat.pow_lt_pow_iff_right (by decide)).mp (Nat.lt_of_le_of_lt hc.1 (h ▸ hx.2))
  omega

theorem ends_header {β : Type} {d : Bytes} {m p : Nat} {r : β} {k : Nat → Nat → Prog β} :
    Ends d m (ebmlId >>= fun id => ebmlSize >>= fun size => k id size) p r ↔
      ∃ x size q, HeaderAt d p x size q ∧ Ends d m (k (beNat x) size) q r := by
  rw [ends_id]
  constructor
  · rintro ⟨w, hv, hw, h⟩
    rw [ends_size] at h
    obtain ⟨j, v, hj, hjv, h⟩ := h
    have hx := magicAt_slice_iff.mpr ⟨hv.2.2.1, rfl⟩
    refine ⟨_, v, _, ⟨w, j, hv, hw, hx.1, hx.2, hj, hjv, rfl⟩, ?_⟩
    rwa [beNat_at _ _ _ hv.2.2.1]
  · rintro ⟨x, size, q, ⟨w, j, hv, hw, hx, hl, hj, hjv, rfl⟩, h⟩
    obtain ⟨h1, rfl⟩ := magicAt_slice_iff.mp ⟨hx, hl⟩
    rw [beNat_at _ _ _ h1] at h
    exact ⟨w, hv, hw, ends_size.mpr ⟨j, size, hj, hjv, h⟩⟩

theorem headerAt_id {d : Bytes} {p size q : Nat} {x : Bytes} (h : HeaderAt d p x size q) : IdBytes x := by
  obtain ⟨w, j, hv, hw, hx, hl, hj, hjv, rfl⟩ := h
  obtain ⟨h1, rfl⟩ := magicAt_slice_iff.mp ⟨hx, hl⟩
  unfold IdBytes
  rw [beNat_at _ _ _ h1, hl]
  exact vintAt_range hv

theorem headerAt_inside {d : Bytes} {p size q : Nat} {x : Bytes} (h : HeaderAt d p x size q) : p < q ∧ q ≤ d.length ∧ size < 2 ^ 56 := by
  obtain ⟨w, j, hv, hw, hx, hl, hj, hjv, rfl⟩ := h
  have h1 := vintAt_range hj
  obtain ⟨h2, h3, h4, _⟩ := hj
  have h5 := hv.1
  have h6 : 2 ^ (7 * j) ≤ 2 ^ 56 := Nat.pow_le_pow_right (by decide) (by omega)
  have h7 : 2 ^ (7 * j + 1) = 2 * 2 ^ (7 * j) := by rw [Nat.pow_succ, Nat.mul_comm]
  omega

/-- The flags after these codec IDs. -/
def ebmlTracks (seen : List Bytes) : Tracks :=
  ⟨decide (∃ c ∈ seen, b!"A_" <+: c), decide (∃ c ∈ seen, b!"V_" <+: c), decide (∃ c ∈ seen, b!"S_" <+: c)⟩

theorem ebmlVerdict_tracks (seen : List Bytes) : ebmlVerdict (ebmlTracks seen) = ebmlOf seen := by
  simp only [ebmlVerdict, ebmlTracks, ebmlOf, decide_eq_true_eq]

theorem prefix_two {a b c e : UInt8} {x : Bytes} (h : [a, b] <+: x) (h' : [c, e] <+: x) : a = c ∧ b = e := by
  obtain ⟨t, rfl⟩ := h
  obtain ⟨u, hu⟩ := h'
  injection hu with h1 hu
  injection hu with h2 hu
  exact ⟨h1.symm, h2.symm⟩

theorem ebmlCodec_tracks (x : Bytes) (seen : List Bytes) : ebmlCodec x (ebmlTracks seen) = ebmlTracks (x :: seen) := by
  unfold ebmlCodec
  simp only [startsWith_iff]
  split
  · rename_i h
    have h1 : ¬ b!"V_" <+: x := fun h' => absurd (prefix_two h h').1 (by decide)
    have h2 : ¬ b!"S_" <+: x := fun h' => absurd (prefix_two h h').1 (by decide)
    simp only [ebmlTracks, List.mem_cons, exists_eq_or_imp, h, h1, h2, true_or, false_or, decide_true]
  split
  · rename_i h1 h
    have h2 : ¬ b!"S_" <+: x := fun h' => absurd (prefix_two h h').1 (by decide)
    simp only [ebmlTracks, List.mem_cons, exists_eq_or_imp, h, h1, h2, true_or, false_or, decide_true]
  split
  · rename_i h1 h2 h
    simp only [ebmlTracks, List.mem_cons, exists_eq_or_imp, h, h1, h2, true_or, false_or, decide_true]
  · rename_i h1 h2 h3
    simp only [ebmlTracks, List.mem_cons, exists_eq_or_imp, h1, h2, h3, false_or]

theorem idConst {x : Bytes} (hx : IdBytes x) (n : Nat) (c : Bytes) (hn : n = beNat c) (hc : IdBytes c) : beNat x = n ↔ x = c := by
  rw [hn]; exact idBytes_eq hx hc

/-- The rest of an element. -/
theorem goes_rest {m q size limit r : Nat} (hs : size < 2 ^ 56) :
    Goes m (q + min limit size) (asI64 (size - limit)) r ↔ Goes m q size r := by
  rw [asI64_small (by omega)]
  unfold Goes
  omega

theorem ebmlLoop_walk (d : Bytes) (m : Nat) (hm : d.length ≤ m) (n : Nat) (seen : List Bytes) (p : Nat) (f : FileFormat) :
    Ends d m (ebmlLoop d.length n (ebmlTracks seen)) p f ↔ EbmlWalk d m n p seen f := by
  induction n generalizing seen p with
  | zero =>
    unfold ebmlLoop
    rw [ends_pure, ebmlVerdict_tracks]
    exact ⟨fun h => h ▸ .limit, fun h => by cases h; rfl⟩
  | succ n ih =>
    have hmas : ∀ x, IdBytes x → ((beNat x = ebmlEbmlId ∨ beNat x = ebmlSegmentId ∨ beNat x = ebmlTracksId ∨
        beNat x = ebmlTrackEntryId ∨ beNat x = ebmlVideoId) ↔ x ∈ ebmlMasters) := by
      intro x hx
      rw [idConst hx ebmlEbmlId [0x1A, 0x45, 0xDF, 0xA3] (by decide) (by unfold IdBytes; decide),
        idConst hx ebmlSegmentId [0x18, 0x53, 0x80, 0x67] (by decide) (by unfold IdBytes; decide),
        idConst hx ebmlTracksId [0x16, 0x54, 0xAE, 0x6B] (by decide) (by unfold IdBytes; decide),
        idConst hx ebmlTrackEntryId [0xAE] (by decide) (by unfold IdBytes; decide),
        idConst hx ebmlVideoId [0xE0] (by decide) (by unfold IdBytes; decide)]
      simp only [ebmlMasters, List.mem_cons, List.not_mem_nil, or_false]
    have hdoc : ∀ x, IdBytes x → (beNat x = ebmlDocTypeId ↔ x = [0x42, 0x82]) :=
      fun x hx => idConst hx _ _ (by decide) (by unfold IdBytes; decide)
    have hcod : ∀ x, IdBytes x → (beNat x = ebmlCodecIdId ↔ x = [0x86]) :=
      fun x hx => idConst hx _ _ (by decide) (by unfold IdBytes; decide)
    have hste : ∀ x, IdBytes x → (beNat x = ebmlStereoModeId ↔ x = [0x53, 0xB8]) :=
      fun x hx => idConst hx _ _ (by decide) (by unfold IdBytes; decide)
    have hclu : ∀ x, IdBytes x → (beNat x = ebmlClusterId ↔ x = [0x1F, 0x43, 0xB6, 0x75]) :=
      fun x hx => idConst hx _ _ (by decide) (by unfold IdBytes; decide)
    unfold ebmlLoop
    rw [ends_pos]
    by_cases hp : p < d.length
    · rw [if_pos hp, ends_header]
      constructor
      · rintro ⟨x, z, q, hh, h⟩
        have hid := headerAt_id hh
        obtain ⟨_, hq, hz⟩ := headerAt_inside hh
        simp only [hmas x hid, hdoc x hid, hcod x hid, hste x hid, hclu x hid] at h
        split at h
        · rename_i hx
          exact .enter hh hx ((ih _ _).mp h)
        split at h
        · rename_i hx
          subst hx
          rw [ends_bytes] at h
          obtain ⟨hl, h⟩ := h
          have hv := magicAt_slice_iff.mpr ⟨show q + min ebmlDocTypeLimit z ≤ d.length by omega, rfl⟩
          simp only [startsWith_iff] at h
          split at h
          · rename_i hw
            rw [ends_pure] at h
            subst h
            exact .webm hh hv.1 hv.2 hw
          split at h
          · rename_i hw hk
            rw [ends_pure] at h
            subst h
            exact .foreign hh hv.1 hv.2 hw (fun e => hk (e ▸ List.prefix_rfl))
          · rename_i hw hk
            simp only [Classical.not_not] at hk
            rw [ends_current] at h
            obtain ⟨r, hr, h⟩ := h
            have h8 : 8 ≤ z := by
              have := hk.length_le
              rw [hv.2] at this
              have : b!"matroska".length = 8 := rfl
              have : ebmlDocTypeLimit = 8 := rfl
              omega
            exact .matroska hh (magicAt_prefix hk (by omega)) h8 ((goes_rest hz).mp hr) ((ih _ _).mp h)
        split at h
        · rename_i hx
          subst hx
          rw [ends_bytes] at h
          obtain ⟨hl, h⟩ := h
          rw [ends_current] at h
          obtain ⟨r, hr, h⟩ := h
          rw [ebmlCodec_tracks] at h
          have hv := magicAt_slice_iff.mpr ⟨show q + min ebmlCodecIdLimit z ≤ d.length by omega, rfl⟩
          exact .codec hh hv.1 hv.2 ((goes_rest hz).mp hr) ((ih _ _).mp h)
        split at h
        · rename_i hx
          subst hx
          rw [ends_u8] at h
          obtain ⟨hl, h⟩ := h
          have hv := magicAt_slice_iff.mpr ⟨hl, (slice_one d q (by omega)).symm⟩
          split at h
          · rename_i h0
            rw [ends_pure] at h
            subst h
            refine .stereo hh hv.1 ?_
            intro e
            rw [e] at h0
            exact absurd h0 (by decide)
          · rename_i h0
            have : d.getD q 0 = 0 := UInt8.toNat_inj.mp (by simpa using h0)
            rw [this] at hv
            exact .mono hh hv.1 ((ih _ _).mp h)
        split at h
        · rename_i hx
          subst hx
          rw [ends_pure, ebmlVerdict_tracks] at h
          subst h
          exact .cluster hh
        · rename_i h1 h2 h3 h4 h5
          rw [ends_current] at h
          obtain ⟨r, hr, h⟩ := h
          rw [asI64_small (by omega)] at hr
          refine .skip hh ?_ hr ((ih _ _).mp h)
          rw [List.mem_append, not_or]
          exact ⟨h1, by simp [h2, h3, h4, h5]⟩
      · intro h
        cases h with
        | finish h => omega
        | enter hh hi hw =>
          have hid := headerAt_id hh
          refine ⟨_, _, _, hh, ?_⟩
          rw [if_pos ((hmas _ hid).mpr hi)]
          exact (ih _ _).mpr hw
        | webm hh hx hl hw =>
          refine ⟨_, _, _, hh, ?_⟩
          rw [if_neg (by decide), if_pos (by decide)]
          obtain ⟨h1, rfl⟩ := magicAt_slice_iff.mp ⟨hx, hl⟩
          rw [ends_bytes]
          refine ⟨Or.inr h1, ?_⟩
          rw [show ebmlDocTypeLimit = 8 from rfl, if_pos (startsWith_iff.mpr hw), ends_pure]
        | foreign hh hx hl hw hn =>
          refine ⟨_, _, _, hh, ?_⟩
          rw [if_neg (by decide), if_pos (by decide)]
          obtain ⟨h1, rfl⟩ := magicAt_slice_iff.mp ⟨hx, hl⟩
          rw [ends_bytes]
          refine ⟨Or.inr h1, ?_⟩
          rw [show ebmlDocTypeLimit = 8 from rfl, if_neg (fun h => hw (startsWith_iff.mp h)), if_pos, ends_pure]
          intro h
          have hk := startsWith_iff.mp h
          refine hn (hk.eq_of_length ?_).symm
          have h8 := hk.length_le
          have e : b!"matroska".length = 8 := rfl
          rw [hl] at h8 ⊢
          omega
        | @matroska _ _ z q r _ _ hh hk hs hg hw =>
          have hz := (headerAt_inside hh).2.2
          refine ⟨_, _, _, hh, ?_⟩
          rw [if_neg (by decide), if_pos (by decide)]
          have hk' := (magicAt_iff _ _ _).mp hk
          have e8 : min ebmlDocTypeLimit z = 8 := Nat.min_eq_left hs
          have hsl : slice d q (min ebmlDocTypeLimit z) = b!"matroska" := by rw [e8]; exact hk'.2
          rw [ends_bytes]
          refine ⟨Or.inr (by rw [e8]; exact hk'.1), ?_⟩
          rw [hsl, if_neg (by decide), if_neg (by decide), ends_current]
          exact ⟨_, (goes_rest hz).mpr hg, (ih _ _).mpr hw⟩
        | codec hh hx hl hg hw =>
          have hz := (headerAt_inside hh).2.2
          refine ⟨_, _, _, hh, ?_⟩
          rw [if_neg (by decide), if_neg (by decide), if_pos (by decide)]
          obtain ⟨h1, rfl⟩ := magicAt_slice_iff.mp ⟨hx, hl⟩
          rw [ends_bytes]
          refine ⟨Or.inr h1, ?_⟩
          rw [ends_current]
          refine ⟨_, (goes_rest hz).mpr hg, ?_⟩
          rw [ebmlCodec_tracks]
          exact (ih _ _).mpr hw
        | mono hh hx hw =>
          refine ⟨_, _, _, hh, ?_⟩
          rw [if_neg (by decide), if_neg (by decide), if_neg (by decide), if_pos (by decide)]
          have h1 := magicAt_slice_iff.mp ⟨hx, rfl⟩
          have h2 := h1.2
          have hl : _ + 1 ≤ d.length := h1.1
          rw [show ([0] : Bytes).length = 1 from rfl, slice_one d _ (by omega)] at h2
          rw [ends_u8]
          refine ⟨hl, ?_⟩
          have h3 : d.getD _ 0 = 0 := (List.singleton_inj.mp h2).symm
          rw [h3, if_neg (by decide)]
          exact (ih _ _).mpr hw
        | stereo hh hx hn =>
          refine ⟨_, _, _, hh, ?_⟩
          rw [if_neg (by decide), if_neg (by decide), if_neg (by decide), if_pos (by decide)]
          have h1 := magicAt_slice_iff.mp ⟨hx, rfl⟩
          have h2 := h1.2
          have hl : _ + 1 ≤ d.length := h1.1
          rw [show ∀ x : UInt8, ([x] : Bytes).length = 1 from fun _ => rfl, slice_one d _ (by omega)] at h2
          rw [ends_u8]
          refine ⟨hl, ?_⟩
          have h3 : d.getD _ 0 = _ := (List.singleton_inj.mp h2).symm
          rw [h3, if_pos, ends_pure]
          rcases Nat.eq_zero_or_pos _ with h | h
          · exact absurd (UInt8.toNat_inj.mp h) hn
          · exact h
        | cluster hh =>
          refine ⟨_, _, _, hh, ?_⟩
          rw [if_neg (by decide), if_neg (by decide), if_neg (by decide), if_neg (by decide), if_pos (by decide), ends_pure,
            ebmlVerdict_tracks]
        | skip hh hi hg hw =>
          have hid := headerAt_id hh
          have hz := (headerAt_inside hh).2.2
          refine ⟨_, _, _, hh, ?_⟩
          rw [List.mem_append, not_or] at hi
          obtain ⟨h1, h2⟩ := hi
          simp only [List.mem_cons, List.not_mem_nil, or_false, not_or] at h2
          simp only [hmas _ hid, hdoc _ hid, hcod _ hid, hste _ hid, hclu _ hid, if_neg h1, if_neg h2.1, if_neg h2.2.1,
            if_neg h2.2.2.1, if_neg h2.2.2.2]
          rw [ends_current, asI64_small (by omega)]
          exact ⟨_, hg, (ih _ _).mpr hw⟩
    · rw [if_neg hp, ends_pure, ebmlVerdict_tracks]
      have no : ∀ {x z q}, HeaderAt d p x z q → False := fun hh => by have := headerAt_inside hh; omega
      constructor
      · rintro rfl
        exact .finish (by omega)
      · intro h
        cases h with
        | finish h => rfl
        | enter hh => exact (no hh).elim
        | webm hh => exact (no hh).elim
        | foreign hh => exact (no hh).elim
        | matroska hh => exact (no hh).elim
        | codec hh => exact (no hh).elim
        | mono hh => exact (no hh).elim
        | stereo hh => exact (no hh).elim
        | cluster hh => exact (no hh).elim
        | skip hh => exact (no hh).elim

theorem ebmlReader_walk (d : Bytes) (m : Nat) (hm : d.length ≤ m) (f : FileFormat) :
    Ends d m ebmlReader 0 f ↔ EbmlWalk d m 256 0 [] f := by
  unfold ebmlReader
  rw [ends_end hm, ends_start]
  exact (and_iff_right (Nat.zero_le _)).trans (ebmlLoop_walk d m hm 256 [] 0 f)

end FF
