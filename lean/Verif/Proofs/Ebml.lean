import Verif.Spec.Ebml
import Verif.Proofs.Realmedia
/-!
# The EBML reader on encoded files
-/

namespace FF
open Spec FileFormat

/-! ## Variable-length integers -/

theorem leBytes_succ (k n : Nat) : leBytes (k + 1) n = leBytes k n ++ [UInt8.ofNat (n / 256 ^ k % 256)] := by
  induction k generalizing n with
  | zero => simp [leBytes]
  | succ k ih =>
    rw [leBytes, ih (n / 256), leBytes, List.cons_append, Nat.div_div_eq_div_mul, Nat.pow_succ, Nat.mul_comm 256]

theorem beBytes_succ (k n : Nat) : beBytes (k + 1) n = UInt8.ofNat (n / 256 ^ k % 256) :: beBytes k n := by
  rw [beBytes, leBytes_succ, List.reverse_append]; rfl

theorem leBytes_mod (k n : Nat) : leBytes k (n % 256 ^ k) = leBytes k n := by
  induction k generalizing n with
  | zero => rfl
  | succ k ih =>
    rw [leBytes, leBytes]
    have h1 : n % 256 ^ (k + 1) % 256 = n % 256 := by
      rw [Nat.pow_succ, Nat.mul_comm]
      exact Nat.mod_mul_right_mod n 256 (256 ^ k)
    have h2 : n % 256 ^ (k + 1) / 256 = n / 256 % 256 ^ k := by
      rw [Nat.pow_succ, Nat.mul_comm, Nat.mod_mul_right_div_self]
    rw [h1, h2, ih]

theorem beNat_beBytes_mod (k n : Nat) : beNat (beBytes k n) = n % 256 ^ k := by
  rw [beBytes, ← leBytes_mod, ← beBytes, beNat_beBytes]
  exact Nat.mod_lt _ (Nat.pow_pos (by decide))

theorem foldl_be (x : Bytes) (acc : Nat) :
    x.foldl (fun a b => a * 256 + b.toNat) acc = acc * 256 ^ x.length + beNat x := by
  induction x generalizing acc with
  | nil => simp [beNat]
  | cons b x ih =>
    have e : beNat (b :: x) = (0 * 256 + b.toNat) * 256 ^ x.length + beNat x := ih (0 * 256 + b.toNat)
    rw [List.foldl_cons, ih, e, List.length_cons, Nat.pow_succ, Nat.add_mul, Nat.zero_mul, Nat.zero_add, Nat.mul_assoc,
      Nat.mul_comm 256 (256 ^ x.length), Nat.add_assoc]

theorem readMore_run (d : Bytes) (m p : Nat) (x r : Bytes) (acc : Nat) (h : At d p (x ++ r)) :
    run d m (readMore x.length acc) p = .ok (acc * 256 ^ x.length + beNat x, p + x.length) := by
  rw [← foldl_be]
  induction x generalizing p acc with
  | nil => rfl
  | cons b x ih =>
    have h0 : At d p (b :: (x ++ r)) := h
    have h1 : At d (p + 1) (x ++ r) := h.skip' (x := [b]) rfl
    rw [List.length_cons, readMore, run_bind, At.readU8 h0, andThen_ok, ih _ _ h1, List.foldl_cons]
    have hb := b.toNat_lt
    rw [← Nat.shiftLeft_add_eq_or_of_lt (i := 8) (by omega), Nat.shiftLeft_eq]
    congr 2
    omega

theorem pow256 (k : Nat) : 256 ^ k = 2 ^ (8 * k) := by
  rw [show (256 : Nat) = 2 ^ 8 from rfl, ← Nat.pow_mul]

theorem vint_marker (k : Nat) (hk : k ≤ 7) : 2 ^ (7 - k) * 256 ^ k = 2 ^ (7 * (k + 1)) := by
  rw [pow256, ← Nat.pow_add]; congr 1; omega

/-- First byte of a variable-length integer with marker. -/
theorem vint_first (k n : Nat) (hk : k ≤ 7) (h1 : 2 ^ (7 * (k + 1)) ≤ n) (h2 : n < 2 ^ (7 * (k + 1) + 1)) :
    n / 256 ^ k % 256 = n / 256 ^ k ∧ 2 ^ (7 - k) ≤ n / 256 ^ k ∧ n / 256 ^ k < 2 ^ (8 - k) := by
  have hpos : 0 < 256 ^ k := Nat.pow_pos (by decide)
  have hm := vint_marker k hk
  have e8 : 2 ^ (8 - k) = 2 ^ (7 - k) * 2 := by rw [show 8 - k = 7 - k + 1 by omega, Nat.pow_succ]
  have lo : 2 ^ (7 - k) ≤ n / 256 ^ k := (Nat.le_div_iff_mul_le hpos).mpr (by rw [hm]; exact h1)
  have hi : n / 256 ^ k < 2 ^ (8 - k) := (Nat.div_lt_iff_lt_mul hpos).mpr (by
    rw [e8, Nat.mul_right_comm, hm, ← Nat.pow_succ]; exact h2)
  have h256 : 2 ^ (8 - k) ≤ 2 ^ 8 := Nat.pow_le_pow_right (by decide) (by omega)
  exact ⟨Nat.mod_eq_of_lt (by omega), lo, hi⟩

theorem leadingZeros_of {b : UInt8} {k : Nat} (hk : k ≤ 7) (h1 : 2 ^ (7 - k) ≤ b.toNat) (h2 : b.toNat < 2 ^ (8 - k)) :
    leadingZeros8 b = k := by
  unfold leadingZeros8
  match k, hk with
  | 0, _ => simp at *; omega
  | 1, _ => simp at *; split <;> omega
  | 2, _ => simp at *; repeat (first | omega | split)
  | 3, _ => simp at *; repeat (first | omega | split)
  | 4, _ => simp at *; repeat (first | omega | split)
  | 5, _ => simp at *; repeat (first | omega | split)
  | 6, _ => simp at *; repeat (first | omega | split)
  | 7, _ => simp at *; repeat (first | omega | split)

theorem ebmlId_run (d : Bytes) (m p w id : Nat) (r : Bytes) (hw : IsId w id) (h : At d p (beBytes w id ++ r)) :
    run d m ebmlId p = .ok (id, p + w) := by
  obtain ⟨h1, h4, hlo, hhi⟩ := hw
  obtain ⟨k, rfl⟩ : ∃ k, w = k + 1 := ⟨w - 1, by omega⟩
  obtain ⟨e, f1, f2⟩ := vint_first k id (by omega) hlo hhi
  have hf : 2 ^ (8 - k) ≤ 256 := by
    rw [show 256 = 2 ^ 8 from rfl]; exact Nat.pow_le_pow_right (by decide) (by omega)
  have ht : (UInt8.ofNat (id / 256 ^ k % 256)).toNat = id / 256 ^ k := by
    rw [toNat_ofNat_lt (by omega), e]
  have hlz : leadingZeros8 (UInt8.ofNat (id / 256 ^ k % 256)) = k := leadingZeros_of (by omega) (by rw [ht]; exact f1) (by rw [ht]; exact f2)
  rw [beBytes_succ] at h
  have h0 : At d p (UInt8.ofNat (id / 256 ^ k % 256) :: (beBytes k id ++ r)) := h
  have h2 : At d (p + 1) (beBytes k id ++ r) := h0.skip' (x := [_]) rfl
  have hr := readMore_run d m (p + 1) (beBytes k id) r (id / 256 ^ k) h2
  rw [length_beBytes, beNat_beBytes_mod] at hr
  unfold ebmlId
  rw [run_bind, At.readU8 h0, andThen_ok, hlz, if_neg (by omega), Nat.add_sub_cancel, ht, hr]
  congr 2
  · rw [Nat.mul_comm]; exact Nat.div_add_mod id (256 ^ k)
  · omega

theorem ebmlSize_run (d : Bytes) (m p w v : Nat) (r : Bytes) (hw : FitsVint w v) (h : At d p (vint w v ++ r)) :
    run d m ebmlSize p = .ok (v, p + w) := by
  obtain ⟨h1, h8, hv⟩ := hw
  obtain ⟨k, rfl⟩ : ∃ k, w = k + 1 := ⟨w - 1, by omega⟩
  unfold vint at h
  generalize hn : 2 ^ (7 * (k + 1)) + v = n at h
  obtain ⟨e, f1, f2⟩ := vint_first k n (by omega) (by omega) (by rw [Nat.pow_succ]; omega)
  have hf : 2 ^ (8 - k) ≤ 256 := by
    rw [show 256 = 2 ^ 8 from rfl]; exact Nat.pow_le_pow_right (by decide) (by omega)
  have ht : (UInt8.ofNat (n / 256 ^ k % 256)).toNat = n / 256 ^ k := by
    rw [toNat_ofNat_lt (by omega), e]
  have hlz : leadingZeros8 (UInt8.ofNat (n / 256 ^ k % 256)) = k := leadingZeros_of (by omega) (by rw [ht]; exact f1) (by rw [ht]; exact f2)
  rw [beBytes_succ] at h
  have h0 : At d p (UInt8.ofNat (n / 256 ^ k % 256) :: (beBytes k n ++ r)) := h
  have h2 : At d (p + 1) (beBytes k n ++ r) := h0.skip' (x := [_]) rfl
  have hr := readMore_run d m (p + 1) (beBytes k n) r (n / 256 ^ k - 2 ^ (7 - k)) h2
  rw [length_beBytes, beNat_beBytes_mod] at hr
  have hmask : n / 256 ^ k &&& ((128 >>> k) - 1) = n / 256 ^ k - 2 ^ (7 - k) := by
    have hs : (128 >>> k : Nat) = 2 ^ (7 - k) := by
      rw [Nat.shiftRight_eq_div_pow, show (128 : Nat) = 2 ^ 7 from rfl, Nat.pow_div (by omega) (by decide)]
    have hp : 2 ^ (8 - k) = 2 ^ (7 - k) + 2 ^ (7 - k) := by
      rw [show 8 - k = 7 - k + 1 by omega, Nat.pow_succ]; omega
    rw [hs, Nat.and_two_pow_sub_one_eq_mod, Nat.mod_eq_sub_mod f1, Nat.mod_eq_of_lt (by omega)]
  unfold ebmlSize
  rw [run_bind, At.readU8 h0, andThen_ok, hlz, if_neg (by omega), Nat.add_sub_cancel, ht, hmask, hr]
  have hmark := vint_marker k (by omega)
  have hsum := Nat.div_add_mod n (256 ^ k)
  have hle : 2 ^ (7 - k) * 256 ^ k ≤ n / 256 ^ k * 256 ^ k := Nat.mul_le_mul_right _ f1
  rw [hmark] at hle
  rw [Nat.mul_comm] at hsum
  congr 2
  · rw [Nat.sub_mul, hmark]; omega
  · omega

/-! ## The loop -/

/-- The verdict, element by element. -/
def ebmlEval : List EbmlElement → Tracks → FileFormat
  | [], t => ebmlVerdict t
  | e :: es, t =>
    match e with
    | .container .. => ebmlEval es t
    | .docType _ v =>
      if startsWith v b!"webm" then Webm
      else if ¬ startsWith v b!"matroska" then ExtensibleBinaryMetaLanguage else ebmlEval es t
    | .codecId _ v => ebmlEval es (ebmlCodec v t)
    | .stereoMode _ b => if b.toNat > 0 then Matroska3dVideo else ebmlEval es t
    | .cluster .. => ebmlVerdict t
    | .other .. => ebmlEval es t

theorem startsWith_take {v p : Bytes} {n : Nat} (h : p.length ≤ n) : startsWith (v.take n) p = startsWith v p := by
  rw [Bool.eq_iff_iff, startsWith_iff, startsWith_iff, List.prefix_iff_eq_take, List.prefix_iff_eq_take,
    List.take_take, Nat.min_eq_left h]

theorem ebmlCodec_take (v : Bytes) (t : Tracks) : ebmlCodec (v.take 64) t = ebmlCodec v t := by
  unfold ebmlCodec
  rw [startsWith_take (by decide), startsWith_take (by decide), startsWith_take (by decide)]

/-- A limited read of the value and the skip of its remainder. -/
theorem limited_run {α : Type} (d : Bytes) (hd : d.length < 2 ^ 63) (m : Nat) (hm : d.length ≤ m) (p limit : Nat)
    (v r : Bytes) (h : At d p (v ++ r)) (k : Bytes → Prog α) (k' : Bytes → Nat → Prog α) (hk : ∀ x, k x = (do
      let s ← Prog.sk (.current (asI64 (v.length - limit)))
      k' x s)) :
    run d m (readBytes (min limit v.length) >>= k) p = run d m (k' (v.take limit) (p + v.length)) (p + v.length) := by
  have hl := h.len
  rw [List.length_append] at hl
  have h0 : At d p (v.take limit ++ (v.drop limit ++ r)) := by
    rw [← List.append_assoc, List.take_append_drop]; exact h
  have h1 := h0.skip
  rw [run_bind, h0.readBytes (n := min limit v.length) (by simp), andThen_ok, hk, run_bind]
  have hlen : (v.take limit).length = min limit v.length := by simp
  rw [hlen] at h1
  rw [asI64_small (by omega), h1.sk (by simp) hm, andThen_ok]
  have : p + min limit v.length + (v.drop limit).length = p + v.length := by simp; omega
  rw [this]

theorem length_vint (w v : Nat) : (vint w v).length = w := length_beBytes _ _

theorem ebmlHeader_run {α : Type} (d : Bytes) (m p w id sw size : Nat) (r : Bytes) (hid : IsId w id)
    (hsz : FitsVint sw size) (h : At d p (beBytes w id ++ (vint sw size ++ r))) (k : Nat → Nat → Prog α) :
    run d m (do
      let id ← ebmlId
      let size ← ebmlSize
      k id size) p = run d m (k id size) (p + w + sw) := by
  have h1 := h.skip' (length_beBytes w id)
  rw [run_bind, ebmlId_run d m p w id _ hid h, andThen_ok, run_bind, ebmlSize_run d m _ sw size _ hsz h1, andThen_ok]

theorem ebmlLoop_beyond (d : Bytes) (m n p : Nat) (hp : d.length ≤ p) (t : Tracks) :
    val (run d m (ebmlLoop d.length n t) p) = .ok (ebmlVerdict t) := by
  cases n with
  | zero => rfl
  | succ n =>
    rw [ebmlLoop, run_bind, run_pos, andThen_ok, if_neg (by omega)]
    rfl

theorem fitsVint_lt {w v : Nat} (h : FitsVint w v) : v < 2 ^ 56 := by
  obtain ⟨_, h8, hv⟩ := h
  exact Nat.lt_of_lt_of_le hv (Nat.pow_le_pow_right (by decide) (by omega))

/-- The loop at the last element. -/
theorem ebmlLoop_tail (d : Bytes) (hd : d.length < 2 ^ 63) (rest : Bytes) (hr : EbmlTail rest) (n p : Nat)
    (h : At d p rest) (t : Tracks) : val (run d (2 ^ 64 - 1) (ebmlLoop d.length n t) p) = .ok (ebmlVerdict t) := by
  have hl := h.len
  cases hr with
  | nothing => exact ebmlLoop_beyond d _ n p (by simp at hl; omega) t
  | cut w id sw size body hid hsz hno hlen =>
    simp only [List.length_append, length_beBytes, length_vint] at hl
    have hlt := fitsVint_lt hsz
    cases n with
    | zero => rfl
    | succ n =>
      have hw := hid.1
      simp only [ebmlContainers, List.map_cons, List.map_nil, List.cons_append, List.nil_append, List.mem_cons,
        List.not_mem_nil, or_false, not_or] at hno
      obtain ⟨n1, n2, n3, n4, n5, n6, n7, n8, n9⟩ := hno
      have hc : ¬ (id = ebmlEbmlId ∨ id = ebmlSegmentId ∨ id = ebmlTracksId ∨ id = ebmlTrackEntryId ∨ id = ebmlVideoId) := by
        rintro (h | h | h | h | h)
        · exact n1 h
        · exact n2 h
        · exact n3 h
        · exact n4 h
        · exact n5 h
      rw [ebmlLoop, run_bind, run_pos, andThen_ok, if_pos (by omega), ebmlHeader_run d _ p w id sw size _ hid hsz h, if_neg hc,
        if_neg (show ¬ id = ebmlDocTypeId from n6), if_neg (show ¬ id = ebmlCodecIdId from n7),
        if_neg (show ¬ id = ebmlStereoModeId from n8), if_neg (show ¬ id = ebmlClusterId from n9), run_bind,
        asI64_small (by omega), run_sk_current _ _ (p + w + sw + size) (by omega) (by omega), andThen_ok]
      exact ebmlLoop_beyond d _ n _ (by omega) t

theorem ebmlLoop_run (d : Bytes) (hd : d.length < 2 ^ 63) (es : List EbmlElement)
    (hv : ∀ e ∈ es, e.Valid) (rest : Bytes) (n : Nat)
    (hn : es.length = n ∨ (es.length < n ∧ (EbmlTail rest ∨ ∃ e ∈ es, e.Stops)))
    (p : Nat) (h : At d p (es.flatMap EbmlElement.encode ++ rest)) (t : Tracks) :
    val (run d (2 ^ 64 - 1) (ebmlLoop d.length n t) p) = .ok (ebmlEval es t) := by
  have hm : d.length ≤ 2 ^ 64 - 1 := by omega
  generalize hM : 2 ^ 64 - 1 = m at hm
  induction es generalizing p t n with
  | nil =>
    rcases hn with hn | ⟨hn, hr⟩
    · subst hn; rfl
    · have hr : EbmlTail rest := by
        rcases hr with hr | ⟨e, he, _⟩
        · exact hr
        · cases he
      subst hM
      exact ebmlLoop_tail d hd rest hr n p h t
  | cons e es ih =>
    obtain ⟨k, rfl⟩ : ∃ k, n = k + 1 := ⟨n - 1, by simp at hn; omega⟩
    have hve := hv e (by simp)
    have hl := h.len
    rw [List.flatMap_cons, List.append_assoc] at h
    have hnext : ¬ e.Stops → ∀ t, val (run d m (ebmlLoop d.length k t) (p + e.encode.length)) =
        .ok (ebmlEval es t) := by
      intro hc t
      refine ih (fun e he => hv e (by simp [he])) k ?_ _ h.skip t
      rcases hn with hn | ⟨hn, hr⟩
      · left; simpa using hn
      · right
        refine ⟨by simpa using hn, hr.imp id ?_⟩
        rintro ⟨e', he', hc'⟩
        rcases List.mem_cons.mp he' with rfl | he'
        · exact absurd hc' hc
        · exact ⟨e', he', hc'⟩
    have hlt : p < d.length := by
      rw [hl, List.flatMap_cons]
      have : 1 ≤ e.encode.length := by
        cases e with
        | container w id sw size =>
          have := hve.2.1
          simp only [EbmlElement.encode, List.length_append, length_beBytes, length_vint]; omega
        | other w id sw body =>
          have := hve.1.1
          simp only [EbmlElement.encode, List.length_append, length_beBytes, length_vint]; omega
        | _ => simp only [EbmlElement.encode, List.length_append, length_beBytes, length_vint]; omega
      simp only [List.length_append]
      omega
    rw [ebmlLoop, run_bind, run_pos, andThen_ok, if_pos hlt]
    cases e with
    | container w id sw size =>
      have hmem := hve.1
      simp only [ebmlContainers, List.mem_cons, Prod.mk.injEq, List.not_mem_nil, or_false] at hmem
      have hid : IsId w id := by
        rcases hmem with ⟨rfl, rfl⟩ | ⟨rfl, rfl⟩ | ⟨rfl, rfl⟩ | ⟨rfl, rfl⟩ | ⟨rfl, rfl⟩ <;> decide
      have h0 : At d p (beBytes w id ++ (vint sw size ++ (es.flatMap EbmlElement.encode ++ rest))) := by
        simpa only [EbmlElement.encode, List.append_assoc] using h
      have hc : id = ebmlEbmlId ∨ id = ebmlSegmentId ∨ id = ebmlTracksId ∨ id = ebmlTrackEntryId ∨ id = ebmlVideoId := by
        rcases hmem with ⟨_, rfl⟩ | ⟨_, rfl⟩ | ⟨_, rfl⟩ | ⟨_, rfl⟩ | ⟨_, rfl⟩ <;> decide
      have hp : p + (EbmlElement.container w id sw size).encode.length = p + w + sw := by
        simp only [EbmlElement.encode, List.length_append, length_beBytes, length_vint]; omega
      rw [ebmlHeader_run d m p w id sw size _ hid hve.2 h0, if_pos hc, ← hp]
      exact hnext (by rintro (h | ⟨_, h⟩) <;> cases h) t
    | docType sw v =>
      have h0 : At d p (beBytes 2 0x4282 ++ (vint sw v.length ++ (v ++ (es.flatMap EbmlElement.encode ++ rest)))) := by
        simpa only [EbmlElement.encode, List.append_assoc] using h
      have h1 : At d (p + 2 + sw) (v ++ (es.flatMap EbmlElement.encode ++ rest)) :=
        (h0.skip' (length_beBytes 2 _)).skip' (length_vint _ _)
      have hlv := h1.len
      rw [List.length_append] at hlv
      have hp : p + (EbmlElement.docType sw v).encode.length = p + 2 + sw + v.length := by
        simp only [EbmlElement.encode, List.length_append, length_beBytes, length_vint]; omega
      have g0 : At d (p + 2 + sw) (v.take 8 ++ (v.drop 8 ++ (es.flatMap EbmlElement.encode ++ rest))) := by
        rw [← List.append_assoc, List.take_append_drop]; exact h1
      have g1 := g0.skip' (n := min 8 v.length) (by simp)
      rw [ebmlHeader_run d m p 2 0x4282 sw v.length _ (by decide) hve h0, if_neg (by decide), if_pos (show (0x4282 : Nat) = ebmlDocTypeId from rfl),
        show ebmlDocTypeLimit = 8 from rfl, run_bind, g0.readBytes (n := min 8 v.length) (by simp), andThen_ok,
        startsWith_take (by decide), startsWith_take (by decide), ebmlEval]
      split
      · rfl
      · split
        · rfl
        · rw [run_bind, asI64_small (by omega), g1.sk (by simp) hm, andThen_ok]
          have e : p + 2 + sw + min 8 v.length + (v.drop 8).length = p + 2 + sw + v.length := by simp; omega
          rw [e, ← hp]
          rename_i h1 h2
          refine hnext ?_ t
          rintro (h | ⟨_, h⟩)
          · cases h
          · cases h with
            | webm _ _ h => exact h1 (startsWith_iff.mpr h)
            | foreign _ _ h h' => exact h2 (fun hc => h' (startsWith_iff.mp hc))
    | codecId sw v =>
      have h0 : At d p (beBytes 1 0x86 ++ (vint sw v.length ++ (v ++ (es.flatMap EbmlElement.encode ++ rest)))) := by
        simpa only [EbmlElement.encode, List.append_assoc] using h
      have h1 : At d (p + 1 + sw) (v ++ (es.flatMap EbmlElement.encode ++ rest)) :=
        (h0.skip' (length_beBytes 1 _)).skip' (length_vint _ _)
      have hlv := h1.len
      rw [List.length_append] at hlv
      have hp : p + (EbmlElement.codecId sw v).encode.length = p + 1 + sw + v.length := by
        simp only [EbmlElement.encode, List.length_append, length_beBytes, length_vint]; omega
      have g0 : At d (p + 1 + sw) (v.take 64 ++ (v.drop 64 ++ (es.flatMap EbmlElement.encode ++ rest))) := by
        rw [← List.append_assoc, List.take_append_drop]; exact h1
      have g1 := g0.skip' (n := min 64 v.length) (by simp)
      rw [ebmlHeader_run d m p 1 0x86 sw v.length _ (by decide) hve h0, if_neg (by decide), if_neg (by decide),
        if_pos (show (0x86 : Nat) = ebmlCodecIdId from rfl),
        show ebmlCodecIdLimit = 64 from rfl, run_bind, g0.readBytes (n := min 64 v.length) (by simp), andThen_ok,
        ebmlCodec_take, run_bind, asI64_small (by omega), g1.sk (by simp) hm, andThen_ok]
      have e : p + 1 + sw + min 64 v.length + (v.drop 64).length = p + 1 + sw + v.length := by simp; omega
      rw [e, ← hp]
      exact hnext (by rintro (h | ⟨_, h⟩) <;> cases h) _
    | stereoMode sw b =>
      have h0 : At d p (beBytes 2 0x53B8 ++ (vint sw 1 ++ ([b] ++ (es.flatMap EbmlElement.encode ++ rest)))) := by
        simpa only [EbmlElement.encode, List.append_assoc] using h
      have h1 : At d (p + 2 + sw) (b :: (es.flatMap EbmlElement.encode ++ rest)) :=
        (h0.skip' (length_beBytes 2 _)).skip' (length_vint _ _)
      have hp : p + (EbmlElement.stereoMode sw b).encode.length = p + 2 + sw + 1 := by
        simp only [EbmlElement.encode, List.length_append, length_beBytes, length_vint, List.length_cons, List.length_nil]; omega
      rw [ebmlHeader_run d m p 2 0x53B8 sw 1 _ (by decide) hve h0, if_neg (by decide), if_neg (by decide), if_neg (by decide),
        if_pos (show (0x53B8 : Nat) = ebmlStereoModeId from rfl), run_bind, At.readU8 h1, andThen_ok, ebmlEval]
      split
      · rfl
      · rw [← hp]
        rename_i hb
        refine hnext ?_ t
        rintro (h | ⟨_, h⟩)
        · cases h
        · cases h with
          | stereo _ _ h =>
            refine h (UInt8.toNat_inj.mp ?_)
            show b.toNat = 0
            omega
    | cluster sw size =>
      have h0 : At d p (beBytes 4 0x1F43B675 ++ (vint sw size ++ (es.flatMap EbmlElement.encode ++ rest))) := by
        simpa only [EbmlElement.encode, List.append_assoc] using h
      rw [ebmlHeader_run d m p 4 0x1F43B675 sw size _ (by decide) hve h0, if_neg (by decide), if_neg (by decide),
        if_neg (by decide), if_neg (by decide), if_pos (show (0x1F43B675 : Nat) = ebmlClusterId from rfl)]
      rfl
    | other w id sw body =>
      obtain ⟨hid, hsz, hno⟩ := hve
      have h0 : At d p (beBytes w id ++ (vint sw body.length ++ (body ++ (es.flatMap EbmlElement.encode ++ rest)))) := by
        simpa only [EbmlElement.encode, List.append_assoc] using h
      have h1 : At d (p + w + sw) (body ++ (es.flatMap EbmlElement.encode ++ rest)) :=
        (h0.skip' (length_beBytes w _)).skip' (length_vint _ _)
      have hlv := h1.len
      rw [List.length_append] at hlv
      have hp : p + (EbmlElement.other w id sw body).encode.length = p + w + sw + body.length := by
        simp only [EbmlElement.encode, List.length_append, length_beBytes, length_vint]; omega
      simp only [ebmlContainers, List.map_cons, List.map_nil, List.cons_append, List.nil_append, List.mem_cons,
        List.not_mem_nil, or_false, not_or] at hno
      obtain ⟨n1, n2, n3, n4, n5, n6, n7, n8, n9⟩ := hno
      have hc : ¬ (id = ebmlEbmlId ∨ id = ebmlSegmentId ∨ id = ebmlTracksId ∨ id = ebmlTrackEntryId ∨ id = ebmlVideoId) := by
        rintro (h | h | h | h | h)
        · exact n1 h
        · exact n2 h
        · exact n3 h
        · exact n4 h
        · exact n5 h
      rw [ebmlHeader_run d m p w id sw body.length _ hid hsz h0, if_neg hc, if_neg (show ¬ id = ebmlDocTypeId from n6),
        if_neg (show ¬ id = ebmlCodecIdId from n7), if_neg (show ¬ id = ebmlStereoModeId from n8),
        if_neg (show ¬ id = ebmlClusterId from n9), run_bind, asI64_small (by omega), h1.sk rfl hm, andThen_ok, ← hp]
      exact hnext (by rintro (h | ⟨_, h⟩) <;> cases h) t

theorem ebmlReader_run (es : List EbmlElement) (rest : Bytes) (hv : ∀ e ∈ es, e.Valid)
    (hd : (es.flatMap EbmlElement.encode ++ rest).length < 2 ^ 63)
    (hr : 256 ≤ es.length ∨ EbmlTail rest ∨ ∃ e ∈ es, e.Stops) (q : Nat) :
    val (run (es.flatMap EbmlElement.encode ++ rest) (2 ^ 64 - 1) ebmlReader q) = .ok (ebmlEval (es.take 256) Tracks.none) := by
  have hm : (es.flatMap EbmlElement.encode ++ rest).length ≤ 2 ^ 64 - 1 := by omega
  have hsplit : es.flatMap EbmlElement.encode ++ rest = (es.take 256).flatMap EbmlElement.encode ++
      ((es.drop 256).flatMap EbmlElement.encode ++ rest) := by
    rw [← List.append_assoc, ← List.flatMap_append, List.take_append_drop]
  unfold ebmlReader
  rw [run_bind, run_sk_end _ hm, andThen_ok, run_bind, run_sk_start _ _ (Nat.zero_le _), andThen_ok]
  refine ebmlLoop_run _ hd (es.take 256) (fun e h => hv e (List.mem_of_mem_take h)) _ 256 ?_ 0
    ⟨Nat.zero_le _, hsplit⟩ _
  rw [List.length_take]
  by_cases h : 256 ≤ es.length
  · omega
  · right
    refine ⟨by omega, ?_⟩
    rw [List.drop_eq_nil_of_le (by omega), List.take_of_length_le (by omega)]
    rcases hr with hr | hr | hr
    · omega
    · left; exact hr
    · right; exact hr

/-! ## The verdict -/

theorem ebmlEval_settled (pre : List EbmlElement) (e : EbmlElement) (post : List EbmlElement) (f : FileFormat)
    (hpre : ∀ x ∈ pre, x.isCluster = false ∧ ∀ g, ¬ x.Settles g) (he : e.Settles f) (t : Tracks) :
    ebmlEval (pre ++ e :: post) t = f := by
  induction pre generalizing t with
  | nil =>
    cases he with
    | webm sw v h => simp only [List.nil_append, ebmlEval, if_pos (startsWith_iff.mpr h)]
    | foreign sw v h h' =>
      have h1 : ¬ startsWith v b!"webm" = true := fun hc => h (startsWith_iff.mp hc)
      have h2 : ¬ startsWith v b!"matroska" = true := fun hc => h' (startsWith_iff.mp hc)
      simp only [List.nil_append, ebmlEval, if_neg h1, if_pos h2]
    | stereo sw b h =>
      have : b.toNat > 0 := by
        rcases Nat.eq_zero_or_pos b.toNat with h0 | h0
        · exact absurd (UInt8.toNat_inj.mp h0) h
        · exact h0
      simp only [List.nil_append, ebmlEval, if_pos this]
  | cons x pre ih =>
    obtain ⟨hc, hs⟩ := hpre x (by simp)
    have ih' := ih (fun y hy => hpre y (by simp [hy]))
    rw [List.cons_append]
    cases x with
    | container => exact ih' t
    | codecId => exact ih' _
    | other => exact ih' t
    | cluster => cases hc
    | docType sw v =>
      have h1 : startsWith v b!"webm" = false := by
        cases hw : startsWith v b!"webm" with
        | false => rfl
        | true => exact absurd (.webm sw v (startsWith_iff.mp hw)) (hs _)
      have h2 : startsWith v b!"matroska" = true := by
        cases hw : startsWith v b!"matroska" with
        | true => rfl
        | false => exact absurd (.foreign sw v (fun hc => by rw [startsWith_iff.mpr hc] at h1; cases h1)
            (fun hc => by rw [startsWith_iff.mpr hc] at hw; cases hw)) (hs _)
      simp only [ebmlEval, h1, h2, not_true_eq_false, if_false, Bool.false_eq_true]
      exact ih' t
    | stereoMode sw b =>
      have : b = 0 := Classical.byContradiction fun hb => hs _ (.stereo sw b hb)
      subst this
      exact ih' t

theorem ebmlEval_tracks (es : List EbmlElement) (hs : ∀ e ∈ es.takeWhile (fun e => !e.isCluster), ∀ g, ¬ e.Settles g)
    (t : Tracks) : ∃ t', ebmlEval es t = ebmlVerdict t' ∧
      (t'.video = true ↔ t.video = true ∨ ∃ e ∈ es.takeWhile (fun e => !e.isCluster), e.Codec b!"V_") ∧
      (t'.audio = true ↔ t.audio = true ∨ ∃ e ∈ es.takeWhile (fun e => !e.isCluster), e.Codec b!"A_") ∧
      (t'.subtitle = true ↔ t.subtitle = true ∨ ∃ e ∈ es.takeWhile (fun e => !e.isCluster), e.Codec b!"S_") := by
  induction es generalizing t with
  | nil => exact ⟨t, rfl, by simp, by simp, by simp⟩
  | cons e es ih =>
    cases hc : e.isCluster with
    | true =>
      refine ⟨t, ?_, ?_⟩
      · cases e with
        | cluster => rfl
        | _ => cases hc
      · simp [List.takeWhile_cons, hc]
    | false =>
      have htw : (e :: es).takeWhile (fun e => !e.isCluster) = e :: es.takeWhile (fun e => !e.isCluster) := by
        simp [List.takeWhile_cons, hc]
      rw [htw] at hs ⊢
      have ih' := ih (fun x hx => hs x (by simp [hx]))
      have he := hs e (by simp)
      simp only [List.mem_cons, exists_eq_or_imp]
      cases e with
      | container => simpa only [ebmlEval, EbmlElement.Codec, false_or] using ih' t
      | other => simpa only [ebmlEval, EbmlElement.Codec, false_or] using ih' t
      | cluster => cases hc
      | docType sw v =>
        have h1 : startsWith v b!"webm" = false := by
          cases hw : startsWith v b!"webm" with
          | false => rfl
          | true => exact absurd (.webm sw v (startsWith_iff.mp hw)) (he _)
        have h2 : startsWith v b!"matroska" = true := by
          cases hw : startsWith v b!"matroska" with
          | true => rfl
          | false => exact absurd (.foreign sw v (fun hc => by rw [startsWith_iff.mpr hc] at h1; cases h1)
              (fun hc => by rw [startsWith_iff.mpr hc] at hw; cases hw)) (he _)
        simp only [ebmlEval, h1, h2, not_true_eq_false, if_false, Bool.false_eq_true, EbmlElement.Codec, false_or]
        exact ih' t
      | stereoMode sw b =>
        have : b = 0 := Classical.byContradiction fun hb => he _ (.stereo sw b hb)
        subst this
        have h := ih' t
        simp only [EbmlElement.Codec, false_or]
        exact h
      | codecId sw v =>
        obtain ⟨t', h0, h1, h2, h3⟩ := ih' (ebmlCodec v t)
        refine ⟨t', h0, ?_, ?_, ?_⟩
        all_goals
          simp only [h1, h2, h3, EbmlElement.Codec, ← or_assoc]
          refine or_congr ?_ Iff.rfl
          have key : ∀ {a b : UInt8}, a ≠ b → ∀ {x y : Bytes}, (a :: x) <+: v → ¬ (b :: y) <+: v := by
            intro a b hab x y h1 h2
            obtain ⟨r1, e1⟩ := h1
            obtain ⟨r2, e2⟩ := h2
            rw [← e2] at e1
            simp only [List.cons_append, List.cons.injEq] at e1
            exact hab e1.1
          unfold ebmlCodec
          by_cases hA : b!"A_" <+: v
          · rw [if_pos (startsWith_iff.mpr hA)]
            simp [hA, key (show (65 : UInt8) ≠ 86 by decide) hA, key (show (65 : UInt8) ≠ 83 by decide) hA]
          · rw [if_neg (fun h => hA (startsWith_iff.mp h))]
            by_cases hV : b!"V_" <+: v
            · rw [if_pos (startsWith_iff.mpr hV)]
              simp [hA, hV, key (show (86 : UInt8) ≠ 83 by decide) hV]
            · rw [if_neg (fun h => hV (startsWith_iff.mp h))]
              by_cases hS : b!"S_" <+: v
              · rw [if_pos (startsWith_iff.mpr hS)]
                simp [hA, hV, hS]
              · rw [if_neg (fun h => hS (startsWith_iff.mp h))]
                simp [hA, hV, hS]

end FF
