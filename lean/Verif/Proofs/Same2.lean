import Verif.Proofs.Same
import Verif.Spec.Causes
/-!
# EBML, MP4 and ZIP runs that do not depend on the seek range or on the build profile
-/

namespace FF
open FileFormat Spec

variable {α β : Type} {d : Bytes} {m m' : Nat}

theorem u64Sub_ok (cfg : Cfg) {a b : Nat} (h : b ≤ a) : u64Sub cfg a b = .ok (a - b) := by
  simp [u64Sub, h]

theorem same_readU64le {β : Type} {f f' : Nat → Prog β} {q : Nat}
    (h : q + 8 ≤ d.length → Same d m m' (f (leNat (slice d q 8))) (f' (leNat (slice d q 8))) (q + 8)) :
    Same d m m' (readU64le >>= f) (readU64le >>= f') q := by
  unfold Same at *
  show run d m ((Prog.rdExact 8 >>= fun x => pure (leNat x)) >>= f) q = run d m' ((Prog.rdExact 8 >>= fun x => pure (leNat x)) >>= f') q
  simp only [run_bind, run_rdExact]
  by_cases hc : 8 = 0 ∨ q + 8 ≤ d.length
  · rw [if_pos hc]
    exact h (by omega)
  · rw [if_neg hc]
    rfl

theorem same_readMore (n acc q : Nat) : Same d m m' (readMore n acc) (readMore n acc) q := by
  induction n generalizing acc q with
  | zero => rfl
  | succ n ih => exact same_readU8 fun b _ => ih _ _

theorem readU8_inv (q q' : Nat) (b : UInt8) (h : run d m readU8 q = .ok (b, q')) : q' = q + 1 ∧ q + 1 ≤ d.length := by
  have : run d m readU8 q = andThen (run d m (readBytes 1) q) fun a q' => run d m (Prog.lift (index a 0)) q' :=
    run_bind (readBytes 1) _ q
  rw [this, run_readBytes] at h
  split at h
  · rename_i hc
    have hlen : q + 1 ≤ d.length := by omega
    simp only [andThen_ok] at h
    rw [index_ok (by rw [length_slice]; omega), run_lift_ok] at h
    cases h
    exact ⟨rfl, hlen⟩
  · cases h

theorem readMore_inv (n acc q v q' : Nat) (h : run d m (readMore n acc) q = .ok (v, q')) :
    v < (acc + 1) * 256 ^ n ∧ q' = q + n ∧ (n = 0 ∨ q' ≤ d.length) := by
  induction n generalizing acc q with
  | zero => cases h; simp
  | succ n ih =>
    unfold readMore at h
    rw [run_bind] at h
    cases hr : run d m readU8 q with
    | error e => rw [hr] at h; cases h
    | ok r =>
      obtain ⟨b, q1⟩ := r
      rw [hr, andThen_ok] at h
      obtain ⟨rfl, hlen⟩ := readU8_inv _ _ _ hr
      obtain ⟨h1, h2, h3⟩ := ih _ _ h
      refine ⟨?_, by omega, Or.inr (by omega)⟩
      refine Nat.lt_of_lt_of_le h1 ?_
      rw [Nat.pow_succ, Nat.mul_comm (256 ^ n) 256, ← Nat.mul_assoc]
      refine Nat.mul_le_mul_right _ ?_
      have hb := b.toNat_lt
      generalize b.toNat = b at hb
      have : acc <<< 8 ||| b = acc * 256 + b := by
        rw [← Nat.shiftLeft_add_eq_or_of_lt (by simpa using hb), Nat.shiftLeft_eq]
      omega

theorem same_ebmlId (q : Nat) : Same d m m' ebmlId ebmlId q := by
  refine same_readU8 fun b _ => ?_
  simp only
  split
  · rfl
  · exact same_readMore _ _ _

theorem same_ebmlSize (q : Nat) : Same d m m' ebmlSize ebmlSize q := by
  refine same_readU8 fun b _ => ?_
  simp only
  split
  · rfl
  · exact same_readMore _ _ _

theorem ebmlSize_inv (q v q' : Nat) (h : run d m ebmlSize q = .ok (v, q')) : v < 2 ^ 56 ∧ q' ≤ d.length := by
  unfold ebmlSize at h
  rw [run_bind] at h
  cases hr : run d m readU8 q with
  | error e => rw [hr] at h; cases h
  | ok r =>
    obtain ⟨b, q1⟩ := r
    rw [hr, andThen_ok] at h
    obtain ⟨rfl, hlen⟩ := readU8_inv _ _ _ hr
    simp only at h
    split at h
    · cases h
    · rename_i hz
      have hz' : leadingZeros8 b ≤ 7 := by omega
      obtain ⟨h1, h2, h3⟩ := readMore_inv _ _ _ _ _ h
      generalize leadingZeros8 b = z at *
      have ha : b.toNat &&& (128 >>> z - 1) ≤ 128 >>> z - 1 := Nat.and_le_right
      refine ⟨?_, by omega⟩
      have : z = 0 ∨ z = 1 ∨ z = 2 ∨ z = 3 ∨ z = 4 ∨ z = 5 ∨ z = 6 ∨ z = 7 := by omega
      rcases this with rfl | rfl | rfl | rfl | rfl | rfl | rfl | rfl <;>
        simp only [Nat.reduceShiftRight, Nat.reduceSub, Nat.reduceAdd, Nat.reducePow] at h1 ha ⊢ <;> omega

theorem same_ebmlLoop (hd : d.length < 2 ^ 62) (h1 : d.length + 2 ^ 56 ≤ m) (h2 : d.length + 2 ^ 56 ≤ m') (len n : Nat) (t : Tracks) (q : Nat) :
    Same d m m' (ebmlLoop len n t) (ebmlLoop len n t) q := by
  induction n generalizing t q with
  | zero => rfl
  | succ n ih =>
    unfold ebmlLoop
    refine same_pos ?_
    split
    · refine Same.bind (same_ebmlId _) fun id q1 _ => Same.bind (same_ebmlSize _) fun size q2 hs => ?_
      obtain ⟨hv, hq⟩ := ebmlSize_inv _ _ _ hs
      have skip : ∀ (k : Nat) (q3 : Nat) (t' : Tracks), k ≤ size → q3 ≤ d.length →
          Same d m m' (Prog.sk (.current (asI64 k)) >>= fun _ => ebmlLoop len n t')
            (Prog.sk (.current (asI64 k)) >>= fun _ => ebmlLoop len n t') q3 := by
        intro k q3 t' hk h3
        rw [asI64_small (by omega)]
        exact same_current (by omega) (by omega) fun _ _ => ih _ _
      split
      · exact ih _ _
      · split
        · refine same_readBytes fun hx => ?_
          split
          · rfl
          · split
            · rfl
            · exact skip _ _ _ (by omega) (by simp only [ebmlDocTypeLimit] at hx ⊢; omega)
        · split
          · exact same_readBytes fun hx => skip _ _ _ (by omega) (by simp only [ebmlCodecIdLimit] at hx ⊢; omega)
          · split
            · refine same_readU8 fun b _ => ?_
              split
              · rfl
              · exact ih _ _
            · split
              · rfl
              · exact skip _ _ _ (Nat.le_refl _) hq
    · rfl

theorem same_ebml (hd : d.length < 2 ^ 62) (h1 : d.length + 2 ^ 56 ≤ m) (h2 : d.length + 2 ^ 56 ≤ m') (q : Nat) :
    Same d m m' ebmlReader ebmlReader q :=
  same_end (by omega) (by omega) (same_start (by omega) (by omega) (same_ebmlLoop hd h1 h2 _ _ _ _))

/-! ## MP4 -/

theorem same_mp4Loop (cfg cfg' : Cfg) (hd : d.length < 2 ^ 62) (hs : SmallBoxes d) (h1 : 2 ^ 63 - 1 ≤ m) (h2 : 2 ^ 63 - 1 ≤ m')
    (len n : Nat) (t : Tracks) (q : Nat) (hq : Mp4BoxAt d q) :
    Same d m m' (mp4Loop cfg len n t) (mp4Loop cfg' len n t) q := by
  induction n generalizing t q with
  | zero => rfl
  | succ n ih =>
    unfold mp4Loop
    refine same_pos ?_
    split
    · refine same_readU32be fun h4 => same_readBytes fun h8 => ?_
      have skip : ∀ (v k : Nat) (q3 : Nat) (t' : Tracks), v < 2 ^ 62 → k ≤ 20 → q3 ≤ d.length → q3 + v - k = mp4Next d q →
          k ≤ q3 + v → Same d m m' (Prog.lift (i64Sub cfg (asI64 v) k) >>= fun dist => Prog.sk (.current dist) >>= fun _ => mp4Loop cfg len n t')
            (Prog.lift (i64Sub cfg' (asI64 v) k) >>= fun dist => Prog.sk (.current dist) >>= fun _ => mp4Loop cfg' len n t') q3 := by
        intro v k q3 t' hv hk h3 hnx hge
        rw [asI64_small (by omega), i64Sub_ok cfg (by omega) (by omega), i64Sub_ok cfg' (by omega) (by omega)]
        refine same_lift rfl fun dist hd' => ?_
        cases hd'
        refine same_current (by omega) (by omega) fun t ht => ih _ _ ?_
        have : t = mp4Next d q := by omega
        rw [this]
        exact hq.next
      have body : ∀ (v q2 : Nat), v < 2 ^ 62 → q2 ≤ d.length → 8 ≤ q2 → ∀ boxType : Bytes,
          mp4Next d q = (if boxType = b!"moov" ∨ boxType = b!"trak" ∨ boxType = b!"mdia" then q2 else q2 + v - 8) →
          Same d m m'
            (if boxType = b!"moov" ∨ boxType = b!"trak" ∨ boxType = b!"mdia" then mp4Loop cfg len n t
              else if boxType = b!"hdlr" then do
                let _ ← Prog.sk (.current 8)
                let handlerType ← readBytes 4
                let dist ← Prog.lift (i64Sub cfg (asI64 v) 20)
                let _ ← Prog.sk (.current dist)
                mp4Loop cfg len n (mp4Handler handlerType t)
              else do
                let dist ← Prog.lift (i64Sub cfg (asI64 v) 8)
                let _ ← Prog.sk (.current dist)
                mp4Loop cfg len n t)
            (if boxType = b!"moov" ∨ boxType = b!"trak" ∨ boxType = b!"mdia" then mp4Loop cfg' len n t
              else if boxType = b!"hdlr" then do
                let _ ← Prog.sk (.current 8)
                let handlerType ← readBytes 4
                let dist ← Prog.lift (i64Sub cfg' (asI64 v) 20)
                let _ ← Prog.sk (.current dist)
                mp4Loop cfg' len n (mp4Handler handlerType t)
              else do
                let dist ← Prog.lift (i64Sub cfg' (asI64 v) 8)
                let _ ← Prog.sk (.current dist)
                mp4Loop cfg' len n t) q2 := by
        intro v q2 hv h3 h8 bt hnx
        by_cases hc : bt = b!"moov" ∨ bt = b!"trak" ∨ bt = b!"mdia"
        · rw [if_pos hc] at hnx
          rw [if_pos hc, if_pos hc]
          refine ih _ _ ?_
          rw [← hnx]
          exact hq.next
        · rw [if_neg hc] at hnx
          rw [if_neg hc, if_neg hc]
          split
          · exact same_current (by omega) (by omega) fun _ _ => same_readBytes fun _ =>
              skip v 20 _ _ hv (by omega) (by omega) (by omega) (by omega)
          · exact skip v 8 _ _ hv (by omega) h3 (by omega) (by omega)
      have h32 := beNat_slice d q 4
      unfold mp4Size
      have hmem : (slice d (q + 4) 4 ∈ [b!"moov", b!"trak", b!"mdia"]) ↔
          (slice d (q + 4) 4 = b!"moov" ∨ slice d (q + 4) 4 = b!"trak" ∨ slice d (q + 4) 4 = b!"mdia") := by simp
      by_cases hw : beNat (slice d q 4) = 1
      · rw [if_pos hw]
        refine same_readU64be fun h16 => ?_
        have hsm := hs q hq (by omega) hw
        refine body _ _ hsm (by omega) (by omega) _ ?_
        unfold mp4Next
        simp only [if_pos (show mp4Wide d q from hw), hmem]
      · rw [if_neg hw]
        refine body _ _ (by omega) (by omega) (by omega) _ ?_
        unfold mp4Next
        simp only [if_neg (show ¬ mp4Wide d q from hw), hmem]
    · rfl

theorem same_mp4 (cfg cfg' : Cfg) (hd : d.length < 2 ^ 62) (hs : SmallBoxes d) (h1 : 2 ^ 63 - 1 ≤ m) (h2 : 2 ^ 63 - 1 ≤ m') (q : Nat) :
    Same d m m' (mp4Reader cfg) (mp4Reader cfg') q :=
  same_end (by omega) (by omega) (same_start (by omega) (by omega) (same_mp4Loop cfg cfg' hd hs h1 h2 _ _ _ _ .first))

/-! ## ZIP -/

theorem same_zipMimetype (hd : d.length < 2 ^ 62) (h1 : 2 ^ 63 - 1 ≤ m) (h2 : 2 ^ 63 - 1 ≤ m') (size off q : Nat) (ho : off < 2 ^ 32) :
    Same d m m' (zipMimetype size off) (zipMimetype size off) q := by
  unfold zipMimetype
  refine same_start (by omega) (by omega) (same_readU16le fun _ => same_readU16le fun _ => ?_)
  have hx := leNat_slice d (off + 26) 2
  have hy := leNat_slice d (off + 26 + 2) 2
  refine same_current (by omega) (by omega) fun t ht => ?_
  refine Same.bind (p := readString size) (p' := readString size) ?_ fun s q' _ => ?_
  · exact same_readBytes fun _ => rfl
  · cases zipMimetypes.lookup (trim s) <;> rfl

theorem same_zipEntries (hd : d.length < 2 ^ 62) (h1 : 2 ^ 63 - 1 ≤ m) (h2 : 2 ^ 63 - 1 ≤ m') (n : Nat) (fmt : FileFormat) (q : Nat)
    (hq : n = 0 ∨ q + 20 ≤ 2 ^ 63 - 1) : Same d m m' (zipEntries n fmt) (zipEntries n fmt) q := by
  induction n generalizing fmt q with
  | zero => rfl
  | succ n ih =>
    unfold zipEntries
    refine same_current (by omega) (by omega) fun t ht => ?_
    refine same_readU32le fun _ => same_readU32le fun _ => same_readU16le fun _ => same_readU16le fun _ => same_readU16le fun hlen => ?_
    have hx := leNat_slice d (t + 4 + 4 + 2) 2
    have hy := leNat_slice d (t + 4 + 4 + 2 + 2) 2
    generalize leNat (slice d (t + 4 + 4 + 2) 2) = x at hx
    generalize leNat (slice d (t + 4 + 4 + 2 + 2) 2) = y at hy
    refine same_current (by omega) (by omega) fun t' ht' => same_readU32le fun hl2 => ?_
    have ho := leNat_slice d t' 4
    generalize leNat (slice d t' 4) = off at ho
    refine Same.bind (p := readString _) (p' := readString _) (same_readBytes fun _ => rfl) fun name q' hr => ?_
    have hq' : q' ≤ d.length := by
      simp only [readString, run_bind, run_readBytes] at hr
      split at hr
      · cases hr; omega
      · cases hr
    have skip : ∀ f, Same d m m' (Prog.sk (.current ((x : Int) + y)) >>= fun _ => zipEntries n f)
        (Prog.sk (.current ((x : Int) + y)) >>= fun _ => zipEntries n f) q' := fun f =>
      same_current (by omega) (by omega) fun t ht => ih _ _ (Or.inr (by omega))
    cases zipNames.lookup name with
    | some f => rfl
    | none =>
      simp only
      split
      · exact skip _
      · split
        · exact same_zipMimetype hd h1 h2 _ _ _ ho
        · cases zipPatterns name with
          | some f => rfl
          | none => exact skip _

theorem zipDirectory_small (cfg : Cfg) {e q q2 : Nat} {dir : Nat × Nat} (he : e ≤ d.length) (hd : d.length < 2 ^ 62)
    (hm : 2 ^ 63 - 1 ≤ m) (hdir : run d m (zipDirectory cfg e) q = .ok (dir, q2)) : dir.2 < 2 ^ 32 := by
  unfold zipDirectory at hdir
  rw [u64Add_ok cfg (a := e) (b := 10) (by omega)] at hdir
  simp only [run_bind, run_lift_ok, andThen_ok, run_sk_start _ _ (show e + 10 ≤ m by omega), readU16le, readU32le,
    run_rdExact] at hdir
  by_cases h2l : 2 = 0 ∨ e + 10 + 2 ≤ d.length
  · rw [if_pos h2l] at hdir
    simp only [andThen_ok, run_pure] at hdir
    rw [run_sk_current 4 _ (e + 10 + 2 + 4) (by omega) (by omega)] at hdir
    simp only [andThen_ok] at hdir
    by_cases h4l : 4 = 0 ∨ e + 10 + 2 + 4 + 4 ≤ d.length
    · rw [if_pos h4l] at hdir
      simp only [andThen_ok, run_pure] at hdir
      cases hdir
      exact leNat_slice _ _ _
    · rw [if_neg h4l] at hdir
      cases hdir
  · rw [if_neg h2l] at hdir
    cases hdir

theorem zipIsZip64_cases {e q q' : Nat} {z : Bool} (he : e ≤ d.length) (hd : d.length < 2 ^ 62)
    (hm : 2 ^ 63 - 1 ≤ m) (hzz : run d m (zipIsZip64 e) q = .ok (z, q')) :
    z = false ∨ (z = true ∧ 20 ≤ e ∧ q' = e - 20 + 4 ∧ slice d (e - 20) 4 = b!"PK\x06\x07") := by
  unfold zipIsZip64 at hzz
  by_cases hc : e ≥ zipEocd64LocatorSize
  · have hc' : 20 ≤ e := hc
    rw [if_pos hc, run_bind, run_sk_start _ _ (by omega), andThen_ok, run_bind, run_readBytes] at hzz
    split at hzz
    · simp only [andThen_ok, run_pure, Except.ok.injEq, Prod.mk.injEq] at hzz
      obtain ⟨h1, h2⟩ := hzz
      cases z with
      | false => exact Or.inl rfl
      | true => exact Or.inr ⟨rfl, hc', h2.symm, eq_of_beq h1⟩
    · cases hzz
  · rw [if_neg hc, run_pure] at hzz
    cases hzz; exact Or.inl rfl

theorem zipDirectory64_small (cfg : Cfg) {q q2 : Nat} {dir : Nat × Nat} (hq : q + 12 ≤ 2 ^ 62) (hm : 2 ^ 63 - 1 ≤ m)
    (ho : leNat (slice d (q + 4) 8) < 2 ^ 62) (hx : leNat (slice d (leNat (slice d (q + 4) 8) + 48) 8) < 2 ^ 62)
    (hdir : run d m (zipDirectory64 cfg) q = .ok (dir, q2)) : dir.2 < 2 ^ 62 := by
  unfold zipDirectory64 at hdir
  rw [run_bind, run_sk_current 4 _ (q + 4) (by omega) (by omega), andThen_ok] at hdir
  simp only [run_bind, readU64le, run_rdExact] at hdir
  by_cases h2l : 8 = 0 ∨ q + 4 + 8 ≤ d.length
  · rw [if_pos h2l] at hdir
    simp only [andThen_ok, run_pure] at hdir
    generalize leNat (slice d (q + 4) 8) = o at ho hx hdir
    rw [u64Add_ok cfg (a := o) (b := 32) (by omega)] at hdir
    simp only [run_lift_ok, andThen_ok, run_sk_start _ _ (show o + 32 ≤ m by omega)] at hdir
    by_cases h4l : 8 = 0 ∨ o + 32 + 8 ≤ d.length
    · rw [if_pos h4l] at hdir
      simp only [andThen_ok] at hdir
      rw [run_sk_current 8 _ (o + 48) (by omega) (by omega)] at hdir
      simp only [andThen_ok] at hdir
      by_cases h5l : 8 = 0 ∨ o + 48 + 8 ≤ d.length
      · rw [if_pos h5l] at hdir
        simp only [andThen_ok, Except.ok.injEq, Prod.mk.injEq] at hdir
        rw [← hdir.1]
        exact hx
      · rw [if_neg h5l] at hdir
        cases hdir
    · rw [if_neg h4l] at hdir
      cases hdir
  · rw [if_neg h2l] at hdir
    cases hdir

theorem same_zipRest (cfg cfg' : Cfg) (hd : d.length < 2 ^ 62) (hz : SmallZip64 d) (h1 : 2 ^ 63 - 1 ≤ m) (h2 : 2 ^ 63 - 1 ≤ m')
    (e q : Nat) (he : e ≤ d.length) (hsig : slice d e 4 = b!"PK\x05\x06") :
    Same d m m' (zipIsZip64 e >>= fun z => zipEnd cfg z e >>= fun dir => Prog.sk (.start dir.2) >>= fun _ => zipEntries (min zipEntryLimit dir.1) .Zip)
      (zipIsZip64 e >>= fun z => zipEnd cfg' z e >>= fun dir => Prog.sk (.start dir.2) >>= fun _ => zipEntries (min zipEntryLimit dir.1) .Zip) q := by
  refine Same.bind (p := zipIsZip64 e) (p' := zipIsZip64 e) ?_ fun z q' hzz => ?_
  · unfold zipIsZip64
    split
    · exact same_start (by omega) (by omega) (same_readBytes fun _ => rfl)
    · rfl
  · rcases zipIsZip64_cases he hd h2 hzz with rfl | ⟨rfl, h20, hq', hloc⟩
    · unfold zipEnd
      simp only [Bool.false_eq_true, if_false]
      refine Same.bind (p := zipDirectory cfg _) (p' := zipDirectory cfg' _) ?_ fun dir q2 hdir => ?_
      · unfold zipDirectory
        rw [u64Add_ok cfg (a := e) (b := 10) (by omega), u64Add_ok cfg' (a := e) (b := 10) (by omega)]
        refine same_lift rfl fun e he => ?_
        cases he
        exact same_start (by omega) (by omega) (same_readU16le fun _ => same_current (by omega) (by omega) fun t ht =>
          same_readU32le fun _ => rfl)
      · have hdir2 := zipDirectory_small cfg' he hd h2 hdir
        exact same_start (by omega) (by omega) (same_zipEntries hd h1 h2 _ _ _ (Or.inr (by omega)))
    · obtain ⟨ho, hx⟩ := hz (e - 20) hloc (by rw [show e - 20 + 20 = e by omega]; exact hsig)
      rw [show e - 20 + 8 = q' + 4 by omega] at ho hx
      unfold zipEnd
      simp only [if_true]
      refine Same.bind (p := zipDirectory64 cfg) (p' := zipDirectory64 cfg') ?_ fun dir q2 hdir => ?_
      · unfold zipDirectory64
        refine same_current (by omega) (by omega) fun t ht => same_readU64le fun _ => ?_
        have : t = q' + 4 := by omega
        subst this
        generalize leNat (slice d (q' + 4) 8) = o at ho hx
        rw [u64Add_ok cfg (a := o) (b := 32) (by omega), u64Add_ok cfg' (a := o) (b := 32) (by omega)]
        refine same_lift rfl fun e he => ?_
        cases he
        exact same_start (by omega) (by omega) (same_readU64le fun _ => same_current (by omega) (by omega) fun t ht =>
          same_readU64le fun _ => rfl)
      · have hdir2 := zipDirectory64_small cfg' (by omega) h2 ho hx hdir
        exact same_start (by omega) (by omega) (same_zipEntries hd h1 h2 _ _ _ (Or.inr (by omega)))

theorem same_zip (cfg cfg' : Cfg) (hd : d.length < 2 ^ 62) (hz : SmallZip64 d) (h1 : 2 ^ 63 - 1 ≤ m) (h2 : 2 ^ 63 - 1 ≤ m') (q : Nat) :
    Same d m m' (zipReader cfg) (zipReader cfg') q := by
  unfold zipReader
  refine same_end (by omega) (by omega) ?_
  refine same_start (by omega) (by omega) (same_readBytes fun hx => ?_)
  generalize max zipEocdMinSize (min d.length zipEocdMaxSize) = w at hx
  generalize d.length - zipEocdMaxSize = o at hx
  refine same_lift rfl fun found hf => ?_
  cases found with
  | none => rfl
  | some i =>
    obtain ⟨r, hr, hl⟩ := rfindBytes_spec (slice d o w) zipEocdSignature
    rw [hf] at hr
    cases hr
    have hp := hl.1
    have hpl := hp.length_le
    rw [List.length_drop, length_slice] at hpl
    have h4 : zipEocdSignature.length = 4 := rfl
    simp only
    rw [u64Add_ok cfg (a := o) (b := i) (by omega), u64Add_ok cfg' (a := o) (b := i) (by omega)]
    refine same_lift rfl fun e he => ?_
    cases he
    refine same_zipRest cfg cfg' hd hz h1 h2 (o + i) _ (by omega) ?_
    have hpre : zipEocdSignature <+: d.drop (o + i) := by
      unfold OccursAt slice at hp
      rw [List.drop_take, List.drop_drop] at hp
      exact hp.trans (List.take_prefix _ _)
    exact (List.prefix_iff_eq_take.mp hpre).symm

/-! ## ASF -/

theorem same_asfDescriptors (hd : d.length < 2 ^ 62) (h1 : 2 ^ 63 - 1 ≤ m) (h2 : 2 ^ 63 - 1 ≤ m') (n q : Nat) :
    Same d m m' (asfDescriptors n) (asfDescriptors n) q := by
  induction n generalizing q with
  | zero => rfl
  | succ n ih =>
    unfold asfDescriptors
    refine same_readU16le fun _ => same_readBytes fun _ => ?_
    have hx := leNat_slice d q 2
    split
    · rfl
    · refine same_current (by omega) (by omega) fun t ht => same_readU16le fun _ => ?_
      have hy := leNat_slice d t 2
      exact same_current (by omega) (by omega) fun t ht => ih _

theorem same_asfObjects (cfg cfg' : Cfg) (hd : d.length < 2 ^ 62) (hs : SmallObjects d) (h1 : 2 ^ 63 - 1 ≤ m) (h2 : 2 ^ 63 - 1 ≤ m')
    (n : Nat) (a v : Bool) (q : Nat) (hq : AsfObjectAt d q) :
    Same d m m' (asfObjects cfg n a v) (asfObjects cfg' n a v) q := by
  induction n generalizing a v q with
  | zero => rfl
  | succ n ih =>
    unfold asfObjects
    refine same_readGuid fun guid _ => same_readU64le fun h24 => ?_
    have hsz := hs q hq (by omega)
    have hnx := hq.next
    generalize leNat (slice d (q + 16) 8) = size at hsz hnx
    have skip : ∀ (k q3 : Nat) (a v : Bool), k ≤ 40 → q3 = q + k →
        Same d m m' (Prog.lift (i64Sub cfg (asI64 size) k) >>= fun dist => Prog.sk (.current dist) >>= fun _ => asfObjects cfg n a v)
          (Prog.lift (i64Sub cfg' (asI64 size) k) >>= fun dist => Prog.sk (.current dist) >>= fun _ => asfObjects cfg' n a v) q3 := by
      intro k q3 a v hk h3
      rw [asI64_small (by omega), i64Sub_ok cfg (by omega) (by omega), i64Sub_ok cfg' (by omega) (by omega)]
      refine same_lift rfl fun dist hd' => ?_
      cases hd'
      refine same_current (by omega) (by omega) fun t ht => ih _ _ _ ?_
      have : t = q + size := by omega
      rw [this]
      exact hnx
    split
    · refine same_readGuid fun st _ => ?_
      exact skip 40 _ _ _ (by omega) (by omega)
    · split
      · refine same_readU16le fun _ => same_pos ?_
        refine Same.bind (same_asfDescriptors hd h1 h2 _ _) fun dvr q' _ => ?_
        split
        · rfl
        · rw [u64Add_ok cfg (a := q + 16 + 8 + 2) (b := size) (by omega), u64Add_ok cfg' (a := q + 16 + 8 + 2) (b := size) (by omega)]
          refine same_lift rfl fun s hs' => ?_
          cases hs'
          rw [u64Sub_ok cfg (by omega), u64Sub_ok cfg' (by omega)]
          refine same_lift rfl fun s hs' => ?_
          cases hs'
          refine same_start (by omega) (by omega) (ih _ _ _ ?_)
          rw [show q + 16 + 8 + 2 + size - 26 = q + size by omega]
          exact hnx
      · exact skip 24 _ _ _ (by omega) (by omega)

theorem same_asf (cfg cfg' : Cfg) (hd : d.length < 2 ^ 62) (hs : SmallObjects d) (h1 : 2 ^ 63 - 1 ≤ m) (h2 : 2 ^ 63 - 1 ≤ m') (q : Nat) :
    Same d m m' (asfReader cfg) (asfReader cfg') q := by
  refine same_start (by omega) (by omega) (same_readU32le fun _ => same_current (by omega) (by omega) fun t ht => ?_)
  have : t = 30 := by omega
  subst this
  exact same_asfObjects cfg cfg' hd hs h1 h2 _ _ _ _ .first

end FF
