import Verif.Proofs.Cases
import Verif.Proofs.Parse
/-!
# Runs that do not depend on the seek range or on the build profile
-/

namespace FF
open FileFormat Spec

/-- The two programs end in the same way on content `d` from position `q`, on streams that support
offsets up to `m` and `m'`. -/
def Same {α : Type} (d : Bytes) (m m' : Nat) (p p' : Prog α) (q : Nat) : Prop := run d m p q = run d m' p' q

variable {α β : Type} {d : Bytes} {m m' : Nat}

theorem Same.refl_pure (a : α) (q : Nat) : Same d m m' (Pure.pure a : Prog α) (Pure.pure a) q := rfl
theorem Same.refl_pure' (a : α) (q : Nat) : Same d m m' (Prog.pure a) (Prog.pure a) q := rfl
theorem Same.refl_fail (f : Fail) (q : Nat) : Same d m m' (Prog.fail f : Prog α) (Prog.fail f) q := rfl
theorem Same.refl_throw (e : ErrKind) (q : Nat) : Same d m m' (Prog.throwErr e : Prog α) (Prog.throwErr e) q := rfl

theorem Same.bind {p p' : Prog α} {f f' : α → Prog β} {q : Nat} (h : Same d m m' p p' q)
    (hf : ∀ a q', run d m' p' q = .ok (a, q') → Same d m m' (f a) (f' a) q') :
    Same d m m' (p >>= f) (p' >>= f') q := by
  unfold Same at *
  rw [run_bind, run_bind, h]
  cases hr : run d m' p' q with
  | error e => rfl
  | ok r =>
    obtain ⟨a, q'⟩ := r
    exact hf a q' hr

theorem same_readBytes {f f' : Bytes → Prog β} {n q : Nat}
    (h : n = 0 ∨ q + n ≤ d.length → Same d m m' (f (slice d q n)) (f' (slice d q n)) (q + n)) :
    Same d m m' (readBytes n >>= f) (readBytes n >>= f') q := by
  unfold Same at *
  rw [run_bind, run_bind, run_readBytes, run_readBytes]
  split
  · rename_i hc; exact h hc
  · rfl

theorem same_rd {f f' : Bytes → Prog β} {n q : Nat}
    (h : Same d m m' (f (slice d q n)) (f' (slice d q n)) (q + (slice d q n).length)) :
    Same d m m' (Prog.rd n >>= f) (Prog.rd n >>= f') q := by
  unfold Same at *
  rw [run_bind, run_bind, run_rd, run_rd]
  exact h

theorem same_rdUntil {f f' : Bytes → Prog β} {n q : Nat}
    (h : ∀ x q', Same d m m' (f x) (f' x) q') :
    Same d m m' (Prog.rdUntil n >>= f) (Prog.rdUntil n >>= f') q := by
  unfold Same at *
  rw [run_bind, run_bind, run_rdUntil, run_rdUntil]
  exact h _ _

theorem same_readU8 {f f' : UInt8 → Prog β} {q : Nat}
    (h : ∀ b, q + 1 ≤ d.length → Same d m m' (f b) (f' b) (q + 1)) :
    Same d m m' (readU8 >>= f) (readU8 >>= f') q := by
  show Same d m m' ((readBytes 1 >>= fun buf => Prog.lift (index buf 0)) >>= f) _ q
  refine Same.bind (p := readU8) (p' := readU8) (same_readBytes fun _ => ?_) ?_
  · cases index (slice d q 1) 0 <;> rfl
  · intro b q' hr
    have : run d m' readU8 q = andThen (run d m' (readBytes 1) q) fun a q' => run d m' (Prog.lift (index a 0)) q' :=
      run_bind (readBytes 1) _ q
    rw [this, run_readBytes] at hr
    split at hr
    · rename_i hc
      have hlen : q + 1 ≤ d.length := by omega
      simp only [andThen_ok] at hr
      rw [index_ok (by rw [length_slice]; omega), run_lift_ok] at hr
      cases hr
      exact h _ hlen
    · cases hr

theorem same_bytes_map {γ : Type} {g : Bytes → γ} {f f' : γ → Prog β} {n q : Nat} (hn : n ≠ 0)
    (h : q + n ≤ d.length → Same d m m' (f (g (slice d q n))) (f' (g (slice d q n))) (q + n)) :
    Same d m m' ((Prog.rdExact n >>= fun buf => Pure.pure (g buf)) >>= f)
      ((Prog.rdExact n >>= fun buf => Pure.pure (g buf)) >>= f') q := by
  unfold Same at *
  simp only [run_bind, run_rdExact]
  split
  · simp only [andThen_ok, run_pure]
    exact h (by omega)
  · rfl

theorem same_readU16le {f f' : Nat → Prog β} {q : Nat}
    (h : q + 2 ≤ d.length → Same d m m' (f (leNat (slice d q 2))) (f' (leNat (slice d q 2))) (q + 2)) :
    Same d m m' (readU16le >>= f) (readU16le >>= f') q := same_bytes_map (by decide) h
theorem same_readU32le {f f' : Nat → Prog β} {q : Nat}
    (h : q + 4 ≤ d.length → Same d m m' (f (leNat (slice d q 4))) (f' (leNat (slice d q 4))) (q + 4)) :
    Same d m m' (readU32le >>= f) (readU32le >>= f') q := same_bytes_map (by decide) h
theorem same_readU32be {f f' : Nat → Prog β} {q : Nat}
    (h : q + 4 ≤ d.length → Same d m m' (f (beNat (slice d q 4))) (f' (beNat (slice d q 4))) (q + 4)) :
    Same d m m' (readU32be >>= f) (readU32be >>= f') q := same_bytes_map (by decide) h
theorem same_readU64be {f f' : Nat → Prog β} {q : Nat}
    (h : q + 8 ≤ d.length → Same d m m' (f (beNat (slice d q 8))) (f' (beNat (slice d q 8))) (q + 8)) :
    Same d m m' (readU64be >>= f) (readU64be >>= f') q := same_bytes_map (by decide) h

theorem same_readGuid {f f' : Str → Prog β} {q : Nat}
    (h : ∀ s, q + 16 ≤ d.length → Same d m m' (f s) (f' s) (q + 16)) :
    Same d m m' (readGuid >>= f) (readGuid >>= f') q := by
  refine Same.bind (p := readGuid) (p' := readGuid) (same_readBytes fun _ => ?_) ?_
  · cases guidText (slice d q 16) <;> rfl
  · intro b q' hr
    have : run d m' readGuid q = andThen (run d m' (readBytes 16) q) fun a q' => run d m' (Prog.lift (guidText a)) q' :=
      run_bind (readBytes 16) _ q
    rw [this, run_readBytes] at hr
    split at hr
    · rename_i hc
      simp only [andThen_ok] at hr
      rw [guidText_ok _ (length_slice_eq _ _ _ (by omega)), run_lift_ok] at hr
      cases hr
      exact h _ (by omega)
    · cases hr

theorem same_start {f f' : Nat → Prog β} {n q : Nat} (h1 : n ≤ m) (h2 : n ≤ m') (h : Same d m m' (f n) (f' n) n) :
    Same d m m' (Prog.sk (.start n) >>= f) (Prog.sk (.start n) >>= f') q := by
  unfold Same at *
  rw [run_bind, run_bind, run_sk_start _ _ h1, run_sk_start _ _ h2]
  exact h

theorem same_end {f f' : Nat → Prog β} {q : Nat} (h1 : d.length ≤ m) (h2 : d.length ≤ m')
    (h : Same d m m' (f d.length) (f' d.length) d.length) :
    Same d m m' (Prog.sk (.fromEnd 0) >>= f) (Prog.sk (.fromEnd 0) >>= f') q := by
  unfold Same at *
  rw [run_bind, run_bind, run_sk_end _ h1, run_sk_end _ h2]
  exact h

theorem same_current {f f' : Nat → Prog β} {i : Int} {q : Nat} (h1 : (q : Int) + i ≤ m) (h2 : (q : Int) + i ≤ m')
    (h : ∀ t : Nat, (t : Int) = q + i → Same d m m' (f t) (f' t) t) :
    Same d m m' (Prog.sk (.current i) >>= f) (Prog.sk (.current i) >>= f') q := by
  unfold Same at *
  by_cases h0 : 0 ≤ (q : Int) + i
  · have ht : (q : Int) + i = ((q : Int) + i).toNat := by omega
    rw [run_bind, run_bind, run_sk_current i q _ ht (by omega), run_sk_current i q _ ht (by omega)]
    exact h _ ht.symm
  · rw [run_bind, run_bind, run_sk, run_sk]
    simp only [seekTarget]
    rw [if_neg (by omega), if_neg (by omega)]
    rfl

theorem same_pos {f f' : Nat → Prog β} {q : Nat} (h : Same d m m' (f q) (f' q) q) :
    Same d m m' (Prog.pos >>= f) (Prog.pos >>= f') q := by
  unfold Same at *
  rw [run_bind, run_bind, run_pos, run_pos]
  exact h

theorem same_lift {r r' : Except Fail α} {f f' : α → Prog β} {q : Nat} (hr : r = r')
    (h : ∀ a, r = .ok a → Same d m m' (f a) (f' a) q) :
    Same d m m' (Prog.lift r >>= f) (Prog.lift r' >>= f') q := by
  subst hr
  cases r with
  | error e => exact rfl
  | ok a => exact h a rfl

theorem leNat_slice (d : Bytes) (q n : Nat) : leNat (slice d q n) < 256 ^ n :=
  Nat.lt_of_lt_of_le (leNat_lt _) (Nat.pow_le_pow_right (by omega) (by rw [length_slice]; omega))
theorem beNat_slice (d : Bytes) (q n : Nat) : beNat (slice d q n) < 256 ^ n :=
  Nat.lt_of_lt_of_le (beNat_lt _) (Nat.pow_le_pow_right (by omega) (by rw [length_slice]; omega))

/-! ## The readers whose seeks stay close to the content -/

theorem same_txtLines (n limit q : Nat) : Same d m m' (txtLines n limit) (txtLines n limit) q := by
  induction n generalizing limit q with
  | zero => rfl
  | succ n ih =>
    unfold txtLines
    refine same_rdUntil fun line q' => ?_
    split
    · rfl
    · split
      · rfl
      · split
        · rfl
        · exact ih _ _

theorem same_txt (q : Nat) : Same d m m' txtReader txtReader q :=
  same_start (by omega) (by omega) (same_txtLines _ _ _)

theorem same_sqlite3 (h1 : 100 ≤ m) (h2 : 100 ≤ m') (q : Nat) : Same d m m' sqlite3Reader sqlite3Reader q := by
  refine same_start h1 h2 (same_rd (same_lift rfl fun found _ => ?_))
  cases found <;> rfl

theorem same_xml (h1 : 5 ≤ m) (h2 : 5 ≤ m') (q : Nat) : Same d m m' xmlReader xmlReader q := by
  refine same_start h1 h2 (same_rd ?_)
  unfold Same
  cases xmlClassify _ xmlRules <;> rfl

theorem same_pdfLoop (fuel total : Nat) (o : Bytes) (q : Nat) :
    Same d m m' (pdfLoop fuel total o) (pdfLoop fuel total o) q := by
  induction fuel generalizing total o q with
  | zero => rfl
  | succ n ih =>
    unfold pdfLoop
    split
    · refine same_rd ?_
      split
      · rfl
      · refine same_lift rfl fun w _ => same_lift rfl fun found _ => ?_
        cases found
        · exact ih _ _ _
        · rfl
    · rfl

theorem same_pdf (h1 : 5 ≤ m) (h2 : 5 ≤ m') (q : Nat) : Same d m m' pdfReader pdfReader q :=
  same_start h1 h2 (same_pdfLoop _ _ _ _)

theorem same_exe (h1 : d.length + 2 ^ 33 ≤ m) (h2 : d.length + 2 ^ 33 ≤ m') (q : Nat) :
    Same d m m' exeReader exeReader q := by
  refine same_end (by omega) (by omega) (same_start (by omega) (by omega) (same_readU32le fun _ => ?_))
  have hv := leNat_slice d 60 4
  generalize leNat (slice d 60 4) = v at hv
  split
  · refine same_start (by omega) (by omega) (same_readBytes fun hx => ?_)
    split
    · refine same_current (by omega) (by omega) fun t ht => same_readU16le fun _ => ?_
      rfl
    · refine same_lift rfl fun two _ => ?_
      split
      · rfl
      · split <;> rfl
  · rfl

theorem same_cfb (h1 : d.length + 2 ^ 50 ≤ m) (h2 : d.length + 2 ^ 50 ≤ m') (q : Nat) :
    Same d m m' cfbReader cfbReader q := by
  refine same_start (by omega) (by omega) (same_readU16le fun _ => ?_)
  refine same_current (by omega) (by omega) fun t ht => same_readU32le fun _ => ?_
  have hv := leNat_slice d t 4
  generalize leNat (slice d t 4) = v at hv
  have hsz : (if leNat (slice d 26 2) = 0x0003 then 512 else 4096) ≤ 4096 := by split <;> omega
  generalize (if leNat (slice d 26 2) = 0x0003 then 512 else 4096) = sz at hsz
  have hprod : sz * (1 + v) ≤ 4096 * (1 + v) := Nat.mul_le_mul_right _ hsz
  show Same d m m' (Prog.sk (.start (sz * (1 + v) + 80)) >>= _) (Prog.sk (.start (sz * (1 + v) + 80)) >>= _) _
  generalize sz * (1 + v) = off at hprod
  refine same_start (by omega) (by omega) (same_readGuid fun clsid hlen => ?_)
  cases cfbClsids.lookup clsid with
  | some f => rfl
  | none =>
    refine same_current (by omega) (by omega) fun t ht => same_readBytes fun hx => ?_
    split
    · rfl
    · refine same_current (by omega) (by omega) fun t ht => same_readBytes fun hx => ?_
      split <;> rfl

theorem same_rmLoop (h1 : d.length + 2 ^ 33 ≤ m) (h2 : d.length + 2 ^ 33 ≤ m') (n : Nat) (a v : Bool) (q : Nat) :
    Same d m m' (rmLoop n a v) (rmLoop n a v) q := by
  induction n generalizing a v q with
  | zero => rfl
  | succ n ih =>
    unfold rmLoop
    refine same_readBytes fun hx => same_readU32be fun hy => ?_
    have hv := beNat_slice d (q + 4) 4
    generalize beNat (slice d (q + 4) 4) = v at hv
    split
    · refine same_pos (same_current (by omega) (by omega) fun t ht => same_readU8 fun b hb => ?_)
      have hb8 := b.toNat_lt
      refine same_current (by omega) (by omega) fun t' ht' => same_readU8 fun c hc => same_readBytes fun hz => ?_
      exact same_start (by omega) (by omega) (same_current (by omega) (by omega) fun t ht => ih _ _ _)
    · exact same_current (by omega) (by omega) fun t ht => ih _ _ _

theorem same_rm (h1 : d.length + 2 ^ 33 ≤ m) (h2 : d.length + 2 ^ 33 ≤ m') (q : Nat) :
    Same d m m' rmReader rmReader q :=
  same_start (by omega) (by omega) (same_readU32be fun _ => same_rmLoop h1 h2 _ _ _ _)

theorem same_id3Loop (cfg cfg' : Cfg) (hd : d.length < 2 ^ 63) (h1 : d.length + 2 ^ 34 ≤ m) (h2 : d.length + 2 ^ 34 ≤ m') (fuel off q : Nat)
    (ho : off ≤ d.length + 2 ^ 33) : Same d m m' (id3Loop cfg fuel off) (id3Loop cfg' fuel off) q := by
  induction fuel generalizing off q with
  | zero => rfl
  | succ n ih =>
    unfold id3Loop
    refine same_start (by omega) (by omega) (same_readBytes fun hx => same_lift rfl fun magic _ => ?_)
    split
    · rfl
    · refine same_lift rfl fun b6 _ => same_lift rfl fun b7 _ => same_lift rfl fun b8 _ => same_lift rfl fun b9 _ =>
        same_lift rfl fun flags _ => ?_
      have ht := id3TagSize_lt b6 b7 b8 b9
      generalize id3TagSize b6 b7 b8 b9 = t at ht
      rw [u64Add_ok cfg (a := off) (b := 10) (by omega), u64Add_ok cfg' (a := off) (b := 10) (by omega)]
      refine same_lift rfl fun n1 hn1 => ?_
      cases hn1
      rw [u64Add_ok cfg (a := off + 10) (b := t) (by omega), u64Add_ok cfg' (a := off + 10) (b := t) (by omega)]
      refine same_lift rfl fun n2 hn2 => ?_
      cases hn2
      have tail : ∀ x p, x ≤ d.length + 2 ^ 33 - 10 →
          Same d m m' (Prog.lift (id3Footer cfg flags x) >>= fun n' => id3Loop cfg n n')
            (Prog.lift (id3Footer cfg' flags x) >>= fun n' => id3Loop cfg' n n') p := by
        intro x p hx
        unfold id3Footer
        split
        · rw [u64Add_ok cfg (a := x) (b := 10) (by omega), u64Add_ok cfg' (a := x) (b := 10) (by omega)]
          refine same_lift rfl fun y hy => ?_
          cases hy
          exact ih _ _ (by omega)
        · refine same_lift rfl fun y hy => ?_
          cases hy
          exact ih _ _ (by omega)
      unfold id3Extended
      split
      · have hbe := beNat_slice d (off + 10) 4
        refine Same.bind (same_readU32be fun hl => ?_) ?_
        · generalize beNat (slice d (off + 10) 4) = e at hbe
          rw [u64Add_ok cfg (a := off + 10 + t) (b := e) (by omega), u64Add_ok cfg' (a := off + 10 + t) (b := e) (by omega)]
          rfl
        · intro a q' hr
          simp only [run_bind, readU32be, run_rdExact] at hr
          split at hr
          · simp only [andThen_ok, run_pure] at hr
            rw [u64Add_ok cfg' (a := off + 10 + t) (b := beNat (slice d (off + 10) 4)) (by omega), run_lift_ok] at hr
            cases hr
            exact tail _ _ (by omega)
          · cases hr
      · exact tail _ _ (by omega)

theorem id3Loop_offset (cfg : Cfg) (hd : d.length < 2 ^ 63) (fuel off q o q' : Nat) 
   (h : run d m (id3Loop cfg fuel off) q = .ok (o, q')) : o + 10 ≤ d.length := by
  induction fuel generalizing off q with
  | zero => cases h
  | succ n ih =>
    unfold id3Loop at h
    rw [run_bind] at h
    rcases run_sk_start_or d m off q with hs | hs
    · rw [hs] at h
      simp only [andThen_ok, run_bind, run_readBytes] at h
      split at h
      · rename_i hl
        have hl' : off + 10 ≤ d.length := by omega
        simp only [andThen_ok] at h
        cases hm : sliceIdx (slice d off 10) 0 3 with
        | error e => rw [hm] at h; cases h
        | ok mg =>
          rw [hm] at h
          simp only [run_lift_ok, andThen_ok] at h
          split at h
          · cases h; exact hl'
          · simp only [run_bind] at h
            revert h
            generalize run d m (Prog.lift (index (slice d off 10) 6)) (off + 10) = r1
            rcases r1 with e | ⟨b6, q1⟩
            · intro h; cases h
            simp only [andThen_ok]
            generalize run d m (Prog.lift (index (slice d off 10) 7)) q1 = r1
            rcases r1 with e | ⟨b7, q1⟩
            · intro h; cases h
            simp only [andThen_ok]
            generalize run d m (Prog.lift (index (slice d off 10) 8)) q1 = r1
            rcases r1 with e | ⟨b8, q1⟩
            · intro h; cases h
            simp only [andThen_ok]
            generalize run d m (Prog.lift (index (slice d off 10) 9)) q1 = r1
            rcases r1 with e | ⟨b9, q1⟩
            · intro h; cases h
            simp only [andThen_ok]
            generalize run d m (Prog.lift (index (slice d off 10) 5)) q1 = r1
            rcases r1 with e | ⟨fl, q1⟩
            · intro h; cases h
            simp only [andThen_ok]
            generalize run d m (Prog.lift (u64Add cfg off 10)) q1 = r1
            rcases r1 with e | ⟨n1, q1⟩
            · intro h; cases h
            simp only [andThen_ok]
            generalize run d m (Prog.lift (u64Add cfg n1 (id3TagSize b6 b7 b8 b9))) q1 = r1
            rcases r1 with e | ⟨n2, q1⟩
            · intro h; cases h
            simp only [andThen_ok]
            generalize run d m (id3Extended cfg fl n2) q1 = r1
            rcases r1 with e | ⟨n3, q1⟩
            · intro h; cases h
            simp only [andThen_ok]
            generalize run d m (Prog.lift (id3Footer cfg fl n3)) q1 = r1
            rcases r1 with e | ⟨n4, q1⟩
            · intro h; cases h
            simp only [andThen_ok]
            exact ih _ _
      · cases h
    · rw [hs] at h; cases h

theorem same_id3v2 (cfg cfg' : Cfg) (hd : d.length < 2 ^ 63) (h1 : d.length + 2 ^ 34 ≤ m) (h2 : d.length + 2 ^ 34 ≤ m') (q : Nat) :
    Same d m m' (id3v2Reader cfg) (id3v2Reader cfg') q := by
  refine Same.bind (same_id3Loop cfg cfg' hd h1 h2 _ _ _ (by omega)) fun off q' hr => ?_
  have ho := id3Loop_offset cfg' hd _ _ _ _ _ hr
  refine same_start (by omega) (by omega) (same_readBytes fun _ => ?_)
  split
  · rfl
  · refine same_lift rfl fun two _ => ?_
    split <;> rfl

end FF
