import Verif.Proofs.Detect
/-!
# No reader panics (release) or diverges
-/

namespace FF
open FileFormat Spec

theorem and7f_shift_lt (b : UInt8) (k : Nat) : (b.toNat &&& 0x7F) <<< k < 2 ^ (k + 7) := by
  have h : b.toNat &&& 0x7F ≤ 0x7F := Nat.and_le_right
  rw [Nat.shiftLeft_eq, Nat.pow_add, Nat.mul_comm]
  exact Nat.mul_lt_mul_of_pos_left (by omega) (Nat.two_pow_pos k)

theorem id3TagSize_lt (a b c d : UInt8) : id3TagSize a b c d < 2 ^ 28 := by
  unfold id3TagSize
  refine Nat.or_lt_two_pow (Nat.or_lt_two_pow (Nat.or_lt_two_pow ?_ ?_) ?_) ?_
  · exact and7f_shift_lt a 21
  · exact Nat.lt_of_lt_of_le (and7f_shift_lt b 14) (by decide)
  · exact Nat.lt_of_lt_of_le (and7f_shift_lt c 7) (by decide)
  · have h : d.toNat &&& 0x7F ≤ 0x7F := Nat.and_le_right
    omega

theorem u64Add_ok (cfg : Cfg) {a b : Nat} (h : a + b < 2 ^ 64) : u64Add cfg a b = .ok (a + b) := by
  simp [u64Add, h]

theorem run_readBytes (d : Bytes) (m n q : Nat) : run d m (readBytes n) q =
    if n = 0 ∨ q + n ≤ d.length then .ok (slice d q n, q + n) else .error (.err .unexpectedEof) :=
  run_rdExact n q

theorem run_sk_or (d : Bytes) (m : Nat) (s : SeekFrom) (q : Nat) :
    (∃ q', run d m (Prog.sk s) q = .ok (q', q')) ∨
      run d m (Prog.sk s) q = .error (.err .invalidInput) := by
  rw [run_sk]
  cases seekTarget d.length m q s with
  | some q' => exact Or.inl ⟨q', rfl⟩
  | none => exact Or.inr rfl

theorem run_sk_start_or (d : Bytes) (m n : Nat) (q : Nat) :
    run d m (Prog.sk (.start n)) q = .ok (n, n) ∨
      run d m (Prog.sk (.start n)) q = .error (.err .invalidInput) := by
  rw [run_sk]
  simp only [seekTarget]
  split
  · rename_i h; split at h <;> simp_all
  · exact Or.inr rfl

theorem id3Loop_total (cfg : Cfg) (d : Bytes) (m : Nat) (hd : d.length < 2 ^ 63) (fuel off q : Nat)
    (hf : d.length < off + 10 * fuel) (h0 : 0 < fuel) :
    NotCrash (run d m (id3Loop cfg fuel off) q) := by
  induction fuel generalizing off q with
  | zero => omega
  | succ fuel ih =>
    simp only [id3Loop, run_bind]
    rcases run_sk_start_or d m off q with h | h
    · rw [h]
      simp only [andThen_ok, run_readBytes]
      by_cases hl : off + 10 ≤ d.length
      · rw [if_pos (Or.inr hl)]
        have hx : (slice d off 10).length = 10 := length_slice_eq _ _ _ hl
        generalize slice d off 10 = x at hx
        simp only [andThen_ok]
        rw [sliceIdx_ok (by omega) (by omega)]
        simp only [andThen_ok, run_lift_ok]
        split
        · trivial
        · simp only [run_bind]
          rw [index_ok (i := 6) (by omega), index_ok (i := 7) (by omega), index_ok (i := 8) (by omega),
            index_ok (i := 9) (by omega), index_ok (i := 5) (by omega)]
          simp only [run_bind, run_lift_ok, andThen_ok]
          have ht := id3TagSize_lt x[6] x[7] x[8] x[9]
          generalize id3TagSize x[6] x[7] x[8] x[9] = t at ht
          rw [u64Add_ok cfg (a := off) (b := 10) (by omega)]
          simp only [run_lift_ok, andThen_ok]
          rw [u64Add_ok cfg (a := off + 10) (b := t) (by omega)]
          simp only [run_lift_ok, andThen_ok]
          have tail : ∀ n p, off + 10 ≤ n → n < 2 ^ 63 + 2 ^ 33 →
              NotCrash (andThen (run d m (Prog.lift (id3Footer cfg x[5] n)) p)
                fun a q' => run d m (id3Loop cfg fuel a) q') := by
            intro n p h1 h2
            have : ∃ n', id3Footer cfg x[5] n = .ok n' ∧ n ≤ n' := by
              unfold id3Footer
              split
              · exact ⟨n + 10, u64Add_ok cfg (by omega), by omega⟩
              · exact ⟨n, rfl, Nat.le_refl _⟩
            obtain ⟨n', hn', hle⟩ := this
            rw [hn', run_lift_ok, andThen_ok]
            cases fuel with
            | zero => omega
            | succ fuel => exact ih _ _ (by omega) (by omega)
          unfold id3Extended
          split
          · simp only [run_bind, readU32be, run_rdExact]
            split
            · simp only [andThen_ok, run_pure]
              have hb := beNat_lt (slice d (off + 10) 4)
              have hl4 : (slice d (off + 10) 4).length ≤ 4 := by rw [length_slice]; omega
              have : beNat (slice d (off + 10) 4) < 256 ^ 4 :=
                Nat.lt_of_lt_of_le hb (Nat.pow_le_pow_right (by omega) hl4)
              rw [u64Add_ok cfg (by omega), run_lift_ok, andThen_ok]
              exact tail _ _ (by omega) (by omega)
            · trivial
          · exact tail _ _ (by omega) (by omega)
      · rw [if_neg (by omega)]
        trivial
    · rw [h]
      trivial

theorem andThen_notCrash {α β : Type} {r : Except Fail (α × Nat)} {f : α → Nat → Except Fail (β × Nat)}
    (h : NotCrash r) (hf : ∀ a q, NotCrash (f a q)) : NotCrash (andThen r f) := by
  rcases r with (e | _ | _) | ⟨a, q⟩
  · trivial
  · cases h
  · cases h
  · exact hf a q

theorem id3v2_total (cfg : Cfg) (d : Bytes) (m : Nat) (hd : d.length < 2 ^ 63) (q : Nat) :
    NotCrash (run d m (id3v2Reader cfg) q) := by
  rw [id3v2Reader, run_bind]
  refine andThen_notCrash (id3Loop_total cfg d m hd _ _ _ (by simp only [id3Fuel]; omega) (by simp [id3Fuel])) ?_
  intro off p
  simp only [run_bind]
  rcases run_sk_start_or d m off p with h | h
  · rw [h]
    simp only [andThen_ok, run_readBytes]
    split
    · rename_i hh
      simp only [andThen_ok]
      split
      · trivial
      · have hx : (slice d off 4).length = 4 := length_slice_eq _ _ _ (by omega)
        rw [sliceIdx_ok (by omega) (by omega)]
        simp only [run_bind, run_lift_ok, andThen_ok]
        split <;> trivial
    · trivial
  · rw [h]; trivial

/-- The features whose readers do arithmetic that can overflow. -/
def _root_.FF.Spec.Feature.unchecked : Feature → Bool
  | .asf => true
  | .mp4 => true
  | .zip => true
  | _ => false

/-- Every other reader only fails with an error, apart from the fuel of the ID3v2 reader. -/
theorem reader_noCrash (cfg : Cfg) (f : Feature) (hf : f ≠ .id3v2)
    (hc : cfg.overflowChecks = false ∨ f.unchecked = false) : NoCrash (readerOf cfg f).2 := by
  rcases hc with hc | hc
  · obtain ⟨k, hk⟩ := reader_failC cfg f hf
    refine hk.noCrash ?_
    rintro e (h | ⟨h, _⟩)
    · exact h
    · rw [hc] at h; cases h
  · cases f with
    | cfb => exact cfbReader_all.noCrash (fun _ => id)
    | ebml => exact ebmlReader_all.noCrash (fun _ => id)
    | exe => exact exeReader_all.noCrash (fun _ => id)
    | pdf => exact pdfReader_all.noCrash (fun _ => id)
    | rm => exact rmReader_all.noCrash (fun _ => id)
    | sqlite3 => exact sqlite3Reader_all.noCrash (fun _ => id)
    | txt => exact txtReader_all.noCrash (fun _ => id)
    | xml => exact xmlReader_all.noCrash (fun _ => id)
    | id3v2 => exact absurd rfl hf
    | asf => cases hc
    | mp4 => cases hc
    | zip => cases hc

theorem execOn_notCrash (cfg : Cfg) (f : Feature) (src : Src) (h : src.WF)
    (hd : src.data.length < 2 ^ 63) (hc : cfg.overflowChecks = false ∨ f.unchecked = false) :
    NotCrash (execOn (readerOf cfg f).1 (readerOf cfg f).2 src).1 := by
  by_cases hf : f = .id3v2
  · subst hf
    rcases execOn_exact _ _ src h (reader_exact cfg .id3v2 rfl) (reader_abs cfg .id3v2) with h1 | ⟨_, e, h1⟩
    · rw [h1]
      have := id3v2_total cfg src.data src.maxPos hd 0
      simp only [readerOf]
      generalize run src.data src.maxPos (id3v2Reader cfg) 0 = r at this
      rcases r with (e | _ | _) | ⟨a, q⟩ <;> first | trivial | cases this
    · rw [h1]; trivial
  · obtain ⟨k, hk⟩ := reader_all cfg f
    exact (execOn_le _ _ src h (hk.untilBuffered (fun _ => id))).2.2 (reader_noCrash cfg f hf hc)

theorem fromGenericReader_notCrash (ft : Features) (src : Src) (h : src.WF)
    (hd : src.data.length < 2 ^ 63) : NotCrash (fromGenericReader ft src).1 := by
  unfold fromGenericReader
  split
  · have := execOn_notCrash ⟨true⟩ .txt src h hd (Or.inr rfl)
    simp only [readerOf] at this
    generalize execOn true txtReader src = r at this
    obtain ⟨r, s⟩ := r
    rcases r with (e | _ | _) | a <;> first | trivial | cases this
  · trivial

theorem afterRead_notCrash (cfg : Cfg) (ft : Features) (buf : Bytes) (src : Src) (h : src.WF)
    (hd : src.data.length < 2 ^ 63)
    (hc : cfg.overflowChecks = false ∨
      ∀ f ∈ Feature.structured, f.enabled ft = true → fromSignature buf = some f.base →
        f.unchecked = false) :
    NotCrash (afterRead cfg ft buf src).1 := by
  unfold afterRead
  split
  · trivial
  · cases hs : fromSignature buf with
    | none => exact fromGenericReader_notCrash ft src h hd
    | some fmt =>
      simp only
      rcases fmtReader_cases cfg ft fmt with hn | ⟨f, hf, he, hfmt, hr⟩
      · simp only [fromFmtReader, hn]; trivial
      · simp only [fromFmtReader, hr]
        have h1 := execOn_notCrash cfg f src h hd
          (hc.imp id (fun hc => hc f hf he (by rw [hs, hfmt])))
        obtain ⟨k, hk⟩ := reader_all cfg f
        obtain ⟨hle, hwf, _⟩ := execOn_le _ _ src h (hk.untilBuffered (fun _ => id))
        generalize execOn (readerOf cfg f).1 (readerOf cfg f).2 src = r at h1 hle hwf
        obtain ⟨r, s⟩ := r
        rcases r with (e | _ | _) | a
        · exact fromGenericReader_notCrash ft s hwf (by rw [hle.data]; exact hd)
        · cases h1
        · cases h1
        · trivial

theorem fromReader_notCrash (cfg : Cfg) (ft : Features) (src : Src) (h : src.WF)
    (hd : src.data.length < 2 ^ 63)
    (hc : cfg.overflowChecks = false ∨ ∀ buf src', src.read bufferSize = (.ok buf, src') →
      ∀ f ∈ Feature.structured, f.enabled ft = true → fromSignature buf = some f.base →
        f.unchecked = false) :
    NotCrash (fromReader cfg ft src).1 := by
  rw [fromReader_eq]
  obtain ⟨hle, hwf, _⟩ := Src.read_spec src bufferSize h
  cases hr : src.read bufferSize with
  | mk r src' =>
    rw [hr] at hle hwf
    cases r with
    | error e => trivial
    | ok buf =>
      refine afterRead_notCrash cfg ft buf src' hwf (by rw [hle.data]; exact hd) ?_
      exact hc.imp id (fun hc => hc buf src' hr)

end FF
