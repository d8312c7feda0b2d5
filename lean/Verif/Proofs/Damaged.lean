import Verif.Spec.Damaged
import Verif.Proofs.Pdf
/-!
# Media on which some bytes cannot be read: the readers that call `read` only once per buffer

On a damaged medium each of them fails, or finds what it finds on the undamaged one.
-/

namespace FF
open Spec FileFormat

theorem goodRun_le (bad : Nat → Bool) : ∀ (n p : Nat), goodRun bad p n ≤ n
  | 0, _ => Nat.le_refl _
  | n + 1, p => by
    unfold goodRun
    split
    · exact Nat.zero_le _
    · exact Nat.succ_le_succ (goodRun_le bad n (p + 1))

theorem goodRun_good (bad : Nat → Bool) : ∀ (n p i : Nat), i < goodRun bad p n → bad (p + i) = false
  | 0, _, _, h => absurd h (Nat.not_lt_zero _)
  | n + 1, p, i, h => by
    unfold goodRun at h
    split at h
    · exact absurd h (Nat.not_lt_zero _)
    · rename_i hb
      cases i with
      | zero => simpa using hb
      | succ i =>
        have := goodRun_good bad n (p + 1) i (by omega)
        rwa [Nat.add_right_comm] at this

theorem goodRun_pos {bad : Nat → Bool} {n p : Nat} (hn : n ≠ 0) (hb : bad p = false) : 0 < goodRun bad p n := by
  cases n with
  | zero => exact absurd rfl hn
  | succ n =>
    unfold goodRun
    rw [hb]
    exact Nat.succ_pos _

theorem goodRun_all {bad : Nat → Bool} : ∀ {n p : Nat}, (∀ i, i < n → bad (p + i) = false) → goodRun bad p n = n
  | 0, _, _ => rfl
  | n + 1, p, h => by
    unfold goodRun
    have h0 : bad p = false := h 0 (Nat.succ_pos _)
    rw [h0, if_neg (by decide), goodRun_all (fun i hi => by
      have := h (i + 1) (by omega)
      rwa [← Nat.add_assoc, Nat.add_right_comm] at this)]

theorem length_damaged {bad : Nat → Bool} (data : Bytes) (p n : Nat) :
    (slice data p (goodRun bad p (min n (data.length - p)))).length = goodRun bad p (min n (data.length - p)) := by
  rw [length_slice]
  have := goodRun_le bad (min n (data.length - p)) p
  omega


theorem goodRun_stop {bad : Nat → Bool} : ∀ {n p : Nat}, goodRun bad p n < n → bad (p + goodRun bad p n) = true
  | 0, _, h => absurd h (Nat.not_lt_zero _)
  | n + 1, p, h => by
    unfold goodRun at h ⊢
    split at h
    · rename_i hb
      rw [if_pos hb]; exact hb
    · rename_i hb
      rw [if_neg hb]
      have := goodRun_stop (bad := bad) (n := n) (p := p + 1) (by omega)
      rwa [Nat.add_right_comm] at this

section
variable {σ : Type} (D : Device σ)

/-- The readers in question work on the device itself, without a buffer. -/
def bare (st : σ) : DRd σ := { st := st, buffered := false, buf := [] }

theorem execD_read_bare {α : Type} (n : Nat) (f : Bytes → Prog α) (st : σ) :
    execD D (Prog.rd n >>= f) (bare st) =
      match D.read st n with
      | (.ok bs, st') => execD D (f bs) (bare st')
      | (.error e, st') => (.error (.err e), bare st') := by
  cases D with
  | mk rd sk tl pt =>
  show execD _ (Prog.read n fun x => f x) _ = _
  simp only [execD, DRd.read, bare, if_true]
  cases rd st n with
  | mk r st' => cases r <;> rfl

theorem execD_seek_bare {α : Type} (p : SeekFrom) (f : Nat → Prog α) (st : σ) :
    execD D (Prog.sk p >>= f) (bare st) =
      match D.seek st p with
      | (.ok q, st') => execD D (f q) (bare st')
      | (.error e, st') => (.error (.err e), bare st') := by
  cases D with
  | mk rd sk tl pt =>
  show execD _ (Prog.seek p fun x => f x) _ = _
  simp only [execD, DRd.seek, bare, if_true]
  cases sk st p with
  | mk r st' => cases r <;> rfl

theorem execD_lift_ok {α β : Type} (a : α) (f : α → Prog β) (s : DRd σ) :
    execD D (Prog.lift (.ok a) >>= f) s = execD D (f a) s := rfl

end

/-- The undamaged medium. -/
abbrev healthy (e : ErrKind) (data : Bytes) (top : Nat) : Device Nat := damaged (fun _ => false) e data top

theorem healthy_read (e : ErrKind) (data : Bytes) (top p n : Nat) :
    (healthy e data top).read p n = (.ok (slice data p (min n (data.length - p))), p + min n (data.length - p)) := by
  show (if n = 0 ∨ data.length ≤ p ∨ false = false then _ else _) = _
  rw [if_pos (Or.inr (Or.inr rfl)), goodRun_all (fun _ _ => rfl)]

theorem damaged_read_good {bad : Nat → Bool} (e : ErrKind) (data : Bytes) (top p n : Nat)
    (h : n = 0 ∨ data.length ≤ p ∨ bad p = false) :
    (damaged bad e data top).read p n = (.ok (slice data p (goodRun bad p (min n (data.length - p)))),
      p + goodRun bad p (min n (data.length - p))) := by
  simp only [damaged]
  rw [if_pos h]

theorem damaged_read_bad {bad : Nat → Bool} (e : ErrKind) (data : Bytes) (top p n : Nat)
    (hn : n ≠ 0) (hp : p < data.length) (hb : bad p = true) : (damaged bad e data top).read p n = (.error e, p) := by
  simp only [damaged]
  rw [if_neg]
  rintro (h | h | h)
  · exact hn h
  · omega
  · rw [hb] at h; cases h

/-- The loop of the PDF reader: it fails, or finds the same. -/
theorem pdfLoop_damaged (bad : Nat → Bool) (e : ErrKind) (data : Bytes) (top : Nat) (fuel total : Nat) (ov : Bytes) (st : Nat)
    (hov : ov.length = 12) (hf : pdfReadLimit < fuel + total ∧ 0 < fuel) (hd : 32768 ∣ total ∨ data.length ≤ st) :
    (∃ x, (execD (damaged bad e data top) (pdfLoop fuel total ov) (bare st)).1 = .error (.err x)) ∨
    (execD (damaged bad e data top) (pdfLoop fuel total ov) (bare st)).1 =
      (execD (healthy e data top) (pdfLoop fuel total ov) (bare st)).1 := by
  have hlim : pdfReadLimit = 1024 * 32768 := rfl
  have hz12 : pdfOverlapSize = 12 := rfl
  have hcs : pdfChunkSize = 32768 := rfl
  induction fuel generalizing total ov st with
  | zero => omega
  | succ fuel ih =>
    unfold pdfLoop
    split
    · rename_i hlt
      rw [execD_read_bare, execD_read_bare, healthy_read, hcs]
      by_cases hend : data.length ≤ st
      · right
        rw [damaged_read_good _ _ _ _ _ (Or.inr (Or.inl hend))]
        have h0 : min 32768 (data.length - st) = 0 := by omega
        rw [h0]
        rfl
      by_cases hb : bad st = true
      · left
        rw [damaged_read_bad _ _ _ _ _ (by decide) (by omega) hb]
        exact ⟨e, rfl⟩
      have hb' : bad st = false := by simpa using hb
      rw [damaged_read_good _ _ _ _ _ (Or.inr (Or.inr hb'))]
      have hm : min 32768 (data.length - st) ≠ 0 := by omega
      have hk0 := goodRun_pos hm hb'
      have hkle := goodRun_le bad (min 32768 (data.length - st)) st
      have hstop := goodRun_stop (bad := bad) (n := min 32768 (data.length - st)) (p := st)
      obtain ⟨m, hmdef⟩ : ∃ m, m = min 32768 (data.length - st) := ⟨_, rfl⟩
      rw [← hmdef] at hm hk0 hkle hstop ⊢
      obtain ⟨k, hkdef⟩ : ∃ k, k = goodRun bad st m := ⟨_, rfl⟩
      rw [← hkdef] at hk0 hkle hstop ⊢
      have hlk : (slice data st k).length = k := by rw [length_slice]; omega
      have hlm : (slice data st m).length = m := by rw [length_slice]; omega
      have hpre : slice data st m = slice data st k ++ slice data (st + k) (m - k) := by
        rw [slice_append_slice]; congr 1; omega
      simp only
      rw [if_neg (show ¬ (slice data st k).length = 0 by omega), if_neg (show ¬ (slice data st m).length = 0 by omega), hlk, hlm]
      have hbk : (ov ++ slice data st k).length = 12 + k := by rw [List.length_append, hov, hlk]
      have hbm : (ov ++ slice data st m).length = 12 + m := by rw [List.length_append, hov, hlm]
      rw [sliceIdx_ok (by split <;> omega) (by omega), execD_lift_ok, sliceIdx_ok (by split <;> omega) (by omega),
        execD_lift_ok]
      rw [hz12, List.take_of_length_le (Nat.le_of_eq hbk), List.take_of_length_le (Nat.le_of_eq hbm)]
      obtain ⟨b, hbb, hbi⟩ := holdsBytes_spec (List.drop (if total = 0 then 12 else 0) (ov ++ slice data st k)) aiMarker
      obtain ⟨b', hbb', hbi'⟩ := holdsBytes_spec (List.drop (if total = 0 then 12 else 0) (ov ++ slice data st m)) aiMarker
      rw [hbb, hbb', execD_lift_ok, execD_lift_ok]
      have hs12 : (if total = 0 then 12 else 0) ≤ 12 := by split <;> omega
      cases b with
      | true =>
        have : b' = true := by
          rw [hbi', hpre, ← List.append_assoc, List.drop_append_of_le_length (by omega)]
          exact (hbi.mp rfl).trans (List.infix_append' [] _ _)
        subst this
        right; rfl
      | false =>
        by_cases hkm : k = m
        · subst hkm
          have : b' = false := by
            cases b' with
            | false => rfl
            | true => exact absurd (hbi.mpr (hbi'.mp rfl)) (by decide)
          subst this
          simp only [Bool.false_eq_true, if_false]
          refine ih (total + k) _ (st + k) ?_ (by omega) ?_
          · unfold rotateRight
            rw [List.length_take, List.length_append, List.length_drop, List.length_take]
            omega
          · by_cases hf32 : k = 32768
            · rcases hd with ⟨w, hw⟩ | hd
              · exact Or.inl ⟨w + 1, by omega⟩
              · omega
            · right; omega
        · left
          simp only [Bool.false_eq_true, if_false]
          obtain ⟨fuel', hfuel⟩ : ∃ n, fuel = n + 1 := ⟨fuel - 1, by
            rcases hd with ⟨w, hw⟩ | hd <;> omega⟩
          subst hfuel
          unfold pdfLoop
          rw [if_pos (by rcases hd with ⟨w, hw⟩ | hd <;> omega), execD_read_bare, hcs,
            damaged_read_bad _ _ _ _ _ (by decide) (by omega) (hstop (by omega))]
          exact ⟨e, rfl⟩
    · right; rfl

theorem damaged_seek (bad : Nat → Bool) (e : ErrKind) (data : Bytes) (top p : Nat) (s : SeekFrom) :
    (damaged bad e data top).seek p s = (healthy e data top).seek p s := rfl

/-- The PDF reader. -/
theorem pdf_damaged (bad : Nat → Bool) (e : ErrKind) (data : Bytes) (top st : Nat) :
    (∃ x, (execOnD (damaged bad e data top) false pdfReader st).1 = .error (.err x)) ∨
    (execOnD (damaged bad e data top) false pdfReader st).1 = (execOnD (healthy e data top) false pdfReader st).1 := by
  show (∃ x, (execD _ pdfReader (bare st)).1 = _) ∨ (execD _ pdfReader (bare st)).1 = (execD _ pdfReader (bare st)).1
  unfold pdfReader
  rw [execD_seek_bare, execD_seek_bare, damaged_seek]
  cases (healthy e data top).seek st (.start 5) with
  | mk r st' =>
    cases r with
    | error x => exact Or.inl ⟨x, rfl⟩
    | ok q => exact pdfLoop_damaged bad e data top _ 0 _ st' (by decide) ⟨by decide, by decide⟩ (Or.inl ⟨0, rfl⟩)

/-- A reader that reads once, within the part that can be read. -/
theorem once_damaged {α : Type} (bad : Nat → Bool) (e : ErrKind) (data : Bytes) (top st p n : Nat) (f : Bytes → Prog α)
    (hf : ∀ bs s, (execD (damaged bad e data top) (f bs) s).1 = (execD (healthy e data top) (f bs) s).1)
    (hn : n ≠ 0) (hb : ∀ i, i < p + n → bad i = false) :
    (execOnD (damaged bad e data top) false (Prog.sk (.start p) >>= fun _ => Prog.rd n >>= f) st).1 =
    (execOnD (healthy e data top) false (Prog.sk (.start p) >>= fun _ => Prog.rd n >>= f) st).1 := by
  show (execD _ _ (bare st)).1 = (execD _ _ (bare st)).1
  rw [execD_seek_bare, execD_seek_bare, damaged_seek]
  generalize hx : (healthy e data top).seek st (.start p) = x
  obtain ⟨r, st'⟩ := x
  cases r with
  | error x => rfl
  | ok q =>
    have hst : st' = p := by
      simp only [healthy, damaged] at hx
      split at hx
      · rename_i h
        cases hx
        unfold seekTarget at h
        split at h <;> first | (split at h <;> simp_all) | simp_all
      · cases hx
    subst hst
    simp only
    rw [execD_read_bare, execD_read_bare, healthy_read, damaged_read_good _ _ _ _ _ (Or.inr (Or.inr (hb st' (by omega)))),
      goodRun_all (fun i hi => hb _ (by omega))]
    exact hf _ _

theorem xml_damaged (bad : Nat → Bool) (e : ErrKind) (data : Bytes) (top st : Nat) (hb : ∀ i, i < 36870 → bad i = false) :
    (execOnD (damaged bad e data top) false xmlReader st).1 = (execOnD (healthy e data top) false xmlReader st).1 :=
  once_damaged bad e data top st 5 8192 (fun buf => Prog.lift (xmlClassify buf xmlRules))
    (fun bs s => by cases xmlClassify bs xmlRules <;> rfl) (by decide) (fun i hi => hb i (by omega))

theorem sqlite3_damaged (bad : Nat → Bool) (e : ErrKind) (data : Bytes) (top st : Nat) (hb : ∀ i, i < 36870 → bad i = false) :
    (execOnD (damaged bad e data top) false sqlite3Reader st).1 =
      (execOnD (healthy e data top) false sqlite3Reader st).1 :=
  once_damaged bad e data top st 100 32768
    (fun buf => do
      let found ← Prog.lift (holdsBytes buf sketchMarker)
      if found then pure Sketch else pure Sqlite3)
    (fun bs s => by
      obtain ⟨b, h, _⟩ := holdsBytes_spec bs sketchMarker
      rw [h]; cases b <;> rfl) (by decide) (fun i hi => hb i (by omega))

end FF
