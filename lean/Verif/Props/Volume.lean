import Verif.Props.Requests
/-!
# C60: the amount of data that is read
-/

namespace FF.Props
open FF FileFormat Spec

/-- The number of bytes that the calls ask for. -/
def requested : List Call → Nat
  | [] => 0
  | .read n :: l => n + requested l
  | .seek :: l => requested l

theorem requested_append (a b : List Call) : requested (a ++ b) = requested a + requested b := by
  induction a with
  | nil => simp [requested]
  | cons c a ih => cases c <;> simp [requested, ih, Nat.add_assoc]

theorem requested_le {W : Nat} {l : List Call} (h : ∀ n, Call.read n ∈ l → n ≤ W) : requested l ≤ l.length * W := by
  induction l with
  | nil => simp [requested]
  | cons c l ih =>
    have := ih (fun n hn => h n (List.mem_cons_of_mem _ hn))
    rw [List.length_cons, Nat.add_mul]
    cases c with
    | read n =>
      have := h n List.mem_cons_self
      simp only [requested]
      omega
    | seek => simp only [requested]; omega

/-- Between the two states at most `B` bytes were asked for. -/
def Paid (B : Nat) (s s' : Src) : Prop := ∃ l, s'.log = l ++ s.log ∧ requested l ≤ B

theorem Paid.refl (s : Src) : Paid 0 s s := ⟨[], rfl, Nat.le_refl _⟩
theorem Paid.le {B B' : Nat} {s s' : Src} (h : Paid B s s') (hb : B ≤ B') : Paid B' s s' := by
  obtain ⟨l, h1, h2⟩ := h
  exact ⟨l, h1, Nat.le_trans h2 hb⟩
theorem Paid.trans {B C : Nat} {a b c : Src} (h : Paid B a b) (k : Paid C b c) : Paid (B + C) a c := by
  obtain ⟨l, h1, h2⟩ := h
  obtain ⟨m, k1, k2⟩ := k
  exact ⟨m ++ l, by rw [k1, h1, List.append_assoc], by rw [requested_append]; omega⟩
theorem Paid.step {B C D : Nat} {a b c : Src} (h : Paid B a b) (k : Paid C b c) (hd : B + C ≤ D) : Paid D a c :=
  (h.trans k).le hd

theorem Spent.paid {N W d : Nat} {s s' : Src} (h : Spent Ev.disturbed N W s s') (hd : s.disturbances ≤ d) :
    Paid ((N + d) * W) s s' := by
  obtain ⟨l, h1, h2, h3⟩ := h
  refine ⟨l, h1, Nat.le_trans (requested_le h3) (Nat.mul_le_mul_right _ ?_)⟩
  simp only [Src.disturbances] at hd
  omega

theorem disturbances_le {s s' : Src} (h : s.Le s') : s'.disturbances ≤ s.disturbances :=
  List.Sublist.countP_le h.revs.sublist

/-- How many calls a reader makes at most on a stream of `len` bytes, not counting disturbed reads. -/
def callBudget (len : Nat) : Feature → Nat
  | .asf => 84486
  | .cfb => 20
  | .ebml => 7684
  | .exe => 14
  | .id3v2 => 6 * (len / 10 + 1) + 4
  | .mp4 => 3588
  | .pdf => 1027
  | .rm => 1284
  | .sqlite3 => 4
  | .txt => 170
  | .xml => 4
  | .zip => 20514

/-- How much a reader asks for at once at most. `M` is a bound for the sizes of `mimetype` entries. -/
def requestBudget (M : Nat) : Feature → Nat
  | .id3v2 => 8192
  | .pdf => 32768
  | .sqlite3 => 32768
  | .zip => max 65557 M
  | _ => 8192

/-- Seeks, and lines of at most 65536 bytes. -/
def OpTx : Op → Prop
  | .seek _ => True
  | .readUntil n => n ≤ 65536
  | _ => False

theorem txtLines_tx (n limit : Nat) (h : limit ≤ 65536) : All OpTx IsErr (fun f => f = PlainText) (txtLines n limit) n := by
  induction n generalizing limit with
  | zero => simp [txtLines]
  | succ n ih =>
    simp only [txtLines, all_rdUntil_bind]
    refine ⟨h, by omega, fun x hx => ?_⟩
    split
    · simp
    · split
      · simp
      · split
        · simp
        · exact ih _ (by omega)

theorem txtReader_tx : All OpTx IsErr (fun f => f = PlainText) txtReader 17 := by
  simp only [txtReader, all_sk_bind]
  exact ⟨trivial, by omega, fun _ => txtLines_tx _ _ (by simp [txtReadLimit])⟩

theorem txt_spentD_8192 (s : Src) (hs : s.WF) : Spent Ev.disturbed 170 8192 s (execOn true txtReader s).2 := by
  refine (txtReader_tx.spentD (C := 10) (by decide) { src := s, buffered := true, buf := [] } (Rd.ok_fresh s true hs)
    ?_ ?_ ?_).le (by decide)
  · intro o ho
    cases o <;> simp_all [OpTx, Op.untilBuffered]
  · intro o ho
    cases o <;> first | exact ho.elim | exact Nat.zero_le _
  · intro o ho
    cases o with
    | readExact m => exact ho.elim
    | read m => exact ho.elim
    | seek p => exact (by decide : 2 ≤ 10)
    | tell => exact ho.elim
    | readUntil m =>
      have h2 : m ≤ 65536 := ho
      show m / 8192 + 2 ≤ 10
      omega

theorem reader_budget (cfg : Cfg) (f : Feature) (M : Nat) (s : Src) (hs : s.WF) (hd : s.data.length < 2 ^ 63)
    (hm : f = .zip → ∀ p size, MimetypeAt s.data p size → size ≤ M) :
    Spent Ev.disturbed (callBudget s.data.length f) (requestBudget M f) s (execOn (readerOf cfg f).1 (readerOf cfg f).2 s).2 := by
  cases f with
  | asf => exact (spentD_ex (C := 2) (asfReader_all cfg) s hs (by omega) (by omega) (Nat.le_of_ble_eq_true rfl) (Nat.le_of_ble_eq_true rfl) id).le (Nat.le_of_ble_eq_true rfl)
  | cfb => exact (spentD_ex (C := 2) cfbReader_all s hs (by omega) (by omega) (Nat.le_of_ble_eq_true rfl) (Nat.le_of_ble_eq_true rfl) (by simp)).le (Nat.le_of_ble_eq_true rfl)
  | ebml => exact (spentD_ex (C := 2) ebmlReader_all s hs (by omega) (by omega) (Nat.le_of_ble_eq_true rfl) (Nat.le_of_ble_eq_true rfl) id).le (Nat.le_of_ble_eq_true rfl)
  | exe => exact (spentD_ex (C := 2) exeReader_all s hs (by omega) (by omega) (Nat.le_of_ble_eq_true rfl) (Nat.le_of_ble_eq_true rfl) (by simp)).le (Nat.le_of_ble_eq_true rfl)
  | id3v2 =>
    refine (id3v2Reader_spent (R := 2) (W := 8192) cfg (fun s n h hn => Rd.readExact_costD s n h
      (Nat.le_trans hn (by decide)) (by decide)) { src := s, buffered := false, buf := [] }
      (Rd.ok_fresh s false hs) hd).le ?_
    show (2 + 2 * 2) * (s.data.length / 10 + 1) + 2 + 2 ≤ 6 * (s.data.length / 10 + 1) + 4
    omega
  | mp4 => exact (spentD_ex (C := 2) (mp4Reader_all cfg) s hs (by omega) (by omega) (Nat.le_of_ble_eq_true rfl) (Nat.le_of_ble_eq_true rfl) id).le (Nat.le_of_ble_eq_true rfl)
  | pdf =>
    have h1 := Rd.seek_cost (bad := Ev.disturbed) (W := 32768) { src := s, buffered := false, buf := [] } (.start 5)
    obtain ⟨_, hbf, hok, _⟩ := Rd.seek_spec { src := s, buffered := false, buf := [] } (.start 5) (Rd.ok_fresh s false hs)
    show Spent _ _ 32768 s (exec pdfReader { src := s, buffered := false, buf := [] }).2.src
    unfold pdfReader
    rw [exec_bind]
    have e1 : exec (Prog.sk (.start 5)) { src := s, buffered := false, buf := [] } =
        match (Rd.mk s false []).seek (.start 5) with
        | (.ok q, s) => (.ok q, s)
        | (.error e, s) => (.error (.err e), s) := by
      simp only [Prog.sk, exec]
      rcases (Rd.mk s false []).seek (.start 5) with ⟨_ | _, _⟩ <;> rfl
    rw [e1]
    cases hx : (Rd.mk s false []).seek (.start 5) with
    | mk r s' =>
      rw [hx] at h1 hbf hok
      simp only at h1 hbf hok
      cases r with
      | error e => exact h1.le (by show 2 ≤ 1027; omega)
      | ok q =>
        simp only
        obtain ⟨src, b, buf⟩ := s'
        simp only at hbf
        subst hbf
        have := hok.unbuf rfl
        simp only at this
        subst this
        exact h1.step (pdfLoop_spentD (W := 32768) _ 1024 0 _ src hok.wf (by decide) (by decide)) (Nat.le_of_ble_eq_true rfl)
  | rm => exact (spentD_ex (C := 2) rmReader_all s hs (by omega) (by omega) (Nat.le_of_ble_eq_true rfl) (Nat.le_of_ble_eq_true rfl) id).le (Nat.le_of_ble_eq_true rfl)
  | sqlite3 => exact (spentD_rd sqlite3Reader_all s hs (Nat.le_of_ble_eq_true rfl) (Nat.le_of_ble_eq_true rfl)).le (Nat.le_of_ble_eq_true rfl)
  | txt => exact txt_spentD_8192 s hs
  | xml => exact (spentD_rd xmlReader_all s hs (Nat.le_of_ble_eq_true rfl) (Nat.le_of_ble_eq_true rfl)).le (Nat.le_of_ble_eq_true rfl)
  | zip =>
    have hsp := (spentD_ex (b := false) (W := 2 ^ 32 - 1) (C := 2) (zipReader_all cfg) s hs (by omega) (by simp) (by decide)
      (by decide) (bf := true) (by simp)).le (show (12 + (10 * zipEntryLimit + 5)) * 2 ≤ 20514 by decide)
    have hm' : ∀ p size, MimetypeAt s.data p size → size ≤ max 65557 M :=
      fun p size h => Nat.le_trans (hm rfl p size h) (Nat.le_max_right _ _)
    obtain ⟨N, h⟩ := asks_zipReader (b := true) (m := s.maxPos) cfg rfl rfl (Nat.le_max_left 65557 M) hm' s.pos
      { src := s, buffered := true, buf := [] } (Rd.ok_fresh s true hs) rfl rfl rfl rfl
    exact Spent.both hsp h

/-- The whole detection. `V` bounds what the reader for the recognised format may ask for. -/
theorem detection_paid (cfg : Cfg) (ft : Features) (s : Src) (hs : s.WF) (V : Nat)
    (hrd : ∀ (f : Feature) (s' : Src), s'.WF → s.Le s' → f ∈ Feature.structured → f.enabled ft = true →
      (∃ buf, (s.read bufferSize).1 = .ok buf ∧ fromSignature buf = some f.base) →
      Paid V s' (execOn (readerOf cfg f).1 (readerOf cfg f).2 s').2) :
    Paid (36870 + V + (if ft.txt then (170 + s.disturbances) * 8192 else 0)) s (fromReader cfg ft s).2 := by
  have hgen : ∀ s' : Src, s'.WF → s.Le s' →
      Paid (if ft.txt then (170 + s.disturbances) * 8192 else 0) s' (fromGenericReader ft s').2 := by
    intro s' h1 h2
    unfold fromGenericReader
    cases ht : ft.txt with
    | true =>
      simp only [if_true]
      have := Spent.paid (txt_spentD_8192 s' h1) (disturbances_le h2)
      generalize execOn true txtReader s' = r at this
      obtain ⟨(e | _ | _) | f, s''⟩ := r <;> exact this
    | false => exact Paid.refl _
  have hc : Paid 36870 s (s.read bufferSize).2 := by
    obtain ⟨l, h1, h2, h3⟩ := (Src.read_cost (fun _ => false) (W := 36870) s bufferSize (by decide)).1
    refine ⟨l, h1, ?_⟩
    have := requested_le h3
    have e1 : load (fun _ => false) s.revs = 0 := by simp [load]
    have e2 : l.length ≤ 1 := by omega
    exact Nat.le_trans this (Nat.le_trans (Nat.mul_le_mul_right _ e2) (by decide))
  obtain ⟨hle, hwf, _⟩ := Src.read_spec s bufferSize hs
  rw [fromReader_eq]
  generalize hT : (if ft.txt = true then (170 + s.disturbances) * 8192 else 0) = T at hgen
  cases hx : s.read bufferSize with
  | mk r s1 =>
    rw [hx] at hc hle hwf hrd
    simp only at hc hle hwf hrd
    cases r with
    | error e => exact hc.le (by omega)
    | ok buf =>
      simp only
      unfold afterRead
      split
      · exact hc.le (by omega)
      · split
        · rename_i fmt hfmt
          unfold fromFmtReader
          rcases fmtReader_cases cfg ft fmt with h | ⟨f, hf, hen, hbase, h⟩
          · rw [h]
            exact hc.le (by omega)
          · rw [h]
            simp only
            have h1 := hrd f s1 hwf hle hf hen ⟨buf, rfl, by rw [hfmt, hbase]⟩
            obtain ⟨k, hall⟩ := reader_all cfg f
            obtain ⟨hle2, hwf2, _⟩ := execOn_le (readerOf cfg f).1 (readerOf cfg f).2 s1 hwf
              (hall.untilBuffered (fun _ => id))
            generalize execOn (readerOf cfg f).1 (readerOf cfg f).2 s1 = r at h1 hle2 hwf2
            obtain ⟨(e | _ | _) | g, s2⟩ := r
            · exact (hc.trans h1).step (hgen s2 hwf2 (hle.trans hle2)) (by omega)
            · exact hc.step h1 (by omega)
            · exact hc.step h1 (by omega)
            · exact hc.step h1 (by omega)
        · exact hc.step (hgen s1 hwf hle) (by omega)

/-- C60. Whatever the stream holds, `from_reader` asks for at most 36870 bytes, plus what the reader for the recognised
format may ask for, plus, with `reader-txt`, 170 times 8192 bytes. A reader makes a fixed number of calls of a
fixed size (`callBudget`, `requestBudget`); only the number of calls for ID3v2 grows with the content, and the size of the
requests for ZIP with the size that a `mimetype` entry declares. Reads that the stream cuts short or
fails are repeated and count extra. -/
theorem C60_volume (cfg : Cfg) (ft : Features) (s : Src) (hs : s.WF) (hb : IsSlice s.data) (M V : Nat)
    (hm : ft.zip = true → ∀ p size, MimetypeAt s.data p size → size ≤ M)
    (hV : ∀ g ∈ Feature.structured, g.enabled ft = true →
      (∃ buf, (s.read bufferSize).1 = .ok buf ∧ Recognised buf g.base) →
      (callBudget s.data.length g + s.disturbances) * requestBudget M g ≤ V)
    (calls : List Call) (hc : CallsBetween s (fromReader cfg ft s).2 calls) :
    requested calls ≤ 36870 + V + (if ft.txt then (170 + s.disturbances) * 8192 else 0) := by
  have hd : s.data.length < 2 ^ 63 := hb
  obtain ⟨l, h1, h2⟩ := detection_paid cfg ft s hs V (fun f s' hs' hle hf hen ⟨buf, hbuf, hsig⟩ => by
    have hlen : buf.length < 2 ^ 64 := by
      have h36 : bufferSize = 36870 := rfl
      rcases (Src.read_spec s bufferSize hs).2.2 with ⟨k, hk, _, h, _⟩ | ⟨e, h, _⟩
      · rw [hbuf] at h
        cases h
        rw [length_slice]
        omega
      · rw [hbuf] at h
        cases h
    have hrec : Recognised buf f.base := recognised_of_signature hlen hsig
    have := Spent.paid (reader_budget cfg f M s' hs' (by rw [hle.data]; exact hd) (by
      rintro rfl
      rw [hle.data]
      exact hm hen)) (disturbances_le hle)
    rw [hle.data] at this
    exact this.le (hV f hf hen ⟨buf, hbuf, hrec⟩))
  have hl : l = calls := List.append_cancel_right (h1.symm.trans hc)
  subst hl
  exact h2

/-- C60. So without `reader-id3v2` and `reader-zip`, a stream that serves its reads in full is asked for less than 700 MB,
however large its content is. -/
theorem C60_constant (cfg : Cfg) (ft : Features) (s : Src) (hs : s.WF) (hb : IsSlice s.data) (hd : s.disturbances = 0)
    (hi : ft.id3v2 = false) (hz : ft.zip = false)
    (calls : List Call) (hc : CallsBetween s (fromReader cfg ft s).2 calls) : requested calls < 700000000 := by
  have := C60_volume cfg ft s hs hb 0 (84486 * 8192) (fun h => by rw [hz] at h; cases h) (fun g hg he _ => by
    rw [hd]
    revert hg he
    cases g <;> intro hg he <;> first
      | exact absurd he (by show ¬ ft.id3v2 = true; rw [hi]; decide)
      | exact absurd he (by show ¬ ft.zip = true; rw [hz]; decide)
      | (simp only [callBudget, requestBudget]; omega)) calls hc
  rw [hd] at this
  split at this <;> omega

/-- C60. Without any reader for the recognised format, 36870 bytes suffice, and the text reader. -/
theorem C60_minimal (cfg : Cfg) (ft : Features) (s : Src) (hs : s.WF) (hb : IsSlice s.data)
    (hn : ∀ g ∈ Feature.structured, g.enabled ft = false)
    (calls : List Call) (hc : CallsBetween s (fromReader cfg ft s).2 calls) :
    requested calls ≤ 36870 + (if ft.txt then (170 + s.disturbances) * 8192 else 0) := by
  have hz : ft.zip = false := hn .zip (by decide)
  exact C60_volume cfg ft s hs hb 0 0 (fun h => by rw [hz] at h; cases h)
    (fun g hg he _ => by rw [hn g hg] at he; cases he) calls hc

-- Non-vacuity.
example : (cursor b!"MZ").WF ∧ (cursor b!"MZ").disturbances = 0 ∧
    requested (fromReader Cfg.release Features.all (cursor b!"<?xml <svg")).2.log = 36870 + 8192 :=
  ⟨cursor_wf _ (by decide), by decide, by decide +kernel⟩

end FF.Props
