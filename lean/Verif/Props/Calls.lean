import Verif.Proofs.Cost
import Verif.Props.Total
/-!
# C37, C38: calls on the stream
-/

namespace FF.Props
open FF FileFormat Spec

/-! ## The cost of each reader -/

theorem spentD_ex {b : Bool} {n C W k : Nat} {F : Fail → Prop} {Q : FileFormat → Prop}
    {p : Prog FileFormat} (h : All (OpEx b n) F Q p k) (s : Src) (hs : s.WF)
    (hC : 2 ≤ C) (hu : b = true → n / 8192 + 2 ≤ C) (hW : bufCapacity ≤ W) (hn : n ≤ W)
    {bf : Bool} (hbf : b = true → bf = true) :
    Spent Ev.disturbed (k * C) W s (execOn bf p s).2 := by
  refine h.spentD hW { src := s, buffered := bf, buf := [] } (Rd.ok_fresh s bf hs) ?_ ?_ ?_
  · intro o ho
    cases o <;> simp_all [OpEx, Op.exact, Op.untilBuffered]
  · intro o ho
    cases o <;> simp_all [OpEx, Op.size, Op.request] <;> omega
  · intro o ho
    cases o with
    | readExact m => exact hC
    | read m => exact absurd ho.1 (by simp [Op.exact])
    | seek p => exact hC
    | tell => exact Nat.le_trans (by decide) hC
    | readUntil m =>
      have h1 : b = true := ho.1
      have h2 : m ≤ n := ho.2
      have := hu h1
      show m / 8192 + 2 ≤ C
      omega

theorem spentD_rd {n W k : Nat} {F : Fail → Prop} {Q : FileFormat → Prop}
    {p : Prog FileFormat} (h : All (OpRd n) F Q p k) (s : Src) (hs : s.WF)
    (hW : bufCapacity ≤ W) (hn : n ≤ W) :
    Spent Ev.disturbed (k * 2) W s (execOn false p s).2 := by
  refine h.spentD hW { src := s, buffered := false, buf := [] } (Rd.ok_fresh s false hs) OpRd.until ?_ ?_
  · intro o ho
    cases o <;> simp_all [OpRd, Op.size, Op.request] <;> omega
  · intro o ho
    cases o with
    | readExact m => exact Nat.le_refl _
    | read m => exact Nat.le_succ _
    | seek p => exact Nat.le_refl _
    | tell => exact Nat.le_succ _
    | readUntil m => exact absurd ho.1 (by simp [Op.untilBuffered])

/-- The largest request of a reader. -/
def largestRequest : Feature → Nat
  | .zip => 2 ^ 32 - 1
  | _ => 65536

theorem reader_spentD (cfg : Cfg) (f : Feature) (s : Src) (hs : s.WF) (hd : s.data.length < 2 ^ 63) :
    Spent Ev.disturbed (84486 + (if f = .id3v2 then s.data.length else 0)) (largestRequest f) s
      (execOn (readerOf cfg f).1 (readerOf cfg f).2 s).2 := by
  cases f with
  | asf => exact (spentD_ex (C := 2) (asfReader_all cfg) s hs (by omega) (by omega) (by decide)
      (by decide) id).le (Nat.le_trans (m := 84486) (by decide) (Nat.le_add_right _ _))
  | cfb => exact (spentD_ex (C := 2) cfbReader_all s hs (by omega) (by omega) (by decide)
      (by decide) (by simp)).le (Nat.le_trans (m := 84486) (by decide) (Nat.le_add_right _ _))
  | ebml => exact (spentD_ex (C := 2) ebmlReader_all s hs (by omega) (by omega) (by decide)
      (by decide) id).le (Nat.le_trans (m := 84486) (by decide) (Nat.le_add_right _ _))
  | exe => exact (spentD_ex (C := 2) exeReader_all s hs (by omega) (by omega) (by decide)
      (by decide) (by simp)).le (Nat.le_trans (m := 84486) (by decide) (Nat.le_add_right _ _))
  | id3v2 =>
    refine (id3v2Reader_spent (R := 2) cfg (fun s n h hn => Rd.readExact_costD s n h
      (Nat.le_trans hn (by decide)) (by decide)) { src := s, buffered := false, buf := [] }
      (Rd.ok_fresh s false hs) hd).le ?_
    simp only [if_true]
    omega
  | mp4 => exact (spentD_ex (C := 2) (mp4Reader_all cfg) s hs (by omega) (by omega) (by decide)
      (by decide) id).le (Nat.le_trans (m := 84486) (by decide) (Nat.le_add_right _ _))
  | pdf =>
    have h1 := Rd.seek_cost (bad := Ev.disturbed) (W := 65536)
      { src := s, buffered := false, buf := [] } (.start 5)
    obtain ⟨_, hbf, hok, _⟩ := Rd.seek_spec { src := s, buffered := false, buf := [] } (.start 5)
      (Rd.ok_fresh s false hs)
    show Spent _ _ 65536 s (exec pdfReader { src := s, buffered := false, buf := [] }).2.src
    unfold pdfReader
    rw [exec_bind]
    have e1 : exec (Prog.sk (.start 5)) { src := s, buffered := false, buf := [] } =
        match (Rd.mk s false []).seek (.start 5) with
        | (.ok q, s) => (.ok q, s)
        | (.error e, s) => (.error (.err e), s) := by
      simp only [Prog.sk, exec]
      rcases (Rd.mk s false []).seek (.start 5) with ⟨_ | _, _⟩ <;> rfl
    rw [e1]
    cases hx : (Rd.mk s false []).seek (.start 5) with
    | mk r s' =>
      rw [hx] at h1 hbf hok
      simp only at h1 hbf hok
      cases r with
      | error e => exact h1.le (by omega)
      | ok q =>
        simp only
        obtain ⟨src, b, buf⟩ := s'
        simp only at hbf
        subst hbf
        have := hok.unbuf rfl
        simp only at this
        subst this
        exact h1.step (pdfLoop_spentD (W := 65536) _ 1024 0 _ src hok.wf (by decide) (by decide))
          (Nat.le_trans (m := 84486) (by decide) (Nat.le_add_right _ _))
  | rm => exact (spentD_ex (C := 2) rmReader_all s hs (by omega) (by omega) (by decide)
      (by decide) id).le (Nat.le_trans (m := 84486) (by decide) (Nat.le_add_right _ _))
  | sqlite3 => exact (spentD_rd sqlite3Reader_all s hs (by decide) (by decide)).le (Nat.le_trans (m := 84486) (by decide) (Nat.le_add_right _ _))
  | txt => exact (spentD_ex (C := 10) txtReader_all s hs (by omega) (by omega) (by decide)
      (by decide) id).le (Nat.le_trans (m := 84486) (by decide) (Nat.le_add_right _ _))
  | xml => exact (spentD_rd xmlReader_all s hs (by decide) (by decide)).le (Nat.le_trans (m := 84486) (by decide) (Nat.le_add_right _ _))
  | zip => exact (spentD_ex (b := false) (C := 2) (zipReader_all cfg) s hs (by omega) (by simp) (by decide)
      (by decide) (by simp)).le (Nat.le_trans (m := 84486) (by decide) (Nat.le_add_right _ _))

theorem txt_spentD (s : Src) (hs : s.WF) :
    Spent Ev.disturbed 170 65536 s (execOn true txtReader s).2 :=
  (spentD_ex (C := 10) txtReader_all s hs (by omega) (by omega) (by decide) (by decide) id).le
    (by decide)

/-- The same, counting every read that is not interrupted. -/
theorem spentI_ex {b : Bool} {n C W k : Nat} {F : Fail → Prop} {Q : FileFormat → Prop}
    {p : Prog FileFormat} (h : All (OpEx b n) F Q p k) (s : Src) (hs : s.WF)
    (hC : 2 ≤ C) (hu : n ≤ C) (hW : bufCapacity ≤ W) (hn : n ≤ W)
    {bf : Bool} (hbf : b = true → bf = true) :
    Spent Ev.isInterrupt (k * C) W s (execOn bf p s).2 := by
  refine h.spentI hW { src := s, buffered := bf, buf := [] } (Rd.ok_fresh s bf hs) ?_ ?_ ?_
  · intro o ho
    cases o <;> simp_all [OpEx, Op.exact, Op.untilBuffered]
  · intro o ho
    cases o <;> simp_all [OpEx, Op.size, Op.request] <;> omega
  · intro o ho
    have h2 := ho.2
    cases o with
    | readExact m => exact Nat.le_trans h2 hu
    | read m => exact absurd ho.1 (by simp [Op.exact])
    | seek p => exact hC
    | tell => exact Nat.le_trans (by decide) hC
    | readUntil m => exact Nat.le_trans h2 hu

theorem spentI_rd {n W k : Nat} {F : Fail → Prop} {Q : FileFormat → Prop}
    {p : Prog FileFormat} (h : All (OpRd n) F Q p k) (s : Src) (hs : s.WF) (hW : bufCapacity ≤ W) (hn : n ≤ W) :
    Spent Ev.isInterrupt (k * 2) W s (execOn false p s).2 := by
  refine h.spentI hW { src := s, buffered := false, buf := [] } (Rd.ok_fresh s false hs)
    OpRd.until ?_ ?_
  · intro o ho
    cases o <;> simp_all [OpRd, Op.size, Op.request] <;> omega
  · intro o ho
    cases o with
    | readExact m => exact absurd rfl (ho.2.2 m)
    | read m => exact Nat.le_succ _
    | seek p => exact Nat.le_refl _
    | tell => exact Nat.le_succ _
    | readUntil m => exact absurd ho.1 (by simp [Op.untilBuffered])

/-- What the reader may cost when only interruptions are free. -/
def budgetI (len : Nat) : Feature → Nat
  | .zip => 2 ^ 46
  | .id3v2 => 3 * len + 100
  | _ => 67108868

theorem reader_spentI (cfg : Cfg) (f : Feature) (s : Src) (hs : s.WF) (hd : s.data.length < 2 ^ 63) :
    Spent Ev.isInterrupt (budgetI s.data.length f) (largestRequest f) s
      (execOn (readerOf cfg f).1 (readerOf cfg f).2 s).2 := by
  cases f with
  | asf => exact (spentI_ex (C := 64) (asfReader_all cfg) s hs (by omega) (by omega) (by decide)
      (by decide) id).le (by simp only [budgetI]; decide)
  | cfb => exact (spentI_ex (C := 64) cfbReader_all s hs (by omega) (by omega) (by decide)
      (by decide) (by simp)).le (by simp only [budgetI]; decide)
  | ebml => exact (spentI_ex (C := 64) ebmlReader_all s hs (by omega) (by omega) (by decide)
      (by decide) id).le (by simp only [budgetI]; decide)
  | exe => exact (spentI_ex (C := 64) exeReader_all s hs (by omega) (by omega) (by decide)
      (by decide) (by simp)).le (by simp only [budgetI]; decide)
  | id3v2 =>
    refine (id3v2Reader_spent (R := 10) cfg (fun s n h hn => (Rd.readExact_costI s n
      (Nat.le_trans hn (by decide)) (by decide)).le hn) { src := s, buffered := false, buf := [] }
      (Rd.ok_fresh s false hs) hd).le ?_
    simp only [budgetI]
    omega
  | mp4 => exact (spentI_ex (C := 64) (mp4Reader_all cfg) s hs (by omega) (by omega) (by decide)
      (by decide) id).le (by simp only [budgetI]; decide)
  | pdf => exact (spentI_rd pdfReader_all s hs (by decide) (by decide)).le (by simp only [budgetI]; decide)
  | rm => exact (spentI_ex (C := 255) rmReader_all s hs (by omega) (by omega) (by decide)
      (by decide) id).le (by simp only [budgetI]; decide)
  | sqlite3 => exact (spentI_rd sqlite3Reader_all s hs (by decide) (by decide)).le (by simp only [budgetI]; decide)
  | txt => exact (spentI_ex (C := 65536) txtReader_all s hs (by omega) (by omega) (by decide)
      (by decide) id).le (by simp only [budgetI]; decide)
  | xml => exact (spentI_rd xmlReader_all s hs (by decide) (by decide)).le (by simp only [budgetI]; decide)
  | zip => exact (spentI_ex (b := false) (C := 2 ^ 32 - 1) (zipReader_all cfg) s hs (by omega) (by omega)
      (by decide) (by decide) (by simp)).le (by simp only [budgetI]; decide)

theorem txt_spentI (s : Src) (hs : s.WF) :
    Spent Ev.isInterrupt 1114112 65536 s (execOn true txtReader s).2 :=
  (spentI_ex (C := 65536) txtReader_all s hs (by omega) (by omega) (by decide) (by decide) id).le
    (by decide)

/-! ## The whole detection -/

theorem detection_spent {bad : Ev → Bool} {T W : Nat} (cfg : Cfg) (ft : Features) (s : Src)
    (hs : s.WF) (K : Nat)
    (htxt : ∀ s' : Src, s'.WF → s'.data = s.data → Spent bad T W s' (execOn true txtReader s').2)
    (hrd : ∀ (f : Feature) (s' : Src), s'.WF → s'.data = s.data → f.enabled ft = true →
      Spent bad K W s' (execOn (readerOf cfg f).1 (readerOf cfg f).2 s').2)
    (hW : bufferSize ≤ W) :
    Spent bad (1 + K + T) W s (fromReader cfg ft s).2 := by
  have hgen : ∀ s' : Src, s'.WF → s'.data = s.data →
      Spent bad T W s' (fromGenericReader ft s').2 := by
    intro s' h1 h2
    unfold fromGenericReader
    split
    · have := htxt s' h1 h2
      generalize execOn true txtReader s' = r at this
      obtain ⟨(e | _ | _) | f, s''⟩ := r <;> exact this
    · exact (Spent.refl _).le (Nat.zero_le _)
  have hc := (Src.read_cost bad s bufferSize hW).1
  obtain ⟨hle, hwf, _⟩ := Src.read_spec s bufferSize hs
  rw [fromReader_eq]
  cases hx : s.read bufferSize with
  | mk r s1 =>
    rw [hx] at hc hle hwf
    simp only at hc hle hwf
    cases r with
    | error e => exact hc.le (by omega)
    | ok buf =>
      simp only
      unfold afterRead
      split
      · exact hc.le (by omega)
      · split
        · rename_i fmt _
          unfold fromFmtReader
          rcases fmtReader_cases cfg ft fmt with h | ⟨f, hf, hen, _, h⟩
          · rw [h]
            exact hc.le (by omega)
          · rw [h]
            simp only
            have h1 := hrd f s1 hwf hle.data hen
            obtain ⟨k, hall⟩ := reader_all cfg f
            obtain ⟨hle2, hwf2, _⟩ := execOn_le (readerOf cfg f).1 (readerOf cfg f).2 s1 hwf
              (hall.untilBuffered (fun _ => id))
            generalize execOn (readerOf cfg f).1 (readerOf cfg f).2 s1 = r at h1 hle2 hwf2
            obtain ⟨(e | _ | _) | g, s2⟩ := r
            · exact (hc.trans h1).step (hgen s2 hwf2 (hle2.data.trans hle.data)) (by omega)
            · exact hc.step h1 (by omega)
            · exact hc.step h1 (by omega)
            · exact hc.step h1 (by omega)
        · exact hc.step (hgen s1 hwf hle.data) (by omega)

/-- C37. Whatever the stream holds, `from_reader` makes a bounded number of calls on it, not
counting the reads the stream itself cuts short or fails: at most 84657, plus, with `reader-id3v2`,
one per byte. -/
theorem C37_calls (cfg : Cfg) (ft : Features) (s : Src) (hs : s.WF) (hb : IsSlice s.data) :
    ∃ calls, CallsBetween s (fromReader cfg ft s).2 calls ∧
      calls.length ≤ 84657 + (if ft.id3v2 then s.data.length else 0) + s.disturbances := by
  have hd : s.data.length < 2 ^ 63 := hb
  have := detection_spent (bad := Ev.disturbed) (T := 170) (W := 2 ^ 32 - 1) cfg ft s hs
    (84486 + (if ft.id3v2 then s.data.length else 0))
    (fun s' h1 h2 => (txt_spentD s' h1).mono (by decide))
    (fun f s' h1 h2 h3 => by
      refine ((reader_spentD cfg f s' h1 (by rw [h2]; exact hd)).mono ?_).le ?_
      · cases f <;> decide
      · rw [h2]
        split
        · rename_i hf
          subst hf
          have h3 : ft.id3v2 = true := h3
          rw [if_pos h3]
          exact Nat.le_refl _
        · omega)
    (by decide)
  obtain ⟨l, h1, h2, h3⟩ := this
  exact ⟨l, h1, by simp only [Src.disturbances]; omega⟩

/-- C37 for streams that deliver their bytes in arbitrarily small pieces: still a constant, except
for `reader-id3v2`, if only interrupted reads are not counted. -/
theorem C37_chopped (cfg : Cfg) (ft : Features) (s : Src) (hs : s.WF) (hb : IsSlice s.data) :
    ∃ calls, CallsBetween s (fromReader cfg ft s).2 calls ∧
      calls.length ≤ (if ft.zip then 2 ^ 47 else 2 ^ 27) +
        (if ft.id3v2 then 3 * s.data.length else 0) + s.interruptions := by
  have hd : s.data.length < 2 ^ 63 := hb
  have := detection_spent (bad := Ev.isInterrupt) (T := 1114112) (W := 2 ^ 32 - 1) cfg ft s hs
    ((if ft.zip then 2 ^ 46 else 67108868) + (if ft.id3v2 then 3 * s.data.length else 0))
    (fun s' h1 h2 => (txt_spentI s' h1).mono (by decide))
    (fun f s' h1 h2 h3 => by
      refine ((reader_spentI cfg f s' h1 (by rw [h2]; exact hd)).mono ?_).le ?_
      · cases f <;> decide
      · rw [h2]
        cases f with
        | zip => have h3 : ft.zip = true := h3
                 simp only [h3, budgetI, if_true]; omega
        | id3v2 => have h3 : ft.id3v2 = true := h3
                   simp only [h3, budgetI, if_true]; split <;> omega
        | _ => simp only [budgetI]; split <;> split <;> omega)
    (by decide)
  obtain ⟨l, h1, h2, h3⟩ := this
  refine ⟨l, h1, ?_⟩
  simp only [Src.interruptions]
  revert h2
  split <;> split <;> intros <;> omega

-- Non-vacuity: the calls made on a small ID3v2 stream that cuts reads short.
example : roughStream.WF ∧ IsSlice roughStream.data := ⟨⟨by decide, by decide⟩, by decide⟩
example : (fromReader Cfg.release Features.all roughStream).2.log.length = 8 ∧
    roughStream.disturbances = 3 ∧ roughStream.interruptions = 1 := by decide +kernel

/-! ## C38 -/

/-- C38 as one would wish it: no request for more than 65557 bytes. -/
def C38_statement : Prop :=
  ∀ (cfg : Cfg) (ft : Features) (s : Src) (calls : List Call), s.WF → IsSlice s.data →
    CallsBetween s (fromReader cfg ft s).2 calls → ∀ n, Call.read n ∈ calls → n ≤ 65557

/-- C38 holds without `reader-zip`. -/
theorem C38_requests_partial (cfg : Cfg) (ft : Features) (s : Src) (hs : s.WF) (hb : IsSlice s.data)
    (hz : ft.zip = false) (calls : List Call) (hc : CallsBetween s (fromReader cfg ft s).2 calls)
    (n : Nat) (hn : Call.read n ∈ calls) : n ≤ 65557 := by
  have hd : s.data.length < 2 ^ 63 := hb
  have := detection_spent (bad := Ev.disturbed) (T := 170) (W := 65557) cfg ft s hs
    (84486 + s.data.length)
    (fun s' h1 h2 => (txt_spentD s' h1).mono (by decide))
    (fun f s' h1 h2 h3 => by
      refine ((reader_spentD cfg f s' h1 (by rw [h2]; exact hd)).mono ?_).le ?_
      · cases f with
        | zip => have h3 : ft.zip = true := h3
                 rw [hz] at h3; cases h3
        | _ => decide
      · rw [h2]
        split <;> omega)
    (by decide)
  obtain ⟨l, h1, h2, h3⟩ := this
  have hl : l = calls := List.append_cancel_right (h1.symm.trans hc)
  subst hl
  exact h3 n hn

/-- With `reader-zip` requests stay below 4 GiB. -/
theorem C38_all_requests_partial (cfg : Cfg) (ft : Features) (s : Src) (hs : s.WF)
    (hb : IsSlice s.data) (calls : List Call) (hc : CallsBetween s (fromReader cfg ft s).2 calls)
    (n : Nat) (hn : Call.read n ∈ calls) : n < 2 ^ 32 := by
  have hd : s.data.length < 2 ^ 63 := hb
  have := detection_spent (bad := Ev.disturbed) (T := 170) (W := 2 ^ 32 - 1) cfg ft s hs
    (84486 + s.data.length)
    (fun s' h1 h2 => (txt_spentD s' h1).mono (by decide))
    (fun f s' h1 h2 h3 => by
      refine ((reader_spentD cfg f s' h1 (by rw [h2]; exact hd)).mono ?_).le ?_
      · cases f <;> decide
      · rw [h2]
        split <;> omega)
    (by decide)
  obtain ⟨l, h1, h2, h3⟩ := this
  have hl : l = calls := List.append_cancel_right (h1.symm.trans hc)
  subst hl
  have := h3 n hn
  omega

/-- A ZIP file of 114 bytes whose `mimetype` entry claims to hold 4294967295 bytes. -/
def zipBomb : Bytes :=
  b!"PK\x03\x04" ++ List.replicate 26 0 ++ b!"mimetype" ++
  -- central directory entry, at offset 38
  b!"PK\x01\x02" ++ List.replicate 16 0 ++ b!"\xff\xff\xff\xff\xff\xff\xff\xff\x08\x00\x00\x00\x00\x00" ++
  List.replicate 8 0 ++ b!"\x00\x00\x00\x00mimetype" ++
  -- end of central directory record, at offset 92
  b!"PK\x05\x06\x00\x00\x00\x00\x01\x00\x01\x00\x36\x00\x00\x00\x26\x00\x00\x00\x00\x00"

/-- C38 is violated: for this input `from_reader` asks the stream for 4294967295 bytes. -/
theorem C38_fails : ¬ C38_statement := by
  intro h
  have := h Cfg.release Features.all (cursor zipBomb) (fromReader Cfg.release Features.all (cursor zipBomb)).2.log
    (cursor_wf _ (by decide +kernel)) (by decide +kernel) (by simp [CallsBetween, cursor])
    4294967295 (by decide +kernel)
  omega

end FF.Props
