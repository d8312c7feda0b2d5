import Verif.Proofs.All
import Verif.Proofs.Search
import Verif.Spec.Families
/-!
# What the readers can do: calls, failures, verdicts
-/

namespace FF
open FileFormat Spec

theorem leNat_lt (x : Bytes) : leNat x < 256 ^ x.length := by
  induction x with
  | nil => simp [leNat]
  | cons b t ih =>
    simp only [leNat, List.length_cons, Nat.pow_succ]
    have := b.toNat_lt
    omega

theorem beFold_lt (x : Bytes) (a : Nat) :
    x.foldl (fun acc (b : UInt8) => acc * 256 + b.toNat) a < (a + 1) * 256 ^ x.length := by
  induction x generalizing a with
  | nil => simp
  | cons b t ih =>
    simp only [List.foldl_cons, List.length_cons, Nat.pow_succ]
    have h1 := ih (a * 256 + b.toNat)
    have h2 := b.toNat_lt
    calc _ < (a * 256 + b.toNat + 1) * 256 ^ t.length := h1
      _ ≤ ((a + 1) * 256) * 256 ^ t.length := Nat.mul_le_mul_right _ (by omega)
      _ = _ := by rw [Nat.mul_assoc, Nat.mul_comm 256]

theorem beNat_lt (x : Bytes) : beNat x < 256 ^ x.length := by
  have := beFold_lt x 0
  simpa [beNat] using this

/-- Calls that can be simulated, with requests of at most `n` bytes. -/
def OpEx (b : Bool) (n : Nat) (o : Op) : Prop := o.exact b ∧ o.size n

/-- Seeks and bare reads with requests of at most `n` bytes. -/
def OpRd (n : Nat) (o : Op) : Prop := o.untilBuffered false ∧ o.size n ∧ ∀ m, o ≠ .readExact m

@[simp] theorem opEx_readExact (b n k) : OpEx b n (.readExact k) ↔ k ≤ n := by simp [OpEx, Op.exact, Op.size]
@[simp] theorem opEx_seek (b n s) : OpEx b n (.seek s) := by simp [OpEx, Op.exact, Op.size]
@[simp] theorem opEx_tell (b n) : OpEx b n .tell := by simp [OpEx, Op.exact, Op.size]
@[simp] theorem opEx_readUntil (n k) : OpEx true n (.readUntil k) ↔ k ≤ n := by simp [OpEx, Op.exact, Op.size]
@[simp] theorem opRd_read (n k) : OpRd n (.read k) ↔ k ≤ n := by simp [OpRd, Op.untilBuffered, Op.size]
@[simp] theorem opRd_seek (n s) : OpRd n (.seek s) := by simp [OpRd, Op.untilBuffered, Op.size]

/-- The failure is an `Err`. -/
def IsErr (f : Fail) : Prop := ∃ e, f = .err e
/-- The failure is an `Err`, or a panic of a build with overflow checks. -/
def IsErrC (cfg : Cfg) (f : Fail) : Prop := IsErr f ∨ (cfg.overflowChecks = true ∧ f = .panic)
/-- ... or divergence. -/
def IsErrD (cfg : Cfg) (f : Fail) : Prop := IsErrC cfg f ∨ f = .diverge

@[simp] theorem isErr_err (e : ErrKind) : IsErr (.err e) := ⟨e, rfl⟩
@[simp] theorem isErrC_err (c : Cfg) (e : ErrKind) : IsErrC c (.err e) := Or.inl ⟨e, rfl⟩

/-- The base format of a feature or a member of its family. -/
def InFamily (f : Feature) (x : FileFormat) : Prop := x ∈ f.base :: f.family

instance (f : Feature) (x : FileFormat) : Decidable (InFamily f x) :=
  inferInstanceAs (Decidable (x ∈ f.base :: f.family))

variable {α β : Type} {O : Op → Prop} {F : Fail → Prop} {Q : α → Prop} {R : β → Prop}

/-- A pure computation in the middle of a program. -/
theorem All.lift_bind {x : Except Fail α} {f : α → Prog β} {k : Nat}
    (he : ∀ e, x = .error e → F e) (hv : ∀ a, x = .ok a → All O F R (f a) k) :
    All O F R (Prog.lift x >>= f) k := by
  cases x with
  | ok a => exact hv a rfl
  | error e => exact he e rfl

theorem i64Sub_err {cfg : Cfg} {a b : Int} {e : Fail} (h : i64Sub cfg a b = .error e) :
    IsErrC cfg e := by
  unfold i64Sub at h
  split at h
  · cases h
  · split at h
    · rename_i hc
      cases h
      exact Or.inr ⟨hc, rfl⟩
    · cases h

theorem u64Add_err {cfg : Cfg} {a b : Nat} {e : Fail} (h : u64Add cfg a b = .error e) :
    IsErrC cfg e := by
  unfold u64Add at h
  split at h
  · cases h
  · split at h
    · rename_i hc
      cases h
      exact Or.inr ⟨hc, rfl⟩
    · cases h

theorem u64Sub_err {cfg : Cfg} {a b : Nat} {e : Fail} (h : u64Sub cfg a b = .error e) :
    IsErrC cfg e := by
  unfold u64Sub at h
  split at h
  · cases h
  · split at h
    · rename_i hc
      cases h
      exact Or.inr ⟨hc, rfl⟩
    · cases h

theorem All.le {p : Prog α} {k k' : Nat} (h : All O F Q p k) (hk : k ≤ k') : All O F Q p k' :=
  h.mono (fun _ => id) (fun _ => id) (fun _ => id) hk

/-! ## ASF -/

theorem asfDescriptors_all (F : Fail → Prop) (n : Nat) :
    All (OpEx true 64) F (fun _ => True) (asfDescriptors n) (5 * n) := by
  induction n with
  | zero => simp [asfDescriptors]
  | succ n ih =>
    simp only [asfDescriptors, all_readU16le_bind, all_readBytes_bind, opEx_readExact]
    refine ⟨by omega, by omega, fun x hx => ⟨by simp [asfDescriptorNameLimit]; omega, by omega, fun y hy => ?_⟩⟩
    split
    · simp
    · simp only [all_sk_bind, all_readU16le_bind, opEx_seek, opEx_readExact, true_and]
      exact ⟨by omega, fun _ => ⟨by omega, by omega, fun z hz => ⟨by omega, fun _ => ih.le (by omega)⟩⟩⟩

theorem asfObjects_all (cfg : Cfg) (n : Nat) (a v : Bool) :
    All (OpEx true 64) (IsErrC cfg) (InFamily .asf) (asfObjects cfg n a v) (165 * n) := by
  induction n generalizing a v with
  | zero => cases a <;> cases v <;> simp [asfObjects] <;> decide
  | succ n ih =>
    simp only [asfObjects, all_readGuid_bind, all_readU64le_bind, opEx_readExact]
    refine ⟨by omega, by omega, fun x hx => ⟨by omega, by omega, fun y hy => ?_⟩⟩
    split
    · simp only [all_readGuid_bind, opEx_readExact]
      refine ⟨by omega, by omega, fun z hz => ?_⟩
      refine All.lift_bind (fun e => i64Sub_err) (fun i _ => ?_)
      simp only [all_sk_bind, opEx_seek, true_and]
      exact ⟨by omega, fun _ => (ih _ _).le (by omega)⟩
    · split
      · simp only [all_readU16le_bind, opEx_readExact, all_pos_bind, opEx_tell, true_and]
        refine ⟨by omega, by omega, fun z hz => ⟨by omega, fun q => ?_⟩⟩
        refine All.bind (k' := 165 * n + 1) (asfDescriptors_all _ _) (by simp [asfDescriptorLimit]; omega) (fun d _ => ?_)
        split
        · simp; decide
        · refine All.lift_bind (fun e => u64Add_err) (fun i _ => ?_)
          refine All.lift_bind (fun e => u64Sub_err) (fun i _ => ?_)
          simp only [all_sk_bind, opEx_seek, true_and]
          exact ⟨by omega, fun _ => (ih _ _).le (by omega)⟩
      · refine All.lift_bind (fun e => i64Sub_err) (fun i _ => ?_)
        simp only [all_sk_bind, opEx_seek, true_and]
        exact ⟨by omega, fun _ => (ih _ _).le (by omega)⟩

theorem asfReader_all (cfg : Cfg) :
    All (OpEx true 64) (IsErrC cfg) (InFamily .asf) (asfReader cfg) (3 + 165 * 256) := by
  simp only [asfReader, all_sk_bind, all_readU32le_bind, opEx_seek, opEx_readExact, true_and]
  refine ⟨by omega, fun _ => ⟨by omega, by omega, fun x hx => ⟨by omega, fun _ => ?_⟩⟩⟩
  exact (asfObjects_all cfg _ _ _).le (by simp [asfObjectLimit]; omega)

/-! ## CFB -/

theorem lookup_mem {κ : Type} [BEq κ] {l : List (κ × FileFormat)} {k : κ} {f : FileFormat}
    (h : l.lookup k = some f) : f ∈ l.map Prod.snd := by
  induction l with
  | nil => simp at h
  | cons x t ih =>
    obtain ⟨a, b⟩ := x
    simp only [List.lookup_cons] at h
    split at h
    · cases h; simp
    · simp [ih h]

theorem mem_all_of_decide {l : List FileFormat} {P : FileFormat → Prop} [DecidablePred P]
    (h : l.all (fun f => decide (P f)) = true) {f : FileFormat} (hf : f ∈ l) : P f := by
  have := List.all_eq_true.mp h f hf
  simpa using this

theorem cfbReader_all : All (OpEx false 64) IsErr (InFamily .cfb) cfbReader 10 := by
  simp only [cfbReader, all_sk_bind, all_readU16le_bind, all_readU32le_bind, all_readGuid_bind,
    opEx_seek, opEx_readExact, true_and]
  refine ⟨by omega, fun _ => ⟨by omega, by omega, fun x hx => ⟨by omega, fun _ => ⟨by omega, by omega,
    fun y hy => ⟨by omega, fun _ => ⟨by omega, by omega, fun z hz => ?_⟩⟩⟩⟩⟩⟩
  split
  · rename_i f hf
    have h1 := lookup_mem hf
    exact mem_all_of_decide (P := InFamily .cfb) (by decide) h1
  · simp only [all_sk_bind, all_readBytes_bind, opEx_seek, opEx_readExact, true_and]
    refine ⟨by omega, fun _ => ⟨by omega, by omega, fun x hx => ?_⟩⟩
    split
    · simp; decide
    · simp only [all_sk_bind, all_readBytes_bind, opEx_seek, opEx_readExact, true_and]
      refine ⟨by omega, fun _ => ⟨by omega, by omega, fun x hx => ?_⟩⟩
      split <;> simp <;> decide

/-! ## EBML -/

theorem readMore_all (b : Bool) (m : Nat) (hm : 1 ≤ m) (F : Fail → Prop) (n acc : Nat) :
    All (OpEx b m) F (fun _ => True) (readMore n acc) n := by
  induction n generalizing acc with
  | zero => simp [readMore]
  | succ n ih =>
    simp only [readMore, all_readU8_bind, opEx_readExact]
    exact ⟨hm, by omega, fun _ => ih _⟩

theorem ebmlId_all : All (OpEx true 64) IsErr (fun _ => True) ebmlId 4 := by
  simp only [ebmlId, all_readU8_bind, opEx_readExact]
  refine ⟨by omega, by omega, fun b => ?_⟩
  split
  · simp
  · exact (readMore_all true 64 (by omega) _ _ _).le (by omega)

theorem ebmlSize_all : All (OpEx true 64) IsErr (fun _ => True) ebmlSize 8 := by
  simp only [ebmlSize, all_readU8_bind, opEx_readExact]
  refine ⟨by omega, by omega, fun b => ?_⟩
  split
  · simp
  · exact (readMore_all true 64 (by omega) _ _ _).le (by omega)

theorem ebmlVerdict_mem (t : Tracks) : InFamily .ebml (ebmlVerdict t) := by
  obtain ⟨a, v, s⟩ := t
  cases a <;> cases v <;> cases s <;> decide

theorem ebmlLoop_all (len n : Nat) (t : Tracks) :
    All (OpEx true 64) IsErr (InFamily .ebml) (ebmlLoop len n t) (15 * n) := by
  induction n generalizing t with
  | zero => simp [ebmlLoop, ebmlVerdict_mem]
  | succ n ih =>
    simp only [ebmlLoop, all_pos_bind, opEx_tell, true_and]
    refine ⟨by omega, fun q => ?_⟩
    split
    · refine All.bind (k' := 15 * n + 10) ebmlId_all (by omega) (fun id _ => ?_)
      refine All.bind (k' := 15 * n + 2) ebmlSize_all (by omega) (fun size _ => ?_)
      split
      · exact (ih _).le (by omega)
      · split
        · simp only [all_readBytes_bind, opEx_readExact]
          refine ⟨by simp [ebmlDocTypeLimit]; omega, by omega, fun x hx => ?_⟩
          split
          · simp; decide
          · split
            · simp; decide
            · simp only [all_sk_bind, opEx_seek, true_and]
              exact ⟨by omega, fun _ => (ih _).le (by omega)⟩
        · split
          · simp only [all_readBytes_bind, opEx_readExact, all_sk_bind, opEx_seek, true_and]
            exact ⟨by simp [ebmlCodecIdLimit]; omega, by omega, fun x hx =>
              ⟨by omega, fun _ => (ih _).le (by omega)⟩⟩
          · split
            · simp only [all_readU8_bind, opEx_readExact]
              refine ⟨by omega, by omega, fun b => ?_⟩
              split
              · simp; decide
              · exact (ih _).le (by omega)
            · split
              · simp [ebmlVerdict_mem]
              · simp only [all_sk_bind, opEx_seek, true_and]
                exact ⟨by omega, fun _ => (ih _).le (by omega)⟩
    · simp [ebmlVerdict_mem]

theorem ebmlReader_all :
    All (OpEx true 64) IsErr (InFamily .ebml) ebmlReader (2 + 15 * 256) := by
  simp only [ebmlReader, all_sk_bind, opEx_seek, true_and]
  exact ⟨by omega, fun _ => ⟨by omega, fun _ => ebmlLoop_all _ _ _⟩⟩

/-! ## EXE -/

theorem sliceIdx_ok {bs : Bytes} {lo hi : Nat} (h1 : lo ≤ hi) (h2 : hi ≤ bs.length) :
    sliceIdx bs lo hi = .ok ((bs.take hi).drop lo) := by simp [sliceIdx, h1, h2]

theorem exeReader_all : All (OpEx false 64) IsErr (InFamily .exe) exeReader 7 := by
  simp only [exeReader, all_sk_bind, all_readU32le_bind, opEx_seek, opEx_readExact, true_and]
  refine ⟨by omega, fun len => ⟨by omega, fun _ => ⟨by omega, by omega, fun x hx => ?_⟩⟩⟩
  split
  · simp only [all_sk_bind, all_readBytes_bind, opEx_seek, opEx_readExact, true_and]
    refine ⟨by omega, fun _ => ⟨by omega, by omega, fun y hy => ?_⟩⟩
    split
    · simp only [all_sk_bind, all_readU16le_bind, opEx_seek, opEx_readExact, true_and]
      refine ⟨by omega, fun _ => ⟨by omega, by omega, fun z hz => ?_⟩⟩
      simp only [all_pure]
      split <;> decide
    · rw [sliceIdx_ok (by omega) (by omega)]
      simp only [all_lift_ok_bind]
      split
      · simp; decide
      · split <;> simp <;> decide
  · simp; decide

/-! ## ID3v2 -/

theorem id3Extended_all (cfg : Cfg) (flags : UInt8) (next : Nat) :
    All (OpEx false 64) (IsErrD cfg) (fun _ => True) (id3Extended cfg flags next) 1 := by
  unfold id3Extended
  split
  · simp only [all_readU32be_bind, opEx_readExact]
    refine ⟨by omega, by omega, fun z hz => ?_⟩
    cases hu : u64Add cfg next (beNat z) with
    | ok a => simp [Prog.lift]
    | error e => exact Or.inl (u64Add_err hu)
  · simp

theorem id3Footer_err {cfg : Cfg} {flags : UInt8} {next : Nat} {e : Fail}
    (h : id3Footer cfg flags next = .error e) : IsErrC cfg e := by
  unfold id3Footer at h
  split at h
  · exact u64Add_err h
  · cases h

theorem id3Loop_all (cfg : Cfg) (n offset : Nat) :
    All (OpEx false 64) (IsErrD cfg) (fun _ => True) (id3Loop cfg n offset) (3 * n) := by
  induction n generalizing offset with
  | zero => simp [id3Loop, IsErrD]
  | succ n ih =>
    simp only [id3Loop, all_sk_bind, all_readBytes_bind, opEx_seek, opEx_readExact, true_and]
    refine ⟨by omega, fun _ => ⟨by omega, by omega, fun y hy => ?_⟩⟩
    rw [sliceIdx_ok (by omega) (by omega)]
    simp only [all_lift_ok_bind]
    split
    · simp
    · rw [index_ok (i := 6) (by omega), index_ok (i := 7) (by omega), index_ok (i := 8) (by omega),
        index_ok (i := 9) (by omega), index_ok (i := 5) (by omega)]
      simp only [all_lift_ok_bind]
      refine All.lift_bind (fun e h => Or.inl (u64Add_err h)) (fun i _ => ?_)
      refine All.lift_bind (fun e h => Or.inl (u64Add_err h)) (fun i _ => ?_)
      refine All.bind (k' := 3 * n) (id3Extended_all cfg _ _) (by omega) (fun i _ => ?_)
      refine All.lift_bind (fun e h => Or.inl (id3Footer_err h)) (fun i _ => ih _)

theorem id3v2Reader_all (cfg : Cfg) :
    All (OpEx false 64) (IsErrD cfg) (InFamily .id3v2) (id3v2Reader cfg) (3 * id3Fuel + 2) := by
  simp only [id3v2Reader]
  refine All.bind (k' := 2) (id3Loop_all cfg _ _) (by omega) (fun off _ => ?_)
  simp only [all_sk_bind, all_readBytes_bind, opEx_seek, opEx_readExact, true_and]
  refine ⟨by omega, fun _ => ⟨by omega, by omega, fun y hy => ?_⟩⟩
  split
  · simp; decide
  · rw [sliceIdx_ok (by omega) (by omega)]
    simp only [all_lift_ok_bind]
    split <;> simp <;> decide

/-! ## MP4 -/

theorem mp4Verdict_mem (t : Tracks) : InFamily .mp4 (mp4Verdict t) := by
  obtain ⟨a, v, s⟩ := t
  cases a <;> cases v <;> cases s <;> decide

theorem mp4Size_all (size : Nat) (F : Fail → Prop) :
    All (OpEx true 64) F (fun _ => True) (mp4Size size) 1 := by
  unfold mp4Size
  split
  · exact ⟨by simp, by omega, fun _ _ => trivial⟩
  · simp

theorem mp4Loop_all (cfg : Cfg) (len n : Nat) (t : Tracks) :
    All (OpEx true 64) (IsErrC cfg) (InFamily .mp4) (mp4Loop cfg len n t) (7 * n) := by
  induction n generalizing t with
  | zero => simp [mp4Loop, mp4Verdict_mem]
  | succ n ih =>
    simp only [mp4Loop, all_pos_bind, opEx_tell, true_and]
    refine ⟨by omega, fun q => ?_⟩
    split
    · simp only [all_readU32be_bind, all_readBytes_bind, opEx_readExact]
      refine ⟨by omega, by omega, fun x hx => ⟨by omega, by omega, fun y hy => ?_⟩⟩
      refine All.bind (k' := 7 * n + 3) (mp4Size_all _ _) (by omega) (fun size _ => ?_)
      split
      · exact (ih _).le (by omega)
      · split
        · simp only [all_sk_bind, all_readBytes_bind, opEx_seek, opEx_readExact, true_and]
          refine ⟨by omega, fun _ => ⟨by omega, by omega, fun y hy => ?_⟩⟩
          refine All.lift_bind (fun e => i64Sub_err) (fun i _ => ?_)
          simp only [all_sk_bind, opEx_seek, true_and]
          exact ⟨by omega, fun _ => (ih _).le (by omega)⟩
        · refine All.lift_bind (fun e => i64Sub_err) (fun i _ => ?_)
          simp only [all_sk_bind, opEx_seek, true_and]
          exact ⟨by omega, fun _ => (ih _).le (by omega)⟩
    · simp [mp4Verdict_mem]

theorem mp4Reader_all (cfg : Cfg) :
    All (OpEx true 64) (IsErrC cfg) (InFamily .mp4) (mp4Reader cfg) (2 + 7 * 256) := by
  simp only [mp4Reader, all_sk_bind, opEx_seek, true_and]
  exact ⟨by omega, fun _ => ⟨by omega, fun _ => mp4Loop_all _ _ _ _⟩⟩

/-! ## PDF -/

theorem pdfLoop_all (fuel total : Nat) (ov : Bytes) (hov : ov.length = pdfOverlapSize)
    (hf : pdfReadLimit < fuel + total ∧ 0 < fuel) :
    All (OpRd 32768) IsErr (InFamily .pdf) (pdfLoop fuel total ov) fuel := by
  induction fuel generalizing total ov with
  | zero => omega
  | succ fuel ih =>
    unfold pdfLoop
    split
    · simp only [all_rd_bind, opRd_read]
      refine ⟨by simp [pdfChunkSize], by omega, fun c hc => ?_⟩
      split
      · simp; decide
      · rename_i hz
        have hlen : (ov ++ c).length = pdfOverlapSize + c.length := by simp [hov]
        rw [sliceIdx_ok (by split <;> omega) (by omega)]
        simp only [all_lift_ok_bind]
        obtain ⟨r, hr, _⟩ := holdsBytes_spec
          (List.drop (if total = 0 then pdfOverlapSize else 0)
            (List.take (pdfOverlapSize + c.length) (ov ++ c))) aiMarker
        rw [hr]
        simp only [all_lift_ok_bind]
        split
        · simp; decide
        · refine (ih _ _ ?_ (by omega)).le (by omega)
          simp [rotateRight, List.length_append]
          omega
    · simp; decide

theorem pdfReader_all :
    All (OpRd 32768) IsErr (InFamily .pdf) pdfReader (1 + (pdfReadLimit + 1)) := by
  simp only [pdfReader, all_sk_bind, opRd_seek, true_and]
  exact ⟨by omega, fun _ => (pdfLoop_all _ _ _ (by simp) (by omega)).le (by omega)⟩

/-! ## RM -/

theorem rmLoop_all (n : Nat) (a v : Bool) :
    All (OpEx true 255) IsErr (InFamily .rm) (rmLoop n a v) (10 * n) := by
  induction n generalizing a v with
  | zero => cases a <;> cases v <;> simp [rmLoop] <;> decide
  | succ n ih =>
    simp only [rmLoop, all_readBytes_bind, all_readU32be_bind, opEx_readExact]
    refine ⟨by omega, by omega, fun x hx => ⟨by omega, by omega, fun y hy => ?_⟩⟩
    split
    · simp only [all_readBytes_bind, all_readU8_bind, all_sk_bind, all_pos_bind, opEx_readExact,
        opEx_seek, opEx_tell, true_and]
      refine ⟨by omega, fun _ => ⟨by omega, fun _ => ⟨by omega, by omega, fun b => ⟨by omega, fun _ =>
        ⟨by omega, by omega, fun c => ⟨?_, by omega, fun m hm => ⟨by omega, fun _ => ⟨by omega, fun _ =>
        (ih _ _).le (by omega)⟩⟩⟩⟩⟩⟩⟩⟩
      have := c.toNat_lt
      omega
    · simp only [all_sk_bind, opEx_seek, true_and]
      exact ⟨by omega, fun _ => (ih _ _).le (by omega)⟩

theorem rmReader_all : All (OpEx true 255) IsErr (InFamily .rm) rmReader (2 + 10 * 64) := by
  simp only [rmReader, all_sk_bind, all_readU32be_bind, opEx_readExact, opEx_seek, true_and]
  exact ⟨by omega, fun _ => ⟨by omega, by omega, fun x hx =>
    (rmLoop_all _ _ _).le (by simp [rmChunkLimit]; omega)⟩⟩

/-! ## SQLite -/

theorem sqlite3Reader_all : All (OpRd 32768) IsErr (InFamily .sqlite3) sqlite3Reader 2 := by
  simp only [sqlite3Reader, all_sk_bind, all_rd_bind, opRd_seek, opRd_read, true_and]
  refine ⟨by omega, fun _ => ⟨by omega, by omega, fun x hx => ?_⟩⟩
  obtain ⟨r, hr, _⟩ := holdsBytes_spec x sketchMarker
  rw [hr]
  simp only [all_lift_ok_bind]
  split <;> simp <;> decide

/-! ## TXT -/

theorem txtLines_all (n limit : Nat) (h : limit ≤ 65536) :
    All (OpEx true 65536) IsErr (fun f => f = PlainText) (txtLines n limit) n := by
  induction n generalizing limit with
  | zero => simp [txtLines]
  | succ n ih =>
    simp only [txtLines, all_rdUntil_bind, opEx_readUntil]
    refine ⟨h, by omega, fun x hx => ?_⟩
    split
    · simp
    · split
      · simp
      · split
        · simp
        · exact ih _ (by omega)

theorem txtReader_all : All (OpEx true 65536) IsErr (fun f => f = PlainText) txtReader 17 := by
  simp only [txtReader, all_sk_bind, opEx_seek, true_and]
  exact ⟨by omega, fun _ => txtLines_all _ _ (by simp [txtReadLimit])⟩

/-! ## XML -/

theorem holdsAll_spec (buf : Bytes) (ms : List Bytes) :
    ∃ r, holdsAll buf ms = .ok r ∧ (r = true ↔ ∀ m ∈ ms, m <:+: buf) := by
  induction ms with
  | nil => exact ⟨true, rfl, by simp⟩
  | cons m ms ih =>
    obtain ⟨r, hr, hs⟩ := ih
    obtain ⟨q, hq, hqs⟩ := holdsBytes_spec buf m
    simp only [holdsAll, hq, bind, Except.bind]
    cases q with
    | true => exact ⟨r, by simp [hr], by rw [hs]; simp [hqs.mp rfl]⟩
    | false =>
      refine ⟨false, by simp [pure, Except.pure], ?_⟩
      simp only [Bool.false_eq_true, false_iff]
      intro h
      have := hqs.mpr (h m (by simp))
      cases this

theorem holdsAny_spec (buf : Bytes) (cs : List (List Bytes)) :
    ∃ r, holdsAny buf cs = .ok r ∧ (r = true ↔ ∃ c ∈ cs, ∀ m ∈ c, m <:+: buf) := by
  induction cs with
  | nil => exact ⟨false, rfl, by simp⟩
  | cons c cs ih =>
    obtain ⟨r, hr, hs⟩ := ih
    obtain ⟨q, hq, hqs⟩ := holdsAll_spec buf c
    simp only [holdsAny, hq, bind, Except.bind]
    cases q with
    | true => exact ⟨true, by simp [pure, Except.pure], by
        simp only [true_iff]; exact ⟨c, by simp, hqs.mp rfl⟩⟩
    | false =>
      refine ⟨r, by simp [hr], ?_⟩
      rw [hs]
      constructor
      · rintro ⟨c', h1, h2⟩; exact ⟨c', by simp [h1], h2⟩
      · rintro ⟨c', h1, h2⟩
        rcases List.mem_cons.mp h1 with h | h
        · subst h
          have := hqs.mpr h2
          cases this
        · exact ⟨c', h, h2⟩

theorem xmlClassify_mem (buf : Bytes) (rules : List (List (List Bytes) × FileFormat)) :
    ∃ f, xmlClassify buf rules = .ok f ∧ (f = ExtensibleMarkupLanguage ∨ f ∈ rules.map Prod.snd) := by
  induction rules with
  | nil => exact ⟨_, rfl, Or.inl rfl⟩
  | cons x rules ih =>
    obtain ⟨cond, fmt⟩ := x
    obtain ⟨r, hr, _⟩ := holdsAny_spec buf cond
    obtain ⟨f, hf, hm⟩ := ih
    simp only [xmlClassify, hr, bind, Except.bind]
    cases r with
    | true => exact ⟨fmt, by simp [pure, Except.pure], by simp⟩
    | false =>
      refine ⟨f, by simp [hf], ?_⟩
      rcases hm with h | h
      · exact Or.inl h
      · exact Or.inr (by simp at h ⊢; exact Or.inr h)

theorem xmlReader_all : All (OpRd 8192) IsErr (InFamily .xml) xmlReader 2 := by
  simp only [xmlReader, all_sk_bind, all_rd_bind, opRd_seek, opRd_read, true_and]
  refine ⟨by omega, fun _ => ⟨by omega, by omega, fun x hx => ?_⟩⟩
  obtain ⟨f, hf, hm⟩ := xmlClassify_mem x xmlRules
  rw [hf]
  show InFamily .xml f
  rcases hm with h | h
  · subst h; decide
  · exact mem_all_of_decide (P := InFamily .xml) (by decide) h

/-! ## ZIP -/

theorem ite_some_or {c : Bool} {f g : FileFormat} {r : Option FileFormat}
    (h : (if c = true then some f else r) = some g) : g = f ∨ r = some g := by
  split at h
  · cases h; exact Or.inl rfl
  · exact Or.inr h

theorem zipPatterns_mem {name : Str} {f : FileFormat} (h : zipPatterns name = some f) :
    InFamily .zip f := by
  unfold zipPatterns at h
  iterate 14
    rcases ite_some_or h with h | h
    · subst h; decide
  cases h

theorem zipMimetype_all {b : Bool} (cs offset : Nat) (n : Nat) (hn : 65557 ≤ n) (hcs : cs ≤ n) (F : Fail → Prop) :
    All (OpEx b n) F (InFamily .zip) (zipMimetype cs offset) 5 := by
  simp only [zipMimetype, all_sk_bind, all_readU16le_bind, all_readString_bind, opEx_readExact,
    opEx_seek, true_and]
  refine ⟨by omega, fun _ => ⟨by omega, by omega, fun x hx => ⟨by omega, by omega, fun y hy =>
    ⟨by omega, fun _ => ⟨hcs, by omega, fun z hz => ?_⟩⟩⟩⟩⟩
  split
  · rename_i f hf
    exact mem_all_of_decide (P := InFamily .zip) (by decide) (lookup_mem hf)
  · simp; decide

theorem zipEntries_all {b : Bool} (n : Nat) (fmt : FileFormat) (hfmt : InFamily .zip fmt) (F : Fail → Prop) :
    All (OpEx b (2 ^ 32 - 1)) F (InFamily .zip) (zipEntries n fmt) (10 * n + 5) := by
  induction n generalizing fmt with
  | zero => simpa [zipEntries] using hfmt
  | succ n ih =>
    simp only [zipEntries, all_sk_bind, all_readU16le_bind, all_readU32le_bind, all_readString_bind,
      opEx_readExact, opEx_seek, true_and]
    refine ⟨by omega, fun _ => ⟨by omega, by omega, fun cs hcs => ⟨by omega, by omega, fun us hus =>
      ⟨by omega, by omega, fun fl hfl => ⟨by omega, by omega, fun el hel => ⟨by omega, by omega, fun cl hcl =>
      ⟨by omega, fun _ => ⟨by omega, by omega, fun off hoff => ⟨?_, by omega, fun name hname => ?_⟩⟩⟩⟩⟩⟩⟩⟩⟩
    · have := leNat_lt fl
      rw [hfl] at this
      omega
    · split
      · rename_i f hf
        exact mem_all_of_decide (P := InFamily .zip) (by decide) (lookup_mem hf)
      · split
        · simp only [all_sk_bind, opEx_seek, true_and]
          exact ⟨by omega, fun _ => (ih _ (by decide)).le (by omega)⟩
        · split
          · refine (zipMimetype_all _ _ _ (by omega) ?_ _).le (by omega)
            have := leNat_lt cs
            rw [hcs] at this
            omega
          · split
            · rename_i f hf
              simpa using zipPatterns_mem hf
            · simp only [all_sk_bind, opEx_seek, true_and]
              exact ⟨by omega, fun _ => (ih _ hfmt).le (by omega)⟩

theorem zipDirectory64_all {b : Bool} (cfg : Cfg) (n : Nat) (hn : 8 ≤ n) :
    All (OpEx b n) (IsErrC cfg) (fun _ => True) (zipDirectory64 cfg) 6 := by
  simp only [zipDirectory64, all_sk_bind, all_readU64le_bind, opEx_seek, opEx_readExact, true_and]
  refine ⟨by omega, fun _ => ⟨by omega, by omega, fun x hx => ?_⟩⟩
  refine All.lift_bind (fun e => u64Add_err) (fun i _ => ?_)
  simp only [all_sk_bind, all_readU64le_bind, opEx_seek, opEx_readExact, true_and, all_pure]
  exact ⟨by omega, fun _ => ⟨by omega, by omega, fun x hx => ⟨by omega, fun _ => ⟨by omega, by omega,
    fun _ _ => trivial⟩⟩⟩⟩

theorem zipDirectory_all {b : Bool} (cfg : Cfg) (off n : Nat) (hn : 8 ≤ n) :
    All (OpEx b n) (IsErrC cfg) (fun _ => True) (zipDirectory cfg off) 6 := by
  simp only [zipDirectory]
  refine All.lift_bind (fun e => u64Add_err) (fun i _ => ?_)
  simp only [all_sk_bind, all_readU16le_bind, all_readU32le_bind, opEx_seek, opEx_readExact,
    true_and, all_pure]
  exact ⟨by omega, fun _ => ⟨by omega, by omega, fun x hx => ⟨by omega, fun _ => ⟨by omega, by omega,
    fun _ _ => trivial⟩⟩⟩⟩

theorem zipIsZip64_all {b : Bool} (off n : Nat) (hn : 8 ≤ n) (F : Fail → Prop) :
    All (OpEx b n) F (fun _ => True) (zipIsZip64 off) 2 := by
  unfold zipIsZip64
  split
  · simp only [all_sk_bind, all_readBytes_bind, opEx_seek, opEx_readExact, true_and, all_pure]
    exact ⟨by omega, fun _ => ⟨by omega, by omega, fun _ _ => trivial⟩⟩
  · simp

theorem zipEnd_all {b : Bool} (cfg : Cfg) (z : Bool) (off n : Nat) (hn : 8 ≤ n) :
    All (OpEx b n) (IsErrC cfg) (fun _ => True) (zipEnd cfg z off) 6 := by
  unfold zipEnd
  split
  · exact zipDirectory64_all cfg _ hn
  · exact zipDirectory_all cfg _ _ hn

theorem zipReader_all {b : Bool} (cfg : Cfg) :
    All (OpEx b (2 ^ 32 - 1)) (IsErrC cfg) (InFamily .zip) (zipReader cfg)
      (12 + (10 * zipEntryLimit + 5)) := by
  generalize hM : 10 * zipEntryLimit + 5 = M
  simp only [zipReader, all_sk_bind, all_readBytes_bind, opEx_seek, opEx_readExact, true_and]
  refine ⟨by omega, fun len => ⟨by omega, fun _ => ⟨?_, by omega, fun x hx => ?_⟩⟩⟩
  · have h1 : zipEocdMinSize = 22 := rfl
    have h2 : zipEocdMaxSize = 65557 := rfl
    omega
  · obtain ⟨r, hr, _⟩ := rfindBytes_spec x zipEocdSignature
    rw [hr]
    simp only [all_lift_ok_bind]
    cases r with
    | none => simp
    | some i =>
      simp only
      refine All.lift_bind (fun e => u64Add_err) (fun i _ => ?_)
      refine All.bind (k' := 6 + 1 + M) (zipIsZip64_all _ _ (by omega) _) (by omega) (fun z _ => ?_)
      refine All.bind (k' := 1 + M) (zipEnd_all cfg _ _ _ (by omega)) (by omega) (fun d _ => ?_)
      simp only [all_sk_bind, opEx_seek, true_and]
      refine ⟨by omega, fun _ => ?_⟩
      exact (zipEntries_all _ _ (by decide) _).le (by omega)

end FF
