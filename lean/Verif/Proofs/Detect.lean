import Verif.Proofs.Leaves
/-!
# Detection on streams refines ideal detection
-/

namespace FF
open FileFormat Spec

/-! ## The dispatch -/

/-- The reader behind a feature, and whether it buffers. -/
def readerOf (cfg : Cfg) : Feature → Bool × Prog FileFormat
  | .asf => (true, asfReader cfg)
  | .cfb => (false, cfbReader)
  | .ebml => (true, ebmlReader)
  | .exe => (false, exeReader)
  | .id3v2 => (false, id3v2Reader cfg)
  | .mp4 => (true, mp4Reader cfg)
  | .pdf => (false, pdfReader)
  | .rm => (true, rmReader)
  | .sqlite3 => (false, sqlite3Reader)
  | .txt => (true, txtReader)
  | .xml => (false, xmlReader)
  | .zip => (true, zipReader cfg)

theorem fmtReader_base (cfg : Cfg) (ft : Features) (f : Feature) (hf : f ∈ Feature.structured) :
    fmtReader cfg ft f.base = if f.enabled ft then some (readerOf cfg f) else none := by
  cases f <;> first | rfl | (exact absurd hf (by decide))

theorem fmtReader_cases (cfg : Cfg) (ft : Features) (fmt : FileFormat) :
    fmtReader cfg ft fmt = none ∨
    ∃ f ∈ Feature.structured, f.enabled ft = true ∧ fmt = f.base ∧
      fmtReader cfg ft fmt = some (readerOf cfg f) := by
  by_cases h : ∃ f ∈ Feature.structured, fmt = f.base
  · obtain ⟨f, hf, rfl⟩ := h
    rw [fmtReader_base _ _ _ hf]
    by_cases he : f.enabled ft = true
    · exact Or.inr ⟨f, hf, he, rfl, by rw [if_pos he]⟩
    · exact Or.inl (by rw [if_neg he])
  · left
    unfold fmtReader
    split <;> first
      | rfl
      | exact absurd ⟨.asf, by decide, rfl⟩ h
      | exact absurd ⟨.cfb, by decide, rfl⟩ h
      | exact absurd ⟨.ebml, by decide, rfl⟩ h
      | exact absurd ⟨.exe, by decide, rfl⟩ h
      | exact absurd ⟨.id3v2, by decide, rfl⟩ h
      | exact absurd ⟨.mp4, by decide, rfl⟩ h
      | exact absurd ⟨.pdf, by decide, rfl⟩ h
      | exact absurd ⟨.rm, by decide, rfl⟩ h
      | exact absurd ⟨.sqlite3, by decide, rfl⟩ h
      | exact absurd ⟨.xml, by decide, rfl⟩ h
      | exact absurd ⟨.zip, by decide, rfl⟩ h

theorem base_inj : ∀ f ∈ Feature.structured, ∀ g ∈ Feature.structured, f.base = g.base → f = g := by
  decide

/-- Readers that use a bare `read`. -/
def _root_.FF.Spec.Feature.bareRead : Feature → Bool
  | .pdf => true
  | .sqlite3 => true
  | .xml => true
  | _ => false

variable {α : Type}

theorem OpEx.until {b : Bool} {n : Nat} (o : Op) (h : OpEx b n o) : o.untilBuffered b := by
  cases o <;> simp_all [OpEx, Op.exact, Op.untilBuffered]

theorem OpRd.until {n : Nat} (o : Op) (h : OpRd n o) : o.untilBuffered false := h.1

theorem IsErr.d {cfg : Cfg} (f : Fail) (h : IsErr f) : IsErrD cfg f := Or.inl (Or.inl h)
theorem IsErrC.d {cfg : Cfg} (f : Fail) (h : IsErrC cfg f) : IsErrD cfg f := Or.inl h
theorem IsErr.c {cfg : Cfg} (f : Fail) (h : IsErr f) : IsErrC cfg f := Or.inl h

theorem reader_exact (cfg : Cfg) (f : Feature) (h : f.bareRead = false) :
    Exact (readerOf cfg f).1 (readerOf cfg f).2 := by
  have key : ∀ {b n F Q} {p : Prog FileFormat} {k : Nat}, All (OpEx b n) F Q p k → Exact b p :=
    fun h => h.exact (fun o ho => ho.1)
  cases f with
  | asf => exact key (asfReader_all cfg)
  | cfb => exact key cfbReader_all
  | ebml => exact key ebmlReader_all
  | exe => exact key exeReader_all
  | id3v2 => exact key (id3v2Reader_all cfg)
  | mp4 => exact key (mp4Reader_all cfg)
  | rm => exact key rmReader_all
  | txt => exact key txtReader_all
  | zip => exact key (zipReader_all cfg)
  | pdf => cases h
  | sqlite3 => cases h
  | xml => cases h

/-- Calls, failures and verdicts of every reader. -/
theorem reader_all (cfg : Cfg) (f : Feature) :
    ∃ k, All (Op.untilBuffered (readerOf cfg f).1) (IsErrD cfg) (InFamily f) (readerOf cfg f).2 k := by
  cases f with
  | asf => exact ⟨_, (asfReader_all cfg).mono OpEx.until IsErrC.d (fun _ => id) (Nat.le_refl _)⟩
  | cfb => exact ⟨_, cfbReader_all.mono OpEx.until IsErr.d (fun _ => id) (Nat.le_refl _)⟩
  | ebml => exact ⟨_, ebmlReader_all.mono OpEx.until IsErr.d (fun _ => id) (Nat.le_refl _)⟩
  | exe => exact ⟨_, exeReader_all.mono OpEx.until IsErr.d (fun _ => id) (Nat.le_refl _)⟩
  | id3v2 => exact ⟨_, (id3v2Reader_all cfg).mono OpEx.until (fun _ => id) (fun _ => id) (Nat.le_refl _)⟩
  | mp4 => exact ⟨_, (mp4Reader_all cfg).mono OpEx.until IsErrC.d (fun _ => id) (Nat.le_refl _)⟩
  | pdf => exact ⟨_, pdfReader_all.mono OpRd.until IsErr.d (fun _ => id) (Nat.le_refl _)⟩
  | rm => exact ⟨_, rmReader_all.mono OpEx.until IsErr.d (fun _ => id) (Nat.le_refl _)⟩
  | sqlite3 => exact ⟨_, sqlite3Reader_all.mono OpRd.until IsErr.d (fun _ => id) (Nat.le_refl _)⟩
  | txt => exact ⟨_, txtReader_all.mono OpEx.until IsErr.d (fun _ h => by subst h; decide) (Nat.le_refl _)⟩
  | xml => exact ⟨_, xmlReader_all.mono OpRd.until IsErr.d (fun _ => id) (Nat.le_refl _)⟩
  | zip => exact ⟨_, (zipReader_all cfg).mono OpEx.until IsErrC.d (fun _ => id) (Nat.le_refl _)⟩

/-- Only the ID3v2 reader has a divergence leaf. -/
theorem reader_failC (cfg : Cfg) (f : Feature) (hf : f ≠ .id3v2) :
    ∃ k, All (Op.untilBuffered (readerOf cfg f).1) (IsErrC cfg) (InFamily f) (readerOf cfg f).2 k := by
  cases f with
  | asf => exact ⟨_, (asfReader_all cfg).mono OpEx.until (fun _ => id) (fun _ => id) (Nat.le_refl _)⟩
  | cfb => exact ⟨_, cfbReader_all.mono OpEx.until IsErr.c (fun _ => id) (Nat.le_refl _)⟩
  | ebml => exact ⟨_, ebmlReader_all.mono OpEx.until IsErr.c (fun _ => id) (Nat.le_refl _)⟩
  | exe => exact ⟨_, exeReader_all.mono OpEx.until IsErr.c (fun _ => id) (Nat.le_refl _)⟩
  | id3v2 => exact absurd rfl hf
  | mp4 => exact ⟨_, (mp4Reader_all cfg).mono OpEx.until (fun _ => id) (fun _ => id) (Nat.le_refl _)⟩
  | pdf => exact ⟨_, pdfReader_all.mono OpRd.until IsErr.c (fun _ => id) (Nat.le_refl _)⟩
  | rm => exact ⟨_, rmReader_all.mono OpEx.until IsErr.c (fun _ => id) (Nat.le_refl _)⟩
  | sqlite3 => exact ⟨_, sqlite3Reader_all.mono OpRd.until IsErr.c (fun _ => id) (Nat.le_refl _)⟩
  | txt => exact ⟨_, txtReader_all.mono OpEx.until IsErr.c (fun _ h => by subst h; decide) (Nat.le_refl _)⟩
  | xml => exact ⟨_, xmlReader_all.mono OpRd.until IsErr.c (fun _ => id) (Nat.le_refl _)⟩
  | zip => exact ⟨_, (zipReader_all cfg).mono OpEx.until (fun _ => id) (fun _ => id) (Nat.le_refl _)⟩

/-! ## Every reader starts with an absolute seek -/

/-- The program starts with a seek relative to the start or the end. -/
def AbsSeek (p : Prog α) : Prop :=
  (∃ n k, p = .seek (.start n) k) ∨ (∃ n k, p = .seek (.fromEnd n) k)

theorem AbsSeek.run {p : Prog α} (h : AbsSeek p) (d : Bytes) (m q q' : Nat) :
    run d m p q = run d m p q' := by
  rcases h with ⟨n, k, rfl⟩ | ⟨n, k, rfl⟩ <;> simp [FF.run, seekTarget]

theorem AbsSeek.bind {β : Type} {p : Prog α} (h : AbsSeek p) (f : α → Prog β) :
    AbsSeek (p >>= f) := by
  rcases h with ⟨n, k, rfl⟩ | ⟨n, k, rfl⟩
  · exact Or.inl ⟨n, _, rfl⟩
  · exact Or.inr ⟨n, _, rfl⟩

theorem reader_abs (cfg : Cfg) (f : Feature) : AbsSeek (readerOf cfg f).2 := by
  cases f with
  | asf => exact Or.inl ⟨_, _, rfl⟩
  | cfb => exact Or.inl ⟨_, _, rfl⟩
  | ebml => exact Or.inr ⟨_, _, rfl⟩
  | exe => exact Or.inr ⟨_, _, rfl⟩
  | id3v2 =>
    have : ∀ n, n ≠ 0 → AbsSeek (id3Loop cfg n 0) := by
      intro n hn
      cases n with
      | zero => exact absurd rfl hn
      | succ n => exact Or.inl ⟨_, _, rfl⟩
    exact (this id3Fuel (by simp [id3Fuel])).bind _
  | mp4 => exact Or.inr ⟨_, _, rfl⟩
  | pdf => exact Or.inl ⟨_, _, rfl⟩
  | rm => exact Or.inl ⟨_, _, rfl⟩
  | sqlite3 => exact Or.inl ⟨_, _, rfl⟩
  | txt => exact Or.inl ⟨_, _, rfl⟩
  | xml => exact Or.inl ⟨_, _, rfl⟩
  | zip => exact Or.inr ⟨_, _, rfl⟩

/-! ## Ideal detection -/

/-- `unwrap_or_default`: errors become the default, crashes stay. -/
def orDefault (r : Except Fail FileFormat) (d : Except Fail FileFormat) : Except Fail FileFormat :=
  match r with
  | .ok f => .ok f
  | .error (.err _) => d
  | .error f => .error f

@[simp] theorem orDefault_ok (f : FileFormat) (d) : orDefault (.ok f) d = .ok f := rfl
@[simp] theorem orDefault_err (e : ErrKind) (d) : orDefault (.error (.err e)) d = d := rfl

/-- The generic verdict on content `d`. -/
def idealGeneric (ft : Features) (d : Bytes) (m : Nat) : Except Fail FileFormat :=
  if ft.txt then orDefault (val (run d m txtReader 0)) (.ok FileFormat.default)
  else .ok FileFormat.default

/-- The verdict on content `d` on a stream that supports offsets up to `m`. -/
def ideal (cfg : Cfg) (ft : Features) (d : Bytes) (m : Nat) : Except Fail FileFormat :=
  if d.length = 0 then .ok Empty
  else
    match fromSignature (d.take bufferSize) with
    | none => idealGeneric ft d m
    | some fmt =>
      match fmtReader cfg ft fmt with
      | none => .ok fmt
      | some (_, prog) => orDefault (val (run d m prog 0)) (idealGeneric ft d m)

theorem Rd.ok_fresh (src : Src) (b : Bool) (h : src.WF) :
    Rd.Ok { src := src, buffered := b, buf := [] } :=
  ⟨h, by simp, by simp [slice], fun _ => rfl⟩

theorem execOn_exact (b : Bool) (p : Prog α) (src : Src) (h : src.WF) (hp : Exact b p)
    (ha : AbsSeek p) :
    (execOn b p src).1 = val (run src.data src.maxPos p 0) ∨
    (¬ src.Benign ∧ ∃ e, (execOn b p src).1 = .error (.err e)) := by
  have := exec_exact p { src := src, buffered := b, buf := [] } (Rd.ok_fresh src b h) hp
  rw [ha.run _ _ _ 0] at this
  exact this

theorem execOn_calm (p : Prog α) (src : Src) (h : src.WF) (hc : src.Calm)
    (hp : UntilBuffered false p) (ha : AbsSeek p) :
    (execOn false p src).1 = val (run src.data src.maxPos p 0) := by
  have := exec_calm p { src := src, buffered := false, buf := [] } (Rd.ok_fresh src false h) rfl hc hp
  rw [ha.run _ _ _ 0] at this
  exact this

theorem execOn_le (b : Bool) (p : Prog α) (src : Src) (h : src.WF) (hp : UntilBuffered b p) :
    src.Le (execOn b p src).2 ∧ (execOn b p src).2.WF ∧
      (NoCrash p → NotCrash (execOn b p src).1) := by
  obtain ⟨h1, h2, h3⟩ := exec_le p { src := src, buffered := b, buf := [] } (Rd.ok_fresh src b h) hp
  exact ⟨h1, h2.wf, h3⟩

theorem txt_exact : Exact true txtReader := reader_exact ⟨true⟩ .txt rfl
theorem txt_abs : AbsSeek txtReader := reader_abs ⟨true⟩ .txt

theorem fromGenericReader_ideal (ft : Features) (src : Src) (h : src.WF) (hb : src.Benign) :
    (fromGenericReader ft src).1 = idealGeneric ft src.data src.maxPos := by
  unfold fromGenericReader idealGeneric
  split
  · have := execOn_exact true txtReader src h txt_exact txt_abs
    rcases this with this | ⟨h1, _⟩
    · rw [← this]
      generalize execOn true txtReader src = r
      obtain ⟨r, s⟩ := r
      rcases r with (e | _ | _) | f <;> rfl
    · exact absurd hb h1
  · rfl

/-- The signature verdict refines to a format whose reader uses a bare `read`. -/
def BareRead (ft : Features) (d : Bytes) : Prop :=
  ∃ f ∈ Feature.structured, f.bareRead = true ∧ f.enabled ft = true ∧
    fromSignature (d.take bufferSize) = some f.base

/-- What happens after the first read has delivered `buf`. -/
def afterRead (cfg : Cfg) (ft : Features) (buf : Bytes) (src : Src) : Except Fail FileFormat × Src :=
  if buf.length = 0 then (.ok Empty, src)
  else
    match fromSignature buf with
    | some fmt =>
      match fromFmtReader cfg ft fmt src with
      | (.ok f, src) => (.ok f, src)
      | (.error (.err _), src) => fromGenericReader ft src
      | (.error f, src) => (.error f, src)
    | none => fromGenericReader ft src

theorem fromReader_eq (cfg : Cfg) (ft : Features) (src : Src) :
    fromReader cfg ft src =
      match src.read bufferSize with
      | (.error e, src) => (.error (.err e), src)
      | (.ok buf, src) => afterRead cfg ft buf src := rfl

theorem afterRead_ideal (cfg : Cfg) (ft : Features) (src : Src) (h : src.WF) (hb : src.Benign)
    (hc : BareRead ft src.data → src.Calm) :
    (afterRead cfg ft (src.data.take bufferSize) src).1 = ideal cfg ft src.data src.maxPos := by
  unfold afterRead ideal
  have h0 : (src.data.take bufferSize).length = 0 ↔ src.data.length = 0 := by
    simp [bufferSize]
  by_cases hl : src.data.length = 0
  · rw [if_pos hl, if_pos (h0.mpr hl)]
  · rw [if_neg hl, if_neg (fun h => hl (h0.mp h))]
    cases hs : fromSignature (src.data.take bufferSize) with
    | none => exact fromGenericReader_ideal ft src h hb
    | some fmt =>
      simp only
      rcases fmtReader_cases cfg ft fmt with hn | ⟨f, hf, he, hfmt, hr⟩
      · simp only [fromFmtReader, hn]
      · simp only [fromFmtReader, hr]
        have hex : (execOn (readerOf cfg f).1 (readerOf cfg f).2 src).1 =
            val (run src.data src.maxPos (readerOf cfg f).2 0) := by
          cases hbr : f.bareRead with
          | false =>
            rcases execOn_exact _ _ src h (reader_exact cfg f hbr) (reader_abs cfg f) with h1 | ⟨h1, _⟩
            · exact h1
            · exact absurd hb h1
          | true =>
            have hcalm := hc ⟨f, hf, hbr, he, by rw [hs, hfmt]⟩
            have hfalse : (readerOf cfg f).1 = false := by cases f <;> first | rfl | cases hbr
            obtain ⟨k, hk⟩ := reader_all cfg f
            have hu := hk.untilBuffered (fun _ => id)
            rw [hfalse] at hu ⊢
            exact execOn_calm _ src h hcalm hu (reader_abs cfg f)
        obtain ⟨k, hk⟩ := reader_all cfg f
        obtain ⟨hle, hwf, _⟩ := execOn_le _ _ src h (hk.untilBuffered (fun _ => id))
        rw [← hex]
        generalize execOn (readerOf cfg f).1 (readerOf cfg f).2 src = r at hle hwf
        obtain ⟨r, s⟩ := r
        rcases r with (e | _ | _) | f'
        · simp only [orDefault]
          have hd : s.data = src.data := hle.data
          have hm : s.maxPos = src.maxPos := hle.maxPos
          rw [← hd, ← hm]
          exact fromGenericReader_ideal ft s hwf (hb.mono hle)
        · rfl
        · rfl
        · rfl

theorem cursor_wf (b : Bytes) (h : b.length < 2 ^ 64) : (cursor b).WF := by
  refine ⟨?_, ?_⟩ <;> simp [cursor]
  omega

theorem cursor_read (b : Bytes) (n : Nat) :
    (cursor b).read n = (.ok (b.take n), { cursor b with pos := min n b.length, log := [.read n] }) := by
  simp [Src.read, cursor, slice]

theorem fromReader_cursor (cfg : Cfg) (ft : Features) (b : Bytes) (h : b.length < 2 ^ 64) :
    (fromReader cfg ft (cursor b)).1 = ideal cfg ft b (2 ^ 64 - 1) := by
  rw [fromReader_eq, cursor_read]
  have hcalm : Src.Calm { cursor b with pos := min bufferSize b.length, log := [.read bufferSize] } :=
    ⟨by simp [cursor], by simp [cursor]⟩
  refine afterRead_ideal cfg ft { cursor b with pos := min bufferSize b.length, log := [.read bufferSize] } ?_ ?_ ?_
  · refine ⟨(cursor_wf b h).len, ?_⟩
    simp [cursor, bufferSize]
    omega
  · exact hcalm.benign
  · exact fun _ => hcalm

theorem idealGeneric_not_err (ft : Features) (d : Bytes) (m : Nat) (e : ErrKind) :
    idealGeneric ft d m ≠ .error (.err e) := by
  unfold idealGeneric orDefault
  split
  · split <;> simp_all
  · simp

theorem ideal_not_err (cfg : Cfg) (ft : Features) (d : Bytes) (m : Nat) (e : ErrKind) :
    ideal cfg ft d m ≠ .error (.err e) := by
  unfold ideal orDefault
  split
  · simp
  · split
    · exact idealGeneric_not_err _ _ _ _
    · split
      · simp
      · split
        · simp
        · exact idealGeneric_not_err _ _ _ _
        · simp_all

theorem fromBytes_ideal (cfg : Cfg) (ft : Features) (b : Bytes) (h : b.length < 2 ^ 64) :
    fromBytes cfg ft b = ideal cfg ft b (2 ^ 64 - 1) := by
  unfold fromBytes fromSlice
  rw [fromReader_cursor cfg ft b h]
  have := ideal_not_err cfg ft b (2 ^ 64 - 1)
  generalize ideal cfg ft b (2 ^ 64 - 1) = r at this
  rcases r with (e | _ | _) | f
  · exact absurd rfl (this e)
  · rfl
  · rfl
  · rfl

end FF
