import Verif.Proofs.Device
/-!
# Readers on arbitrary devices
-/

namespace FF
open FileFormat Spec

variable {α β : Type}

/-- The program never asks for the position. -/
def NoTell : Prog α → Prop
  | .pure _ => True
  | .fail _ => True
  | .readExact _ c => ∀ x, NoTell (c x)
  | .read _ c => ∀ x, NoTell (c x)
  | .seek _ c => ∀ q, NoTell (c q)
  | .tell _ => False
  | .readUntil _ c => ∀ x, NoTell (c x)

theorem NoTell.bind {p : Prog α} {f : α → Prog β} (h : NoTell p) (hf : ∀ a, NoTell (f a)) :
    NoTell (p >>= f) := by
  show NoTell (p.bind f)
  induction p with
  | pure a => exact hf a
  | fail e => trivial
  | readExact n c ih => exact fun x => ih x (h x)
  | read n c ih => exact fun x => ih x (h x)
  | seek n c ih => exact fun x => ih x (h x)
  | tell c ih => exact h.elim
  | readUntil n c ih => exact fun x => ih x (h x)

theorem NoTell.lift (x : Except Fail α) : NoTell (Prog.lift x) := by cases x <;> trivial
theorem noTell_sk (p : SeekFrom) : NoTell (Prog.sk p) := fun _ => trivial
theorem noTell_rdExact (n : Nat) : NoTell (Prog.rdExact n) := fun _ => trivial
theorem noTell_readBytes (n : Nat) : NoTell (readBytes n) := fun _ => trivial
theorem noTell_rdUntil (n : Nat) : NoTell (Prog.rdUntil n) := fun _ => trivial
theorem noTell_u16 : NoTell readU16le := (noTell_rdExact 2).bind fun _ => trivial
theorem noTell_u32 : NoTell readU32le := (noTell_rdExact 4).bind fun _ => trivial
theorem noTell_u64 : NoTell readU64le := (noTell_rdExact 8).bind fun _ => trivial
theorem noTell_string (n : Nat) : NoTell (readString n) := by
  unfold readString
  exact (noTell_rdExact n).bind fun _ => trivial

theorem All.noTell {O : Op → Prop} {F : Fail → Prop} {Q : α → Prop} {p : Prog α} {k : Nat}
    (h : All O F Q p k) (hn : NoTell p) : All (fun o => O o ∧ o ≠ .tell) F Q p k := by
  induction p generalizing k with
  | pure a => exact h
  | fail f => exact h
  | readExact n c ih => exact ⟨⟨h.1, by simp⟩, h.2.1, fun x hx => ih x (h.2.2 x hx) (hn x)⟩
  | read n c ih => exact ⟨⟨h.1, by simp⟩, h.2.1, fun x hx => ih x (h.2.2 x hx) (hn x)⟩
  | seek n c ih => exact ⟨⟨h.1, by simp⟩, h.2.1, fun x => ih x (h.2.2 x) (hn x)⟩
  | tell c ih => exact hn.elim
  | readUntil n c ih => exact ⟨⟨h.1, by simp⟩, h.2.1, fun x hx => ih x (h.2.2 x hx) (hn x)⟩

theorem noTell_txtLines (n limit : Nat) : NoTell (txtLines n limit) := by
  induction n generalizing limit with
  | zero => trivial
  | succ n ih =>
    unfold txtLines
    refine (noTell_rdUntil _).bind fun line => ?_
    split
    · trivial
    · split
      · trivial
      · split
        · trivial
        · exact ih _

theorem noTell_txt : NoTell txtReader := (noTell_sk _).bind fun _ => noTell_txtLines _ _

theorem noTell_zipMimetype (c o : Nat) : NoTell (zipMimetype c o) := by
  unfold zipMimetype
  refine (noTell_sk _).bind fun _ => noTell_u16.bind fun _ => noTell_u16.bind fun _ =>
    (noTell_sk _).bind fun _ => (noTell_string _).bind fun _ => ?_
  split <;> trivial

theorem noTell_zipEntries (n : Nat) (f : FileFormat) : NoTell (zipEntries n f) := by
  induction n generalizing f with
  | zero => trivial
  | succ n ih =>
    unfold zipEntries
    refine (noTell_sk _).bind fun _ => noTell_u32.bind fun _ => noTell_u32.bind fun _ =>
      noTell_u16.bind fun _ => noTell_u16.bind fun _ => noTell_u16.bind fun _ =>
      (noTell_sk _).bind fun _ => noTell_u32.bind fun _ => (noTell_string _).bind fun _ => ?_
    split
    · trivial
    · split
      · exact (noTell_sk _).bind fun _ => ih _
      · split
        · exact noTell_zipMimetype _ _
        · split
          · trivial
          · exact (noTell_sk _).bind fun _ => ih _

theorem noTell_zip (cfg : Cfg) : NoTell (zipReader cfg) := by
  unfold zipReader
  refine (noTell_sk _).bind fun _ => (noTell_sk _).bind fun _ => (noTell_readBytes _).bind fun _ =>
    (NoTell.lift _).bind fun found => ?_
  split
  · trivial
  · refine (NoTell.lift _).bind fun _ => NoTell.bind ?_ fun _ => NoTell.bind ?_ fun _ =>
      (noTell_sk _).bind fun _ => noTell_zipEntries _ _
    · unfold zipIsZip64
      split
      · exact (noTell_sk _).bind fun _ => (noTell_readBytes _).bind fun _ => trivial
      · trivial
    · unfold zipEnd zipDirectory64 zipDirectory
      split
      · exact (noTell_sk _).bind fun _ => noTell_u64.bind fun _ => (NoTell.lift _).bind fun _ =>
          (noTell_sk _).bind fun _ => noTell_u64.bind fun _ => (noTell_sk _).bind fun _ =>
          noTell_u64.bind fun _ => trivial
      · exact (NoTell.lift _).bind fun _ => (noTell_sk _).bind fun _ => noTell_u16.bind fun _ =>
          (noTell_sk _).bind fun _ => noTell_u32.bind fun _ => trivial

/-- The readers that call `stream_position` on a `BufReader` (`src/readers.rs` 122, 318, 554,
686). -/
def _root_.FF.Spec.Feature.asksPosition : Feature → Bool
  | .asf => true
  | .ebml => true
  | .mp4 => true
  | .rm => true
  | _ => false

/-- What may end a reader other than an error: arithmetic in checked builds, and the tag loop of
the ID3v2 reader. -/
def Failure (cfg : Cfg) (g : Feature) (f : Fail) : Prop :=
  IsErr f ∨ (cfg.overflowChecks = true ∧ (g.unchecked = true ∨ g = .id3v2) ∧ f = .panic) ∨
    (g = .id3v2 ∧ f = .diverge)

theorem reader_failure (cfg : Cfg) (g : Feature) :
    ∃ k, All (Op.untilBuffered (readerOf cfg g).1) (Failure cfg g) (InFamily g) (readerOf cfg g).2 k := by
  have c : ∀ h : g.unchecked = true, ∀ f, IsErrC cfg f → Failure cfg g f := fun h f hf =>
    hf.imp id fun ⟨h1, h2⟩ => Or.inl ⟨h1, Or.inl h, h2⟩
  have e : ∀ f, IsErr f → Failure cfg g f := fun f hf => Or.inl hf
  cases g with
  | asf => exact ⟨_, (asfReader_all cfg).mono OpEx.until (c rfl) (fun _ => id) (Nat.le_refl _)⟩
  | cfb => exact ⟨_, cfbReader_all.mono OpEx.until e (fun _ => id) (Nat.le_refl _)⟩
  | ebml => exact ⟨_, ebmlReader_all.mono OpEx.until e (fun _ => id) (Nat.le_refl _)⟩
  | exe => exact ⟨_, exeReader_all.mono OpEx.until e (fun _ => id) (Nat.le_refl _)⟩
  | id3v2 =>
    refine ⟨_, (id3v2Reader_all cfg).mono OpEx.until ?_ (fun _ => id) (Nat.le_refl _)⟩
    rintro f ((h | ⟨h1, h2⟩) | h)
    · exact Or.inl h
    · exact Or.inr (Or.inl ⟨h1, Or.inr rfl, h2⟩)
    · exact Or.inr (Or.inr ⟨rfl, h⟩)
  | mp4 => exact ⟨_, (mp4Reader_all cfg).mono OpEx.until (c rfl) (fun _ => id) (Nat.le_refl _)⟩
  | pdf => exact ⟨_, pdfReader_all.mono OpRd.until e (fun _ => id) (Nat.le_refl _)⟩
  | rm => exact ⟨_, rmReader_all.mono OpEx.until e (fun _ => id) (Nat.le_refl _)⟩
  | sqlite3 => exact ⟨_, sqlite3Reader_all.mono OpRd.until e (fun _ => id) (Nat.le_refl _)⟩
  | txt => exact ⟨_, txtReader_all.mono OpEx.until e (fun _ h => by subst h; decide) (Nat.le_refl _)⟩
  | xml => exact ⟨_, xmlReader_all.mono OpRd.until e (fun _ => id) (Nat.le_refl _)⟩
  | zip => exact ⟨_, (zipReader_all cfg).mono OpEx.until (c rfl) (fun _ => id) (Nat.le_refl _)⟩

theorem readerOf_tell (cfg : Cfg) (g : Feature) (hg : g.asksPosition = false) :
    (readerOf cfg g).1 = false ∨ NoTell (readerOf cfg g).2 := by
  cases g with
  | asf => cases hg
  | ebml => cases hg
  | mp4 => cases hg
  | rm => cases hg
  | txt => exact Or.inr noTell_txt
  | zip => exact Or.inr (noTell_zip cfg)
  | cfb => exact Or.inl rfl
  | exe => exact Or.inl rfl
  | id3v2 => exact Or.inl rfl
  | pdf => exact Or.inl rfl
  | sqlite3 => exact Or.inl rfl
  | xml => exact Or.inl rfl

variable {σ : Type} {D : Device σ}

/-- A reader on a device reports a member of its family, an error, or one of the failures of its
code. -/
theorem execOnD_reader (hL : D.Lawful) (cfg : Cfg) (g : Feature) (st : σ)
    (hP : (∃ position, D.Positioned position) ∨ g.asksPosition = false) :
    (∃ a, (execOnD D (readerOf cfg g).1 (readerOf cfg g).2 st).1 = .ok a ∧ InFamily g a) ∨
      (∃ f, (execOnD D (readerOf cfg g).1 (readerOf cfg g).2 st).1 = .error f ∧ Failure cfg g f) := by
  obtain ⟨k, hk⟩ := reader_failure cfg g
  have key : (∃ a, (execOnD D (readerOf cfg g).1 (readerOf cfg g).2 st).1 = .ok a ∧ InFamily g a) ∨
      (∃ f, (execOnD D (readerOf cfg g).1 (readerOf cfg g).2 st).1 = .error f ∧
        (Failure cfg g f ∨ ∃ e, f = .err e)) := by
    rcases hP with ⟨position, hP⟩ | hP
    · exact execD_spec (position := position) hL _ k _ hk (fun _ => id) (Or.inl hP) _
        (DRd.inv_nil st _) rfl
    · rcases readerOf_tell cfg g hP with h | h
      · exact execD_spec (position := fun _ => 0) hL _ k _ hk (fun _ => id) (Or.inr (Or.inl h)) _
          (DRd.inv_nil st _) rfl
      · exact execD_spec (position := fun _ => 0) hL _ k _ (hk.noTell h) (fun _ h => h.1)
          (Or.inr (Or.inr (fun h => h.2 rfl))) _ (DRd.inv_nil st _) rfl
  exact key.imp id fun ⟨f, h1, h2⟩ => ⟨f, h1, h2.elim id Or.inl⟩

/-- The generic reader on a device always returns a format. -/
theorem fromGenericReaderD_spec (hL : D.Lawful) (ft : Features) (st : σ) :
    (fromGenericReaderD D ft st).1 = .ok ArbitraryBinaryData ∨
      (ft.txt = true ∧ (fromGenericReaderD D ft st).1 = .ok PlainText) := by
  unfold fromGenericReaderD
  split
  · rename_i ht
    have h : (∃ a, (execOnD D true txtReader st).1 = .ok a ∧ a = PlainText) ∨
        (∃ f, (execOnD D true txtReader st).1 = .error f ∧ (IsErr f ∨ ∃ e, f = .err e)) :=
      execD_spec (position := fun _ => 0) hL _ _ true
        ((txtReader_all.mono OpEx.until (fun _ => id) (fun _ => id) (Nat.le_refl _)).noTell noTell_txt)
        (fun _ h => h.1) (Or.inr (Or.inr (fun h => h.2 rfl))) _ (DRd.inv_nil st _) rfl
    generalize execOnD D true txtReader st = x at h
    obtain ⟨r, s⟩ := x
    rcases h with ⟨a, ha, rfl⟩ | ⟨f, hf, h⟩
    · simp only at ha
      subst ha
      exact Or.inr ⟨ht, rfl⟩
    · simp only at hf
      subst hf
      have : ∃ e, f = .err e := h.elim id id
      obtain ⟨e, rfl⟩ := this
      exact Or.inl rfl
  · exact Or.inl rfl

/-- Detection on a device after a successful first read. -/
theorem fromDevice_outcome (hL : D.Lawful) (cfg : Cfg) (ft : Features) (st : σ) {buf : Bytes} {st' : σ}
    (hr : D.read st bufferSize = (.ok buf, st'))
    (hP : (∃ position, D.Positioned position) ∨
      ∀ g ∈ Feature.structured, g.enabled ft = true → fromSignature buf = some g.base →
        g.asksPosition = false) :
    (∃ f, (fromDevice D cfg ft st).1 = .ok f ∧
      ((buf = [] ∧ f = FileFormat.Empty) ∨
       (fromSignature buf = some f) ∨
       (∃ g ∈ Feature.structured, g.enabled ft = true ∧ fromSignature buf = some g.base ∧ InFamily g f) ∨
       (ft.txt = true ∧ f = PlainText) ∨ f = ArbitraryBinaryData)) ∨
    (∃ g ∈ Feature.structured, g.enabled ft = true ∧ fromSignature buf = some g.base ∧
      ∃ f, (fromDevice D cfg ft st).1 = .error f ∧ ¬ IsErr f ∧ Failure cfg g f) := by
  have hgen : ∀ s : σ, ∃ f, (fromGenericReaderD D ft s).1 = .ok f ∧
      ((ft.txt = true ∧ f = PlainText) ∨ f = ArbitraryBinaryData) := by
    intro s
    rcases fromGenericReaderD_spec hL ft s with h | ⟨h1, h2⟩
    · exact ⟨_, h, Or.inr rfl⟩
    · exact ⟨_, h2, Or.inl ⟨h1, rfl⟩⟩
  simp only [fromDevice, hr]
  by_cases h0 : buf.length = 0
  · rw [if_pos h0]
    exact Or.inl ⟨_, rfl, Or.inl ⟨List.eq_nil_of_length_eq_zero h0, rfl⟩⟩
  · rw [if_neg h0]
    cases hs : fromSignature buf with
    | none =>
      obtain ⟨f, h1, h2⟩ := hgen st'
      exact Or.inl ⟨f, h1, Or.inr (Or.inr (Or.inr h2))⟩
    | some fmt =>
      simp only
      rcases fmtReader_cases cfg ft fmt with hn | ⟨g, hg, he, rfl, hrd⟩
      · simp only [fromFmtReaderD, hn]
        exact Or.inl ⟨fmt, rfl, Or.inr (Or.inl rfl)⟩
      · simp only [fromFmtReaderD, hrd]
        have hx := execOnD_reader (D := D) hL cfg g st' (hP.imp id fun h => h g hg he hs)
        generalize execOnD D (readerOf cfg g).1 (readerOf cfg g).2 st' = x at hx
        obtain ⟨r, s⟩ := x
        rcases hx with ⟨a, ha, hfam⟩ | ⟨f, hf, hfail⟩
        · simp only at ha
          subst ha
          exact Or.inl ⟨a, rfl, Or.inr (Or.inr (Or.inl ⟨g, hg, he, rfl, hfam⟩))⟩
        · simp only at hf
          subst hf
          cases f with
          | err e =>
            obtain ⟨f, h1, h2⟩ := hgen s
            exact Or.inl ⟨f, h1, Or.inr (Or.inr (Or.inr h2))⟩
          | panic => exact Or.inr ⟨g, hg, he, rfl, _, rfl, (by rintro ⟨e, h⟩; cases h), hfail⟩
          | diverge => exact Or.inr ⟨g, hg, he, rfl, _, rfl, (by rintro ⟨e, h⟩; cases h), hfail⟩

/-! ## Streams with a fixed content -/

/-- The object of `Model.IO` as an object on the device. -/
def DRd.ofRd (s : Rd) : DRd Src := ⟨s.src, s.buffered, s.buf⟩

theorem srcDevice_read (s : Src) (n : Nat) : srcDevice.read s n = s.read n := rfl
theorem srcDevice_seek (s : Src) (p : SeekFrom) : srcDevice.seek s p = s.seek p := rfl
theorem srcDevice_tell (s : Src) : srcDevice.tell s = s.tell := rfl
theorem ofRd_st (s : Rd) : (DRd.ofRd s).st = s.src := rfl
theorem ofRd_buffered (s : Rd) : (DRd.ofRd s).buffered = s.buffered := rfl
theorem ofRd_buf (s : Rd) : (DRd.ofRd s).buf = s.buf := rfl

theorem ofRd_fillBuf (s : Rd) : (DRd.ofRd s).fillBuf srcDevice = (s.fillBuf.1, .ofRd s.fillBuf.2) := by
  simp only [DRd.fillBuf, Rd.fillBuf, srcDevice_read, ofRd_st, ofRd_buffered, ofRd_buf]
  by_cases h : s.buf.isEmpty = true
  · simp only [h, ↓reduceIte]
    cases s.src.read bufCapacity with
    | mk r x => cases r <;> rfl
  · simp only [h, ↓reduceIte, Bool.false_eq_true]

theorem ofRd_consume (s : Rd) (n : Nat) : (DRd.ofRd s).consume n = .ofRd (s.consume n) := rfl

theorem ofRd_read (s : Rd) (n : Nat) : (DRd.ofRd s).read srcDevice n = ((s.read n).1, .ofRd (s.read n).2) := by
  simp only [DRd.read, Rd.read, ofRd_fillBuf, srcDevice_read, ofRd_st, ofRd_buffered, ofRd_buf]
  by_cases h : s.buffered = false
  · simp only [h, ↓reduceIte]; rfl
  · by_cases h2 : s.buf.isEmpty = true ∧ bufCapacity ≤ n
    · simp only [h, h2, ↓reduceIte]; rfl
    · simp only [h, h2, ↓reduceIte]
      cases s.fillBuf with
      | mk r x => cases r <;> rfl

theorem ofRd_readExactLoop (fuel : Nat) (s : Rd) (n : Nat) (acc : Bytes) :
    DRd.readExactLoop srcDevice fuel (.ofRd s) n acc =
      ((Rd.readExactLoop fuel s n acc).1, .ofRd (Rd.readExactLoop fuel s n acc).2) := by
  induction fuel generalizing s n acc with
  | zero => cases n <;> rfl
  | succ fuel ih =>
    cases n with
    | zero => rfl
    | succ n =>
      simp only [DRd.readExactLoop, Rd.readExactLoop]
      rw [ofRd_read]
      cases s.read (n + 1) with
      | mk r x =>
        cases r with
        | ok bs =>
          by_cases h : bs.length = 0
          · simp only [h, ↓reduceIte]
          · simp only [h, ↓reduceIte]
            exact ih _ _ _
        | error e =>
          by_cases h : e = .interrupted
          · simp only [h, ↓reduceIte]
            exact ih _ _ _
          · simp only [h, ↓reduceIte]

theorem ofRd_readExact (s : Rd) (n : Nat) :
    (DRd.ofRd s).readExact srcDevice n = ((s.readExact n).1, .ofRd (s.readExact n).2) := by
  simp only [DRd.readExact, Rd.readExact, ofRd_buffered, ofRd_buf]
  by_cases h : s.buffered = true ∧ n ≤ s.buf.length
  · simp only [h, ↓reduceIte]; rfl
  · simp only [h, ↓reduceIte]
    exact ofRd_readExactLoop _ _ _ _

theorem ofRd_seek (s : Rd) (p : SeekFrom) :
    (DRd.ofRd s).seek srcDevice p = ((s.seek p).1, .ofRd (s.seek p).2) := by
  simp only [DRd.seek, Rd.seek, srcDevice_seek, ofRd_st, ofRd_buffered, ofRd_buf]
  by_cases h : s.buffered = false
  · simp only [h, ↓reduceIte]; rfl
  · simp only [h, ↓reduceIte]
    cases p with
    | current i =>
      by_cases h2 : -2 ^ 63 ≤ i - (s.buf.length : Int)
      · simp only [h2, ↓reduceIte]
        cases s.src.seek (.current (i - s.buf.length)) with
        | mk r x => cases r <;> rfl
      · simp only [h2, ↓reduceIte]
        cases s.src.seek (.current (-s.buf.length)) with
        | mk r x =>
          cases r with
          | error e => rfl
          | ok q =>
            simp only
            cases x.seek (.current i) with
            | mk r y => cases r <;> rfl
    | start n =>
      simp only
      cases s.src.seek (.start n) with
      | mk r x => cases r <;> rfl
    | fromEnd n =>
      simp only
      cases s.src.seek (.fromEnd n) with
      | mk r x => cases r <;> rfl

theorem ofRd_tell (s : Rd) : (DRd.ofRd s).tell srcDevice = (s.tell.1, .ofRd s.tell.2) := by
  simp only [DRd.tell, Rd.tell, srcDevice_tell, ofRd_st, ofRd_buffered, ofRd_buf]
  cases s.src.tell with
  | mk r x =>
    cases r with
    | error e => rfl
    | ok q =>
      by_cases h : s.buffered = false
      · simp only [h, ↓reduceIte]; rfl
      · by_cases h2 : s.buf.length ≤ q
        · simp only [h, h2, ↓reduceIte]; rfl
        · simp only [h, h2, ↓reduceIte]; rfl

theorem ofRd_readUntilLoop (fuel : Nat) (s : Rd) (n : Nat) (acc : Bytes) :
    DRd.readUntilLoop srcDevice fuel (.ofRd s) n acc =
      ((Rd.readUntilLoop fuel s n acc).1, .ofRd (Rd.readUntilLoop fuel s n acc).2) := by
  induction fuel generalizing s n acc with
  | zero => cases n <;> rfl
  | succ fuel ih =>
    cases n with
    | zero => rfl
    | succ n =>
      simp only [DRd.readUntilLoop, Rd.readUntilLoop]
      rw [ofRd_fillBuf]
      cases s.fillBuf with
      | mk r x =>
        cases r with
        | ok bs =>
          simp only [ofRd_consume]
          by_cases h : (uptoNewline (bs.take (n + 1))).length = 0
          · simp only [h, ↓reduceIte]
          · by_cases h2 : (uptoNewline (bs.take (n + 1))).getLast? = some 10
            · simp only [h, h2, ↓reduceIte]
            · simp only [h, h2, ↓reduceIte]
              exact ih _ _ _
        | error e =>
          by_cases h : e = .interrupted
          · simp only [h, ↓reduceIte]
            exact ih _ _ _
          · simp only [h, ↓reduceIte]

theorem ofRd_readUntil (s : Rd) (n : Nat) :
    (DRd.ofRd s).readUntil srcDevice n = ((s.readUntil n).1, .ofRd (s.readUntil n).2) :=
  ofRd_readUntilLoop _ _ _ _

theorem execD_ofRd (p : Prog α) (s : Rd) :
    execD srcDevice p (.ofRd s) = ((exec p s).1, .ofRd (exec p s).2) := by
  induction p generalizing s with
  | pure a => rfl
  | fail f => rfl
  | readExact n c ih =>
    simp only [execD, exec, ofRd_readExact]
    cases s.readExact n with
    | mk r x => cases r with
      | ok a => exact ih _ _
      | error e => rfl
  | read n c ih =>
    simp only [execD, exec, ofRd_read]
    cases s.read n with
    | mk r x => cases r with
      | ok a => exact ih _ _
      | error e => rfl
  | seek n c ih =>
    simp only [execD, exec, ofRd_seek]
    cases s.seek n with
    | mk r x => cases r with
      | ok a => exact ih _ _
      | error e => rfl
  | tell c ih =>
    simp only [execD, exec, ofRd_tell]
    cases s.tell with
    | mk r x => cases r with
      | ok a => exact ih _ _
      | error e => rfl
  | readUntil n c ih =>
    simp only [execD, exec, ofRd_readUntil]
    cases s.readUntil n with
    | mk r x => cases r with
      | ok a => exact ih _ _
      | error e => rfl

theorem execOnD_src (b : Bool) (p : Prog α) (s : Src) : execOnD srcDevice b p s = execOn b p s := by
  have := execD_ofRd p { src := s, buffered := b, buf := [] }
  unfold execOnD execOn
  rw [show (⟨s, b, []⟩ : DRd Src) = .ofRd { src := s, buffered := b, buf := [] } from rfl, this]
  rfl

theorem fromDevice_src (cfg : Cfg) (ft : Features) (s : Src) :
    fromDevice srcDevice cfg ft s = fromReader cfg ft s := by
  have h1 : ∀ fmt s, fromFmtReaderD srcDevice cfg ft fmt s = fromFmtReader cfg ft fmt s := by
    intro fmt s
    unfold fromFmtReaderD fromFmtReader
    cases fmtReader cfg ft fmt with
    | none => rfl
    | some x => exact execOnD_src _ _ _
  have h2 : ∀ s, fromGenericReaderD srcDevice ft s = fromGenericReader ft s := by
    intro s
    unfold fromGenericReaderD fromGenericReader
    rw [execOnD_src]
    cases ft.txt with
    | false => rfl
    | true =>
      generalize execOn true txtReader s = x
      obtain ⟨r, s⟩ := x
      rcases r with (_ | _ | _) | f <;> rfl
  unfold fromDevice fromReader
  simp only [h1, h2, srcDevice_read]
  generalize s.read bufferSize = x
  obtain ⟨r, s⟩ := x
  cases r with
  | error e => rfl
  | ok buf =>
    by_cases h0 : buf.length = 0
    · simp only [h0, ↓reduceIte]
    · simp only [h0, ↓reduceIte]
      cases fromSignature buf with
      | none => rfl
      | some fmt =>
        simp only
        generalize fromFmtReader cfg ft fmt s = x
        obtain ⟨r, s⟩ := x
        rcases r with (_ | _ | _) | f <;> rfl

end FF
