import Verif.Spec.Watched
import Verif.Props.Traced
/-!
# C89: content that goes on
-/

namespace FF.Props
open FF FileFormat Spec

/-! ## The file is an ordinary one -/

theorem endWatched_lawful (data : Bytes) (top : Nat) : (endWatched data top).Lawful where
  read_le := by
    intro s n bs s' h
    cases h
    rw [length_slice]
    omega
  read_patience := fun _ _ _ _ _ => Nat.le_refl _
  interrupted := by intro s n s' h; cases h
  seek_patience := fun _ _ _ _ _ => Nat.le_refl _
  tell_patience := fun _ _ _ _ => Nat.le_refl _

theorem endWatched_serves (data : Bytes) (top : Nat) :
    (endWatched data top).Serves data top (fun s => s.2.1) (fun _ => True) where
  read_ok := by
    intro s n bs s' _ h
    obtain ⟨t, q, e⟩ := s
    cases h
    refine ⟨by rw [length_slice]; omega, slice_length_self _ _ _, fun h => ?_, rfl⟩
    have := congrArg List.length h
    rw [length_slice, List.length_nil] at this
    show n = 0 ∨ data.length ≤ q
    omega
  seek_ok := by
    intro s p q s' _ h
    simp only [endWatched] at h
    split at h
    · rename_i h'; cases h; exact ⟨h', rfl⟩
    · cases h
  tell_ok := by intro s q s' _ h; cases h; exact ⟨rfl, rfl⟩
  read_error := by intro s n e s' _ h; cases h
  seek_error := by
    intro s p e s' _ h
    simp only [endWatched] at h
    split at h
    · cases h
    · cases h; rfl
  tell_error := by intro s e s' _ h; cases h
  read_inv := fun _ _ _ => trivial
  seek_inv := fun _ _ _ => trivial
  tell_inv := fun _ _ => trivial

theorem endWatched_reliable (data : Bytes) (top : Nat) (may : ErrKind → Prop) :
    (endWatched data top).Reliable data top (fun s => s.2.1) (fun _ => True) may where
  read := by intro s n e s' _ h; cases h
  seek := by
    intro s p e s' _ h
    simp only [endWatched] at h
    split at h
    · cases h
    · rename_i h'; cases h; exact ⟨rfl, h'⟩
  tell := by intro s e s' _ h; cases h

theorem endWatched_full (data : Bytes) (top : Nat) : (endWatched data top).Full data (fun s => s.2.1) (fun _ => True) := by
  intro s n bs s' _ h
  cases h
  rfl

/-- C89: watching the end does not change the verdict; it is that of `from_bytes`. -/
theorem C89_watched (cfg : Cfg) (ft : Features) (data : Bytes) (hl : IsSlice data) :
    (fromDevice (endWatched data (2 ^ 64 - 1)) cfg ft (0, 0, false)).1 = fromBytes cfg ft data :=
  C82_full (endWatched_lawful _ _) (endWatched_serves _ _) (endWatched_reliable _ _ _) (endWatched_full _ _) cfg ft _ trivial hl rfl

/-! ## Appending -/

theorem slice_append_left (a b : Bytes) (p n : Nat) (h : ¬ (slice a p n).length < n) : slice (a ++ b) p n = slice a p n := by
  rw [length_slice] at h
  unfold slice
  cases n with
  | zero => rfl
  | succ n =>
    rw [List.drop_append_of_le_length (by omega), List.take_append_of_le_length (by rw [List.length_drop]; omega)]

theorem endWatched_changing {data : Bytes} {contents : Nat → Bytes} (hc : ∀ t, data <+: contents t) (top : Nat) :
    Agree (endWatched data top) (changing contents top) (fun s => (s.1, s.2.1)) (fun s => s.2.2 = false) where
  patience := fun _ => rfl
  read := by
    intro s n hg
    obtain ⟨t, p, e⟩ := s
    obtain ⟨more, hm⟩ := hc t
    simp only [endWatched, Bool.or_eq_false_iff, decide_eq_false_iff_not] at hg
    refine ⟨?_, hg.1⟩
    simp only [endWatched, changing, ← hm, slice_append_left data more p n hg.2, Prod.map_apply, id_eq]
  seek := by
    intro s p hg
    obtain ⟨t, q, e⟩ := s
    have hg' : (e || p.byEnd) = false := by
      simp only [endWatched] at hg
      split at hg <;> exact hg
    rw [Bool.or_eq_false_iff] at hg'
    refine ⟨?_, hg'.1⟩
    have ht : seekTarget (contents t).length top q p = seekTarget data.length top q p := by
      cases p with
      | fromEnd i => exact Bool.noConfusion hg'.2
      | start i => rfl
      | current i => rfl
    simp only [endWatched, changing, ht]
    cases seekTarget data.length top q p <;> rfl
  tell := fun s hg => ⟨rfl, hg⟩

/-- C89: a file that others extend, or whose end others change in any way, while it is examined. If a detection on `data` does
not touch its end, detection on a file which has `data` at its start whenever a call is made has the same result, and
leaves the file at the same position. -/
theorem C89_growing (cfg : Cfg) (ft : Features) (data : Bytes) (contents : Nat → Bytes) (hc : ∀ t, data <+: contents t)
    (top p : Nat) (h : touchesEnd cfg ft data top p = false) :
    (fromDevice (changing contents top) cfg ft (0, p)).1 = (fromDevice (endWatched data top) cfg ft (0, p, false)).1 ∧
    (fromDevice (changing contents top) cfg ft (0, p)).2.2 = (fromDevice (endWatched data top) cfg ft (0, p, false)).2.2.1 := by
  have := (fromDevice_agree (endWatched_changing hc top) cfg ft (0, p, false) h).1
  exact ⟨congrArg Prod.fst this, congrArg (fun x => x.2.2) this⟩

/-- The note can be left out. -/
theorem endWatched_forget (data : Bytes) (top : Nat) :
    Agree (endWatched data top) (changing (fun _ => data) top) (fun s => (s.1, s.2.1)) (fun _ => True) where
  patience := fun _ => rfl
  read := fun _ _ _ => ⟨rfl, trivial⟩
  seek := by
    intro s p _
    obtain ⟨t, q, e⟩ := s
    refine ⟨?_, trivial⟩
    simp only [endWatched, changing]
    cases seekTarget data.length top q p <;> rfl
  tell := fun _ _ => ⟨rfl, trivial⟩

/-- C89: content that goes on. If a detection on `data` does not touch its end, `data` followed by anything gets the same
result. -/
theorem C89_append (cfg : Cfg) (ft : Features) (data more : Bytes) (hl : IsSlice (data ++ more))
    (h : touchesEnd cfg ft data (2 ^ 64 - 1) 0 = false) : fromBytes cfg ft (data ++ more) = fromBytes cfg ft data := by
  have hd : IsSlice data := by
    unfold IsSlice at hl ⊢
    rw [List.length_append] at hl
    omega
  rw [← C89_watched cfg ft data hd, ← C89_watched cfg ft (data ++ more) hl,
    ← (C89_growing cfg ft data (fun _ => data ++ more) (fun _ => List.prefix_append _ _) (2 ^ 64 - 1) 0 h).1]
  exact (congrArg Prod.fst (fromDevice_agree (endWatched_forget (data ++ more) (2 ^ 64 - 1)) cfg ft (0, 0, false) trivial).1).symm

/-! ## Contents whose end is not touched -/

/-- C89: without readers the end is not touched exactly if the content has 36870 bytes. -/
theorem C89_first (cfg : Cfg) (data : Bytes) (top : Nat) :
    touchesEnd cfg Features.none data top 0 = false ↔ 36870 ≤ data.length := by
  have hn : ∀ fmt, fmtReader cfg Features.none fmt = none := by
    intro fmt
    rcases fmtReader_cases cfg Features.none fmt with h | ⟨g, _, he, _⟩
    · exact h
    · cases g <;> cases he
  have : (fromDevice (endWatched data top) cfg Features.none (0, 0, false)).2 =
      ((endWatched data top).read (0, 0, false) 36870).2 := by
    show (fromDevice (endWatched data top) cfg Features.none (0, 0, false)).2 =
      ((endWatched data top).read (0, 0, false) bufferSize).2
    unfold fromDevice
    have hk : ∃ bs st, (endWatched data top).read (0, 0, false) bufferSize = (.ok bs, st) := ⟨_, _, rfl⟩
    obtain ⟨bs, st, hk⟩ := hk
    rw [hk]
    simp only [fromFmtReaderD, hn, fromGenericReaderD]
    split
    · rfl
    · split <;> rfl
  unfold touchesEnd
  rw [this]
  simp only [endWatched, length_slice, Bool.false_or, decide_eq_false_iff_not]
  omega

/-- What the first read does if there are enough bytes. -/
theorem endWatched_first (data : Bytes) (top : Nat) (hd : 36870 ≤ data.length) :
    (endWatched data top).read (0, 0, false) bufferSize = (.ok (data.take 36870), (1, 36870, false)) := by
  show (endWatched data top).read (0, 0, false) 36870 = _
  have h1 : slice data 0 36870 = data.take 36870 := rfl
  simp only [endWatched, h1, List.length_take, Nat.min_eq_left hd, Nat.lt_irrefl, decide_false, Bool.or_false, Nat.zero_add]

/-- If the content is recognised and its reader succeeds, what the reader does is all that follows. -/
theorem touchesEnd_fmt {cfg : Cfg} {ft : Features} {data : Bytes} {top : Nat} {f r : FileFormat} {st : Nat × Nat × Bool}
    (hd : 36870 ≤ data.length) (hs : SignatureSays data f) (hf' : f ≠ ArbitraryBinaryData)
    (h : fromFmtReaderD (endWatched data top) cfg ft f (1, 36870, false) = (.ok r, st)) :
    touchesEnd cfg ft data top 0 = st.2.2 := by
  have h0 : ¬ (data.take 36870).length = 0 := by rw [List.length_take]; omega
  have hs' : fromSignature (data.take 36870) = some f := by
    have hsay := (signatureSays_take data f).2 hs
    cases hg : fromSignature (data.take 36870) with
    | some g => rw [(signatureSays_some hg _).mp hsay]
    | none => exact absurd ((signatureSays_none (fun h => h0 (congrArg List.length h)) hg _).mp hsay) hf'
  unfold touchesEnd fromDevice
  rw [endWatched_first data top hd]
  simp only [if_neg h0, hs', h]

/-- C89: content of 36870 bytes or more for which no reader is enabled. -/
theorem C89_no_reader (cfg : Cfg) (ft : Features) (data : Bytes) (top : Nat) (f : FileFormat) (hd : 36870 ≤ data.length)
    (hs : SignatureSays data f) (hf : f ≠ ArbitraryBinaryData) (hn : ∀ g : Feature, g.enabled ft = true → g.base ≠ f) :
    touchesEnd cfg ft data top 0 = false := by
  have hr : fmtReader cfg ft f = none := by
    rcases fmtReader_cases cfg ft f with h | ⟨g, _, he, hb, _⟩
    · exact h
    · exact absurd hb.symm (hn g he)
  have : fromFmtReaderD (endWatched data top) cfg ft f (1, 36870, false) = (.ok f, (1, 36870, false)) := by
    simp only [fromFmtReaderD, hr]
  rw [touchesEnd_fmt hd hs hf this]

/-- C89: an XML document of 36870 bytes or more, whatever readers are enabled. -/
theorem C89_xml (cfg : Cfg) (ft : Features) (data : Bytes) (top : Nat) (ht : 5 ≤ top) (hd : 36870 ≤ data.length)
    (hs : SignatureSays data ExtensibleMarkupLanguage) : touchesEnd cfg ft data top 0 = false := by
  by_cases hx : ft.xml = true
  · obtain ⟨f, hf, _⟩ := xmlClassify_mem (slice data 5 8192) xmlRules
    have hl : ¬ (slice data 5 8192).length < 8192 := by rw [length_slice]; omega
    have : fromFmtReaderD (endWatched data top) cfg ft ExtensibleMarkupLanguage (1, 36870, false) =
        (.ok f, (3, 5 + (slice data 5 8192).length, false)) := by
      simp only [fromFmtReaderD, fmtReader, hx, if_true, execOnD, xmlReader, bind, Prog.bind, Prog.sk, Prog.rd, execD, DRd.seek, DRd.read,
        endWatched, seekTarget, if_pos ht, hf, Prog.lift, SeekFrom.byEnd, hl, decide_false, Bool.or_false]
    rw [touchesEnd_fmt hd hs (by decide) this]
  · have : fromFmtReaderD (endWatched data top) cfg ft ExtensibleMarkupLanguage (1, 36870, false) =
        (.ok ExtensibleMarkupLanguage, (1, 36870, false)) := by
      simp only [fromFmtReaderD, fmtReader, if_neg hx]
    rw [touchesEnd_fmt hd hs (by decide) this]

/-- C89: a SQLite database of 36870 bytes or more, whatever readers are enabled. -/
theorem C89_sqlite3 (cfg : Cfg) (ft : Features) (data : Bytes) (top : Nat) (ht : 100 ≤ top) (hd : 36870 ≤ data.length)
    (hs : SignatureSays data Sqlite3) : touchesEnd cfg ft data top 0 = false := by
  by_cases hx : ft.sqlite3 = true
  · obtain ⟨f, hf, _⟩ := holdsBytes_spec (slice data 100 32768) sketchMarker
    have hl : ¬ (slice data 100 32768).length < 32768 := by rw [length_slice]; omega
    have : fromFmtReaderD (endWatched data top) cfg ft Sqlite3 (1, 36870, false) =
        (.ok (if f = true then Sketch else Sqlite3), (3, 100 + (slice data 100 32768).length, false)) := by
      simp only [fromFmtReaderD, fmtReader, hx, if_true, execOnD, sqlite3Reader, bind, Prog.bind, Prog.sk, Prog.rd, execD, DRd.seek, DRd.read,
        endWatched, seekTarget, if_pos ht, hf, Prog.lift, SeekFrom.byEnd, hl, decide_false, Bool.or_false]
      cases f <;> rfl
    rw [touchesEnd_fmt hd hs (by decide) this]
  · have : fromFmtReaderD (endWatched data top) cfg ft Sqlite3 (1, 36870, false) =
        (.ok Sqlite3, (1, 36870, false)) := by
      simp only [fromFmtReaderD, fmtReader, if_neg hx]
    rw [touchesEnd_fmt hd hs (by decide) this]

/-- The buffer while text is read: filled in steps of 8 KiB, and `limit` of 64 KiB are left. -/
def Steps (s : DRd (Nat × Nat × Bool)) (limit : Nat) : Prop :=
  s.st.2.2 = false ∧ s.st.2.1 + limit = 65536 + s.buf.length ∧ s.st.2.1 % 8192 = 0 ∧ s.buf.length ≤ s.st.2.1 ∧ s.st.2.1 ≤ 65536

theorem steps_fill {data : Bytes} {top : Nat} (hd : 65536 ≤ data.length) {s : DRd (Nat × Nat × Bool)} {limit : Nat}
    (hs : Steps s limit) (hl : 0 < limit) :
    ∃ buf s', s.fillBuf (endWatched data top) = (.ok buf, s') ∧ Steps s' limit ∧ s'.buf = buf := by
  unfold DRd.fillBuf
  by_cases he : s.buf.isEmpty = true
  · obtain ⟨⟨t, p, e⟩, bd, buf⟩ := s
    obtain ⟨h1, h2, h3, h4, h5⟩ := hs
    have hb : buf = [] := List.isEmpty_iff.1 he
    subst hb
    simp only [List.length_nil] at h1 h2 h3 h4 h5
    have hlen : (slice data p 8192).length = 8192 := length_slice_eq _ _ _ (by omega)
    refine ⟨slice data p 8192, ⟨(t + 1, p + 8192, false), bd, slice data p 8192⟩, ?_, ⟨rfl, ?_, ?_, ?_, ?_⟩, rfl⟩
    · simp only [if_pos he, endWatched, bufCapacity, hlen, h1, Nat.lt_irrefl, decide_false, Bool.or_false]
    · simp only [hlen]; omega
    · simp only; omega
    · simp only [hlen]; omega
    · simp only; omega
  · exact ⟨s.buf, s, by rw [if_neg he], hs, rfl⟩

theorem steps_untilLoop {data : Bytes} {top : Nat} (hd : 65536 ≤ data.length) (fuel : Nat) (s : DRd (Nat × Nat × Bool))
    (limit : Nat) (acc : Bytes) (hs : Steps s limit) :
    (DRd.readUntilLoop (endWatched data top) fuel s limit acc).2.st.2.2 = false ∧
    ∀ line s', DRd.readUntilLoop (endWatched data top) fuel s limit acc = (.ok line, s') →
      ∃ k, line.length = acc.length + k ∧ k ≤ limit ∧ Steps s' (limit - k) := by
  induction fuel generalizing s limit acc with
  | zero =>
    cases limit with
    | zero => exact ⟨hs.1, by intro line s' h; cases h; exact ⟨0, rfl, Nat.le_refl _, hs⟩⟩
    | succ limit => exact ⟨hs.1, by intro line s' h; cases h⟩
  | succ fuel ih =>
    cases limit with
    | zero => exact ⟨hs.1, by intro line s' h; cases h; exact ⟨0, rfl, Nat.le_refl _, hs⟩⟩
    | succ limit =>
      obtain ⟨buf, s1, hf, h1, hb⟩ := steps_fill (top := top) hd hs (Nat.succ_pos _)
      simp only [DRd.readUntilLoop, hf]
      have hu : (uptoNewline (buf.take (limit + 1))).length ≤ min (limit + 1) buf.length := by
        have := uptoNewline_length_le (buf.take (limit + 1))
        rw [List.length_take] at this
        exact this
      generalize (uptoNewline (buf.take (limit + 1))) = used at hu
      have h2 : Steps (s1.consume used.length) (limit + 1 - used.length) := by
        obtain ⟨a, b, c, d, e⟩ := h1
        refine ⟨a, ?_, c, ?_, e⟩
        · show s1.st.2.1 + (limit + 1 - used.length) = 65536 + (s1.buf.drop used.length).length
          rw [List.length_drop]
          rw [hb] at b ⊢
          omega
        · show (s1.buf.drop used.length).length ≤ s1.st.2.1
          rw [List.length_drop]
          omega
      by_cases hl : used.length = 0
      · rw [if_pos hl]
        exact ⟨h1.1, by intro line s' h; cases h; exact ⟨0, rfl, Nat.zero_le _, h1⟩⟩
      · rw [if_neg hl]
        by_cases hn : used.getLast? = some 10
        · rw [if_pos hn]
          exact ⟨h2.1, by intro line s' h; cases h; exact ⟨used.length, List.length_append, by omega, h2⟩⟩
        · rw [if_neg hn]
          obtain ⟨i1, i2⟩ := ih _ _ (acc ++ used) h2
          refine ⟨i1, fun line s' h => ?_⟩
          obtain ⟨k, k1, k2, k3⟩ := i2 line s' h
          refine ⟨used.length + k, by rw [k1, List.length_append]; omega, by omega, ?_⟩
          rw [show limit + 1 - (used.length + k) = limit + 1 - used.length - k by omega]
          exact k3

theorem steps_lines {data : Bytes} {top : Nat} (hd : 65536 ≤ data.length) (n : Nat) (s : DRd (Nat × Nat × Bool))
    (limit : Nat) (hs : Steps s limit) : (execD (endWatched data top) (txtLines n limit) s).2.st.2.2 = false := by
  induction n generalizing s limit with
  | zero => exact hs.1
  | succ n ih =>
    obtain ⟨h1, h2⟩ := steps_untilLoop (top := top) hd (limit + (endWatched data top).patience s.st + 1) s limit [] hs
    simp only [txtLines, bind, Prog.bind, Prog.rdUntil, execD, DRd.readUntil]
    generalize DRd.readUntilLoop (endWatched data top) (limit + (endWatched data top).patience s.st + 1) s limit [] = x at h1 h2
    obtain ⟨e | line, s1⟩ := x
    · exact h1
    · obtain ⟨k, k1, k2, k3⟩ := h2 line s1 rfl
      simp only
      split
      · exact h1
      · split
        · exact h1
        · split
          · exact h1
          · rw [show line.length = k by rw [k1]; exact Nat.zero_add k]
            exact ih _ _ k3

/-- C89: content of 65536 bytes or more without a magic number, whatever readers are enabled. -/
theorem C89_text (cfg : Cfg) (ft : Features) (data : Bytes) (top : Nat) (hd : 65536 ≤ data.length)
    (hs : SignatureSays data ArbitraryBinaryData) : touchesEnd cfg ft data top 0 = false := by
  have hd' : 36870 ≤ data.length := by omega
  have h0 : ¬ (data.take 36870).length = 0 := by rw [List.length_take]; omega
  unfold touchesEnd fromDevice
  rw [endWatched_first data top hd']
  cases hg : fromSignature (data.take 36870) with
  | some g =>
    have := (signatureSays_some hg _).mp ((signatureSays_take data _).2 hs)
    subst this
    simp only [if_neg h0, hg]
    rfl
  | none =>
    simp only [if_neg h0, hg, fromGenericReaderD]
    by_cases hx : ft.txt = true
    · rw [if_pos hx]
      have hr : (execOnD (endWatched data top) true txtReader (1, 36870, false)).2.2.2 = false := by
        have := steps_lines (top := top) hd 16 ⟨(2, 0, false), true, []⟩ 65536 ⟨rfl, rfl, rfl, Nat.le_refl _, Nat.zero_le _⟩
        simp only [execOnD, txtReader, bind, Prog.bind, Prog.sk, execD]
        have hk : DRd.seek (endWatched data top) ⟨(1, 36870, false), true, []⟩ (.start 0) = (.ok 0, ⟨(2, 0, false), true, []⟩) := by
          simp only [DRd.seek, endWatched, seekTarget, Nat.zero_le, if_true, SeekFrom.byEnd, Bool.or_false, Bool.true_eq_false, if_false]
        rw [hk]
        exact this
      generalize execOnD (endWatched data top) true txtReader (1, 36870, false) = x at hr
      obtain ⟨(_ | _ | _) | _, st⟩ := x <;> exact hr
    · rw [if_neg hx]

/-! ## Non-vacuity -/

-- A file of 40000 spaces to which anything is appended; without readers, the end is not touched.
example (more : Bytes) (hl : IsSlice (List.replicate 40000 32 ++ more)) :
    fromBytes Cfg.release Features.none (List.replicate 40000 32 ++ more) =
      fromBytes Cfg.release Features.none (List.replicate 40000 32) := by
  refine C89_append _ _ _ _ hl ((C89_first _ _ _).2 ?_)
  rw [List.length_replicate]
  omega

-- A short file: the first read touches its end.
example : touchesEnd Cfg.release Features.none b!"<?xml version" 1000 0 = true := by decide +kernel

-- A log in XML to which others append while it is examined.
example (ft : Features) (data : Bytes) (hl : IsSlice data) (hd : 36870 ≤ data.length)
    (hs : SignatureSays data ExtensibleMarkupLanguage) (line : Nat → Bytes) :
    (fromDevice (changing (fun t => data ++ line t) (2 ^ 64 - 1)) Cfg.release ft (0, 0)).1 = fromBytes Cfg.release ft data := by
  rw [(C89_growing _ _ data _ (fun _ => List.prefix_append _ _) _ 0 (C89_xml _ _ data (2 ^ 64 - 1) (by omega) hd hs)).1,
    C89_watched _ _ data hl]

end FF.Props
