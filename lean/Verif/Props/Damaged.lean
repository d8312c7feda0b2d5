import Verif.Proofs.Damaged
import Verif.Props.Serve
import Verif.Props.Mend
import Verif.Props.Overflow
/-!
# C84: media on which some bytes cannot be read

And C82 for failing calls and builds with overflow checks.
-/

namespace FF.Props
open FF FileFormat Spec

section
variable {σ : Type} {D : Device σ} {data : Bytes} {top : Nat} {position : σ → Nat} {I : σ → Prop}

/-- C82. Whatever calls fail: the result is the error of the first read; or there is a verdict, and it is the specified one on
the content for what the first read delivers, arbitrary data, or plain text (only if the content is text). -/
theorem C82_failures (hL : D.Lawful) (hS : D.Serves data top position I) (ft : Features) (st : σ) (hI : I st)
    (hl : IsSlice data) (hd : data.length ≤ top) (hp : position st ≤ top) :
    (∃ e, (D.read st 36870).1 = .error e ∧ (fromDevice D Cfg.release ft st).1 = .error (.err e)) ∨
    ∃ w r f, (D.read st 36870).1 = .ok w ∧ (fromDevice D Cfg.release ft st).1 = .ok f ∧
      (VerdictOn ft w data top r f ∨ f = ArbitraryBinaryData ∨
        (f = PlainText ∧ ft.txt = true ∧ IsText (firstLines 16 (data.take 65536)))) := by
  obtain ⟨s, h1, h2, h3, h4, _, _, h5, _⟩ := C82_schedule hL hS Cfg.release ft st hI
  have hwf : s.WF := ⟨by rw [h1, h3]; exact hd, by rw [h2, h3]; exact hp⟩
  have hwf' : s.mended.WF := ⟨hwf.len, hwf.pos⟩
  have hl' : IsSlice s.data := by rw [h1]; exact hl
  rw [← h4, ← h5, ← h1, ← h3]
  cases hr : (s.read 36870).1 with
  | error e => exact Or.inl ⟨e, rfl, (C10_error_iff Cfg.release ft s e).mpr hr⟩
  | ok w =>
    right
    obtain ⟨g, hg, hv, _⟩ := C73_exactly_one ft s.mended hwf' hl' (mended_noFail s)
    rw [C75_window s w hr] at hv
    refine ⟨w, laterReads s.mended, ?_⟩
    rcases C75_failures Cfg.release ft s hwf hl' with ⟨e, h, _⟩ | h | h | ⟨h, ht, hx⟩
    · rw [hr] at h; cases h
    · exact ⟨g, rfl, h.trans hg, Or.inl hv⟩
    · exact ⟨_, rfl, h, Or.inr (Or.inl rfl)⟩
    · exact ⟨_, rfl, h, Or.inr (Or.inr ⟨rfl, ht, hx⟩)⟩

/-- C82. Whatever calls fail, a build with overflow checks panics only if the content makes its arithmetic overflow. -/
theorem C82_overflows (hL : D.Lawful) (hS : D.Serves data top position I) (ft : Features) (st : σ) (hI : I st)
    (hl : IsSlice data) (hd : data.length ≤ top) (hp : position st ≤ top)
    (h : (fromDevice D Cfg.debug ft st).1 = .error .panic) :
    ∃ w, (D.read st 36870).1 = .ok w ∧ OverflowOn ft w data top := by
  obtain ⟨s, h1, h2, h3, h4, _, _, h5, _⟩ := C82_schedule hL hS Cfg.debug ft st hI
  have hwf : s.WF := ⟨by rw [h1, h3]; exact hd, by rw [h2, h3]; exact hp⟩
  rw [← h5, ← h1, ← h3]
  exact C74_only_overflows ft s hwf (by rw [h1]; exact hl) (by rw [h4]; exact h)

/-- C82. If no call fails, it panics exactly then. -/
theorem C82_panics_iff (hL : D.Lawful) (hS : D.Serves data top position I)
    (hR : D.Reliable data top position I (fun _ => False)) (ft : Features) (st : σ) (hI : I st)
    (hl : IsSlice data) (hd : data.length ≤ top) (hp : position st ≤ top) :
    ∃ w, (D.read st 36870).1 = .ok w ∧
      ((fromDevice D Cfg.debug ft st).1 = .error .panic ↔ OverflowOn ft w data top) := by
  obtain ⟨s, h1, h2, h3, h4, _, _, h5, h6⟩ := C82_schedule hL hS Cfg.debug ft st hI
  obtain ⟨h6, h7, _⟩ := h6 _ hR
  have hq : s.NoFail := ⟨h6, h7⟩
  have hwf : s.WF := ⟨by rw [h1, h3]; exact hd, by rw [h2, h3]; exact hp⟩
  rw [← h5, ← h4, ← h1, ← h3]
  exact ⟨firstWindow s, (first_window s hq).1, C74_from_reader ft s hwf (by rw [h1]; exact hl) hq⟩

end

/-! ## C84 -/

theorem damaged_lawful (bad : Nat → Bool) (e : ErrKind) (he : e ≠ .interrupted) (data : Bytes) (top : Nat) :
    (damaged bad e data top).Lawful where
  read_le := by
    intro s n bs s' h
    simp only [damaged] at h
    split at h
    · cases h
      rw [length_damaged]
      have := goodRun_le bad (min n (data.length - s)) s
      omega
    · cases h
  read_patience := fun _ _ _ _ _ => Nat.le_refl _
  interrupted := by
    intro s n s' h
    simp only [damaged] at h
    split at h
    · cases h
    · cases h; exact absurd rfl he
  seek_patience := fun _ _ _ _ _ => Nat.le_refl _
  tell_patience := fun _ _ _ _ => Nat.le_refl _

theorem damaged_serves (bad : Nat → Bool) (e : ErrKind) (data : Bytes) (top : Nat) :
    (damaged bad e data top).Serves data top (fun p => p) (fun _ => True) where
  read_ok := by
    intro s n bs s' _ h
    simp only [damaged] at h
    split at h
    · rename_i hc
      cases h
      rw [length_damaged]
      have := goodRun_le bad (min n (data.length - s)) s
      refine ⟨by omega, rfl, fun h => ?_, rfl⟩
      have h0 := congrArg List.length h
      rw [length_damaged, List.length_nil] at h0
      rcases hc with hc | hc | hc
      · exact Or.inl hc
      · exact Or.inr hc
      · by_cases hm : min n (data.length - s) = 0
        · omega
        · have := goodRun_pos hm hc
          omega
    · cases h
  seek_ok := by
    intro s p q s' _ h
    simp only [damaged] at h
    split at h
    · rename_i h'; cases h; exact ⟨h', rfl⟩
    · cases h
  tell_ok := by intro s q s' _ h; cases h; exact ⟨rfl, rfl⟩
  read_error := by
    intro s n e s' _ h
    simp only [damaged] at h
    split at h
    · cases h
    · cases h; rfl
  seek_error := by
    intro s p e s' _ h
    simp only [damaged] at h
    split at h
    · cases h
    · cases h; rfl
  tell_error := by intro s e s' _ h; cases h
  read_inv := fun _ _ _ => trivial
  seek_inv := fun _ _ _ => trivial
  tell_inv := fun _ _ => trivial

theorem slice_ext {a b : Bytes} {p n : Nat} (hlen : a.length = b.length) (h : ∀ i, i < n → a[p + i]? = b[p + i]?) :
    slice a p n = slice b p n := by
  unfold slice
  apply List.ext_getElem?
  intro i
  rw [List.getElem?_take, List.getElem?_take]
  split
  · rename_i hi
    rw [List.getElem?_drop, List.getElem?_drop]
    exact h i hi
  · rfl

/-- C84. The bytes that cannot be read do not matter: not for the result, nor for any call. -/
theorem C84_unreadable (bad : Nat → Bool) (e : ErrKind) (data data' : Bytes) (top : Nat) (h : SameReadable bad data data') :
    damaged bad e data' top = damaged bad e data top := by
  obtain ⟨h1, h2⟩ := h
  unfold damaged
  rw [h1]
  congr 1
  funext p n
  congr 3
  apply slice_ext h1
  intro i hi
  exact h2 _ (goodRun_good bad _ _ _ hi)

/-- C84. There is always a result: a verdict, or the error of the first read. -/
theorem C84_total (bad : Nat → Bool) (e : ErrKind) (he : e ≠ .interrupted) (ft : Features) (data : Bytes) (top : Nat)
    (hl : IsSlice data) (hd : data.length ≤ top) (p : Nat) (hp : p ≤ top) :
    Returns (fromDevice (damaged bad e data top) Cfg.release ft p).1 :=
  C82_total (damaged_lawful bad e he data top) (damaged_serves bad e data top) ft p trivial hl hd hp

theorem damaged_first {bad : Nat → Bool} {e : ErrKind} {data : Bytes} {top : Nat} (hb : ∀ i, i < 36870 → bad i = false) :
    ((damaged bad e data top).read 0 36870).1 = .ok (data.take 36870) := by
  simp only [damaged]
  rw [if_pos (Or.inr (Or.inr (hb 0 (by decide)))), goodRun_all (fun i hi => by rw [Nat.zero_add]; exact hb i (by omega))]
  show Except.ok ((data.drop 0).take (min 36870 (data.length - 0))) = _
  rw [List.drop_zero, Nat.sub_zero]
  congr 1
  by_cases h : data.length ≤ 36870
  · rw [Nat.min_eq_right h, List.take_of_length_le (Nat.le_refl _), List.take_of_length_le h]
  · rw [Nat.min_eq_left (by omega)]

theorem healthy_reliable (e : ErrKind) (data : Bytes) (top : Nat) (may : ErrKind → Prop) :
    (healthy e data top).Reliable data top (fun p => p) (fun _ => True) may where
  read := by
    intro s n e' s' _ h
    rw [healthy_read] at h
    cases h
  seek := by
    intro s p e' s' _ h
    simp only [healthy, damaged] at h
    split at h
    · cases h
    · rename_i h'; cases h; exact ⟨rfl, h'⟩
  tell := by intro s e s' _ h; cases h

theorem healthy_full (e : ErrKind) (data : Bytes) (top : Nat) :
    (healthy e data top).Full data (fun p => p) (fun _ => True) := by
  intro s n bs s' _ h
  rw [healthy_read] at h
  cases h
  show slice data s (min n (data.length - s)) = slice data s n
  unfold slice
  by_cases hn : n ≤ data.length - s
  · rw [Nat.min_eq_left hn]
  · rw [Nat.min_eq_right (by omega), List.take_of_length_le (by rw [List.length_drop]; omega),
      List.take_of_length_le (by rw [List.length_drop]; omega)]

/-- C84. On an undamaged medium, the specified verdict is reported. -/
theorem C84_healthy (e : ErrKind) (he : e ≠ .interrupted) (ft : Features) (data : Bytes) (top : Nat)
    (hl : IsSlice data) (hd : data.length ≤ top) (f : FileFormat) :
    (fromDevice (damaged (fun _ => false) e data top) Cfg.release ft 0).1 = .ok f ↔ Verdict ft data top f := by
  obtain ⟨s, h1, h2, h3, h4, _, _, _, h6⟩ :=
    C82_schedule (damaged_lawful (fun _ => false) e he data top) (damaged_serves _ e data top) Cfg.release ft 0 trivial
  obtain ⟨h6, h7, h8⟩ := h6 _ (healthy_reliable e data top (fun _ => False))
  have hc := calm_of_full s h6 h7 (h8 (healthy_full e data top))
  have := C72_from_file ft (fun _ : Unit => .ok s) () s rfl ⟨by rw [h1, h3]; exact hd, by rw [h2]; exact Nat.zero_le _⟩
    (by rw [h1]; exact hl) h2 hc f
  rw [h1, h3] at this
  rw [← h4, ← this]
  rfl

theorem signatureSays_one {w : Bytes} {f g : FileFormat} (hf : SignatureSays w f) (hg : SignatureSays w g) : f = g := by
  by_cases hne : w = []
  · subst hne
    rw [(signatureSays_empty _).mp hf, (signatureSays_empty _).mp hg]
  cases h : fromSignature w with
  | none => rw [(signatureSays_none hne h _).mp hf, (signatureSays_none hne h _).mp hg]
  | some x => rw [(signatureSays_some h _).mp hf, (signatureSays_some h _).mp hg]

theorem xmlVerdict_ne {b : Bytes} (h : XmlVerdict b PlainText) : False := by
  rcases h with ⟨before, row, after, h1, h2, _⟩ | ⟨h, _⟩
  · have hm : row ∈ xmlMarkers := by rw [h1]; exact List.mem_append_right _ (List.mem_cons_self ..)
    exact absurd h2 ((by decide : ∀ r ∈ xmlMarkers, r.1 ≠ PlainText) row hm)
  · cases h

theorem bare_plainText {ft : Features} {w b : Bytes} {top : Nat} {rd : Reads} {g : Feature}
    (hg : g ∈ [Feature.pdf, .sqlite3, .xml]) (hs : SignatureSays w g.base) (h : VerdictOn ft w b top rd PlainText) :
    IsText (firstLines 16 (b.take 65536)) := by
  generalize hf : PlainText = f at h
  cases h with
  | signature hs' =>
    have := signatureSays_one hs hs'
    subst hf
    exact absurd this (by revert hg; cases g <;> decide)
  | reader he hs' h =>
    rename_i g'
    have hgg : g.base = g'.base := signatureSays_one hs hs'
    have hg' : g' = g := by revert hgg; revert hg; cases g <;> cases g' <;> decide
    subst hg'
    subst hf
    simp only [List.mem_cons, List.not_mem_nil, or_false] at hg
    rcases hg with rfl | rfl | rfl
    · generalize hf : PlainText = f at h
      cases h <;> cases hf
    · generalize hf : PlainText = f at h
      cases h <;> cases hf
    · exact (xmlVerdict_ne h.2).elim
  | text _ _ _ _ h => exact h.1
  | default => cases hf

/-- If one of the readers that call `read` only once per buffer takes part: the verdict on the undamaged medium, or the
generic reader is asked. -/
theorem damaged_bare (bad : Nat → Bool) (e : ErrKind) (ft : Features) (data : Bytes) (top : Nat)
    (hb : ∀ i, i < 36870 → bad i = false) (g : Feature) (hg : g ∈ [Feature.pdf, .sqlite3, .xml]) (he : g.enabled ft = true)
    (hs : SignatureSays data g.base) :
    (fromDevice (damaged bad e data top) Cfg.release ft 0).1 =
      (fromDevice (damaged (fun _ => false) e data top) Cfg.release ft 0).1 ∨
    ∃ st, fromDevice (damaged bad e data top) Cfg.release ft 0 = fromGenericReaderD (damaged bad e data top) ft st := by
  have hstate : ∀ bad : Nat → Bool, (∀ i, i < 36870 → bad i = false) →
      (damaged bad e data top).read 0 bufferSize = (.ok (data.take 36870), min 36870 data.length) := by
    intro bad hb
    have h1 := damaged_first (e := e) (data := data) (top := top) hb
    have h2 : ((damaged bad e data top).read 0 36870).2 = min 36870 data.length := by
      rw [damaged_read_good _ _ _ _ _ (Or.inr (Or.inr (hb 0 (by decide))))]
      show 0 + goodRun bad 0 (min 36870 (data.length - 0)) = _
      rw [goodRun_all (fun i hi => by rw [Nat.zero_add]; exact hb i (by omega))]
      omega
    exact Prod.ext h1 h2
  have hne : data ≠ [] := by
    rintro rfl
    exact base_ne_empty g ((signatureSays_empty _).mp hs)
  have hlen : (data.take 36870).length ≠ 0 := by
    rw [List.length_take]
    have : data.length ≠ 0 := fun h => hne (List.eq_nil_of_length_eq_zero h)
    omega
  have hsame : fromSignature (data.take 36870) = fromSignature data := fromSignature_take _ bufferSize (Nat.le_refl _)
  have hsig : fromSignature data = some g.base := by
    cases h : fromSignature data with
    | none =>
      have := (signatureSays_none hne h _).mp hs
      revert hg this; cases g <;> decide
    | some fmt => rw [(signatureSays_some h _).mp hs]
  have hstr : g ∈ Feature.structured := structured_of_ne g (by rintro rfl; revert hg; decide)
  have hreader : (∃ x, (execOnD (damaged bad e data top) (readerOf Cfg.release g).1 (readerOf Cfg.release g).2
        (min 36870 data.length)).1 = .error (.err x)) ∨
      (execOnD (damaged bad e data top) (readerOf Cfg.release g).1 (readerOf Cfg.release g).2 (min 36870 data.length)).1 =
      (execOnD (damaged (fun _ => false) e data top) (readerOf Cfg.release g).1 (readerOf Cfg.release g).2
        (min 36870 data.length)).1 := by
    simp only [List.mem_cons, List.not_mem_nil, or_false] at hg
    rcases hg with rfl | rfl | rfl
    · exact pdf_damaged bad e data top _
    · exact Or.inr (sqlite3_damaged bad e data top _ hb)
    · exact Or.inr (xml_damaged bad e data top _ hb)
  have hrun : ∀ bad : Nat → Bool, (∀ i, i < 36870 → bad i = false) →
      fromDevice (damaged bad e data top) Cfg.release ft 0 =
        match execOnD (damaged bad e data top) (readerOf Cfg.release g).1 (readerOf Cfg.release g).2 (min 36870 data.length) with
        | (.ok f, st) => (.ok f, st)
        | (.error (.err _), st) => fromGenericReaderD (damaged bad e data top) ft st
        | (.error f, st) => (.error f, st) := by
    intro bad hb
    unfold fromDevice
    rw [hstate bad hb]
    simp only
    rw [if_neg hlen, hsame, hsig]
    simp only [fromFmtReaderD]
    rw [fmtReader_base Cfg.release ft g hstr, if_pos he]
    generalize readerOf Cfg.release g = r
    obtain ⟨b, prog⟩ := r
    simp only
    generalize execOnD (damaged bad e data top) b prog (min 36870 data.length) = x
    obtain ⟨(z | _ | _) | f, st⟩ := x <;> rfl
  rw [hrun bad hb, hrun (fun _ => false) (fun _ _ => rfl)]
  generalize hx : execOnD (damaged bad e data top) (readerOf Cfg.release g).1 (readerOf Cfg.release g).2
    (min 36870 data.length) = x at hreader ⊢
  generalize hy : execOnD (damaged (fun _ => false) e data top) (readerOf Cfg.release g).1 (readerOf Cfg.release g).2
    (min 36870 data.length) = y at hreader ⊢
  obtain ⟨x, sx⟩ := x
  obtain ⟨y, sy⟩ := y
  rcases hreader with ⟨z, h⟩ | h
  · simp only at h; subst h
    exact Or.inr ⟨sx, rfl⟩
  · simp only at h; subst h
    rcases x with (z | _ | _) | f
    · exact Or.inr ⟨sx, rfl⟩
    · exact Or.inl rfl
    · exact Or.inl rfl
    · exact Or.inl rfl

/-- C84. If the first 36870 bytes can be read, there is a verdict, and for whatever the unreadable bytes may be it is the one
on the undamaged content, or arbitrary data, or plain text (only if the content is text). -/
theorem C84_right (bad : Nat → Bool) (e : ErrKind) (he : e ≠ .interrupted) (ft : Features) (data : Bytes) (top : Nat)
    (hl : IsSlice data) (hd : data.length ≤ top) (hb : ∀ i, i < 36870 → bad i = false) :
    ∃ f, (fromDevice (damaged bad e data top) Cfg.release ft 0).1 = .ok f ∧
      ∀ data', SameReadable bad data data' →
        Verdict ft data' top f ∨ f = ArbitraryBinaryData ∨
          (f = PlainText ∧ ft.txt = true ∧ IsText (firstLines 16 (data'.take 65536))) := by
  obtain ⟨f, hf0⟩ : ∃ f, (fromDevice (damaged bad e data top) Cfg.release ft 0).1 = .ok f := by
    rcases C82_failures (damaged_lawful bad e he data top) (damaged_serves bad e data top) ft 0 trivial hl hd
      (Nat.zero_le _) with ⟨e', h, _⟩ | ⟨w, r, f, _, h, _⟩
    · rw [damaged_first hb] at h; cases h
    · exact ⟨f, h⟩
  refine ⟨f, hf0, fun data' hd' => ?_⟩
  have hlen : data'.length = data.length := hd'.1
  rw [← C84_unreadable bad e data data' top hd'] at hf0
  have hl1 : data.length < 2 ^ 63 := hl
  have hl2 : IsSlice data' := by show data'.length < 2 ^ 63; omega
  by_cases hbare : ∃ g ∈ [Feature.pdf, .sqlite3, .xml], g.enabled ft = true ∧ SignatureSays data' g.base
  · obtain ⟨g, hg, hge, hs⟩ := hbare
    rcases damaged_bare bad e ft data' top hb g hg hge hs with h | ⟨st, h⟩
    · rw [hf0] at h
      exact Or.inl ((C84_healthy e he ft data' top hl2 (by omega) f).mp h.symm)
    · right
      have hgen := hf0
      rw [h] at hgen
      rcases fromGenericReaderD_spec (damaged_lawful bad e he data' top) ft st with hx | ⟨ht, hx⟩
      · rw [hx] at hgen; injection hgen with hgen
        exact Or.inl hgen.symm
      · rw [hx] at hgen; injection hgen with hpt
        rcases C82_failures (damaged_lawful bad e he data' top) (damaged_serves bad e data' top) ft 0 trivial hl2 (by omega)
          (Nat.zero_le _) with ⟨e', h', _⟩ | ⟨w, r, f', hw, h', hv⟩
        · rw [damaged_first hb] at h'; cases h'
        · rw [hf0] at h'; injection h' with h'; subst h'
          rw [damaged_first hb] at hw; injection hw with hw
          rcases hv with hv | hv | hv
          · right
            refine ⟨hpt.symm, ht, ?_⟩
            rw [← hpt, ← hw] at hv
            exact bare_plainText hg ((signatureSays_take _ _).mpr hs) hv
          · exact Or.inl hv
          · exact Or.inr hv
  obtain ⟨s, h1, h2, h3, h4, _, _, h5, _⟩ :=
    C82_schedule (damaged_lawful bad e he data' top) (damaged_serves bad e data' top) Cfg.release ft 0 trivial
  have hwf : s.WF := ⟨by rw [h1, h3, hlen]; exact hd, by rw [h2]; exact Nat.zero_le _⟩
  have hwf' : s.mended.WF := ⟨hwf.len, hwf.pos⟩
  have hl' : IsSlice s.data := by rw [h1]; exact hl2
  rw [damaged_first hb, ← h1] at h5
  rw [← h4] at hf0
  have hq := mended_noFail s
  have hw : (s.mended.read 36870).1 = .ok (s.mended.data.take 36870) := by
    rw [(first_window s.mended hq).1, C75_window s _ h5]
    rfl
  rcases C75_failures Cfg.release ft s hwf hl' with ⟨e', h, _⟩ | h | h | ⟨h, ht, hx⟩
  · rw [h5] at h; cases h
  · left
    rw [h] at hf0
    have := (C72_from_reader ft s.mended hwf' hl' hq.benign hw (Or.inr (fun g hg hge hs => hbare ⟨g, hg, hge, by
      rw [← h1]; exact hs⟩)) f).mp hf0
    rw [← h1, ← h3]
    exact this
  · rw [h] at hf0; injection hf0 with hf0
    exact Or.inr (Or.inl hf0.symm)
  · rw [h] at hf0; injection hf0 with hf0
    rw [h1] at hx
    exact Or.inr (Or.inr ⟨hf0.symm, ht, hx⟩)

/-- C84, in terms of `from_bytes`: a format other than the two answers of last resort is what `from_bytes` reports, whatever
the unreadable bytes may be. -/
theorem C84_as_from_bytes (bad : Nat → Bool) (e : ErrKind) (he : e ≠ .interrupted) (ft : Features) (data : Bytes)
    (hl : IsSlice data) (hb : ∀ i, i < 36870 → bad i = false) (f : FileFormat)
    (h : (fromDevice (damaged bad e data (2 ^ 64 - 1)) Cfg.release ft 0).1 = .ok f)
    (h1 : f ≠ ArbitraryBinaryData) (h2 : f ≠ PlainText) (data' : Bytes) (hs : SameReadable bad data data') :
    fromBytes Cfg.release ft data' = .ok f := by
  have hl' : data.length < 2 ^ 63 := hl
  obtain ⟨g, hg, hv⟩ := C84_right bad e he ft data (2 ^ 64 - 1) hl (by omega) hb
  rw [h] at hg; injection hg with hg; subst hg
  rcases hv data' hs with hv | hv | ⟨hv, _⟩
  · exact (C72_from_bytes ft data' (by show data'.length < 2 ^ 63; rw [hs.1]; exact hl') f).mpr hv
  · exact absurd hv h1
  · exact absurd hv h2

/-- C84. Damage that no call comes to does no harm: if the first 36870 bytes can be read and no reader takes part, the
verdict is the one on the undamaged content, whatever that is. -/
theorem C84_no_reader (bad : Nat → Bool) (e : ErrKind) (cfg : Cfg) (ft : Features) (data : Bytes) (top : Nat)
    (hl : IsSlice data) (hb : ∀ i, i < 36870 → bad i = false)
    (hf : ∀ g : Feature, g.enabled ft = true → ¬ SignatureSays data g.base) :
    (fromDevice (damaged bad e data top) cfg ft 0).1 = fromBytes cfg ft data := by
  have hl' : data.length < 2 ^ 63 := hl
  have hgen : ft.txt = true → ¬ SignatureSays data ArbitraryBinaryData := fun h => hf .txt h
  have hfirst := damaged_first (e := e) (data := data) (top := top) hb
  rw [fromBytes_ideal cfg ft data (by omega)]
  unfold fromDevice ideal
  generalize hr : (damaged bad e data top).read 0 bufferSize = r
  have hr' : r.1 = .ok (data.take 36870) := by rw [← hr]; exact hfirst
  obtain ⟨r, st⟩ := r
  simp only at hr'
  subst hr'
  simp only
  by_cases h0 : data = []
  · subst h0; rfl
  have hne : data.length ≠ 0 := fun h => h0 (List.eq_nil_of_length_eq_zero h)
  rw [if_neg hne, if_neg (by rw [List.length_take]; omega)]
  have hsame : fromSignature (data.take 36870) = fromSignature data := fromSignature_take _ bufferSize (Nat.le_refl _)
  have hsame' : fromSignature (data.take bufferSize) = fromSignature data := hsame
  rw [hsame, hsame']
  cases hsig : fromSignature data with
  | none =>
    have ht : ft.txt = false := by
      cases ht : ft.txt with
      | false => rfl
      | true => exact absurd ((signatureSays_none h0 hsig _).mpr rfl) (hgen ht)
    simp only [fromGenericReaderD, idealGeneric, ht, Bool.false_eq_true, if_false]
  | some fmt =>
    have hn : fmtReader cfg ft fmt = none := by
      rcases fmtReader_cases cfg ft fmt with h | ⟨g, _, he', rfl, _⟩
      · exact h
      · exact absurd ((signatureSays_some hsig _).mpr rfl) (hf g he')
    simp only [fromFmtReaderD, hn]

/-! ## Not vacuous -/

/-- A FLAC file behind an ID3v2 tag of 20 bytes. -/
def taggedFlac : Bytes := b!"ID3\x04\x00\x00\x00\x00\x00\x14" ++ List.replicate 20 0 ++ b!"fLaC\x00\x00\x00\x00\x00\x00\x00"

/-- The tag can not be read: the reader passes it over. -/
example : (fromDevice (damaged (fun i => 10 ≤ i && i < 30) (.other 5) taggedFlac 1000) Cfg.release Features.all 0).1 =
    .ok FreeLosslessAudioCodec := by decide +kernel
/-- The beginning of the FLAC data can not be read: arbitrary data. -/
example : (fromDevice (damaged (fun i => i == 31) (.other 5) taggedFlac 1000) Cfg.release Features.all 0).1 =
    .ok ArbitraryBinaryData := by decide +kernel
/-- The beginning of the file can not be read: the error of the first read. -/
example : (fromDevice (damaged (fun i => i == 0) (.other 5) taggedFlac 1000) Cfg.release Features.all 0).1 =
    .error (.err (.other 5)) := by decide +kernel
/-- The contents that the first medium may have. -/
example (x : Bytes) (hx : x.length = 20) : SameReadable (fun i => 10 ≤ i && i < 30) taggedFlac
    (b!"ID3\x04\x00\x00\x00\x00\x00\x14" ++ x ++ b!"fLaC\x00\x00\x00\x00\x00\x00\x00") := by
  constructor
  · rw [List.length_append, List.length_append, hx]; rfl
  · intro i hi
    unfold taggedFlac
    by_cases h : i < 10
    · rw [List.getElem?_append_left (by rw [List.length_append, hx]; exact (by omega : i < 10 + 20)),
        List.getElem?_append_left (by exact h), List.getElem?_append_left (by exact (by omega : i < 30)),
        List.getElem?_append_left (by exact h)]
    · have h30 : 30 ≤ i := by
        rcases Nat.lt_or_ge i 30 with h' | h'
        · simp [h'] at hi; omega
        · exact h'
      rw [List.getElem?_append_right (by rw [List.length_append, hx]; exact h30),
        List.getElem?_append_right (by exact h30), List.length_append, hx]
      rfl
/-- A video of any size, unreadable from 1 MiB on: there is a verdict, and it is right whatever follows, unless it is one of
the two answers of last resort. -/
example (data : Bytes) (hl : IsSlice data) :
    ∃ f, (fromDevice (damaged (fun i => 1048576 ≤ i) (.other 5) data (2 ^ 63 - 1)) Cfg.release { mp4 := true, ebml := true } 0).1
        = .ok f ∧
      ∀ data', SameReadable (fun i => 1048576 ≤ i) data data' →
        Verdict { mp4 := true, ebml := true } data' (2 ^ 63 - 1) f ∨ f = ArbitraryBinaryData ∨
          (f = PlainText ∧ false = true ∧ IsText (firstLines 16 (data'.take 65536))) := by
  have hl' : data.length < 2 ^ 63 := hl
  refine C84_right _ _ (by decide) { mp4 := true, ebml := true } data _ hl (by omega) (fun i hi => decide_eq_false (by omega))
/-- An image of any kind whose end is unreadable. -/
example (data : Bytes) (hl : IsSlice data) :
    (fromDevice (damaged (fun i => 40000 ≤ i) (.other 5) data 100000) Cfg.release Features.none 0).1 =
      fromBytes Cfg.release Features.none data :=
  C84_no_reader _ _ _ _ data _ hl (fun i hi => decide_eq_false (by omega)) (fun g he => absurd he (by cases g <;> decide))

end FF.Props
