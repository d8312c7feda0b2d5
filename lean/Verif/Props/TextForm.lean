import Verif.Spec.TextForm
import Verif.Props.Signature
import Verif.Props.Text
import Verif.Props.Window
/-!
# C55, C56, C57: blank content, line endings and byte order marks
-/

namespace FF.Props
open FF Spec FileFormat

/-! ## C56: line endings -/

theorem magicAt_zero (v b : Bytes) : MagicAt 0 v b ↔ v <+: b := by
  constructor
  · rintro ⟨pre, suf, rfl, hp⟩
    rw [List.eq_nil_of_length_eq_zero hp]
    exact ⟨suf, rfl⟩
  · rintro ⟨suf, rfl⟩
    exact ⟨[], suf, rfl, rfl⟩

/-- The beginning of a text, from the beginning of its converted form. -/
def unCrlf : Bytes → Option Bytes
  | [] => some []
  | x :: t =>
    if x = 13 then
      match t with
      | [] => some [10]
      | y :: t' => if y = 10 then (unCrlf t').map (10 :: ·) else none
    else if x = 10 then none else (unCrlf t).map (x :: ·)

theorem crlf_cons (x : UInt8) (b : Bytes) : crlf (x :: b) = (if x = 10 then [13, 10] else [x]) ++ crlf b := rfl

theorem crlf_prefix {v b : Bytes} (h : v <+: b) : crlf v <+: crlf b := by
  obtain ⟨t, rfl⟩ := h
  exact ⟨crlf t, by simp [crlf]⟩

theorem unCrlf_prefix {b : Bytes} (hb : LfOnly b) {v : Bytes} (h : v <+: crlf b) : ∃ u, unCrlf v = some u ∧ u <+: b := by
  induction b generalizing v with
  | nil =>
    have : v = [] := List.prefix_nil.mp h
    subst this
    exact ⟨[], rfl, List.nil_prefix⟩
  | cons x b ih =>
    have hb' : LfOnly b := fun hm => hb (List.mem_cons_of_mem _ hm)
    have hx : x ≠ 13 := fun hm => hb (hm ▸ List.mem_cons_self)
    cases v with
    | nil => exact ⟨[], rfl, List.nil_prefix⟩
    | cons y v =>
      rw [crlf_cons] at h
      by_cases h10 : x = 10
      · subst h10
        simp only [if_true, List.cons_append, List.nil_append, List.cons_prefix_cons] at h
        obtain ⟨rfl, h⟩ := h
        cases v with
        | nil => exact ⟨[10], rfl, by simp⟩
        | cons z v =>
          simp only [List.cons_prefix_cons] at h
          obtain ⟨rfl, h⟩ := h
          obtain ⟨u, hu, hp⟩ := ih hb' h
          exact ⟨10 :: u, by show (unCrlf v).map (10 :: ·) = _; rw [hu]; rfl, by simpa using hp⟩
      · simp only [if_neg h10, List.cons_append, List.nil_append, List.cons_prefix_cons] at h
        obtain ⟨rfl, h⟩ := h
        obtain ⟨u, hu, hp⟩ := ih hb' h
        exact ⟨y :: u, by unfold unCrlf; rw [if_neg hx, if_neg h10, hu]; rfl, by simpa using hp⟩

/-- Some magic value of the entry is a part of `v` at the beginning. -/
def startsIn (e : SigEntry) (v : Bytes) : Bool := e.alts.any fun alt =>
  match alt with
  | [q] => q.offset == 0 && q.value.isPrefixOf v
  | _ => false

theorem startsIn_magic {e : SigEntry} (he : e ∈ signatureTable) {v b : Bytes} (h : startsIn e v = true) (hp : v <+: b) :
    HasMagic e.format b := by
  unfold startsIn at h
  obtain ⟨alt, ha, hx⟩ := List.any_eq_true.mp h
  split at hx
  · rename_i q
    simp only [Bool.and_eq_true, beq_iff_eq, List.isPrefixOf_iff_prefix] at hx
    refine ⟨e, he, rfl, [q], ha, ?_⟩
    intro p hp'
    rw [List.mem_singleton.mp hp', hx.1, magicAt_zero]
    exact hx.2.trans hp
  · cases hx

/-- What the table has to offer for the values of text formats. -/
def lineCheck (e : SigEntry) : Bool := e.alts.all fun alt =>
  match alt with
  | [p] => p.offset == 0 && (p.value.contains 13 || startsIn e (crlf p.value)) &&
      (match unCrlf p.value with
       | some u => startsIn e u
       | none => true)
  | _ => alt.any fun p => p.offset == 0 && (b!"<!DOCTYPE abiword".isPrefixOf p.value ||
      b!"\xef\xbb\xbf<!DOCTYPE abiword".isPrefixOf p.value)

theorem table_lines : signatureTable.all (fun e => !(textFormats.contains e.format) || lineCheck e) = true := by
  decide +kernel

theorem table_line {e : SigEntry} (he : e ∈ signatureTable) (hf : e.format ∈ textFormats) : lineCheck e = true := by
  have := List.all_eq_true.mp table_lines e he
  simpa [List.contains_iff_mem, hf] using this

/-- The text, after a byte order mark if there is one, starts with the document type declaration of AbiWord. -/
def DoctypeFirst (b : Bytes) : Prop := AbiwordDoctype b ∨ bom ++ b!"<!DOCTYPE abiword" <+: b

theorem crlf_magic {b : Bytes} {f : FileFormat} (hf : f ∈ textFormats) (hl : LfOnly b) (hd : ¬ DoctypeFirst b)
    (h : HasMagic f b) : HasMagic f (crlf b) := by
  obtain ⟨e, he, rfl, alt, ha, hc⟩ := h
  have hx := List.all_eq_true.mp (table_line he hf) alt ha
  split at hx
  · rename_i p
    simp only [Bool.and_eq_true, beq_iff_eq, Bool.or_eq_true, List.contains_iff_mem] at hx
    have hp := hc p (by simp)
    rw [hx.1.1, magicAt_zero] at hp
    rcases hx.1.2 with h13 | h
    · exact (hl (hp.subset h13)).elim
    · exact startsIn_magic he h (crlf_prefix hp)
  · exfalso
    obtain ⟨p, hp, hq⟩ := List.any_eq_true.mp hx
    simp only [Bool.and_eq_true, beq_iff_eq, Bool.or_eq_true, List.isPrefixOf_iff_prefix] at hq
    have hm := hc p hp
    rw [hq.1, magicAt_zero] at hm
    rcases hq.2 with h | h
    · exact hd (Or.inl (h.trans hm))
    · exact hd (Or.inr (h.trans hm))

theorem crlf_magic' {b : Bytes} {f : FileFormat} (hf : f ∈ textFormats) (hl : LfOnly b) (hd : ¬ DoctypeFirst b)
    (h : HasMagic f (crlf b)) : HasMagic f b := by
  obtain ⟨e, he, rfl, alt, ha, hc⟩ := h
  have hx := List.all_eq_true.mp (table_line he hf) alt ha
  split at hx
  · rename_i p
    simp only [Bool.and_eq_true, beq_iff_eq] at hx
    have hp := hc p (by simp)
    rw [hx.1.1, magicAt_zero] at hp
    obtain ⟨u, hu, hub⟩ := unCrlf_prefix hl hp
    rw [hu] at hx
    exact startsIn_magic he hx.2 hub
  · exfalso
    obtain ⟨p, hp, hq⟩ := List.any_eq_true.mp hx
    simp only [Bool.and_eq_true, beq_iff_eq, Bool.or_eq_true, List.isPrefixOf_iff_prefix] at hq
    have hm := hc p hp
    rw [hq.1, magicAt_zero] at hm
    rcases hq.2 with h | h
    · obtain ⟨u, hu, hub⟩ := unCrlf_prefix hl (h.trans hm)
      cases hu
      exact hd (Or.inl hub)
    · obtain ⟨u, hu, hub⟩ := unCrlf_prefix hl (h.trans hm)
      cases hu
      exact hd (Or.inr hub)

theorem recognised_magic {b : Bytes} (hb : IsSlice b) {f : FileFormat} (hf : f ≠ FileFormat.Empty) (hf' : f ≠ ArbitraryBinaryData)
    (h : Recognised b f) : HasMagic f b := C04_sound _ b hb f h hf hf'

theorem textFormats_special {f : FileFormat} (h : f ∈ textFormats) : f ≠ FileFormat.Empty ∧ f ≠ ArbitraryBinaryData := by
  constructor <;> (rintro rfl; revert h; decide)

/-- C56. The English claim: converting the line endings of a text does not turn one text format into another, and does
not lose the format: what was recognised as a text format still is, unless a format listed before it takes over. -/
def C56_statement : Prop :=
  ∀ (b : Bytes) (f : FileFormat), IsSlice (crlf b) → f ∈ textFormats → LfOnly b → Recognised b f →
    ∃ g, Recognised (crlf b) g ∧ (g = f ∨ ListedBefore g f)

theorem crlf_length (b : Bytes) : b.length ≤ (crlf b).length := by
  induction b with
  | nil => exact Nat.le_refl _
  | cons x b ih =>
    rw [crlf_cons, List.length_append, List.length_cons]
    split <;> simp only [List.length_cons, List.length_nil] <;> omega

theorem isSlice_crlf {b : Bytes} (h : IsSlice (crlf b)) : IsSlice b := by
  have h' : (crlf b).length < 2 ^ 63 := h
  have := crlf_length b
  show b.length < 2 ^ 63
  omega

/-- C56. From LF to CRLF, the format is kept, but for AbiWord documents with a document type declaration. -/
theorem C56_to_crlf_partial (b : Bytes) (f : FileFormat) (hb : IsSlice (crlf b)) (hf : f ∈ textFormats) (hl : LfOnly b)
    (hd : ¬ DoctypeFirst b) (h : Recognised b f) :
    ∃ g, Recognised (crlf b) g ∧ (g = f ∨ ListedBefore g f) := by
  obtain ⟨h1, h2⟩ := textFormats_special hf
  obtain ⟨g, hg, _, ho⟩ := C05_complete Cfg.release (crlf b) hb f
    (crlf_magic hf hl hd (recognised_magic (isSlice_crlf hb) h1 h2 h))
  exact ⟨g, hg, ho⟩

/-- C56. The same from CRLF to LF. -/
theorem C56_to_lf_partial (b : Bytes) (f : FileFormat) (hb : IsSlice (crlf b)) (hf : f ∈ textFormats) (hl : LfOnly b)
    (hd : ¬ DoctypeFirst b) (h : Recognised (crlf b) f) :
    ∃ g, Recognised b g ∧ (g = f ∨ ListedBefore g f) := by
  obtain ⟨h1, h2⟩ := textFormats_special hf
  obtain ⟨g, hg, _, ho⟩ := C05_complete Cfg.release b (isSlice_crlf hb) f
    (crlf_magic' hf hl hd (recognised_magic hb h1 h2 h))
  exact ⟨g, hg, ho⟩

/-- C56. So if both forms are recognised as text formats, then as the same one. -/
theorem C56_same_partial (b : Bytes) (f g : FileFormat) (hb : IsSlice (crlf b)) (hf : f ∈ textFormats) (hg : g ∈ textFormats)
    (hl : LfOnly b) (hd : ¬ DoctypeFirst b) (h : Recognised b f) (h' : Recognised (crlf b) g) : f = g := by
  obtain ⟨g', h1, h2⟩ := C56_to_crlf_partial b f hb hf hl hd h
  obtain ⟨f', h3, h4⟩ := C56_to_lf_partial b g hb hg hl hd h'
  unfold Recognised at h h' h1 h3
  rw [h'] at h1
  rw [h] at h3
  cases h1
  cases h3
  rcases h2 with rfl | h2
  · rfl
  · rcases h4 with rfl | h4
    · rfl
    · exact ((C05_order_strict _ _ h2).1 h4).elim

theorem arbitrary_not_listed (f : FileFormat) : ¬ ListedBefore ArbitraryBinaryData f := by
  rintro ⟨l1, e, l2, e', l3, ht, hf, _⟩
  have he : e ∈ signatureTable := by rw [ht]; simp
  have := List.all_eq_true.mp table_special e he
  rw [hf] at this
  simp at this

/-- An AbiWord document as AbiWord writes it, but for the XML declaration. -/
def abiwordDocument : Bytes :=
  b!"<!DOCTYPE abiword PUBLIC \"-//ABISOURCE//DTD AWML 1.0 Strict//EN\" \"http://www.abisource.com/awml.dtd\">\n<abiword template=\"false\">\n</abiword>\n"

/-- C56 is false in general: the second part of the magic of AbiWord documents is expected 102 bytes behind the start of
the document, which the longer line ending moves. -/
theorem C56_fails : ¬ C56_statement := by
  intro h
  obtain ⟨g, hg, ho⟩ := h abiwordDocument Abiword (by decide +kernel) (by decide) (by unfold LfOnly; decide)
    (by unfold Recognised; decide +kernel)
  have : fromBytes Cfg.release Features.none (crlf abiwordDocument) = .ok ArbitraryBinaryData := by decide +kernel
  unfold Recognised at hg
  rw [this] at hg
  cases hg
  rcases ho with ho | ho
  · cases ho
  · exact arbitrary_not_listed _ ho

/-! ### Plain text -/

theorem isText_split {a b : Bytes} {x : UInt8} (hx : x.toNat < 128) (h : IsText (a ++ x :: b)) : IsText a ∧ IsText b := by
  obtain ⟨cs, hcs, hf⟩ := h
  obtain ⟨c1, c, c2, rfl, h1, h2, h3⟩ := utf8_split hx hcs.symm
  exact ⟨⟨c1, h1.symm, fun c' hc => hf c' (by simp [hc])⟩, ⟨c2, h3.symm, fun c' hc => hf c' (by simp [hc])⟩⟩

theorem crlf_append (a b : Bytes) : crlf (a ++ b) = crlf a ++ crlf b := by simp [crlf]

theorem crlf_id {a : Bytes} (h : 10 ∉ a) : crlf a = a := by
  induction a with
  | nil => rfl
  | cons x a ih =>
    rw [crlf_cons, if_neg (fun hx : x = 10 => h (hx ▸ List.mem_cons_self)), ih (fun hm => h (List.mem_cons_of_mem _ hm))]
    rfl

theorem isText_lf : IsText [10] := ⟨['\n'], by decide, by decide⟩
theorem isText_crlf_pair : IsText [13, 10] := ⟨['\r', '\n'], by decide, by decide⟩

theorem isText_crlf (b : Bytes) : IsText (crlf b) ↔ IsText b := by
  by_cases h : (10 : UInt8) ∈ b
  · obtain ⟨a, t, hb, ha⟩ := List.eq_append_cons_of_mem h
    have hlen : t.length < b.length := by rw [hb]; simp; omega
    have ih := isText_crlf t
    rw [hb, crlf_append, crlf_id ha, crlf_cons, if_pos rfl]
    constructor
    · intro hx
      obtain ⟨h1, h2⟩ := isText_split (x := 13) (by decide) hx
      obtain ⟨_, h3⟩ := isText_split (a := []) (x := 10) (by decide) h2
      exact isText_append h1 (isText_append isText_lf (ih.mp h3))
    · intro hx
      obtain ⟨h1, h2⟩ := isText_split (x := 10) (by decide) hx
      exact isText_append h1 (isText_append isText_crlf_pair (ih.mpr h2))
  · rw [crlf_id h]
termination_by b.length

theorem firstLines_crlf (n : Nat) (b : Bytes) : firstLines n (crlf b) = crlf (firstLines n b) := by
  induction b generalizing n with
  | nil => simp [crlf, firstLines_nil]
  | cons x t ih =>
    cases n with
    | zero => rw [firstLines, firstLines]; rfl
    | succ n =>
      rw [crlf_cons]
      by_cases hx : x = 10
      · subst hx
        rw [firstLines, if_pos rfl, if_pos rfl, crlf_cons, if_pos rfl, ← ih]
        show firstLines (n + 1) (13 :: 10 :: crlf t) = _
        rw [firstLines, if_neg (by decide), firstLines, if_pos rfl]
        rfl
      · rw [firstLines, if_neg hx, if_neg hx, crlf_cons, if_neg hx, ← ih]
        show firstLines (n + 1) (x :: crlf t) = _
        rw [firstLines, if_neg hx]
        rfl

theorem crlf_nonempty {b : Bytes} (h : b ≠ []) : crlf b ≠ [] := by
  have := crlf_length b
  intro hc
  rw [hc] at this
  exact h (List.eq_nil_of_length_eq_zero (by simpa using this))

/-- C56 for plain text: if both forms have no known magic, they are both plain text or both not, provided that the first
16 lines of the longer form end within the first 65536 bytes. -/
theorem C56_plain (cfg cfg' : Cfg) (ft ft' : Features) (b : Bytes) (hb : IsSlice (crlf b)) (ht : ft.txt = true) (ht' : ft'.txt = true)
    (hne : b ≠ []) (hr : Recognised b ArbitraryBinaryData) (hr' : Recognised (crlf b) ArbitraryBinaryData)
    (hl : (firstLines 16 (crlf b)).length ≤ 65536) : fromBytes cfg ft b = fromBytes cfg' ft' (crlf b) := by
  obtain ⟨a1, a2⟩ := C23_text_iff cfg ft b (isSlice_crlf hb) hne ht hr
  obtain ⟨b1, b2⟩ := C23_text_iff cfg' ft' (crlf b) hb (crlf_nonempty hne) ht' hr'
  rw [firstLines_take, List.take_of_length_le hl, firstLines_crlf, isText_crlf] at b1 b2
  rw [firstLines_crlf] at hl
  have := crlf_length (firstLines 16 b)
  rw [firstLines_take, List.take_of_length_le (by omega)] at a1 a2
  by_cases hx : IsText (firstLines 16 b)
  · rw [a1.mpr hx, b1.mpr hx]
  · rw [a2.mpr hx, b2.mpr hx]

-- Non-vacuity: a subtitle file, in both forms; plain text, in both forms.
example : LfOnly b!"1\n00:00:01,000 --> 00:00:02,000\nHello\n" ∧ SubripText ∈ textFormats ∧
    ¬ DoctypeFirst b!"1\n00:00:01,000 --> 00:00:02,000\nHello\n" ∧
    Recognised b!"1\n00:00:01,000 --> 00:00:02,000\nHello\n" SubripText ∧
    Recognised (crlf b!"1\n00:00:01,000 --> 00:00:02,000\nHello\n") SubripText ∧
    crlf b!"1\n00:" = b!"1\r\n00:" := by
  refine ⟨by unfold LfOnly; decide, by decide, ?_, by unfold Recognised; decide +kernel, by unfold Recognised; decide +kernel, rfl⟩
  unfold DoctypeFirst AbiwordDoctype
  decide
example : Recognised b!"one\ntwo\n" ArbitraryBinaryData ∧ Recognised (crlf b!"one\ntwo\n") ArbitraryBinaryData ∧
    (firstLines 16 (crlf b!"one\ntwo\n")).length ≤ 65536 ∧ fromBytes Cfg.release { txt := true } b!"one\ntwo\n" = .ok PlainText := by
  refine ⟨by unfold Recognised; decide +kernel, by unfold Recognised; decide +kernel, by decide, by decide +kernel⟩

/-! ## C57: byte order marks -/

/-- What the table has to offer for a byte order mark. -/
def bomCheck (e : SigEntry) : Bool := e.alts.all fun alt =>
  match alt with
  | [p] => p.offset == 0 && (bom.isPrefixOf p.value || startsIn e (bom ++ p.value)) &&
      (if bom.isPrefixOf p.value then startsIn e (p.value.drop 3) else p.value.head? != some 0xEF && !p.value.isEmpty)
  | _ => alt.any fun p => p.offset == 0 && (b!"<!DOCTYPE abiword".isPrefixOf p.value ||
      b!"\xef\xbb\xbf<!DOCTYPE abiword".isPrefixOf p.value)

theorem table_boms : signatureTable.all (fun e => !(bomFormats.contains e.format) || bomCheck e) = true := by
  decide +kernel

theorem table_bom {e : SigEntry} (he : e ∈ signatureTable) (hf : e.format ∈ bomFormats) : bomCheck e = true := by
  have := List.all_eq_true.mp table_boms e he
  simpa [List.contains_iff_mem, hf] using this

theorem bomFormats_special {f : FileFormat} (h : f ∈ bomFormats) : f ≠ FileFormat.Empty ∧ f ≠ ArbitraryBinaryData := by
  constructor <;> (rintro rfl; revert h; decide)

/-- C57. The English claim: a byte order mark in front of a text does not lose its format: what was recognised as a text
format of the list still is, unless a format listed before it takes over. -/
def C57_statement : Prop :=
  ∀ (b : Bytes) (f : FileFormat), IsSlice (bom ++ b) → f ∈ bomFormats → ¬ bom <+: b → Recognised b f →
    ∃ g, Recognised (bom ++ b) g ∧ (g = f ∨ ListedBefore g f)

theorem isSlice_bom {b : Bytes} (h : IsSlice (bom ++ b)) : IsSlice b := by
  have h' : (bom ++ b).length < 2 ^ 63 := h
  rw [List.length_append] at h'
  show b.length < 2 ^ 63
  omega

theorem bom_magic {b : Bytes} {f : FileFormat} (hf : f ∈ bomFormats) (hn : ¬ bom <+: b) (hd : ¬ AbiwordDoctype b)
    (h : HasMagic f b) : HasMagic f (bom ++ b) := by
  obtain ⟨e, he, rfl, alt, ha, hc⟩ := h
  have hx := List.all_eq_true.mp (table_bom he hf) alt ha
  split at hx
  · rename_i p
    simp only [Bool.and_eq_true, beq_iff_eq, Bool.or_eq_true, List.isPrefixOf_iff_prefix] at hx
    have hp := hc p (by simp)
    rw [hx.1.1, magicAt_zero] at hp
    rcases hx.1.2 with h | h
    · exact (hn (h.trans hp)).elim
    · exact startsIn_magic he h ((List.prefix_append_right_inj _).mpr hp)
  · exfalso
    obtain ⟨p, hp, hq⟩ := List.any_eq_true.mp hx
    simp only [Bool.and_eq_true, beq_iff_eq, Bool.or_eq_true, List.isPrefixOf_iff_prefix] at hq
    have hm := hc p hp
    rw [hq.1, magicAt_zero] at hm
    rcases hq.2 with h | h
    · exact hd (h.trans hm)
    · exact hn ((List.prefix_append bom b!"<!DOCTYPE abiword").trans (h.trans hm))

theorem bom_magic' {b : Bytes} {f : FileFormat} (hf : f ∈ bomFormats) (hn : ¬ bom <+: b) (hd : ¬ AbiwordDoctype b)
    (h : HasMagic f (bom ++ b)) : HasMagic f b := by
  obtain ⟨e, he, rfl, alt, ha, hc⟩ := h
  have hx := List.all_eq_true.mp (table_bom he hf) alt ha
  have hnone : ∀ v : Bytes, b!"<" <+: v → ¬ v <+: bom ++ b := by
    rintro v ⟨t, rfl⟩ ⟨u, hu⟩
    cases hu
  split at hx
  · rename_i p
    simp only [Bool.and_eq_true, beq_iff_eq] at hx
    have hp := hc p (by simp)
    rw [hx.1.1, magicAt_zero] at hp
    by_cases hbp : bom <+: p.value
    · rw [if_pos (List.isPrefixOf_iff_prefix.mpr hbp)] at hx
      obtain ⟨t, ht⟩ := hbp
      rw [← ht] at hp
      refine startsIn_magic he hx.2 ?_
      rw [← ht]
      exact (List.prefix_append_right_inj bom).mp hp
    · exfalso
      rw [if_neg (fun hc => hbp (List.isPrefixOf_iff_prefix.mp hc))] at hx
      cases hv : p.value with
      | nil => rw [hv] at hx; simp at hx
      | cons y t =>
        rw [hv] at hx hp
        obtain ⟨u, hu⟩ := hp
        have : y = 0xEF := (List.cons.inj hu).1
        subst this
        simp at hx
  · exfalso
    obtain ⟨p, hp, hq⟩ := List.any_eq_true.mp hx
    simp only [Bool.and_eq_true, beq_iff_eq, Bool.or_eq_true, List.isPrefixOf_iff_prefix] at hq
    have hm := hc p hp
    rw [hq.1, magicAt_zero] at hm
    rcases hq.2 with h | h
    · exact hnone _ ((List.prefix_append b!"<" b!"!DOCTYPE abiword").trans h) hm
    · exact hd ((List.prefix_append_right_inj bom).mp (h.trans hm))

/-- C57. It holds but for AbiWord documents with a document type declaration. -/
theorem C57_add_partial (b : Bytes) (f : FileFormat) (hb : IsSlice (bom ++ b)) (hf : f ∈ bomFormats) (hn : ¬ bom <+: b)
    (hd : ¬ AbiwordDoctype b) (h : Recognised b f) : ∃ g, Recognised (bom ++ b) g ∧ (g = f ∨ ListedBefore g f) := by
  obtain ⟨h1, h2⟩ := bomFormats_special hf
  obtain ⟨g, hg, _, ho⟩ := C05_complete Cfg.release (bom ++ b) hb f
    (bom_magic hf hn hd (recognised_magic (isSlice_bom hb) h1 h2 h))
  exact ⟨g, hg, ho⟩

/-- C57. Likewise when a byte order mark is removed. -/
theorem C57_remove_partial (b : Bytes) (f : FileFormat) (hb : IsSlice (bom ++ b)) (hf : f ∈ bomFormats) (hn : ¬ bom <+: b)
    (hd : ¬ AbiwordDoctype b) (h : Recognised (bom ++ b) f) : ∃ g, Recognised b g ∧ (g = f ∨ ListedBefore g f) := by
  obtain ⟨h1, h2⟩ := bomFormats_special hf
  obtain ⟨g, hg, _, ho⟩ := C05_complete Cfg.release b (isSlice_bom hb) f
    (bom_magic' hf hn hd (recognised_magic hb h1 h2 h))
  exact ⟨g, hg, ho⟩

/-- C57. So if the text is recognised as one of these formats with and without the mark, then as the same one. -/
theorem C57_same_partial (b : Bytes) (f g : FileFormat) (hb : IsSlice (bom ++ b)) (hf : f ∈ bomFormats) (hg : g ∈ bomFormats)
    (hn : ¬ bom <+: b) (hd : ¬ AbiwordDoctype b) (h : Recognised b f) (h' : Recognised (bom ++ b) g) : f = g := by
  obtain ⟨g', h1, h2⟩ := C57_add_partial b f hb hf hn hd h
  obtain ⟨f', h3, h4⟩ := C57_remove_partial b g hb hg hn hd h'
  unfold Recognised at h h' h1 h3
  rw [h'] at h1
  rw [h] at h3
  cases h1
  cases h3
  rcases h2 with rfl | h2
  · rfl
  · rcases h4 with rfl | h4
    · rfl
    · exact ((C05_order_strict _ _ h2).1 h4).elim

/-- C57 is false in general: with a byte order mark, the second part of the magic of AbiWord documents is still expected at
byte 102, where it is without. -/
theorem C57_fails : ¬ C57_statement := by
  intro h
  obtain ⟨g, hg, ho⟩ := h abiwordDocument Abiword (by decide +kernel) (by decide) (by decide)
    (by unfold Recognised; decide +kernel)
  have : fromBytes Cfg.release Features.none (bom ++ abiwordDocument) = .ok ArbitraryBinaryData := by decide +kernel
  unfold Recognised at hg
  rw [this] at hg
  cases hg
  rcases ho with ho | ho
  · cases ho
  · exact arbitrary_not_listed _ ho

/-- No marker fits into the XML declaration. -/
theorem markers_apart : xmlMarkers.all (fun row => row.2.all fun ms => ms.all fun m => [2, 3, 4].all fun k =>
    [0, 1, 2, 3].any fun i => decide (i + k < 6) && decide (i < m.length) && m[i]? != b!"<?xml "[k + i]?) = true := by
  decide

theorem occurs_bom {b : Bytes} (hb : b.length ≤ 8194) (hx : b!"<?xml " <+: b) {row} (hrow : row ∈ xmlMarkers) {ms}
    (hms : ms ∈ row.2) {m : Bytes} (hm : m ∈ ms) : OccursWithin m 5 8197 (bom ++ b) ↔ OccursWithin m 5 8197 b := by
  have h3 : bom.length = 3 := rfl
  constructor
  · rintro ⟨pre, suf, h, hlo, hhi⟩
    obtain ⟨pre', rfl⟩ : ∃ pre', pre = bom ++ pre' := by
      refine ⟨pre.drop 3, ?_⟩
      have h1 := congrArg (List.take 3) h
      rw [List.append_assoc, List.take_append_of_le_length (by omega), List.take_append_of_le_length (by omega)] at h1
      have h2 := List.take_append_drop 3 pre
      rw [← h1] at h2
      exact h2.symm
    rw [List.append_assoc, List.append_assoc, List.append_cancel_left_eq] at h
    rw [List.length_append] at hlo hhi
    by_cases hl : 5 ≤ pre'.length
    · exact ⟨pre', suf, by rw [h, List.append_assoc], hl, by omega⟩
    · exfalso
      have hk : pre'.length ∈ [2, 3, 4] := by simp only [List.mem_cons, List.not_mem_nil, or_false]; omega
      have hc := List.all_eq_true.mp (List.all_eq_true.mp (List.all_eq_true.mp (List.all_eq_true.mp markers_apart row hrow)
        ms hms) m hm) _ hk
      obtain ⟨i, _, hi⟩ := List.any_eq_true.mp hc
      simp only [Bool.and_eq_true, decide_eq_true_eq, bne_iff_ne] at hi
      obtain ⟨t, ht⟩ := hx
      have e1 : b[pre'.length + i]? = m[i]? := by
        rw [h, List.getElem?_append_right (by omega), Nat.add_sub_cancel_left, List.getElem?_append_left hi.1.2]
      have e2 : b[pre'.length + i]? = b!"<?xml "[pre'.length + i]? := by
        rw [← ht, List.getElem?_append_left (by show _ < 6; omega)]
      exact hi.2 (e1.symm.trans e2)
  · rintro ⟨pre, suf, h, hlo, hhi⟩
    refine ⟨bom ++ pre, suf, by rw [h]; simp only [List.append_assoc], by rw [List.length_append]; omega, ?_⟩
    have := congrArg List.length h
    simp only [List.length_append] at this ⊢
    omega

/-- C57 for the XML reader: with `reader-xml`, an XML document (with an XML declaration) of at most 8194 bytes is reported as
the same format with and without a byte order mark. -/
theorem C57_xml (cfg cfg' : Cfg) (ft ft' : Features) (b : Bytes) (hb : b.length ≤ 8194) (hx : b!"<?xml " <+: b)
    (he : ft.xml = true) (he' : ft'.xml = true) (hr : Recognised b ExtensibleMarkupLanguage)
    (hr' : Recognised (bom ++ b) ExtensibleMarkupLanguage) : fromBytes cfg ft b = fromBytes cfg' ft' (bom ++ b) := by
  have hs : IsSlice b := by show b.length < 2 ^ 63; omega
  have hs' : IsSlice (bom ++ b) := by show (bom ++ b).length < 2 ^ 63; rw [List.length_append]; show 3 + _ < _; omega
  obtain ⟨f, h1, _⟩ := xml_run b (2 ^ 64 - 1) (by decide) 0
  have h3 := recognised_verdict cfg ft b hs .xml (by decide) he hr f h1
  rw [h3]
  refine Eq.symm ((C22_xml cfg' ft' _ hs' he' hr' f).mpr ?_)
  have h4 := (C22_xml cfg ft b hs he hr f).mp h3
  have hsh : ∀ r ∈ xmlMarkers, (ShowsXml (bom ++ b) r ↔ ShowsXml b r) := fun r hrow =>
    ⟨fun ⟨c, hc, hm⟩ => ⟨c, hc, fun m hmem => (occurs_bom hb hx hrow hc hmem).mp (hm m hmem)⟩,
      fun ⟨c, hc, hm⟩ => ⟨c, hc, fun m hmem => (occurs_bom hb hx hrow hc hmem).mpr (hm m hmem)⟩⟩
  unfold XmlVerdict at h4 ⊢
  rcases h4 with ⟨l1, row, l2, hl, hf, hs, hn⟩ | ⟨hf, hn⟩
  · exact Or.inl ⟨l1, row, l2, hl, hf, (hsh row (by rw [hl]; simp)).mpr hs,
      fun r hr hc => hn r hr ((hsh r (by rw [hl]; simp [hr])).mp hc)⟩
  · exact Or.inr ⟨hf, fun r hr hc => hn r hr ((hsh r hr).mp hc)⟩

-- Non-vacuity.
example : Recognised b!"<?xml version=\"1.0\"?>\n<svg/>" ExtensibleMarkupLanguage ∧
    Recognised (bom ++ b!"<?xml version=\"1.0\"?>\n<svg/>") ExtensibleMarkupLanguage ∧
    fromBytes Cfg.release { xml := true } (bom ++ b!"<?xml version=\"1.0\"?>\n<svg/>") = .ok ScalableVectorGraphics ∧
    Recognised b!"<svg/>" ScalableVectorGraphics ∧ Recognised (bom ++ b!"<svg/>") ScalableVectorGraphics ∧
    ScalableVectorGraphics ∈ bomFormats ∧ ¬ bom <+: b!"<svg/>" ∧ ¬ AbiwordDoctype b!"<svg/>" := by
  refine ⟨by unfold Recognised; decide +kernel, by unfold Recognised; decide +kernel, by decide +kernel,
    by unfold Recognised; decide +kernel, by unfold Recognised; decide +kernel, by decide, by decide, ?_⟩
  unfold AbiwordDoctype
  decide
example : Recognised b!"text" ArbitraryBinaryData ∧ Recognised (bom ++ b!"text") ArbitraryBinaryData ∧
    (firstLines 16 b!"text").length ≤ 65533 ∧ fromBytes Cfg.release { txt := true } (bom ++ b!"text") = .ok PlainText := by
  refine ⟨by unfold Recognised; decide +kernel, by unfold Recognised; decide +kernel, by decide, by decide +kernel⟩

/-- C57 for plain text: if the text has no known magic with and without the mark, it is plain text with it if and only if
without, provided that its first 16 lines end within the first 65533 bytes. -/
theorem C57_plain (cfg cfg' : Cfg) (ft ft' : Features) (b : Bytes) (hb : IsSlice (bom ++ b)) (ht : ft.txt = true)
    (ht' : ft'.txt = true) (hne : b ≠ []) (hr : Recognised b ArbitraryBinaryData)
    (hr' : Recognised (bom ++ b) ArbitraryBinaryData) (hl : (firstLines 16 b).length ≤ 65533) :
    fromBytes cfg ft b = fromBytes cfg' ft' (bom ++ b) := by
  have hf : firstLines 16 (bom ++ b) = bom ++ firstLines 16 b := by
    show firstLines 16 (0xEF :: 0xBB :: 0xBF :: b) = 0xEF :: 0xBB :: 0xBF :: firstLines 16 b
    rw [firstLines, if_neg (by decide), firstLines, if_neg (by decide), firstLines, if_neg (by decide)]
  have hbt : IsText bom := ⟨['\uFEFF'], by decide, by decide⟩
  have hi : IsText (bom ++ firstLines 16 b) ↔ IsText (firstLines 16 b) := by
    constructor
    · rintro ⟨cs, hcs, hf⟩
      have : bom = utf8 ['\uFEFF'] := by decide
      rw [this] at hcs
      obtain ⟨cs2, rfl, h2⟩ := utf8_prefix hcs.symm
      exact ⟨cs2, h2, fun c hc => hf c (by simp [hc])⟩
    · exact isText_append hbt
  obtain ⟨a1, a2⟩ := C23_text_iff cfg ft b (isSlice_bom hb) hne ht hr
  obtain ⟨b1, b2⟩ := C23_text_iff cfg' ft' (bom ++ b) hb (by simp [bom]) ht' hr'
  rw [firstLines_take, List.take_of_length_le (by omega)] at a1 a2
  rw [firstLines_take, List.take_of_length_le (by rw [hf, List.length_append]; show 3 + _ ≤ _; omega), hf, hi] at b1 b2
  by_cases hx : IsText (firstLines 16 b)
  · rw [a1.mpr hx, b1.mpr hx]
  · rw [a2.mpr hx, b2.mpr hx]

end FF.Props
