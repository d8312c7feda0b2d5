import Verif.Model.Detect
import Verif.Spec.Display
/-!
# C71: width and precision in format strings
-/

namespace FF.Props
open FF FileFormat Spec

/-- C71 as users of `format!` expect it: a format with a width, an alignment or a precision is shown as its name would be. -/
def C71_statement : Prop := ∀ (f : FileFormat) (o : FmtOptions) (out : List Char), f.formatted o = some out → Padded o f.name.toList out

/-! ## `Formatter::pad` does what the documentation says -/

theorem writeFill_string (c : Char) (n : Nat) (s : List Char) :
    writeFill stringSink c n s = some (s ++ List.replicate n c) := by
  induction n generalizing s with
  | zero => simp [writeFill]
  | succ n ih =>
    simp only [writeFill, stringSink, Option.bind_some]
    have := ih (s ++ [c])
    simp only [stringSink] at this
    rw [this, List.append_assoc, List.replicate_succ]
    rfl

theorem padShown_string (o : FmtOptions) (text shown : List Char)
    (hs : match o.precision with | some p => shown = text.take p | none => shown = text) :
    ∃ out, padShown stringSink o shown [] = some out ∧ Padded o text out := by
  obtain ⟨fill, align, width, precision⟩ := o
  unfold padShown
  cases width with
  | none =>
    refine ⟨shown, by simp [stringSink], shown, 0, 0, hs, by simp, rfl, ?_⟩
    cases align with
    | none => rfl
    | some a => cases a <;> rfl
  | some w =>
    simp only
    by_cases hw : w ≤ shown.length
    · refine ⟨shown, by rw [if_pos hw]; simp [stringSink], shown, 0, 0, hs, by simp, by simp only; omega, ?_⟩
      cases align with
      | none => rfl
      | some a => cases a <;> rfl
    · rw [if_neg hw]
      refine ⟨_, by rw [writeFill_string]; simp only [Option.bind_some, stringSink, List.nil_append]; exact writeFill_string _ _ _,
        shown, _, _, hs, rfl, ?_, ?_⟩
      · simp only
        cases align with
        | none => exact Nat.zero_add _
        | some a =>
          cases a with
          | left => exact Nat.zero_add _
          | right => exact Nat.add_sub_cancel' (Nat.le_refl _)
          | center => exact Nat.add_sub_cancel' (Nat.div_le_self _ _)
      · cases align with
        | none => rfl
        | some a =>
          cases a with
          | left => rfl
          | right => exact Nat.sub_self _
          | center =>
            exact congrArg (· / 2) (Nat.add_sub_cancel' (Nat.div_le_self (w - shown.length) 2)).symm

/-- The model of `Formatter::pad` meets the specification, for every text and all options. -/
theorem C71_pad (o : FmtOptions) (text : List Char) :
    ∃ out, pad stringSink o text [] = some out ∧ Padded o text out := by
  unfold pad
  by_cases h : o.width = none ∧ o.precision = none
  · rw [if_pos h]
    obtain ⟨fill, align, width, precision⟩ := o
    simp only at h
    obtain ⟨rfl, rfl⟩ := h
    refine ⟨text, by simp [stringSink], text, 0, 0, rfl, by simp, rfl, ?_⟩
    cases align with
    | none => rfl
    | some a => cases a <;> rfl
  · rw [if_neg h]
    apply padShown_string
    cases o.precision <;> rfl

/-! ## The formats -/

/-- C71, what the code does: whatever the options, the name is written as it is, in one call; if the writer fails, so
does formatting. -/
theorem C71_plain_partial {σ : Type} (f : FileFormat) (k : Sink σ) (o : FmtOptions) (s : σ) :
    f.fmt k o s = k.write s f.name.toList := by
  unfold FileFormat.fmt writePlain pad
  rw [if_pos ⟨rfl, rfl⟩]

/-- C71 does not hold: `write!(formatter, "{}", ...)` drops the options of the formatter. With a width of ten, ZIP is not
padded. -/
theorem C71_fails : ¬ C71_statement := by
  intro h
  have h1 : Zip.formatted { width := some 10 } = some Zip.name.toList := C71_plain_partial _ _ _ _
  obtain ⟨shown, before, behind, hs, ho, hn, ha⟩ := h Zip { width := some 10 } _ h1
  simp only at hs ha hn
  subst hs ha
  have hl := congrArg List.length ho
  simp only [List.length_append, List.length_replicate] at hl
  have h3 : Zip.name.toList.length = 3 := by decide +kernel
  omega

/-- C71, the part that holds: names are shown as the options say if they are not shorter than the width and not longer
than the precision, in particular without options (`to_string`). -/
theorem C71_fits_partial (f : FileFormat) (o : FmtOptions) (hw : ∀ w, o.width = some w → w ≤ f.name.toList.length)
    (hp : ∀ p, o.precision = some p → f.name.toList.length ≤ p) :
    ∃ out, f.formatted o = some out ∧ out = f.name.toList ∧ Padded o f.name.toList out := by
  refine ⟨_, C71_plain_partial _ _ _ _, rfl, f.name.toList, 0, 0, ?_, by simp [stringSink], ?_, ?_⟩
  · cases hx : o.precision with
    | none => rfl
    | some p => exact (List.take_of_length_le (hp p hx)).symm
  · cases hx : o.width with
    | none => rfl
    | some w => have := hw w hx; simp only; omega
  · cases hx : o.align with
    | none => rfl
    | some a => cases a <;> rfl

/-- C71, and never otherwise, if there is a width beyond the length of the name: then every proper rendering has more
characters than the name. -/
theorem C71_width_ignored_partial (f : FileFormat) (o : FmtOptions) (w : Nat) (hw : o.width = some w)
    (h : f.name.toList.length < w) (out : List Char) (ho : f.formatted o = some out) : ¬ Padded o f.name.toList out := by
  have h1 : f.formatted o = some f.name.toList := C71_plain_partial _ _ _ _
  rw [h1] at ho
  injection ho with ho
  subst ho
  rintro ⟨shown, before, behind, hs, he, hn, -⟩
  rw [hw] at hn
  simp only at hn
  have hl := congrArg List.length he
  simp only [List.length_append, List.length_replicate] at hl
  omega

-- Not vacuous.
example : Zip.formatted { width := some 2 } = some "ZIP".toList := by decide +kernel
example : pad stringSink { width := some 8, align := some .center, fill := '*', precision := some 3 } "ZIP archive".toList [] =
    some "**ZIP***".toList := by decide +kernel

end FF.Props
