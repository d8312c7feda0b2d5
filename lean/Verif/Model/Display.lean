import Verif.Model.Format
/-!
# Formatting with options

`impl Display for FileFormat` (`src/lib.rs` 318-323) and the part of `core::fmt` that it uses. Strings are lists of
characters. Not modelled: the options that formatting of strings ignores (`+`, `#`, `0`, debug hexadecimal).
-/

namespace FF

/-- `fmt::Alignment` (std, for `src/lib.rs` 318-323). -/
inductive Align where
  | left | right | center
  deriving DecidableEq, Repr

/-- The options of a placeholder, `{:fill align width . precision}` (`fmt::FormattingOptions`)
(std, for `src/lib.rs` 318-323). -/
structure FmtOptions where
  fill : Char := ' '
  align : Option Align := none
  width : Option Nat := none
  precision : Option Nat := none
  deriving DecidableEq, Repr

/-- An implementation of `fmt::Write`: `write_str`, which fails (`none`) or leaves the writer in a new state
(std, for `src/lib.rs` 318-323). -/
structure Sink (σ : Type) where
  write : σ → List Char → Option σ

/-- `fill` written `n` times, one character at a time (`PostPadding::write`, and the loop of `Formatter::padding`)
(std, for `src/lib.rs` 318-323). -/
def writeFill {σ : Type} (k : Sink σ) (fill : Char) : Nat → σ → Option σ
  | 0, s => some s
  | n + 1, s => (k.write s [fill]).bind (writeFill k fill n)

/-- How many of the `padding` fill characters come before the text (`Formatter::padding`); text is left-aligned by
default (std, for `src/lib.rs` 318-323). -/
def padBefore (align : Option Align) (padding : Nat) : Nat :=
  match align.getD .left with
  | .left => 0
  | .right => padding
  | .center => padding / 2

/-- The second half of `Formatter::pad`: the text, already cut off, padded to the width
(std, for `src/lib.rs` 318-323). -/
def padShown {σ : Type} (k : Sink σ) (o : FmtOptions) (text : List Char) (s : σ) : Option σ :=
  match o.width with
  | none => k.write s text
  | some w =>
    if w ≤ text.length then k.write s text
    else
      let padding := w - text.length
      let before := padBefore o.align padding
      (writeFill k o.fill before s).bind fun s => (k.write s text).bind (writeFill k o.fill (padding - before))

/-- `Formatter::pad` (`core::fmt`), which is `Display for str`: cut off at the precision, then padded to the width,
on the right unless otherwise requested (std, for `src/lib.rs` 318-323). -/
def pad {σ : Type} (k : Sink σ) (o : FmtOptions) (text : List Char) (s : σ) : Option σ :=
  if o.width = none ∧ o.precision = none then k.write s text
  else
    padShown k o (match o.precision with
      | some p => text.take p
      | none => text) s

/-- `write!(formatter, "{}", text)`: the placeholder has options of its own, the default ones; those of the formatter
that is written to play no part (`Formatter::write_fmt` hands its writer to `fmt::write`)
(std, for `src/lib.rs` 318-323). -/
def writePlain {σ : Type} (k : Sink σ) (_o : FmtOptions) (text : List Char) (s : σ) : Option σ :=
  pad k {} text s

/-- `impl Display for FileFormat` (`src/lib.rs` 318-323) for a formatter with these options. -/
def FileFormat.fmt {σ : Type} (f : FileFormat) (k : Sink σ) (o : FmtOptions) (s : σ) : Option σ :=
  writePlain k o f.name.toList s

/-- The writer of `format!`: a `String`, which never fails (std, for `src/lib.rs` 318-323). -/
def stringSink : Sink (List Char) := ⟨fun s t => some (s ++ t)⟩

/-- `format!("{:...}", f)` (std, for `src/lib.rs` 318-323). -/
def FileFormat.formatted (f : FileFormat) (o : FmtOptions) : Option (List Char) := f.fmt stringSink o []

end FF
