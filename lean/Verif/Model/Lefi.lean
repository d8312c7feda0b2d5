import Verif.Model.Detect
/-!
# The example program (`examples/lefi.rs`)

Not modelled: a failing standard output (`println!` panics), and how `main` reports an `Err` on standard
error.
-/

namespace FF
open FileFormat

/-- A command-line argument as the system passes it: valid Unicode, or not (then `env::args` panics when
it reaches it) (`examples/lefi.rs` 18, 24). -/
inductive OsArg where
  | unicode (chars : List Char)
  | invalid
  deriving DecidableEq, Repr

/-- What the program finds out about one argument: the answers of `Path::is_symlink`, `Path::is_dir` and
`File::open` at the time of the calls. Nothing relates the three: the file system may change between them
(`examples/lefi.rs` 27-32). -/
structure Seen where
  isSymlink : Bool
  isDir : Bool
  opened : Except ErrKind Src

/-- What the program finds out about the `i`-th argument (`examples/lefi.rs` 24-32). -/
abbrev World := Nat → List Char → Seen

/-- Everything that iterating over `env::args()` to the end gives: a panic if any argument (the program
name included, which `skip(1)` decodes before dropping it) is not valid Unicode (`examples/lefi.rs` 18, 24). -/
def decodeArgs : List OsArg → Option (List (List Char))
  | [] => some []
  | .unicode c :: t => (decodeArgs t).map (c :: ·)
  | .invalid :: _ => none

/-- `Iterator::max_by_key(|&count| count)` (`examples/lefi.rs` 21): the last of the largest elements. -/
def maxByKey : List Nat → Option Nat
  | [] => none
  | a :: t => some (t.foldl (fun m x => if x < m then m else x) a)

/-- `width` (`examples/lefi.rs` 18-23). -/
def lefiWidth (args : List (List Char)) : Nat := (maxByKey (args.map List.length)).getD 0 + 1

/-- `{input:width$}` (`Formatter::pad` for a `str`: characters are counted, the fill is a space, strings
are left-aligned). `limit` is the largest width that the formatting machinery takes: `none` up to Rust
1.86, `some 65535` later, where larger widths panic (`examples/lefi.rs` 28-38). -/
def padTo (limit : Option Nat) (width : Nat) (input : List Char) : Except Fail (List Char) :=
  if limit.any (· < width) then .error .panic
  else .ok (if width ≤ input.length then input else input ++ List.replicate (width - input.length) ' ')

/-- One iteration of the loop (`examples/lefi.rs` 25-40): the text printed, or the way it ends the
program. -/
def lefiStep (cfg : Cfg) (ft : Features) (limit : Option Nat) (width : Nat) (arg : List Char) (s : Seen) :
    Except Fail (List Char) :=
  let input := arg ++ [':']
  if s.isSymlink then do
    let p ← padTo limit width input
    pure (p ++ " Symbolic Link\n".toList)
  else if s.isDir then do
    let p ← padTo limit width input
    pure (p ++ " Directory\n".toList)
  else do
    let fmt ← fromFile cfg ft (fun _ => s.opened) ()
    match fmt.shortName with
    | some short => do
      let p ← padTo limit width input
      pure (p ++ " ".toList ++ fmt.name.toList ++ " (".toList ++ short.toList ++ ")\n".toList)
    | none => do
      let p ← padTo limit width input
      pure (p ++ " ".toList ++ fmt.name.toList ++ "\n".toList)

/-- The loop (`examples/lefi.rs` 24-41) from argument `i` on: how it ends and what it has printed. -/
def lefiLoop (cfg : Cfg) (ft : Features) (limit : Option Nat) (width : Nat) (w : World) :
    Nat → List (List Char) → Except Fail Unit × List Char
  | _, [] => (.ok (), [])
  | i, arg :: t =>
    match lefiStep cfg ft limit width arg (w i arg) with
    | .error e => (.error e, [])
    | .ok out => ((lefiLoop cfg ft limit width w (i + 1) t).1, out ++ (lefiLoop cfg ft limit width w (i + 1) t).2)

/-- `main` (`examples/lefi.rs` 17-43) for the arguments `argv`, program name first. -/
def lefi (cfg : Cfg) (ft : Features) (limit : Option Nat) (w : World) (argv : List OsArg) :
    Except Fail Unit × List Char :=
  match decodeArgs argv with
  | none => (.error .panic, [])
  | some args => lefiLoop cfg ft limit (lefiWidth (args.drop 1)) w 0 (args.drop 1)

end FF
