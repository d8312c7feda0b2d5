import Verif.Model.Lefi
import Verif.Spec.Meta
/-!
# Specification: the output of the example program
-/

namespace FF.Spec

/-- `n` is the length of the longest argument (0 if there are none). -/
def IsLongest (args : List (List Char)) (n : Nat) : Prop :=
  (∀ a ∈ args, a.length ≤ n) ∧ (n = 0 ∨ ∃ a ∈ args, a.length = n)

/-- What is said about an argument. -/
inductive Describes (cfg : Cfg) (ft : Features) (s : Seen) : String → Prop where
  | symlink (h : s.isSymlink = true) : Describes cfg ft s "Symbolic Link"
  | directory (h : s.isSymlink = false) (hd : s.isDir = true) : Describes cfg ft s "Directory"
  | file (h : s.isSymlink = false) (hd : s.isDir = false) (f : FileFormat)
      (hf : fromFile cfg ft (fun _ => s.opened) () = .ok f) : Describes cfg ft s (readmeEntry f.name f.shortName)

/-- The line for an argument: the argument, a colon, spaces up to column `width`, a space, `text`. -/
def IsLine (width : Nat) (arg : List Char) (text : String) (line : List Char) : Prop :=
  ∃ pad, line = arg ++ ':' :: List.replicate pad ' ' ++ ' ' :: text.toList ++ ['\n'] ∧ arg.length + 1 + pad = width

/-- The arguments `args`, the first of which is number `i`, have the lines `lines`. -/
inductive IsOutput (cfg : Cfg) (ft : Features) (w : World) (width : Nat) :
    Nat → List (List Char) → List (List Char) → Prop where
  | nil (i) : IsOutput cfg ft w width i [] []
  | cons (i arg text line args lines) (hd : Describes cfg ft (w i arg) text) (hl : IsLine width arg text line)
      (h : IsOutput cfg ft w width (i + 1) args lines) : IsOutput cfg ft w width i (arg :: args) (line :: lines)

end FF.Spec
