import Verif.Spec.Stream
/-!
# Specification: the second read call
-/

namespace FF

/-- How many bytes the second `read` call on the stream delivers, if it is asked for `n` and the content does not end
before: all of them, unless the stream cuts the call short. -/
def Src.secondRead (s : Src) (n : Nat) : Nat :=
  match s.revs with
  | _ :: .short k :: _ => min n (k + 1)
  | _ => n

/-- How many bytes a call that asks for `n` gets, if the content does not end before. -/
def Ev.size (n : Nat) : Ev → Nat
  | .short k => min n (k + 1)
  | _ => n

/-- How far one gets, from `total` on, with calls that ask for `n` bytes each until there are `limit`, if the content does
not end before: the calls are cut as the list says, then served in full. -/
def reach (limit n : Nat) : List Ev → (total : Nat) → Nat
  | [], total => if total < limit then total + n * ((limit - total + n - 1) / n) else total
  | e :: es, total => if total < limit then reach limit n es (total + e.size n) else total

example : reach 10 4 [] 0 = 12 := by decide
example : reach 10 4 [.short 2, .full, .short 0] 0 = 12 := by decide

end FF
