import Verif.Spec.Basic
/-!
# Specification: how many byte strings of a length have a property
-/

namespace FF.Spec

/-- All byte strings of a length. -/
def strings : Nat → List Bytes
  | 0 => [[]]
  | n + 1 => (List.range 256).flatMap fun c => (strings n).map fun b => UInt8.ofNat c :: b

/-- How many byte strings of length `n` have a property. -/
def howMany (n : Nat) (P : Bytes → Prop) [DecidablePred P] : Nat := (strings n).countP fun b => decide (P b)

/-- A format is reported that is none of `l`. -/
def OtherThan (l : List FileFormat) (r : Except Fail FileFormat) : Prop := ∃ f, r = .ok f ∧ f ∉ l

instance (l : List FileFormat) (r : Except Fail FileFormat) : Decidable (OtherThan l r) :=
  match r with
  | .ok f => if h : f ∈ l then isFalse fun ⟨g, hg, hn⟩ => hn (by cases hg; exact h) else isTrue ⟨f, rfl, h⟩
  | .error _ => isFalse fun ⟨_, hg, _⟩ => by cases hg

end FF.Spec
