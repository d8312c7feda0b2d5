import Verif.Model.Debug
import Verif.Proofs.DebugTable
import Verif.Spec.Debug
import Verif.Props.Meta
/-!
# C81: `Debug` output
-/

namespace FF.Props
open FF FileFormat Spec

set_option maxRecDepth 100000

/-- A checker for `CamelCase`. -/
def camelOk (s : List UInt8) : Bool :=
  match s with
  | [] => false
  | c :: _ => isUpperByte c.toNat && s.all fun c => isAlnumByte c.toNat

theorem camelOk_sound (s : List UInt8) (h : camelOk s = true) : CamelCase s := by
  cases s with
  | nil => cases h
  | cons c t =>
    simp only [camelOk, Bool.and_eq_true, List.all_eq_true] at h
    exact ⟨⟨c, t, rfl, h.1⟩, h.2⟩

/-- A list of bytes as a number. -/
def natKey (s : List Nat) : Nat := s.foldl (fun a c => a * 256 + c) 0

/-- Everything checked about one format. -/
def variantOk (f : FileFormat) : Bool :=
  (camelOk (bytesOf f.variantName) &&
    (bytesOf f.variantName).map UInt8.toNat == upperCamel true (spelledOut (bytesOf f.name))) &&
    lettersOf (bytesOf f.variantName) == lettersOf (spelledOut (bytesOf f.name))

theorem variants_ok : FileFormat.all.all variantOk = true := by decide +kernel
theorem variantOrder_incr :
    incr (fun f => natKey (lettersOf (bytesOf f.variantName))) Meta.variantOrder = true := by decide +kernel
theorem mem_variantOrder (f : FileFormat) : f ∈ Meta.variantOrder := mem_of_full (by decide +kernel) f

theorem variant_camel (f : FileFormat) : CamelCase (bytesOf f.variantName) := by
  have h := List.all_eq_true.mp variants_ok f (mem_all f)
  rw [variantOk, Bool.and_eq_true, Bool.and_eq_true] at h
  exact camelOk_sound _ h.1.1

theorem variant_spelling (f : FileFormat) :
    (bytesOf f.variantName).map UInt8.toNat = upperCamel true (spelledOut (bytesOf f.name)) := by
  have h := List.all_eq_true.mp variants_ok f (mem_all f)
  rw [variantOk, Bool.and_eq_true, Bool.and_eq_true] at h
  exact eq_of_beq h.1.2

theorem variant_letters (f : FileFormat) :
    lettersOf (bytesOf f.variantName) = lettersOf (spelledOut (bytesOf f.name)) := by
  have h := List.all_eq_true.mp variants_ok f (mem_all f)
  rw [variantOk, Bool.and_eq_true] at h
  exact eq_of_beq h.2

theorem variant_inj (f g : FileFormat)
    (h : lettersOf (bytesOf f.variantName) = lettersOf (bytesOf g.variantName)) : f = g :=
  incr_inj _ _ variantOrder_incr f (mem_variantOrder f) g (mem_variantOrder g) (congrArg natKey h)

/-- C81, output: `{:?}` writes an identifier, the name in UpperCamelCase, in one call, whatever the
options; it fails only if the writer does. -/
theorem C81_output (f : FileFormat) :
    ∃ text : String, CamelCase (bytesOf text) ∧
      (bytesOf text).map UInt8.toNat = upperCamel true (spelledOut (bytesOf f.name)) ∧
      ∀ {σ : Type} (k : Sink σ) (o : FmtOptions) (s : σ), f.debug k o s = k.write s text.toList :=
  ⟨f.variantName, variant_camel f, variant_spelling f, fun _ _ _ => rfl⟩

theorem debug_string (f : FileFormat) (o : FmtOptions) :
    f.debug stringSink o [] = some f.variantName.toList := rfl

/-- C81, identification: different formats have different `Debug` output, also if the case of
letters is ignored. -/
theorem C81_distinct (f g : FileFormat) (o o' : FmtOptions) (out out' : String)
    (hf : f.debug stringSink o [] = some out.toList) (hg : g.debug stringSink o' [] = some out'.toList)
    (h : lettersOf (bytesOf out) = lettersOf (bytesOf out')) : f = g := by
  rw [debug_string] at hf hg
  have e1 : f.variantName = out := String.toList_injective (Option.some.inj hf)
  have e2 : g.variantName = out' := String.toList_injective (Option.some.inj hg)
  subst e1 e2
  exact variant_inj f g h

/-- C81, names: formats whose names have the same letters and digits are the same, so the format, its
`Debug` output and its `Display` output determine each other. -/
theorem C81_names (f g : FileFormat)
    (h : lettersOf (spelledOut (bytesOf f.name)) = lettersOf (spelledOut (bytesOf g.name))) : f = g :=
  variant_inj f g (by rw [variant_letters, variant_letters, h])

/-- C81, kinds: `{:?}` of a kind writes an identifier, its README heading in UpperCamelCase,
whatever the options. -/
theorem C81_kind (x : Kind) :
    ∃ text : String, CamelCase (bytesOf text) ∧
      (bytesOf text).map UInt8.toNat = upperCamel true (bytesOf (readmeHeading x)) ∧
      ∀ {σ : Type} (k : Sink σ) (o : FmtOptions) (s : σ), x.debug k o s = k.write s text.toList := by
  refine ⟨x.variantName, camelOk_sound _ ?_, ?_, fun _ _ _ => rfl⟩ <;> cases x <;> decide +kernel

theorem kind_keys : ∀ x y : Kind,
    natKey (lettersOf (bytesOf x.variantName)) = natKey (lettersOf (bytesOf y.variantName)) → x = y := by
  intro x y
  cases x <;> cases y <;> first | (exact fun _ => rfl) | decide +kernel

/-- C81, kinds: different kinds have different `Debug` output. -/
theorem C81_kind_distinct (x y : Kind) (o o' : FmtOptions) (out : List Char)
    (hx : x.debug stringSink o [] = some out) (hy : y.debug stringSink o' [] = some out) : x = y := by
  have h : x.variantName = y.variantName := by
    have h1 : some x.variantName.toList = some out := hx
    have h2 : some y.variantName.toList = some out := hy
    exact String.toList_injective (Option.some.inj (h1.trans h2.symm))
  have h' := congrArg (fun s => natKey (lettersOf (bytesOf s))) h
  revert h'
  revert x y
  intro x y _ _ _
  exact kind_keys x y

example : SevenZip.debug stringSink { width := some 12 } [] = some "SevenZip".toList := rfl
example : lettersOf (bytesOf "SevenZip") = lettersOf (spelledOut (bytesOf SevenZip.name)) := by decide +kernel
example : upperCamel true (spelledOut (bytesOf "Monkey's Audio")) = (bytesOf "MonkeysAudio").map UInt8.toNat := by
  decide +kernel
example : upperCamel true (spelledOut (bytesOf "3D Studio Max")) =
    (bytesOf "ThreeDimensionalStudioMax").map UInt8.toNat := by
  decide +kernel
example : CamelCase (bytesOf "Mpeg12AudioLayer3") := camelOk_sound _ (by decide +kernel)
example : ¬ CamelCase (bytesOf "7Zip") := by
  rintro ⟨⟨c, t, h, h1⟩, _⟩
  have hb : bytesOf "7Zip" = [55, 90, 105, 112] := by decide +kernel
  rw [hb] at h
  cases h
  cases h1

end FF.Props
