import Verif.Props.Meta
import Verif.Props.Longest
import Verif.Spec.Needed
/-!
# C68: every magic value of the table is needed
-/

namespace FF.Props
open FF FileFormat Spec

/-- C68 as the user of the table expects it: every listed magic value makes a difference. -/
def C68_statement : Prop :=
  ∀ (cfg : Cfg) (f : FileFormat) (alt : List Part), IsMagicOf f alt → NeededMagic cfg f alt

/-! ## The check -/

def bytesSame : Bytes → Bytes → Bool
  | [], [] => true
  | a :: as, b :: bs => Nat.beq a.toNat b.toNat && bytesSame as bs
  | _, _ => false

def partsSame : List Part → List Part → Bool
  | [], [] => true
  | p :: ps, q :: qs => Nat.beq p.offset q.offset && bytesSame p.value q.value && partsSame ps qs
  | _, _ => false

theorem bytesSame_eq : ∀ {a b : Bytes}, bytesSame a b = true → a = b
  | [], [], _ => rfl
  | a :: as, b :: bs, h => by
    simp only [bytesSame, Bool.and_eq_true] at h
    rw [bytesSame_eq h.2, UInt8.toNat_inj.mp (Nat.beq_eq.mp h.1)]
  | [], _ :: _, h => by simp [bytesSame] at h
  | _ :: _, [], h => by simp [bytesSame] at h

theorem partsSame_eq : ∀ {a b : List Part}, partsSame a b = true → a = b
  | [], [], _ => rfl
  | ⟨o, v⟩ :: as, ⟨o', v'⟩ :: bs, h => by
    simp only [partsSame, Bool.and_eq_true] at h
    rw [partsSame_eq h.2, bytesSame_eq h.1.2, Nat.beq_eq.mp h.1.1]
  | [], _ :: _, h => by simp [partsSame] at h
  | _ :: _, [], h => by simp [partsSame] at h

/-- `alt` is one of the values covered by a shorter one. -/
def isCovered (f : FileFormat) (alt : List Part) : Bool :=
  coveredMagic.any fun c => Nat.beq c.1.ctorIdx f.ctorIdx && partsSame c.2.1 alt

/-- On the shortest zero-filled input with one of the values, no other value of the entry is present. -/
def entryNeeded (e : SigEntry) : Bool :=
  e.alts.all fun alt => isCovered e.format alt ||
    e.alts.all fun alt' => partsSame alt' alt || !(alt'.all fun p => sparseMatches alt (partsEnd alt) p)

theorem table_needed : signatureTable.all entryNeeded = true := by decide +kernel

theorem isCovered_sound {f : FileFormat} {alt : List Part} (h : isCovered f alt = true) :
    ∃ alt', (f, alt, alt') ∈ coveredMagic := by
  obtain ⟨⟨g, a, a'⟩, hc, h⟩ := List.any_eq_true.mp h
  simp only [Bool.and_eq_true] at h
  have h1 : g = f := ctorIdx_inj (Nat.beq_eq.mp h.1)
  have h2 : a = alt := partsSame_eq h.2
  subst h1 h2
  exact ⟨a', hc⟩

/-- C68, all but six values: every magic value of the table that is not among the six of `coveredMagic` is needed. -/
theorem C68_needed_partial (cfg : Cfg) (f : FileFormat) (alt : List Part) (h : IsMagicOf f alt)
    (hn : ∀ alt', (f, alt, alt') ∉ coveredMagic) : NeededMagic cfg f alt := by
  obtain ⟨e, he, rfl, ha⟩ := h
  obtain ⟨h1, h2⟩ := live_entry he ha
  have hle : partsEnd alt ≤ bufferSize := partsEnd_le (fun p hp => part_window he ha hp)
  have hlen := length_fill alt (partsEnd alt)
  have hb : (fill alt (partsEnd alt)).length < 2 ^ 63 := by
    rw [hlen]
    simp only [bufferSize] at hle
    omega
  refine ⟨fill alt (partsEnd alt), hb, ?_, h2, ?_⟩
  · rw [fromBytes_none cfg _ (by omega), h1]
    have h0 : HasMagic e.format (fill alt (partsEnd alt)) := ⟨e, he, rfl, alt, ha, h2⟩
    rw [if_neg (hasMagic_nonempty h0)]
    rfl
  · intro alt' ⟨e', he', hf, ha'⟩ hc
    rw [entry_unique he' he hf] at ha'
    have t := List.all_eq_true.mp (List.all_eq_true.mp table_needed e he) alt ha
    rcases Bool.or_eq_true_iff.mp t with t | t
    · obtain ⟨x, hx⟩ := isCovered_sound t
      exact absurd hx (hn x)
    · rcases Bool.or_eq_true_iff.mp (List.all_eq_true.mp t alt' ha') with t | t
      · exact partsSame_eq t
      · exfalso
        have : (alt'.all fun p => sparseMatches alt (partsEnd alt) p) = true := by
          rw [List.all_eq_true]
          intro p hp
          rw [sparseMatches_eq]
          exact (part_matches_iff _ _).mpr (hc p hp)
        rw [this] at t
        simp at t

/-! ## The six values -/

theorem implies_prefix {o : Nat} {v w : Bytes} (h : w <+: v) : ImpliesMagic [⟨o, v⟩] [⟨o, w⟩] := by
  intro b hb p hp
  rw [List.mem_singleton] at hp
  subst hp
  obtain ⟨pre, suf, e, hl⟩ := hb ⟨o, v⟩ (by simp)
  obtain ⟨r, hr⟩ := h
  exact ⟨pre, r ++ suf, by simp only at e ⊢; rw [e, ← hr]; simp [List.append_assoc], hl⟩

/-- The six values really are values of the table, and each is covered by another value of the same format. -/
theorem C68_covered (f : FileFormat) (alt alt' : List Part) (h : (f, alt, alt') ∈ coveredMagic) :
    IsMagicOf f alt ∧ IsMagicOf f alt' ∧ alt' ≠ alt ∧ ImpliesMagic alt alt' := by
  have key : ∀ c ∈ coveredMagic, (signatureTable.any fun e => Nat.beq e.format.ctorIdx c.1.ctorIdx &&
      (e.alts.any fun a => partsSame a c.2.1) && e.alts.any fun a => partsSame a c.2.2) = true := by decide +kernel
  obtain ⟨e, he, hk⟩ := List.any_eq_true.mp (key _ h)
  simp only [Bool.and_eq_true, List.any_eq_true] at hk
  obtain ⟨⟨h1, a, ha, h2⟩, a', ha', h3⟩ := hk
  have h1 := ctorIdx_inj (Nat.beq_eq.mp h1)
  rw [partsSame_eq h2] at ha
  rw [partsSame_eq h3] at ha'
  refine ⟨⟨e, he, h1, ha⟩, ⟨e, he, h1, ha'⟩, ?_, ?_⟩
  · simp only [coveredMagic, List.mem_cons, Prod.mk.injEq, List.not_mem_nil, or_false] at h
    rcases h with ⟨-, rfl, rfl⟩ | ⟨-, rfl, rfl⟩ | ⟨-, rfl, rfl⟩ | ⟨-, rfl, rfl⟩ | ⟨-, rfl, rfl⟩ | ⟨-, rfl, rfl⟩ <;> simp
  · simp only [coveredMagic, List.mem_cons, Prod.mk.injEq, List.not_mem_nil, or_false] at h
    rcases h with ⟨-, rfl, rfl⟩ | ⟨-, rfl, rfl⟩ | ⟨-, rfl, rfl⟩ | ⟨-, rfl, rfl⟩ | ⟨-, rfl, rfl⟩ | ⟨-, rfl, rfl⟩ <;>
      exact implies_prefix (by decide +kernel)

/-- C68 does not hold of the code: six magic values can be deleted without changing any verdict. -/
theorem C68_fails : ¬ C68_statement := by
  intro h
  have hm : (ShoutcastPlaylist, [⟨0, b!"[playlist]\r\n"⟩], [⟨0, b!"[playlist]\r"⟩]) ∈ coveredMagic := by
    simp [coveredMagic]
  obtain ⟨h1, h2, h3, h4⟩ := C68_covered _ _ _ hm
  obtain ⟨b, -, -, hc, hu⟩ := h Cfg.release _ _ h1
  exact h3 (hu _ h2 (h4 b hc))

/-- Not vacuous: the magic value of bzip2 is needed. -/
example : NeededMagic Cfg.release Bzip2 [⟨0, b!"BZh"⟩] := by
  have key : (signatureTable.any fun e => Nat.beq e.format.ctorIdx Bzip2.ctorIdx &&
      e.alts.any fun a => partsSame a [⟨0, b!"BZh"⟩]) = true := by decide +kernel
  obtain ⟨e, he, hk⟩ := List.any_eq_true.mp key
  simp only [Bool.and_eq_true, List.any_eq_true] at hk
  obtain ⟨h1, a, ha, h2⟩ := hk
  rw [partsSame_eq h2] at ha
  refine C68_needed_partial _ _ _ ⟨e, he, ctorIdx_inj (Nat.beq_eq.mp h1), ha⟩ ?_
  intro alt' h
  simp [coveredMagic] at h

end FF.Props
