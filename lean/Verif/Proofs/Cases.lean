import Verif.Proofs.Sig
/-!
# The possible outcomes of detection
-/

namespace FF
open FileFormat Spec

variable {α : Type} {O : Op → Prop} {F : Fail → Prop} {Q : α → Prop}

/-- Every value returned on ideal content satisfies `Q`, every failure is an I/O error or `F`. -/
theorem All.run_post {p : Prog α} {k : Nat} (h : All O F Q p k) (d : Bytes) (m q : Nat) :
    match run d m p q with
    | .ok (a, _) => Q a
    | .error f => F f ∨ IsErr f := by
  induction p generalizing k q with
  | pure a => exact h
  | fail f => exact Or.inl h
  | readExact n c ih =>
    simp only [run]
    by_cases hc : n = 0 ∨ q + n ≤ d.length
    · rw [if_pos hc]
      rcases hc with hc | hc
      · subst hc; exact ih _ (h.2.2 _ (by simp [slice])) _
      · exact ih _ (h.2.2 _ (length_slice_eq _ _ _ hc)) _
    · rw [if_neg hc]
      exact Or.inr ⟨_, rfl⟩
  | read n c ih =>
    simp only [run]
    exact ih _ (h.2.2 _ (by rw [length_slice]; omega)) _
  | seek s c ih =>
    simp only [run]
    cases seekTarget d.length m q s with
    | some q' => exact ih _ (h.2.2 _) _
    | none => exact Or.inr ⟨_, rfl⟩
  | tell c ih => exact ih _ (h.2.2 _) _
  | readUntil n c ih =>
    simp only [run]
    exact ih _ (h.2.2 _ (length_uptoNewline_slice _ _ _)) _

theorem All.run_value {p : Prog α} {k : Nat} (h : All O F Q p k) {d : Bytes} {m q : Nat} {a : α}
    (hr : val (run d m p q) = .ok a) : Q a := by
  have := h.run_post d m q
  cases hx : run d m p q with
  | error f => rw [hx] at hr; cases hr
  | ok r => rw [hx] at hr this; obtain ⟨a', q'⟩ := r; cases hr; exact this

theorem idealGeneric_cases (ft : Features) (d : Bytes) (m : Nat) :
    (ft.txt = true ∧ val (run d m txtReader 0) = .ok PlainText ∧ idealGeneric ft d m = .ok PlainText) ∨
    ((ft.txt = false ∨ ∃ e, val (run d m txtReader 0) = .error (.err e)) ∧
      idealGeneric ft d m = .ok ArbitraryBinaryData) := by
  unfold idealGeneric
  cases ht : ft.txt with
  | false => exact Or.inr ⟨Or.inl rfl, rfl⟩
  | true =>
    have h := txtReader_all.run_post d m 0
    cases hx : run d m txtReader 0 with
    | ok r =>
      obtain ⟨f, q⟩ := r
      rw [hx] at h
      simp only at h
      subst h
      exact Or.inl ⟨rfl, rfl, rfl⟩
    | error f =>
      rw [hx] at h
      obtain ⟨e, rfl⟩ : IsErr f := h.elim id id
      exact Or.inr ⟨Or.inr ⟨e, rfl⟩, rfl⟩

/-- The signature verdict and its refinement. -/
inductive Outcome (cfg : Cfg) (ft : Features) (d : Bytes) (m : Nat) (r : Except Fail FileFormat) : Prop where
  /-- empty input -/
  | empty (hd : d = []) (hr : r = .ok Empty)
  /-- no signature -/
  | unknown (hd : d ≠ []) (hs : fromSignature d = none) (hr : r = idealGeneric ft d m)
  /-- a signature without an enabled reader -/
  | plain (hd : d ≠ []) (f : FileFormat) (hs : fromSignature d = some f)
      (hn : ∀ g ∈ Feature.structured, g.enabled ft = true → f ≠ g.base) (hr : r = .ok f)
  /-- a reader refined the signature verdict -/
  | refined (hd : d ≠ []) (g : Feature) (hg : g ∈ Feature.structured) (he : g.enabled ft = true)
      (hs : fromSignature d = some g.base) (f : FileFormat)
      (hv : val (run d m (readerOf cfg g).2 0) = .ok f) (hf : InFamily g f) (hr : r = .ok f)
  /-- the reader failed -/
  | failed (hd : d ≠ []) (g : Feature) (hg : g ∈ Feature.structured) (he : g.enabled ft = true)
      (hs : fromSignature d = some g.base) (e : ErrKind)
      (hv : val (run d m (readerOf cfg g).2 0) = .error (.err e)) (hr : r = idealGeneric ft d m)
  /-- the reader crashed -/
  | crashed (hd : d ≠ []) (g : Feature) (hg : g ∈ Feature.structured) (he : g.enabled ft = true)
      (hs : fromSignature d = some g.base) (x : Fail) (hx : ∀ e, x ≠ .err e)
      (hv : val (run d m (readerOf cfg g).2 0) = .error x) (hr : r = .error x)

theorem ideal_outcome (cfg : Cfg) (ft : Features) (d : Bytes) (m : Nat) :
    Outcome cfg ft d m (ideal cfg ft d m) := by
  unfold ideal
  rw [fromSignature_take d bufferSize (Nat.le_refl _)]
  by_cases hd : d = []
  · subst hd; exact .empty rfl rfl
  · have hl : d.length ≠ 0 := by simpa using hd
    rw [if_neg hl]
    cases hs : fromSignature d with
    | none => exact .unknown hd hs rfl
    | some fmt =>
      simp only
      rcases fmtReader_cases cfg ft fmt with hn | ⟨g, hg, he, hfmt, hr⟩
      · rw [hn]
        refine .plain hd fmt hs ?_ rfl
        intro g hg he hb
        rw [hb, fmtReader_base cfg ft g hg, if_pos he] at hn
        cases hn
      · rw [hr]
        subst hfmt
        obtain ⟨k, hk⟩ := reader_all cfg g
        simp only
        cases hv : val (run d m (readerOf cfg g).2 0) with
        | ok f => exact .refined hd g hg he hs f hv (hk.run_value hv) rfl
        | error x =>
          cases x with
          | err e => exact .failed hd g hg he hs e hv rfl
          | panic => exact .crashed hd g hg he hs _ (by simp) hv rfl
          | diverge => exact .crashed hd g hg he hs _ (by simp) hv rfl

theorem fromBytes_outcome (cfg : Cfg) (ft : Features) (b : Bytes) (h : b.length < 2 ^ 64) :
    Outcome cfg ft b (2 ^ 64 - 1) (fromBytes cfg ft b) := by
  rw [fromBytes_ideal cfg ft b h]
  exact ideal_outcome _ _ _ _

theorem family_special : ∀ g ∈ Feature.structured, ∀ f ∈ g.base :: g.family,
    f ≠ FileFormat.Empty ∧ f ≠ ArbitraryBinaryData ∧ f ≠ PlainText := by
  decide

/-- What `from_bytes` returns when the signature verdict is the base format of an enabled reader. -/
theorem fromBytes_reader (cfg : Cfg) (ft : Features) (b : Bytes) (h : b.length < 2 ^ 64) (g : Feature)
    (hg : g ∈ Feature.structured) (he : g.enabled ft = true) (hs : fromSignature b = some g.base) :
    fromBytes cfg ft b =
      orDefault (val (run b (2 ^ 64 - 1) (readerOf cfg g).2 0)) (idealGeneric ft b (2 ^ 64 - 1)) := by
  rw [fromBytes_ideal cfg ft b h]
  unfold ideal
  rw [fromSignature_take b bufferSize (Nat.le_refl _), hs]
  have hl : b.length ≠ 0 := by
    intro h0
    have : b = [] := List.eq_nil_of_length_eq_zero h0
    subst this
    have hn : fromSignature [] = none := by decide +kernel
    rw [hn] at hs; cases hs
  simp only [if_neg hl, fmtReader_base cfg ft g hg, he, if_true]

end FF
