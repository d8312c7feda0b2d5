import Verif.Spec.Window
import Verif.Proofs.Text2
/-!
# Marker search in windows
-/

namespace FF
open Spec FileFormat

theorem occursWithin_iff {pat : Bytes} (hp : pat ≠ []) (lo n : Nat) (d : Bytes) :
    pat <:+: slice d lo n ↔ OccursWithin pat lo (lo + n) d := by
  constructor
  · rintro ⟨a, c, h⟩
    have hlen : 0 < pat.length := List.length_pos_iff.mpr hp
    have h0 := congrArg List.length h
    rw [length_slice] at h0
    simp only [List.length_append] at h0
    have hd : d = d.take lo ++ (slice d lo n ++ d.drop (lo + n)) := by
      have h1 : slice d lo n ++ d.drop (lo + n) = d.drop lo := by
        rw [slice, ← List.drop_drop, List.take_append_drop]
      rw [h1, List.take_append_drop]
    refine ⟨d.take lo ++ a, c ++ d.drop (lo + n), ?_, ?_, ?_⟩
    · conv => lhs; rw [hd, ← h]
      simp only [List.append_assoc]
    · rw [List.length_append, List.length_take]; omega
    · rw [List.length_append, List.length_take]; omega
  · rintro ⟨pre, suf, rfl, h1, h2⟩
    refine ⟨pre.drop lo, suf.take (lo + n - (pre.length + pat.length)), ?_⟩
    rw [slice, List.append_assoc, List.append_assoc, List.drop_append_of_le_length h1, List.take_append,
      List.take_append]
    have e1 : (pre.drop lo).take n = pre.drop lo := List.take_of_length_le (by rw [List.length_drop]; omega)
    have e2 : pat.take (n - (pre.drop lo).length) = pat :=
      List.take_of_length_le (by rw [List.length_drop]; omega)
    rw [e1, e2, List.length_drop]
    congr 3
    omega

theorem occursWithin_take {pat : Bytes} {lo hi : Nat} {d d' : Bytes} (h : d.take hi = d'.take hi) :
    OccursWithin pat lo hi d → OccursWithin pat lo hi d' := by
  rintro ⟨pre, suf, rfl, h1, h2⟩
  have h3 : (pre ++ pat) <+: d'.take hi := by
    rw [← h, List.take_append, List.take_of_length_le (by rw [List.length_append]; exact h2)]
    exact List.prefix_append _ _
  obtain ⟨r, hr⟩ := h3.trans (List.take_prefix hi d')
  exact ⟨pre, r, by rw [← hr], h1, h2⟩

theorem occursWithin_mono {pat : Bytes} {lo hi hi' : Nat} {d : Bytes} (h : hi ≤ hi') :
    OccursWithin pat lo hi d → OccursWithin pat lo hi' d := by
  rintro ⟨pre, suf, h0, h1, h2⟩
  exact ⟨pre, suf, h0, h1, by omega⟩

/-! ## SQLite -/

theorem sqlite3_run (d : Bytes) (m : Nat) (hm : 100 ≤ m) (q : Nat) :
    (OccursWithin sketchMarker 100 32868 d ∧ val (run d m sqlite3Reader q) = .ok Sketch) ∨
    (¬ OccursWithin sketchMarker 100 32868 d ∧ val (run d m sqlite3Reader q) = .ok Sqlite3) := by
  unfold sqlite3Reader
  rw [run_bind, run_sk_start _ _ hm, andThen_ok, run_bind, run_rd, andThen_ok]
  obtain ⟨r, hr, hi⟩ := holdsBytes_spec (slice d 100 32768) sketchMarker
  rw [occursWithin_iff (by decide)] at hi
  rw [hr, run_bind, run_lift_ok, andThen_ok]
  cases r with
  | true => exact Or.inl ⟨hi.mp rfl, rfl⟩
  | false => exact Or.inr ⟨fun h => absurd (hi.mpr h) (by decide), rfl⟩

/-! ## XML -/

theorem showsXml_iff (d : Bytes) (row : FileFormat × List (List Bytes))
    (hne : ∀ c ∈ row.2, ∀ m ∈ c, m ≠ []) :
    (∃ c, c ∈ row.2 ∧ ∀ m : Bytes, m ∈ c → m <:+: slice d 5 8192) ↔ ShowsXml d row := by
  constructor
  · rintro ⟨c, hc, h⟩
    exact ⟨c, hc, fun m hm => (occursWithin_iff (hne c hc m hm) 5 8192 d).mp (h m hm)⟩
  · rintro ⟨c, hc, h⟩
    exact ⟨c, hc, fun m hm => (occursWithin_iff (hne c hc m hm) 5 8192 d).mpr (h m hm)⟩

/-- The first row of a table whose markers are shown. -/
inductive FirstRow (d : Bytes) (f0 : FileFormat) : List (FileFormat × List (List Bytes)) → FileFormat → Prop where
  | hit (l1 : List (FileFormat × List (List Bytes))) (row) (l2) (h : ∀ r ∈ l1, ¬ ShowsXml d r)
      (hr : ShowsXml d row) : FirstRow d f0 (l1 ++ row :: l2) row.1
  | none (l) (h : ∀ r ∈ l, ¬ ShowsXml d r) : FirstRow d f0 l f0

theorem xmlClassify_spec (d : Bytes) (rules : List (List (List Bytes) × FileFormat))
    (hne : ∀ r ∈ rules, ∀ c ∈ r.1, ∀ m ∈ c, m ≠ []) :
    ∃ f, xmlClassify (slice d 5 8192) rules = .ok f ∧
      FirstRow d ExtensibleMarkupLanguage (rules.map fun r => (r.2, r.1)) f := by
  induction rules with
  | nil => exact ⟨_, rfl, .none _ (by simp)⟩
  | cons r rules ih =>
    obtain ⟨cond, fmt⟩ := r
    obtain ⟨b, hb, hi⟩ := holdsAny_spec (slice d 5 8192) cond
    rw [showsXml_iff d (fmt, cond) (hne (cond, fmt) (by simp))] at hi
    obtain ⟨f, hf, hfr⟩ := ih (fun r hr => hne r (by simp [hr]))
    cases b with
    | true =>
      refine ⟨fmt, by simp [xmlClassify, hb, bind, Except.bind, pure, Except.pure], ?_⟩
      exact .hit [] (fmt, cond) _ (by simp) (hi.mp rfl)
    | false =>
      have hno : ¬ ShowsXml d (fmt, cond) := fun h => absurd (hi.mpr h) (by decide)
      refine ⟨f, by simp [xmlClassify, hb, bind, Except.bind, hf], ?_⟩
      rw [List.map_cons]
      generalize rules.map (fun r => (r.2, r.1)) = l at hfr
      cases hfr with
      | hit l1 row l2 h hr =>
        exact .hit ((fmt, cond) :: l1) row l2 (by
          intro r hr'
          rcases List.mem_cons.mp hr' with rfl | hr'
          · exact hno
          · exact h r hr') hr
      | none l h =>
        refine .none _ ?_
        intro r hr'
        rcases List.mem_cons.mp hr' with rfl | hr'
        · exact hno
        · exact h r hr'

theorem xmlRules_eq : xmlRules.map (fun r => (r.2, r.1)) = xmlMarkers := by rfl
theorem xmlRules_ne : ∀ r ∈ xmlRules, ∀ c ∈ r.1, ∀ m ∈ c, m ≠ [] := by decide +kernel

theorem xml_run (d : Bytes) (m : Nat) (hm : 5 ≤ m) (q : Nat) :
    ∃ f, val (run d m xmlReader q) = .ok f ∧ FirstRow d ExtensibleMarkupLanguage xmlMarkers f := by
  obtain ⟨f, hf, hfr⟩ := xmlClassify_spec d xmlRules xmlRules_ne
  rw [xmlRules_eq] at hfr
  refine ⟨f, ?_, hfr⟩
  unfold xmlReader
  rw [run_bind, run_sk_start _ _ hm, andThen_ok, run_bind, run_rd, andThen_ok, hf, run_lift_ok]
  rfl

end FF
