import Verif.Spec.Second
import Verif.Proofs.Window
/-!
# The PDF chunk loop, for every division into reads
-/

namespace FF
open Spec FileFormat

theorem infix_append_last {p H c : Bytes} (hp : p.length = 13) (hH : 12 ≤ H.length)
    (hno : ¬ p <:+: H) : p <:+: H ++ c ↔ p <:+: H.drop (H.length - 12) ++ c := by
  constructor
  · rintro ⟨a, r, h⟩
    have hl := congrArg List.length h
    simp only [List.length_append] at hl
    by_cases hc : a.length + p.length ≤ H.length
    · exfalso
      refine hno ⟨a, r.take (H.length - (a.length + p.length)), ?_⟩
      have h1 := congrArg (List.take H.length) h
      rw [List.take_left, List.take_append, List.take_of_length_le (by rw [List.length_append]; omega),
        List.length_append] at h1
      exact h1
    · refine ⟨a.drop (H.length - 12), r, ?_⟩
      have h1 := congrArg (List.drop (H.length - 12)) h
      rw [List.append_assoc, List.drop_append_of_le_length (by omega),
        List.drop_append_of_le_length (by omega)] at h1
      rw [List.append_assoc]
      exact h1
  · rintro ⟨a, r, h⟩
    refine ⟨H.take (H.length - 12) ++ a, r, ?_⟩
    rw [List.append_assoc, List.append_assoc, ← List.append_assoc a, h, ← List.append_assoc,
      List.take_append_drop]

/-- Leading zeros do not matter. -/
theorem infix_zeros {p : Bytes} (hp0 : (0 : UInt8) ∉ p) (hpne : p ≠ []) (n : Nat) (c : Bytes) :
    p <:+: List.replicate n 0 ++ c ↔ p <:+: c := by
  induction n with
  | zero => simp
  | succ n ih =>
    rw [List.replicate_succ, List.cons_append, List.infix_cons_iff, ih]
    constructor
    · rintro (h | h)
      · exfalso
        cases p with
        | nil => exact hpne rfl
        | cons x p =>
          obtain ⟨r, hr⟩ := h
          rw [List.cons_append] at hr
          injection hr with h1 _
          subst h1
          simp at hp0
      · exact h
    · exact Or.inr

theorem Src.NoFail.mono {a b : Src} (h : a.NoFail) (k : a.Le b) : b.NoFail :=
  ⟨fun e he => h.reads e (k.revs.subset he), fun e he => h.seeks e (k.sevs.subset he)⟩

theorem Src.NoFail.benign {s : Src} (h : s.NoFail) : s.Benign :=
  ⟨fun e he => absurd he (h.reads e), h.seeks⟩

theorem Src.Calm.noFail {s : Src} (h : s.Calm) : s.NoFail :=
  ⟨fun e he => (by have := h.reads _ he; cases this), h.seeks⟩

theorem exec_read_unbuffered {α : Type} (n : Nat) (f : Bytes → Prog α) (s : Src) :
    exec (Prog.rd n >>= f) { src := s, buffered := false, buf := [] } =
      match s.read n with
      | (.ok bs, s') => exec (f bs) { src := s', buffered := false, buf := [] }
      | (.error e, s') => (.error (.err e), { src := s', buffered := false, buf := [] }) := by
  show exec (Prog.read n fun x => f x) _ = _
  simp only [exec, Rd.read, if_true]
  cases s.read n with
  | mk r s' => cases r <;> rfl

theorem exec_lift_ok {α β : Type} (a : α) (f : α → Prog β) (s : Rd) :
    exec (Prog.lift (.ok a) >>= f) s = exec (f a) s := rfl

/-- What the loop has established when it stops after examining `T` bytes. -/
def PdfDone (d : Bytes) (T : Nat) (f : FileFormat) : Prop :=
  (f = AdobeIllustratorArtwork ∧ aiMarker <:+: slice d 5 T) ∨
  (f = PortableDocumentFormat ∧ ¬ aiMarker <:+: slice d 5 T ∧
    (pdfReadLimit ≤ T ∨ d.length ≤ 5 + T))

/-- What a `read` call delivers, and what it leaves of the schedule. -/
theorem read_size {s s' : Src} {n : Nat} {c : Bytes} (h : s.read n = (.ok c, s')) :
    ∃ k, c = slice s.data s.pos k ∧
      ((s.revs = [] ∧ k = n ∧ s'.revs = []) ∨ ∃ e es, s.revs = e :: es ∧ k = e.size n ∧ s'.revs = es) := by
  unfold Src.read at h
  split at h
  · rename_i hr
    injection h with h1 h2
    injection h1 with h1
    exact ⟨n, h1.symm, Or.inl ⟨hr, rfl, by rw [← h2]; exact hr⟩⟩
  · rename_i hr
    injection h with h1 h2
    injection h1 with h1
    exact ⟨n, h1.symm, Or.inr ⟨_, _, hr, rfl, by rw [← h2]⟩⟩
  · rename_i hr
    injection h with h1 h2
    injection h1 with h1
    exact ⟨_, h1.symm, Or.inr ⟨_, _, hr, rfl, by rw [← h2]⟩⟩
  · injection h with h1 h2
    cases h1

/-- How far the loop gets. -/
def pdfReach (evs : List Ev) (total : Nat) : Nat := reach pdfReadLimit 32768 evs total

theorem pdfReach_le (evs : List Ev) (total : Nat) : total ≤ pdfReach evs total := by
  unfold pdfReach
  induction evs generalizing total with
  | nil => unfold reach; split <;> omega
  | cons e es ih =>
    unfold reach
    split
    · exact Nat.le_trans (Nat.le_add_right _ _) (ih _)
    · exact Nat.le_refl _

theorem pdfReach_done (evs : List Ev) (total : Nat) (h : ¬ total < pdfReadLimit) : pdfReach evs total = total := by
  unfold pdfReach
  cases evs <;> (unfold reach; rw [if_neg h])

theorem pdfReach_nil (total : Nat) (h : total < pdfReadLimit) : pdfReach [] total = pdfReach [] (total + 32768) := by
  have hlim : pdfReadLimit = 1024 * 32768 := rfl
  unfold pdfReach reach
  rw [if_pos h]
  split <;> omega

theorem pdfReach_cons (e : Ev) (es : List Ev) (total : Nat) (h : total < pdfReadLimit) :
    pdfReach (e :: es) total = pdfReach es (total + e.size 32768) := by
  unfold pdfReach
  rw [reach, if_pos h]

/-- The loop on any stream. -/
theorem pdfLoop_exec (fuel total : Nat) (ov : Bytes) (s : Src) (hwf : s.WF)
    (hpos : s.pos = 5 + total) (hin : total = 0 ∨ 5 + total ≤ s.data.length)
    (hov : ov = (List.replicate 12 0 ++ slice s.data 5 total).drop
      ((List.replicate 12 0 ++ slice s.data 5 total).length - 12))
    (hno : ¬ aiMarker <:+: slice s.data 5 total) (hf : pdfReadLimit < fuel + total ∧ 0 < fuel)
    (hT : total ≤ pdfReadLimit + 32767)
    (C : Prop) (hC : C → s.Calm)
    (hcalm : C → total ≤ pdfReadLimit ∧ (32768 ∣ total ∨ s.data.length ≤ 5 + total)) :
    (¬ s.NoFail ∧ ∃ e, (exec (pdfLoop fuel total ov) { src := s, buffered := false, buf := [] }).1 = .error (.err e)) ∨
    ∃ f T, (exec (pdfLoop fuel total ov) { src := s, buffered := false, buf := [] }).1 = .ok f ∧
      PdfDone s.data T f ∧ T ≤ pdfReadLimit + 32767 ∧ (C → T ≤ pdfReadLimit) ∧
      ∀ R, (R = pdfReach s.revs total ∨ (s.data.length ≤ 5 + total ∧ total ≤ R)) →
        T ≤ R ∧ (f = PortableDocumentFormat → R ≤ T ∨ s.data.length ≤ 5 + T) := by
  induction fuel generalizing total ov s with
  | zero => omega
  | succ fuel ih =>
    unfold pdfLoop
    split
    · rename_i hlt
      rw [exec_read_unbuffered]
      obtain ⟨hle, hwf', hcase⟩ := Src.read_spec s pdfChunkSize hwf
      have hrc := Src.read_calm s pdfChunkSize
      cases hx : s.read pdfChunkSize with
      | mk r s' =>
        rw [hx] at hle hwf' hcase hrc
        simp only at hle hwf' hcase hrc
        rcases hcase with ⟨k, hk1, hk2, hk3, hk4⟩ | ⟨e, hre, he, _⟩
        · subst hk3
          have hk0 := hk2 (by decide)
          have hkc : k ≤ 32768 := hk1
          simp only
          have hlen := length_slice s.data s.pos k
          split
          · rename_i hz
            have hend : s.data.length ≤ 5 + total := by omega
            refine Or.inr ⟨_, total, rfl, Or.inr ⟨rfl, hno, Or.inr hend⟩, hT, fun hc => (hcalm hc).1, fun R hR =>
              ⟨?_, fun _ => Or.inr hend⟩⟩
            rcases hR with rfl | ⟨_, hR⟩
            · exact pdfReach_le _ _
            · exact hR
          · rename_i hz
            -- how far the schedule gets
            have hsched : ∀ R, (R = pdfReach s.revs total ∨ (s.data.length ≤ 5 + total ∧ total ≤ R)) →
                total + (slice s.data s.pos k).length ≤ R ∧
                (R = pdfReach s'.revs (total + (slice s.data s.pos k).length) ∨
                  (s.data.length ≤ 5 + (total + (slice s.data s.pos k).length) ∧
                    total + (slice s.data s.pos k).length ≤ R)) := by
              intro R hR
              obtain ⟨j, hj, hrev⟩ := read_size hx
              have hjl : (slice s.data s.pos k).length = min j (s.data.length - s.pos) := by
                rw [hj, length_slice]
              have hR' : R = pdfReach s'.revs (total + j) ∨ (s.data.length ≤ 5 + total ∧ total ≤ R) := by
                rcases hR with hR | hR
                · left
                  rcases hrev with ⟨h1, h2, h3⟩ | ⟨e, es, h1, h2, h3⟩
                  · rw [hR, h1, h2, h3]; exact pdfReach_nil _ hlt
                  · rw [hR, h1, h2, h3]; exact pdfReach_cons _ _ _ hlt
                · exact Or.inr hR
              rcases hR' with hR' | hR'
              · have := pdfReach_le s'.revs (total + j)
                rw [← hR'] at this
                refine ⟨by omega, ?_⟩
                by_cases hfull : (slice s.data s.pos k).length = j
                · left; rw [hfull]; exact hR'
                · right; omega
              · refine ⟨by omega, Or.inr ⟨by omega, by omega⟩⟩
            -- the bytes seen so far, and now
            have hsl : slice s.data 5 total ++ slice s.data s.pos k =
                slice s.data 5 (total + (slice s.data s.pos k).length) := by
              conv => rhs; rw [← slice_append_slice, hpos, slice_length_self]
              rw [hpos]
            generalize hch : slice s.data s.pos k = chunk at *
            have hHlen : (List.replicate 12 0 ++ slice s.data 5 total).length =
                12 + (slice s.data 5 total).length := by
              rw [List.length_append, List.length_replicate]
            have hovl : ov.length = 12 := by rw [hov, List.length_drop]; omega
            have hz12 : pdfOverlapSize = 12 := rfl
            have hbl : (ov ++ chunk).length = 12 + chunk.length := by
              rw [List.length_append, hovl]
            rw [sliceIdx_ok (by split <;> omega) (by omega), exec_lift_ok]
            rw [hz12, List.take_of_length_le (by omega)]
            obtain ⟨b, hb, hbi⟩ := holdsBytes_spec
              (List.drop (if total = 0 then 12 else 0) (ov ++ chunk)) aiMarker
            rw [hb, exec_lift_ok]
            have hwin : (b = true ↔ aiMarker <:+: slice s.data 5 (total + chunk.length)) := by
              rw [hbi, ← hsl]
              split
              · rename_i h0
                have hnil : slice s.data 5 total = [] := by rw [h0, slice_zero]
                rw [hnil, List.nil_append, List.drop_append_of_le_length (by omega),
                  List.drop_of_length_le (by omega), List.nil_append]
              · rw [List.drop_zero, hov, ← infix_append_last rfl (by omega)
                  (fun h => hno ((infix_zeros (by decide) (by decide) 12 _).mp h)),
                  List.append_assoc, infix_zeros (by decide) (by decide) 12]
            have hcalm' : C → total + chunk.length ≤ pdfReadLimit ∧
                (32768 ∣ total + chunk.length ∨ s.data.length ≤ 5 + (total + chunk.length)) := by
              intro hc
              obtain ⟨c1, c2⟩ := hcalm hc
              obtain ⟨hr1, hr2⟩ := hrc (hC hc)
              injection hr1 with hr1
              have hcl : chunk.length = min 32768 (s.data.length - s.pos) := by
                rw [hr1, length_slice]; rfl
              have hlim : pdfReadLimit = 1024 * 32768 := rfl
              rcases c2 with ⟨w, hw⟩ | c2
              · refine ⟨by omega, ?_⟩
                by_cases hfull : chunk.length = 32768
                · exact Or.inl ⟨w + 1, by omega⟩
                · right; omega
              · omega
            have hclen : chunk.length ≤ 32768 := by omega
            have hlim : pdfReadLimit = 33554432 := rfl
            cases b with
            | true =>
              exact Or.inr ⟨_, total + chunk.length, rfl, Or.inl ⟨rfl, hwin.mp rfl⟩, by omega,
                fun hc => (hcalm' hc).1, fun R hR => ⟨(hsched R hR).1, (by rintro ⟨⟩)⟩⟩
            | false =>
              simp only [Bool.false_eq_true, if_false]
              have hdata : s'.data = s.data := hle.data
              have hIH := ih (total + chunk.length)
                ((rotateRight (ov ++ chunk) 12).take 12) s' hwf'
                (by rw [hk4, hpos]; omega) (Or.inr (by rw [hdata]; omega))
                (by
                  rw [hdata, ← hsl]
                  have e1 : (rotateRight (ov ++ chunk) 12).take 12 =
                      (ov ++ chunk).drop ((ov ++ chunk).length - 12) := by
                    unfold rotateRight
                    rw [List.take_append_of_le_length (by rw [List.length_drop]; omega),
                      List.take_of_length_le (by rw [List.length_drop]; omega)]
                  rw [e1, hov, ← List.append_assoc]
                  generalize List.replicate 12 0 ++ slice s.data 5 total = H at hHlen hov ⊢
                  rw [hov] at hbl
                  rw [hbl, List.length_append]
                  have h12 : 12 ≤ H.length := by omega
                  have e2 : H ++ chunk = H.take (H.length - 12) ++ (H.drop (H.length - 12) ++ chunk) := by
                    rw [← List.append_assoc, List.take_append_drop]
                  conv => rhs; rw [e2]
                  have e3 : H.length + chunk.length - 12 =
                      (H.take (H.length - 12)).length + (12 + chunk.length - 12) := by
                    rw [List.length_take]; omega
                  rw [e3, ← List.drop_drop, List.drop_left])
                (by
                  rw [hdata]
                  exact fun h => absurd (hwin.mpr h) (by decide))
                (by omega) (by omega) (fun c => (hC c).mono hle) (by rw [hdata]; exact hcalm')
              rcases hIH with ⟨hn, e, h1⟩ | ⟨f, T, h1, h2, h3, h4, h5⟩
              · exact Or.inl ⟨fun hq => hn (hq.mono hle), e, h1⟩
              · rw [hdata] at h5
                exact Or.inr ⟨f, T, h1, by rw [← hdata]; exact h2, h3, h4, fun R hR => h5 R (hsched R hR).2⟩
        · subst hre
          exact Or.inl ⟨fun hq => hq.reads e he, e, rfl⟩
    · rename_i hge
      refine Or.inr ⟨_, total, rfl, Or.inr ⟨rfl, hno, Or.inl (by omega)⟩, hT, fun hc => (hcalm hc).1, fun R hR => ?_⟩
      rw [pdfReach_done _ _ hge] at hR
      rcases hR with rfl | ⟨h1, h2⟩
      · exact ⟨Nat.le_refl _, fun _ => Or.inl (Nat.le_refl _)⟩
      · exact ⟨h2, fun _ => Or.inr h1⟩

/-- The PDF reader on a stream whose calls do not fail. -/
theorem pdfReader_exec (s : Src) (hwf : s.WF) (hq : s.NoFail) (h5 : 5 ≤ s.maxPos) :
    ∃ f T, (execOn false pdfReader s).1 = .ok f ∧ PdfDone s.data T f ∧ T ≤ pdfReadLimit + 32767 ∧
      (s.Calm → T ≤ pdfReadLimit) ∧
      T ≤ pdfReach s.revs 0 ∧ (f = PortableDocumentFormat → pdfReach s.revs 0 ≤ T ∨ s.data.length ≤ 5 + T) := by
  have hst : ∃ s', s.seek (.start 5) = (.ok 5, s') ∧ s.Le s' ∧ s'.WF ∧ s'.pos = 5 ∧ s'.revs = s.revs := by
    unfold Src.seek
    have ht : seekTarget s.data.length s.maxPos s.pos (.start 5) = some 5 := if_pos h5
    cases hv : s.sevs with
    | nil =>
      simp only [ht]
      exact ⟨_, rfl, ⟨rfl, rfl, List.suffix_refl _, by rw [hv]; exact List.suffix_refl _⟩, ⟨hwf.len, h5⟩, rfl, rfl⟩
    | cons e es =>
      have he : e = none := hq.seeks e (by rw [hv]; simp)
      subst he
      simp only [ht]
      exact ⟨_, rfl, ⟨rfl, rfl, List.suffix_refl _, by rw [hv]; exact List.suffix_cons _ _⟩, ⟨hwf.len, h5⟩, rfl, rfl⟩
  obtain ⟨s', hs', hle, hwf', hp', hrevs⟩ := hst
  rcases pdfLoop_exec (pdfReadLimit + 1) 0 (List.replicate pdfOverlapSize 0) s'
    hwf' hp' (Or.inl rfl)
    (by rw [slice_zero]; decide) (by rw [slice_zero]; decide) (by decide) (by decide) s.Calm
    (fun c => c.mono hle) (fun _ => ⟨by decide, Or.inl ⟨0, rfl⟩⟩) with ⟨hn, _⟩ | ⟨f, T, h1, h2, h3, h4, h6⟩
  · exact absurd (hq.mono hle) hn
  have hd : s'.data = s.data := hle.data
  rw [hd] at h2 h6
  rw [hrevs] at h6
  refine ⟨f, T, ?_, h2, h3, h4, h6 _ (Or.inl rfl)⟩
  rw [← h1]
  show (match exec (Prog.seek (.start 5) fun _ => pdfLoop (pdfReadLimit + 1) 0 (List.replicate pdfOverlapSize 0))
    { src := s, buffered := false, buf := [] } with | (r, s) => (r, s.src)).1 = _
  simp only [exec, Rd.seek, if_true, hs']

theorem pdfDone_cases {d : Bytes} {T : Nat} {f : FileFormat} (h : PdfDone d T f)
    (hT : T ≤ pdfReadLimit + 32767) :
    (f = AdobeIllustratorArtwork ∧ OccursWithin aiMarker 5 (5 + T) d) ∨
    (f = PortableDocumentFormat ∧ ¬ OccursWithin aiMarker 5 33554437 d) := by
  have hlim : pdfReadLimit = 33554432 := rfl
  rcases h with ⟨h1, h2⟩ | ⟨h1, h2, h3⟩
  · exact Or.inl ⟨h1, (occursWithin_iff (by decide) 5 T d).mp h2⟩
  · refine Or.inr ⟨h1, fun ho => h2 ?_⟩
    rw [occursWithin_iff (by decide)]
    rcases h3 with h3 | h3
    · exact occursWithin_mono (by omega) ho
    · obtain ⟨pre, suf, e, h4, h5⟩ := ho
      have := congrArg List.length e
      simp only [List.length_append] at this
      exact ⟨pre, suf, e, h4, by omega⟩

end FF
