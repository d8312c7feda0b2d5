import Verif.Proofs.Rare
import Verif.Props.Evidence
import Verif.Props.Signature
/-!
# C90: false positives
-/

namespace FF.Props
open FF FileFormat Spec

set_option maxRecDepth 100000

/-- All strings of a length are counted, each of them once. -/
theorem C90_strings (n : Nat) :
    (∀ b, b ∈ strings n ↔ b.length = n) ∧ (strings n).Nodup ∧ (strings n).length = 256 ^ n :=
  ⟨mem_strings n, nodup_strings n, length_strings n⟩

/-- All magic values. -/
def allMagic : List (List Part) := signatureTable.flatMap SigEntry.alts

/-- The number of bytes of a magic value. -/
def magicLength (parts : List Part) : Nat := (parts.map fun p => p.value.length).sum

/-- Everything checked about the table. -/
def rareOk : Bool :=
  allMagic.all (fun parts => orderly 0 parts && Nat.ble (magicLength parts) 59) &&
    Nat.ble (2035 * (allMagic.map fun parts => 256 ^ (59 - magicLength parts)).sum) (256 ^ 59)

theorem rare_ok : rareOk = true := by decide +kernel

theorem rare_magic {parts : List Part} (h : parts ∈ allMagic) : orderly 0 parts = true ∧ magicLength parts ≤ 59 := by
  have := rare_ok
  rw [rareOk, Bool.and_eq_true, List.all_eq_true] at this
  have := this.1 parts h
  rw [Bool.and_eq_true, Nat.ble_eq] at this
  exact this

theorem rare_sum : 2035 * (allMagic.map fun parts => 256 ^ (59 - magicLength parts)).sum ≤ 256 ^ 59 := by
  have := rare_ok
  rw [rareOk, Bool.and_eq_true] at this
  exact Nat.le_of_ble_eq_true this.2

/-- One magic value. -/
theorem cnt_magic {parts : List Part} (h : parts ∈ allMagic) (n : Nat) :
    cnt n (fun b => fits (gaps 0 parts) b) * 256 ^ magicLength parts ≤ 256 ^ n := by
  have := cnt_fits (gaps 0 parts) (gaps_ne _ _ (rare_magic h).1) n
  rwa [gaps_given] at this

theorem fits_of_carries {parts : List Part} (h : parts ∈ allMagic) {b : Bytes} (hc : Carries b parts) :
    fits (gaps 0 parts) b = true :=
  fits_gaps parts 0 (rare_magic h).1 b hc

/-- Several magic values. -/
theorem cnt_magics (l : List (List Part)) (hl : ∀ parts ∈ l, parts ∈ allMagic) (n : Nat) :
    cnt n (fun b => l.any fun parts => fits (gaps 0 parts) b) * 256 ^ 59 ≤
      256 ^ n * (l.map fun parts => 256 ^ (59 - magicLength parts)).sum := by
  refine Nat.le_trans (Nat.mul_le_mul_right _ (cnt_any n l fun parts b => fits (gaps 0 parts) b)) ?_
  rw [sum_map_mul, Nat.mul_comm (256 ^ n), sum_map_mul]
  refine sum_map_le _ _ _ fun parts hp => ?_
  have h1 := cnt_magic (hl parts hp) n
  have h2 := (rare_magic (hl parts hp)).2
  have e : (256 : Nat) ^ 59 = 256 ^ magicLength parts * 256 ^ (59 - magicLength parts) := by
    rw [← Nat.pow_add]; congr 1; omega
  rw [e, ← Nat.mul_assoc, Nat.mul_comm (256 ^ (59 - magicLength parts))]
  exact Nat.mul_le_mul_right _ h1

theorem howMany_le {n : Nat} {P : Bytes → Prop} [DecidablePred P] {q : Bytes → Bool}
    (h : ∀ b, b.length = n → P b → q b = true) : howMany n P ≤ cnt n q :=
  cnt_mono fun b hb hp => h b hb (of_decide_eq_true hp)

theorem carries_of_signature {b : Bytes} {f : FileFormat} (h : fromSignature b = some f) :
    ∃ parts ∈ allMagic, fits (gaps 0 parts) b = true := by
  obtain ⟨e, he, _, parts, hp, hc⟩ := fromSignature_some h
  have hm : parts ∈ allMagic := List.mem_flatMap.mpr ⟨e, he, hp⟩
  exact ⟨parts, hm, fits_of_carries hm hc⟩

/-- A string with a magic value passes one of the tests. -/
def someMagic (b : Bytes) : Bool := allMagic.any fun parts => fits (gaps 0 parts) b

theorem cnt_someMagic (n : Nat) : 2035 * cnt n someMagic ≤ 256 ^ n := by
  have h1 := cnt_magics allMagic (fun _ h => h) n
  have h2 := rare_sum
  generalize hK : (256 : Nat) ^ 59 = K at h1 h2
  have hpos : 0 < K := by rw [← hK]; exact Nat.pow_pos (by omega)
  generalize (allMagic.map fun parts => 256 ^ (59 - magicLength parts)).sum = W at h1 h2
  have h3 : cnt n someMagic * K ≤ 256 ^ n * W := h1
  refine Nat.le_of_mul_le_mul_right ?_ hpos
  calc 2035 * cnt n someMagic * K = 2035 * (cnt n someMagic * K) := Nat.mul_assoc _ _ _
    _ ≤ 2035 * (256 ^ n * W) := Nat.mul_le_mul_left _ h3
    _ = 256 ^ n * (2035 * W) := Nat.mul_left_comm _ _ _
    _ ≤ 256 ^ n * K := Nat.mul_le_mul_left _ h2

theorem idealGeneric_either (ft : Features) (b : Bytes) (m : Nat) :
    idealGeneric ft b m = .ok ArbitraryBinaryData ∨
      (idealGeneric ft b m = .ok PlainText ∧ IsText (firstLines 16 (b.take 65536))) := by
  cases ht : ft.txt with
  | true =>
    rcases idealGeneric_text ft b m ht with ⟨h1, h2⟩ | ⟨_, h2⟩
    · exact .inr ⟨h2, h1⟩
    · exact .inl h2
  | false =>
    unfold idealGeneric
    rw [ht]
    exact .inl rfl

/-- Everything that is neither arbitrary data nor text shows a magic value. -/
theorem someMagic_of {cfg : Cfg} {ft : Features} {b : Bytes} (hb : b.length < 2 ^ 63) (hne : b ≠ [])
    (h1 : fromBytes cfg ft b ≠ .ok ArbitraryBinaryData) (h2 : fromBytes cfg ft b ≠ .ok PlainText) :
    someMagic b = true := by
  rw [fromBytes_ideal cfg ft b (by omega)] at h1 h2
  have key : ∀ f, fromSignature b = some f → someMagic b = true := by
    intro f hf
    obtain ⟨parts, hp, hx⟩ := carries_of_signature hf
    exact List.any_eq_true.mpr ⟨parts, hp, hx⟩
  rcases ideal_outcome cfg ft b (2 ^ 64 - 1) with h | ⟨_, hs, hr⟩ | ⟨_, f, hs, _⟩ | ⟨_, g, _, _, hs, _⟩ | ⟨_, g, _, _, hs, _⟩ |
    ⟨_, g, _, _, hs, _⟩
  · exact absurd h hne
  · rcases idealGeneric_either ft b (2 ^ 64 - 1) with h | ⟨h, _⟩
    · exact absurd (hr.trans h) h1
    · exact absurd (hr.trans h) h2
  · exact key _ hs
  · exact key _ hs
  · exact key _ hs
  · exact key _ hs

/-- Everything that is reported as text begins like text. -/
theorem textual_of {cfg : Cfg} {ft : Features} {b : Bytes} (hb : b.length < 2 ^ 63)
    (h : fromBytes cfg ft b = .ok PlainText) : textual 0 (b.take 16) = true := by
  rw [fromBytes_ideal cfg ft b (by omega)] at h
  have hgen : idealGeneric ft b (2 ^ 64 - 1) = .ok PlainText → textual 0 (b.take 16) = true := by
    intro h
    rcases idealGeneric_either ft b (2 ^ 64 - 1) with h' | ⟨_, h'⟩
    · rw [h'] at h; cases h
    · exact textual_first h'
  rcases ideal_outcome cfg ft b (2 ^ 64 - 1) with ⟨_, hr⟩ | ⟨_, hs, hr⟩ | ⟨_, f, hs, _, hr⟩ | ⟨_, g, hg, _, hs, f, _, hf, hr⟩ |
    ⟨_, g, _, _, hs, _, _, hr⟩ | ⟨_, g, _, _, hs, _, _, _, hr⟩
  · rw [hr] at h; cases h
  · exact hgen (hr.symm.trans h)
  · rw [hr] at h
    cases h
    exact absurd rfl (hasMagic_special (fromSignature_some hs)).2.2
  · rw [hr] at h
    cases h
    exact absurd hf (by revert hg; cases g <;> decide)
  · exact hgen (hr.symm.trans h)
  · rw [hr] at h; cases h

/-- C90. Among the byte strings of a length, fewer than one in 2035 are reported as anything but arbitrary data or text,
whatever readers are enabled (in builds with overflow checks a panic counts as well). -/
theorem C90_false_positives (cfg : Cfg) (ft : Features) (n : Nat) (h0 : 0 < n) (hn : n < 2 ^ 63) :
    2035 * howMany n (fun b => fromBytes cfg ft b ≠ .ok ArbitraryBinaryData ∧ fromBytes cfg ft b ≠ .ok PlainText) ≤
      256 ^ n := by
  refine Nat.le_trans (Nat.mul_le_mul_left _ (howMany_le fun b hb h => ?_)) (cnt_someMagic n)
  exact someMagic_of (by omega) (by rintro rfl; simp at hb; omega) h.1 h.2

theorem cnt_text (r : Nat) : 128143 * cnt (16 + r) (fun b => textual 0 (b.take 16)) ≤ 256 ^ (16 + r) := by
  rw [cnt_take 16 r, (cnt_textual 16).1, Nat.pow_add, ← Nat.mul_assoc]
  exact Nat.mul_le_mul_right _ (by decide +kernel)

/-- C90. Of the strings of a length of 16 or more, fewer than one in 128143 are reported as text. -/
theorem C90_text (cfg : Cfg) (ft : Features) (n : Nat) (h0 : 16 ≤ n) (hn : n < 2 ^ 63) :
    128143 * howMany n (fun b => fromBytes cfg ft b = .ok PlainText) ≤ 256 ^ n := by
  obtain ⟨r, rfl⟩ : ∃ r, n = 16 + r := ⟨n - 16, by omega⟩
  refine Nat.le_trans (Nat.mul_le_mul_left _ (howMany_le fun b hb h => ?_)) (cnt_text r)
  exact textual_of (by omega) h

/-- C90. So random content of 16 bytes or more is arbitrary binary data, but for one in 2003. -/
theorem C90_arbitrary (cfg : Cfg) (ft : Features) (n : Nat) (h0 : 16 ≤ n) (hn : n < 2 ^ 63) :
    2003 * howMany n (fun b => fromBytes cfg ft b ≠ .ok ArbitraryBinaryData) ≤ 256 ^ n := by
  obtain ⟨r, rfl⟩ : ∃ r, n = 16 + r := ⟨n - 16, by omega⟩
  have h1 := cnt_someMagic (16 + r)
  have h2 := cnt_text r
  have h3 := cnt_or (16 + r) someMagic fun b => textual 0 (b.take 16)
  have h4 : howMany (16 + r) (fun b => fromBytes cfg ft b ≠ .ok ArbitraryBinaryData) ≤
      cnt (16 + r) fun b => someMagic b || textual 0 (b.take 16) := by
    refine howMany_le fun b hb h => ?_
    rw [Bool.or_eq_true]
    by_cases ht : fromBytes cfg ft b = .ok PlainText
    · exact .inr (textual_of (by omega) ht)
    · exact .inl (someMagic_of (by omega) (by rintro rfl; simp at hb; omega) h ht)
  generalize (256 : Nat) ^ (16 + r) = T at *
  omega

/-- C90, one format: if none of the at most `m` magic values of a format is shorter than `k` bytes, at most `m` in `256 ^ k`
strings of a length carry its signature. -/
theorem C90_format (cfg : Cfg) (f : FileFormat) (k m : Nat) (hf : f ≠ FileFormat.Empty) (hd : f ≠ ArbitraryBinaryData)
    (h : ∀ e ∈ signatureTable, e.format = f →
      e.alts.length ≤ m ∧ ∀ parts ∈ e.alts, k ≤ (parts.map fun p => p.value.length).sum)
    (n : Nat) (hn : n < 2 ^ 63) :
    256 ^ k * howMany n (fun b => fromBytes cfg Features.none b = .ok f) ≤ m * 256 ^ n := by
  have hsig : ∀ b : Bytes, b.length = n → fromBytes cfg Features.none b = .ok f → HasMagic f b := fun b hb hx =>
    C04_sound cfg b (show b.length < 2 ^ 63 by omega) f hx hf hd
  by_cases he : ∃ e ∈ signatureTable, e.format = f
  · obtain ⟨e, he, hef⟩ := he
    obtain ⟨hm, hk⟩ := h e he hef
    have h1 : howMany n (fun b => fromBytes cfg Features.none b = .ok f) ≤
        (e.alts.map fun parts => cnt n fun b => fits (gaps 0 parts) b).sum := by
      refine Nat.le_trans (howMany_le (q := fun b => e.alts.any fun parts => fits (gaps 0 parts) b) fun b hb hx => ?_)
        (cnt_any n e.alts fun parts b => fits (gaps 0 parts) b)
      obtain ⟨e', he', hf', parts, hp, hc⟩ := hsig b hb hx
      have : e' = e := by
        have hinj := (List.pairwise_map.mp table_nodup)
        rcases List.getElem_of_mem he with ⟨i, hi, rfl⟩
        rcases List.getElem_of_mem he' with ⟨j, hj, rfl⟩
        rw [List.pairwise_iff_getElem] at hinj
        rcases Nat.lt_trichotomy i j with hij | rfl | hij
        · exact absurd (hef.trans hf'.symm) (hinj i j hi hj hij)
        · rfl
        · exact absurd (hf'.trans hef.symm) (hinj j i hj hi hij)
      subst this
      exact List.any_eq_true.mpr ⟨parts, hp, fits_of_carries (List.mem_flatMap.mpr ⟨_, he', hp⟩) hc⟩
    have h2 : (e.alts.map fun parts => cnt n fun b => fits (gaps 0 parts) b).sum * 256 ^ k ≤ e.alts.length * 256 ^ n := by
      rw [sum_map_mul]
      refine Nat.le_trans (sum_map_le _ _ (fun _ => 256 ^ n) fun parts hp => ?_) ?_
      · refine Nat.le_trans (Nat.mul_le_mul_left _ (Nat.pow_le_pow_right (by omega) (hk parts hp))) ?_
        exact cnt_magic (List.mem_flatMap.mpr ⟨_, he, hp⟩) n
      · clear h1 hm hk he hef
        induction e.alts with
        | nil => simp
        | cons a t ih => simp only [List.map_cons, List.sum_cons, List.length_cons, Nat.succ_mul]; omega
    rw [Nat.mul_comm]
    refine Nat.le_trans (Nat.mul_le_mul_right _ h1) (Nat.le_trans h2 (Nat.mul_le_mul_right _ hm))
  · have h0 : howMany n (fun b => fromBytes cfg Features.none b = .ok f) ≤ cnt n fun _ => false :=
      howMany_le fun b hb hx => by
        obtain ⟨e, he', hf', _⟩ := hsig b hb hx
        exact absurd ⟨e, he', hf'⟩ he
    rw [cnt_false] at h0
    rw [Nat.le_zero.mp h0]
    simp

/-! ## The bound is nearly reached -/

/-- The magic values of two bytes at the beginning. -/
def pairs : List Bytes := allMagic.filterMap fun parts =>
  match parts with
  | [p] => if p.offset == 0 && p.value.length == 2 then some p.value else none
  | _ => none

theorem pairs_ok : (pairs.length == 28 && pairs.all fun v => v.length == 2) = true := by decide +kernel
theorem pairs_nodup : pairs.Nodup := by decide +kernel

theorem cnt_prefixes (l : List Bytes) (k n : Nat) (hk : ∀ v ∈ l, v.length = k) (hl : l.Nodup) :
    cnt (k + n) (fun b => l.any fun v => v.isPrefixOf b) = l.length * 256 ^ n := by
  induction l with
  | nil => simp [cnt_false]
  | cons v t ih =>
    simp only [List.any_cons]
    rw [cnt_add_disjoint, ih (fun v hv => hk v (by simp [hv])) (List.nodup_cons.mp hl).2]
    · have := cnt_prefix v n fun _ => true
      rw [cnt_true, hk v (by simp)] at this
      simp only [Bool.and_true] at this
      rw [this, List.length_cons, Nat.succ_mul, Nat.add_comm]
    · intro b hb
      rw [List.any_eq_false]
      intro w hw hwb
      have e1 := List.prefix_iff_eq_take.mp (List.isPrefixOf_iff_prefix.mp hb)
      have e2 := List.prefix_iff_eq_take.mp (List.isPrefixOf_iff_prefix.mp hwb)
      rw [hk v (by simp)] at e1
      rw [hk w (by simp [hw])] at e2
      exact (List.nodup_cons.mp hl).1 (by rw [e1, ← e2]; exact hw)

/-- C90. The bound is nearly reached: without readers at least one string in 2341 is reported as something. -/
theorem C90_positives (cfg : Cfg) (n : Nat) (h0 : 2 ≤ n) (hn : n < 2 ^ 63) :
    256 ^ n ≤ 2341 * howMany n (fun b => fromBytes cfg Features.none b ≠ .ok ArbitraryBinaryData) := by
  obtain ⟨r, rfl⟩ : ∃ r, n = 2 + r := ⟨n - 2, by omega⟩
  have hp := pairs_ok
  simp only [Bool.and_eq_true, beq_iff_eq, List.all_eq_true] at hp
  have h1 := cnt_prefixes pairs 2 r hp.2 pairs_nodup
  have h2 : cnt (2 + r) (fun b => pairs.any fun v => v.isPrefixOf b) ≤
      howMany (2 + r) (fun b => fromBytes cfg Features.none b ≠ .ok ArbitraryBinaryData) := by
    refine cnt_mono fun b hb hx => decide_eq_true ?_
    obtain ⟨v, hv, hvb⟩ := List.any_eq_true.mp hx
    obtain ⟨parts, hm, hf⟩ := List.mem_filterMap.mp hv
    obtain ⟨e, he, hpe⟩ := List.mem_flatMap.mp hm
    have hc : Carries b parts := by
      split at hf
      · split at hf
        · rename_i hx
          cases hf
          simp only [Bool.and_eq_true, beq_iff_eq] at hx
          intro q hq
          rcases List.mem_singleton.mp hq with rfl
          obtain ⟨suf, hs⟩ := List.isPrefixOf_iff_prefix.mp hvb
          exact ⟨[], suf, by simp [hs], by simp [hx.1]⟩
        · cases hf
      · cases hf
    obtain ⟨g, hg, hgm, _⟩ := C05_complete cfg b (show b.length < 2 ^ 63 by omega) e.format ⟨e, he, rfl, parts, hpe, hc⟩
    rw [hg]
    intro h
    cases h
    exact (hasMagic_special hgm).2.1 rfl
  rw [h1, hp.1] at h2
  rw [Nat.pow_add]
  generalize (256 : Nat) ^ r = T at *
  omega

/-! ## Streams -/

theorem window_prefix {s : Src} (hs : s.WF) {n : Nat} {buf : Bytes} (hb : (s.read n).1 = .ok buf) :
    buf <+: s.data.drop s.pos := by
  rcases (Src.read_spec s n hs).2.2 with ⟨k, _, _, hk, _⟩ | ⟨e, he, _⟩
  · rw [hk] at hb
    cases hb
    exact List.take_prefix _ _
  · rw [he] at hb
    cases hb

theorem someMagic_of_window {s : Src} (hs : s.WF) (hp : s.pos = 0) (hl : IsSlice s.data) {buf : Bytes}
    (hb : (s.read 36870).1 = .ok buf) {f : FileFormat} (hr : Recognised buf f) (h1 : f ≠ FileFormat.Empty)
    (h2 : f ≠ ArbitraryBinaryData) : someMagic s.data = true := by
  obtain ⟨suf, hx⟩ := window_prefix hs hb
  rw [hp, List.drop_zero] at hx
  have hbl : IsSlice buf := by
    have : s.data.length < 2 ^ 63 := hl
    have e := congrArg List.length hx
    rw [List.length_append] at e
    show buf.length < 2 ^ 63
    omega
  obtain ⟨e, he, hf, parts, hpa, hc⟩ := C04_sound _ buf hbl f hr h1 h2
  refine List.any_eq_true.mpr ⟨parts, List.mem_flatMap.mpr ⟨e, he, hpa⟩, ?_⟩
  refine fits_of_carries (List.mem_flatMap.mpr ⟨e, he, hpa⟩) fun q hq => ?_
  obtain ⟨pre, post, e1, e2⟩ := hc q hq
  exact ⟨pre, post ++ suf, by rw [← hx, e1]; simp, e2⟩

/-- Every format that a stream is reported as, other than the default and text, shows a magic value. -/
theorem someMagic_of_stream {cfg : Cfg} {ft : Features} {s : Src} (hs : s.WF) (hp : s.pos = 0) (hl : IsSlice s.data)
    (h : OtherThan [FileFormat.Empty, ArbitraryBinaryData, PlainText] (fromReader cfg ft s).1) :
    someMagic s.data = true := by
  obtain ⟨f, hf, hn⟩ := h
  simp only [List.mem_cons, List.not_mem_nil, or_false, not_or] at hn
  obtain ⟨buf, hb, h | h | h | ⟨g, hg, _, hr, _⟩⟩ := C61_evidence cfg ft s hs hl f hf
  · exact someMagic_of_window hs hp hl hb h hn.1 hn.2.1
  · exact absurd h hn.2.1
  · exact absurd h.1 hn.2.2
  · exact someMagic_of_window hs hp hl hb hr (by revert hg; cases g <;> decide) (by revert hg; cases g <;> decide)

theorem evidence_not_text {b : Bytes} : ¬ Evidence b PlainText := by
  suffices h : ∀ f, Evidence b f → f ≠ PlainText from fun h' => h _ h' rfl
  have c1 : ∀ r ∈ clsids, r.2 ≠ PlainText := by decide +kernel
  have c2 : ∀ r ∈ xmlMarkers, r.1 ≠ PlainText := by decide +kernel
  have c3 : ∀ r ∈ zipExactNames, r.2 ≠ PlainText := by decide +kernel
  have c4 : ∀ r ∈ zipDirectories, r.2 ≠ PlainText := by decide +kernel
  have c5 : ∀ r ∈ zipMediaTypes, r.2 ≠ PlainText := by decide +kernel
  intro f h
  cases h with
  | clsid h _ => exact c1 _ h
  | xml h _ => exact c2 _ h
  | zipEntry _ hn =>
    cases hn with
    | exact h => exact c3 _ h
    | inside h _ => exact c4 _ h
    | _ => decide
  | mimetype _ _ _ _ hm =>
    obtain ⟨m, _, _, h, _⟩ := hm
    exact c5 _ h
  | _ => decide

theorem textual_of_stream {cfg : Cfg} {ft : Features} {s : Src} (hs : s.WF) (hl : IsSlice s.data)
    (h : (fromReader cfg ft s).1 = .ok PlainText) : textual 0 (s.data.take 16) = true := by
  obtain ⟨buf, hb, h | h | h | ⟨g, hg, _, hr, h⟩⟩ := C61_evidence cfg ft s hs hl PlainText h
  · obtain ⟨suf, hx⟩ := window_prefix hs hb
    have hbl : IsSlice buf := by
      have : s.data.length < 2 ^ 63 := hl
      have e := congrArg List.length hx
      rw [List.length_append, List.length_drop] at e
      show buf.length < 2 ^ 63
      omega
    exact absurd rfl (hasMagic_special (C04_sound _ buf hbl _ h (by decide) (by decide))).2.2
  · cases h
  · exact textual_first h.2.2
  · exact (evidence_not_text h).elim

/-- C90 for streams, whatever their reads and seeks do: of the contents of a length, fewer than one in 2035 are reported as
anything else than empty, arbitrary data or text. -/
theorem C90_stream_false_positives (cfg : Cfg) (ft : Features) (n : Nat) (hn : n < 2 ^ 63) (src : Bytes → Src)
    (hs : ∀ b, (src b).WF ∧ (src b).data = b ∧ (src b).pos = 0) :
    2035 * howMany n (fun b => OtherThan [FileFormat.Empty, ArbitraryBinaryData, PlainText] (fromReader cfg ft (src b)).1) ≤
      256 ^ n := by
  refine Nat.le_trans (Nat.mul_le_mul_left _ (howMany_le fun b hb h => ?_)) (cnt_someMagic n)
  obtain ⟨h1, h2, h3⟩ := hs b
  have := someMagic_of_stream h1 h3 (by rw [h2]; show b.length < 2 ^ 63; omega) h
  rwa [h2] at this

/-- C90 for streams, whatever their reads and seeks do and wherever they start: fewer than one content in 128143 is
reported as text. -/
theorem C90_stream_text (cfg : Cfg) (ft : Features) (n : Nat) (h0 : 16 ≤ n) (hn : n < 2 ^ 63) (src : Bytes → Src)
    (hs : ∀ b, (src b).WF ∧ (src b).data = b) :
    128143 * howMany n (fun b => (fromReader cfg ft (src b)).1 = .ok PlainText) ≤ 256 ^ n := by
  obtain ⟨r, rfl⟩ : ∃ r, n = 16 + r := ⟨n - 16, by omega⟩
  refine Nat.le_trans (Nat.mul_le_mul_left _ (howMany_le fun b hb h => ?_)) (cnt_text r)
  obtain ⟨h1, h2⟩ := hs b
  have := textual_of_stream h1 (by rw [h2]; show b.length < 2 ^ 63; omega) h
  rwa [h2] at this

/-- C90 for files with any content: `from_file` reports fewer than one in 2035 as anything else than empty, arbitrary data
or text, and from 16 bytes on fewer than one in 128143 as text. -/
theorem C90_files {Path : Type} (cfg : Cfg) (ft : Features) (n : Nat) (hn : n < 2 ^ 63) (p : Path)
    (fs : Bytes → FileSystem Path) (src : Bytes → Src) (hf : ∀ b, fs b p = .ok (src b))
    (hs : ∀ b, (src b).WF ∧ (src b).data = b ∧ (src b).pos = 0) :
    2035 * howMany n (fun b => OtherThan [FileFormat.Empty, ArbitraryBinaryData, PlainText] (fromFile cfg ft (fs b) p)) ≤
      256 ^ n ∧
    (16 ≤ n → 128143 * howMany n (fun b => fromFile cfg ft (fs b) p = .ok PlainText) ≤ 256 ^ n) := by
  have e : ∀ b, fromFile cfg ft (fs b) p = (fromReader cfg ft (src b)).1 := fun b => by
    unfold fromFile
    rw [hf b]
  simp only [e]
  exact ⟨C90_stream_false_positives cfg ft n hn src hs, fun h => C90_stream_text cfg ft n h hn src fun b => ⟨(hs b).1, (hs b).2.1⟩⟩

/-- A PNG signature has eight bytes: at most one string in `256 ^ 8` of any length has it. -/
example (n : Nat) (hn : n < 2 ^ 63) :
    256 ^ 8 * howMany n (fun b => fromBytes Cfg.release Features.none b = .ok PortableNetworkGraphics) ≤ 1 * 256 ^ n := by
  refine C90_format _ _ 8 1 (by decide) (by decide) (fun e he hf => ?_) n hn
  have h : signatureTable.all (fun e => !(e.format == PortableNetworkGraphics) ||
      (Nat.ble e.alts.length 1 && e.alts.all fun parts => Nat.ble 8 (parts.map fun p => p.value.length).sum)) = true := by
    decide +kernel
  have := List.all_eq_true.mp h e he
  simp only [hf, beq_self_eq_true, Bool.not_true, Bool.false_or, Bool.and_eq_true, Nat.ble_eq, List.all_eq_true] at this
  exact this

example : howMany 1 (fun b => Nat.ble 48 (b.headD 0).toNat ∧ Nat.ble (b.headD 0).toNat 57) = 10 := by decide +kernel
example : fromBytes Cfg.release Features.all b!"sixteen letters." = .ok PlainText := by decide +kernel
example : fromBytes Cfg.release Features.none b!"MZ" = .ok MsDosExecutable := by decide +kernel


/-- Streams that deliver seven bytes in the first read and fail in the first seek. -/
example (n : Nat) (hn : n < 2 ^ 63) :
    2035 * howMany n (fun b => OtherThan [FileFormat.Empty, ArbitraryBinaryData, PlainText]
      (fromReader Cfg.release Features.all ⟨b, 0, max (2 ^ 63 - 1) b.length, [.short 6], [some .invalidInput], []⟩).1) ≤ 256 ^ n :=
  C90_stream_false_positives _ _ n hn _ fun b => ⟨⟨Nat.le_max_right _ _, Nat.zero_le _⟩, rfl, rfl⟩

example : OtherThan [FileFormat.Empty, ArbitraryBinaryData, PlainText]
    (fromReader Cfg.release Features.none ⟨b!"MZ more", 0, 99, [.short 1], [], []⟩).1 := by decide +kernel
example : ¬ OtherThan [FileFormat.Empty, ArbitraryBinaryData, PlainText]
    (fromReader Cfg.release Features.none ⟨b!"MZ more", 0, 99, [.short 0], [], []⟩).1 := by decide +kernel

end FF.Props
