import Verif.Proofs.Text2
/-!
# Reader features (C15, C16, C18, C19)
-/

namespace FF.Props
open FF Spec FileFormat

/-- The two feature sets differ at most in feature `g`. -/
def SameExcept (g : Feature) (ft ft' : Features) : Prop :=
  ∀ h : Feature, h ≠ g → h.enabled ft = h.enabled ft'

theorem recognised_of_signature {b : Bytes} (hb : b.length < 2 ^ 64) {f : FileFormat}
    (hs : fromSignature b = some f) : Recognised b f := by
  unfold Recognised
  rw [fromBytes_none _ _ hb, hs]
  have : b.length ≠ 0 := by
    intro h0
    have : b = [] := List.eq_nil_of_length_eq_zero h0
    subst this
    have hn : fromSignature [] = none := by decide +kernel
    rw [hn] at hs
    cases hs
  rw [if_neg this]
  rfl

theorem signature_of_recognised {b : Bytes} (hb : b.length < 2 ^ 64) {g : Feature}
    (hg : g ∈ Feature.structured) (hr : Recognised b g.base) : fromSignature b = some g.base :=
  have h := family_special g hg g.base (by simp)
  fromSignature_of_none hb hr h.1 h.2.1

theorem fmtReader_same {cfg : Cfg} {g : Feature} {ft ft' : Features}
    (h : SameExcept g ft ft') {fmt : FileFormat} (hf : g ∈ Feature.structured → fmt ≠ g.base) :
    fmtReader cfg ft fmt = fmtReader cfg ft' fmt := by
  have key : ∀ f ∈ Feature.structured, fmt = f.base → fmtReader cfg ft fmt = fmtReader cfg ft' fmt := by
    rintro f hfs rfl
    have : f ≠ g := by rintro rfl; exact hf hfs rfl
    rw [fmtReader_base _ _ _ hfs, fmtReader_base _ _ _ hfs, h f this]
  rcases fmtReader_cases cfg ft fmt with h1 | ⟨f, hfs, _, hb, _⟩
  · rcases fmtReader_cases cfg ft' fmt with h2 | ⟨f, hfs, _, hb, _⟩
    · rw [h1, h2]
    · exact key f hfs hb
  · exact key f hfs hb

theorem same_txt {g : Feature} (hg : g ∈ Feature.structured) {ft ft' : Features}
    (h : SameExcept g ft ft') : ft.txt = ft'.txt :=
  h .txt (by rintro rfl; exact absurd hg (by decide))

/-! ## C15 -/

/-- C15. Switching a reader feature (other than `reader-txt`) changes nothing on inputs that are not
recognised as its base format. -/
theorem C15_own_base_only (cfg : Cfg) (g : Feature) (hg : g ∈ Feature.structured) (ft ft' : Features)
    (h : SameExcept g ft ft') (b : Bytes) (hb : IsSlice b) (hr : ¬ Recognised b g.base) :
    fromBytes cfg ft b = fromBytes cfg ft' b := by
  have hb' : b.length < 2 ^ 63 := hb
  rw [fromBytes_ideal _ _ _ (by omega), fromBytes_ideal _ _ _ (by omega)]
  unfold ideal idealGeneric
  rw [same_txt hg h, fromSignature_take _ _ (Nat.le_refl _)]
  cases hs : fromSignature b with
  | none => rfl
  | some fmt =>
    simp only
    rw [fmtReader_same h]
    rintro _ rfl
    exact hr (recognised_of_signature (by omega) hs)

/-- C15 on streams, for every schedule of short reads and failures: the outcome and the state of the
stream are the same unless the bytes delivered by the first read are recognised as the base format. -/
theorem C15_own_base_only_stream (cfg : Cfg) (g : Feature) (hg : g ∈ Feature.structured)
    (ft ft' : Features) (h : SameExcept g ft ft') (s : Src) (hs : s.WF) (hl : IsSlice s.data)
    (hr : ∀ buf, (s.read 36870).1 = .ok buf → ¬ Recognised buf g.base) :
    fromReader cfg ft s = fromReader cfg ft' s := by
  have hl' : s.data.length < 2 ^ 63 := hl
  rw [fromReader_eq, fromReader_eq]
  have hr' : ∀ buf, (s.read bufferSize).1 = .ok buf → ¬ Recognised buf g.base := hr
  obtain ⟨hle, _, hcase⟩ := Src.read_spec s bufferSize hs
  cases hx : s.read bufferSize with
  | mk r s' =>
    rw [hx] at hr' hcase
    cases r with
    | error e => rfl
    | ok buf =>
      have hbuf : buf.length < 2 ^ 64 := by
        rcases hcase with ⟨k, _, _, h2, _⟩ | ⟨e, h2, _⟩
        · cases h2; rw [length_slice]; omega
        · cases h2
      simp only [afterRead, fromGenericReader, same_txt hg h]
      cases hsig : fromSignature buf with
      | none => rfl
      | some fmt =>
        simp only [fromFmtReader]
        rw [fmtReader_same (cfg := cfg) h]
        rintro _ rfl
        exact hr' buf rfl (recognised_of_signature hbuf hsig)

/-- C15. `reader-txt` only turns `ArbitraryBinaryData` into `PlainText`. -/
theorem C15_txt_only_from_default (cfg : Cfg) (ft ft' : Features) (h : SameExcept .txt ft ft')
    (hoff : ft.txt = false) (b : Bytes) (hb : IsSlice b) :
    fromBytes cfg ft b = fromBytes cfg ft' b ∨
    (fromBytes cfg ft b = .ok ArbitraryBinaryData ∧ fromBytes cfg ft' b = .ok PlainText) := by
  have hb' : b.length < 2 ^ 63 := hb
  rw [fromBytes_ideal _ _ _ (by omega), fromBytes_ideal _ _ _ (by omega)]
  have hg : idealGeneric ft b (2 ^ 64 - 1) = .ok ArbitraryBinaryData := by
    unfold idealGeneric; rw [hoff]; rfl
  have hg' : idealGeneric ft' b (2 ^ 64 - 1) = .ok ArbitraryBinaryData ∨
      idealGeneric ft' b (2 ^ 64 - 1) = .ok PlainText := by
    rcases idealGeneric_cases ft' b (2 ^ 64 - 1) with ⟨_, _, h⟩ | ⟨_, h⟩
    · exact Or.inr h
    · exact Or.inl h
  unfold ideal
  rw [fromSignature_take _ _ (Nat.le_refl _)]
  by_cases h0 : b.length = 0
  · rw [if_pos h0, if_pos h0]; exact Or.inl rfl
  · rw [if_neg h0, if_neg h0]
    cases hs : fromSignature b with
    | none =>
      simp only
      rw [hg]
      rcases hg' with hg' | hg' <;> rw [hg']
      · exact Or.inl rfl
      · exact Or.inr ⟨rfl, rfl⟩
    | some fmt =>
      simp only
      rw [fmtReader_same (cfg := cfg) h (fun hm => absurd hm (by decide))]
      cases fmtReader cfg ft' fmt with
      | none => exact Or.inl rfl
      | some r =>
        obtain ⟨_, prog⟩ := r
        simp only
        generalize val (run b (2 ^ 64 - 1) prog 0) = v
        rcases v with (e | _ | _) | f
        · simp only [orDefault]
          rw [hg]
          rcases hg' with hg' | hg' <;> rw [hg']
          · exact Or.inl rfl
          · exact Or.inr ⟨rfl, rfl⟩
        · exact Or.inl rfl
        · exact Or.inl rfl
        · exact Or.inl rfl

/-- The two feature sets agree on every feature whose base format `b` is recognised as, and on
`reader-txt`. -/
def AgreeOn (b : Bytes) (ft ft' : Features) : Prop :=
  (∀ g ∈ Feature.structured, Recognised b g.base → g.enabled ft = g.enabled ft') ∧ ft.txt = ft'.txt

theorem fmtReader_agree {cfg : Cfg} {b : Bytes} (hb : b.length < 2 ^ 64) {ft ft' : Features}
    (h : AgreeOn b ft ft') {fmt : FileFormat} (hs : fromSignature b = some fmt) :
    fmtReader cfg ft fmt = fmtReader cfg ft' fmt := by
  have key : ∀ g ∈ Feature.structured, fmt = g.base →
      fmtReader cfg ft fmt = fmtReader cfg ft' fmt := by
    rintro g hg rfl
    rw [fmtReader_base _ _ _ hg, fmtReader_base _ _ _ hg,
      h.1 g hg (recognised_of_signature hb hs)]
  rcases fmtReader_cases cfg ft fmt with h1 | ⟨f, hfs, _, hb, _⟩
  · rcases fmtReader_cases cfg ft' fmt with h2 | ⟨f, hfs, _, hb, _⟩
    · rw [h1, h2]
    · exact key f hfs hb
  · exact key f hfs hb

/-- C15. Of the twelve feature switches at most two can matter for one input: `reader-txt` and the
one whose base format the input is recognised as. However the other switches are set, the outcome is
the same. -/
theorem C15_two_switches (cfg : Cfg) (ft ft' : Features) (b : Bytes) (hb : IsSlice b)
    (h : AgreeOn b ft ft') : fromBytes cfg ft b = fromBytes cfg ft' b := by
  have hb' : b.length < 2 ^ 63 := hb
  rw [fromBytes_ideal _ _ _ (by omega), fromBytes_ideal _ _ _ (by omega)]
  unfold ideal idealGeneric
  rw [h.2, fromSignature_take _ _ (Nat.le_refl _)]
  cases hs : fromSignature b with
  | none => rfl
  | some fmt =>
    simp only
    rw [fmtReader_agree (by omega) h hs]

/-- C15 on streams, for every schedule: the outcome, the calls and the final state of the stream. -/
theorem C15_two_switches_stream (cfg : Cfg) (ft ft' : Features) (s : Src) (hs : s.WF)
    (hl : IsSlice s.data) (h : ∀ buf, (s.read 36870).1 = .ok buf → AgreeOn buf ft ft') :
    fromReader cfg ft s = fromReader cfg ft' s := by
  have hl' : s.data.length < 2 ^ 63 := hl
  rw [fromReader_eq, fromReader_eq]
  have h' : ∀ buf, (s.read bufferSize).1 = .ok buf → AgreeOn buf ft ft' := h
  obtain ⟨hle, _, hcase⟩ := Src.read_spec s bufferSize hs
  cases hx : s.read bufferSize with
  | mk r s' =>
    rw [hx] at h' hcase
    cases r with
    | error e => rfl
    | ok buf =>
      have hbuf : buf.length < 2 ^ 64 := by
        rcases hcase with ⟨k, _, _, h2, _⟩ | ⟨e, h2, _⟩
        · cases h2; rw [length_slice]; omega
        · cases h2
      have hag := h' buf rfl
      simp only [afterRead, fromGenericReader, hag.2]
      cases hsig : fromSignature buf with
      | none => rfl
      | some fmt =>
        simp only [fromFmtReader]
        rw [fmtReader_agree (cfg := cfg) hbuf hag hsig]

/-- C15. On an input recognised as a format that no reader refines, only `reader-txt` is left, and
that one does not matter either unless the verdict is the default: the verdict is that format under
every feature set. -/
theorem C15_no_switch (cfg : Cfg) (ft : Features) (b : Bytes) (hb : IsSlice b) (f : FileFormat)
    (hr : Recognised b f) (hn : ∀ g ∈ Feature.structured, f ≠ g.base) (h2 : f ≠ ArbitraryBinaryData) :
    fromBytes cfg ft b = .ok f := by
  have hb' : b.length < 2 ^ 63 := hb
  have hag : AgreeOn b ft { txt := ft.txt } := by
    refine ⟨fun g hg hrg => ?_, rfl⟩
    have hf : f = g.base := by
      unfold Recognised at hr hrg
      rw [hr] at hrg
      injection hrg
    exact absurd hf (hn g hg)
  have hn1 : fmtReader cfg { txt := ft.txt } f = none := by
    rcases fmtReader_cases cfg { txt := ft.txt } f with h1 | ⟨g, hg, _, hbase, _⟩
    · exact h1
    · exact absurd hbase (hn g hg)
  rw [C15_two_switches cfg ft _ b hb hag, fromBytes_ideal _ _ _ (by omega)]
  unfold ideal
  rw [fromSignature_take _ _ (Nat.le_refl _)]
  unfold Recognised at hr
  by_cases h0 : b.length = 0
  · rw [fromBytes_none _ _ (by omega), if_pos h0] at hr
    rw [if_pos h0]; exact hr
  · rw [if_neg h0]
    have h1 : f ≠ FileFormat.Empty := by
      rintro rfl
      rw [fromBytes_none _ _ (by omega), if_neg h0] at hr
      cases hs : fromSignature b with
      | none => rw [hs] at hr; cases hr
      | some fmt =>
        rw [hs] at hr
        have : fmt = FileFormat.Empty := by injection hr
        subst this
        obtain ⟨e, he, hf, _⟩ := fromSignature_some hs
        exact absurd hf ((by decide +kernel : ∀ e ∈ signatureTable, e.format ≠ FileFormat.Empty) e he)
    rw [fromSignature_of_none (by omega) hr h1 h2]
    simp only
    rw [hn1]

-- Non-vacuity: a PNG header is a PNG under every set of features; for a ZIP archive `reader-cfb` and
-- `reader-xml` do not matter.
example : Recognised (b!"\x89PNG\r\n\x1a\n") PortableNetworkGraphics ∧
    (∀ g ∈ Feature.structured, PortableNetworkGraphics ≠ g.base) := by
  unfold Recognised; decide +kernel
example : AgreeOn (b!"PK\x03\x04") { zip := true } { zip := true, cfb := true, xml := true } :=
  ⟨by unfold Recognised; decide +kernel, rfl⟩

-- Non-vacuity: enabling `reader-zip` on a FLAC file behind an ID3v2 tag changes nothing; the input is
-- not a ZIP archive.
example : SameExcept .zip { id3v2 := true } { id3v2 := true, zip := true } := by
  intro h hn; cases h <;> first | rfl | exact absurd rfl hn
example : ¬ Recognised (b!"ID3\x04\x00\x00\x00\x00\x00\x00fLaC\x00\x00\x00\x00\x00\x00\x00") Feature.zip.base := by
  unfold Recognised; decide +kernel
example : fromBytes Cfg.release { txt := false } (b!"hi") = .ok ArbitraryBinaryData ∧
    fromBytes Cfg.release { txt := true } (b!"hi") = .ok PlainText := by decide +kernel

/-! ## C16 -/

/-- What a verdict on an input with first bytes `buf` may be. -/
inductive Documented (ft : Features) (buf : Bytes) (f : FileFormat) : Prop where
  /-- empty input -/
  | empty (h : buf = []) (hf : f = FileFormat.Empty)
  /-- the signature verdict -/
  | signature (h : Recognised buf f)
  /-- a refinement documented for an enabled feature, on its base format -/
  | family (g : Feature) (hg : g ∈ Feature.structured) (he : g.enabled ft = true)
      (h : Recognised buf g.base) (hf : f ∈ g.family)
  /-- text -/
  | text (ht : ft.txt = true) (hf : f = PlainText)
  /-- the default -/
  | default (hf : f = ArbitraryBinaryData)

/-- C16. Every verdict is documented for the enabled features. -/
theorem C16_documented (cfg : Cfg) (ft : Features) (b : Bytes) (hb : IsSlice b) (f : FileFormat)
    (h : fromBytes cfg ft b = .ok f) : Documented ft b f := by
  have hb' : b.length < 2 ^ 63 := hb
  have hgen : idealGeneric ft b (2 ^ 64 - 1) = .ok f → Documented ft b f := by
    intro h
    rcases idealGeneric_cases ft b (2 ^ 64 - 1) with ⟨h1, _, h2⟩ | ⟨_, h2⟩
    · rw [h2] at h; cases h; exact .text h1 rfl
    · rw [h2] at h; cases h; exact .default rfl
  cases fromBytes_outcome cfg ft b (by omega) with
  | empty hd hr => rw [hr] at h; cases h; exact .empty hd rfl
  | unknown hd hs hr => rw [hr] at h; exact hgen h
  | plain hd f' hs hn hr =>
    rw [hr] at h; cases h; exact .signature (recognised_of_signature (by omega) hs)
  | refined hd g hg he hs f' hv hf hr =>
    rw [hr] at h
    cases h
    have hrec := recognised_of_signature (by omega) hs
    rcases List.mem_cons.mp hf with rfl | hf
    · exact .signature hrec
    · exact .family g hg he hrec hf
  | failed hd g hg he hs e hv hr => rw [hr] at h; exact hgen h
  | crashed hd g hg he hs x hx hv hr =>
    rw [hr] at h; cases h

/-- C16 on streams, for every schedule of short reads, interruptions and failures: the verdict is
documented for the bytes that the first read delivers. -/
theorem C16_documented_stream (cfg : Cfg) (ft : Features) (s : Src) (hs : s.WF) (hl : IsSlice s.data)
    (f : FileFormat) (h : (fromReader cfg ft s).1 = .ok f) :
    ∃ buf, (s.read 36870).1 = .ok buf ∧ Documented ft buf f := by
  have hl' : s.data.length < 2 ^ 63 := hl
  rw [fromReader_eq] at h
  obtain ⟨hle, hwf, hcase⟩ := Src.read_spec s bufferSize hs
  have hx : s.read bufferSize = s.read 36870 := rfl
  rw [hx] at h hle hwf hcase
  generalize s.read 36870 = rs at *
  obtain ⟨r, s'⟩ := rs
  cases r with
  | error e => cases h
  | ok buf =>
    refine ⟨buf, rfl, ?_⟩
    have hbuf : buf.length < 2 ^ 64 := by
      rcases hcase with ⟨k, _, _, h2, _⟩ | ⟨e, h2, _⟩
      · cases h2; rw [length_slice]; omega
      · cases h2
    have hgen : ∀ src : Src, src.WF → (fromGenericReader ft src).1 = .ok f → Documented ft buf f := by
      intro src hw hh
      unfold fromGenericReader at hh
      split at hh
      · rename_i ht
        cases hxx : execOn true txtReader src with
        | mk r2 s2 =>
          rw [hxx] at hh
          rcases r2 with (e | _ | _) | f'
          · cases hh; exact .default rfl
          · cases hh
          · cases hh
          · cases hh
            have hv := txtReader_all.exec_value { src := src, buffered := true, buf := [] }
              (Rd.ok_fresh src true hw) OpEx.until f (by
                have : (execOn true txtReader src).1 = .ok f := by rw [hxx]
                exact this)
            exact .text ht hv
      · cases hh; exact .default rfl
    simp only [afterRead] at h
    split at h
    · rename_i h0
      cases h
      exact .empty (List.eq_nil_of_length_eq_zero h0) rfl
    · cases hsig : fromSignature buf with
      | none => rw [hsig] at h; exact hgen _ hwf h
      | some fmt =>
        rw [hsig] at h
        simp only [fromFmtReader] at h
        have hrec := recognised_of_signature hbuf hsig
        rcases fmtReader_cases cfg ft fmt with hn | ⟨g, hg, he, hb, hrd⟩
        · rw [hn] at h; cases h; exact .signature hrec
        · rw [hrd] at h
          simp only at h
          obtain ⟨k, hk⟩ := reader_all cfg g
          obtain ⟨hle2, hwf2, _⟩ := execOn_le _ _ s' hwf (hk.untilBuffered (fun _ => id))
          cases hxx : execOn (readerOf cfg g).1 (readerOf cfg g).2 s' with
          | mk r2 s2 =>
            rw [hxx] at h hwf2
            rcases r2 with (e | _ | _) | f'
            · exact hgen _ hwf2 h
            · cases h
            · cases h
            · cases h
              have hv := hk.exec_value { src := s', buffered := (readerOf cfg g).1, buf := [] }
                (Rd.ok_fresh s' _ hwf) (fun _ => id) f (by
                  have : (execOn (readerOf cfg g).1 (readerOf cfg g).2 s').1 = .ok f := by rw [hxx]
                  exact this)
              rcases List.mem_cons.mp hv with rfl | hf
              · rw [← hb]; exact .signature hrec
              · exact .family g hg he (by rw [← hb]; exact hrec) hf

-- Non-vacuity.
example : fromBytes Cfg.release { sqlite3 := true }
    (b!"SQLite format 3\x00" ++ List.replicate 84 0 ++ b!"..com.bohemiancoding.sketch3..") = .ok Sketch := by
  decide +kernel

/-! ## C18 -/

/-- C18. A format without a magic of its own is only reported if a feature that documents it is
enabled (`Empty` and the default `ArbitraryBinaryData` aside). -/
theorem C18_needs_feature (cfg : Cfg) (ft : Features) (b : Bytes) (hb : IsSlice b) (f : FileFormat)
    (hm : ∀ e ∈ signatureTable, e.format ≠ f) (h1 : f ≠ FileFormat.Empty) (h2 : f ≠ ArbitraryBinaryData)
    (h : fromBytes cfg ft b = .ok f) : ∃ g : Feature, g.enabled ft = true ∧ f ∈ g.family := by
  have hb' : b.length < 2 ^ 63 := hb
  cases C16_documented cfg ft b hb f h with
  | empty _ hf => exact absurd hf h1
  | signature hr =>
    have hs := fromSignature_of_none (by omega) hr h1 h2
    obtain ⟨e, he, hf, _⟩ := fromSignature_some hs
    exact absurd hf (hm e he)
  | family g _ he _ hf => exact ⟨g, he, hf⟩
  | text ht hf => exact ⟨.txt, ht, by rw [hf]; decide⟩
  | default hf => exact absurd hf h2

/-- C18 on streams, for every schedule. -/
theorem C18_needs_feature_stream (cfg : Cfg) (ft : Features) (s : Src) (hs : s.WF) (hl : IsSlice s.data)
    (f : FileFormat) (hm : ∀ e ∈ signatureTable, e.format ≠ f) (h1 : f ≠ FileFormat.Empty)
    (h2 : f ≠ ArbitraryBinaryData) (h : (fromReader cfg ft s).1 = .ok f) :
    ∃ g : Feature, g.enabled ft = true ∧ f ∈ g.family := by
  have hl' : s.data.length < 2 ^ 63 := hl
  obtain ⟨buf, hbuf, hd⟩ := C16_documented_stream cfg ft s hs hl f h
  have hlen : buf.length < 2 ^ 64 := by
    obtain ⟨_, _, hcase⟩ := Src.read_spec s 36870 hs
    rcases hcase with ⟨k, _, _, h2, _⟩ | ⟨e, h2, _⟩
    · rw [h2] at hbuf; cases hbuf; rw [length_slice]; omega
    · rw [h2] at hbuf; cases hbuf
  cases hd with
  | empty _ hf => exact absurd hf h1
  | signature hr =>
    have hs := fromSignature_of_none hlen hr h1 h2
    obtain ⟨e, he, hf, _⟩ := fromSignature_some hs
    exact absurd hf (hm e he)
  | family g _ he _ hf => exact ⟨g, he, hf⟩
  | text ht hf => exact ⟨.txt, ht, by rw [hf]; decide⟩
  | default hf => exact absurd hf h2

-- Non-vacuity: 102 formats have no magic of their own.
example : (∀ e ∈ signatureTable, e.format ≠ OpendocumentText) ∧ (∀ e ∈ signatureTable, e.format ≠ Webm) ∧
    (∀ e ∈ signatureTable, e.format ≠ PlainText) := by decide +kernel

/-! ## C19 -/

/-- The generic verdict: text or arbitrary data. -/
def Generic (ft : Features) (b : Bytes) (f : FileFormat) : Prop :=
  (ft.txt = true ∧ IsText (firstLines 16 (b.take 65536)) ∧ f = PlainText) ∨
  (¬ (ft.txt = true ∧ IsText (firstLines 16 (b.take 65536))) ∧ f = ArbitraryBinaryData)

theorem generic_of_ideal {ft : Features} {b : Bytes} {m : Nat} {f : FileFormat}
    (h : idealGeneric ft b m = .ok f) : Generic ft b f := by
  cases ht : ft.txt with
  | false =>
    unfold idealGeneric at h
    rw [ht] at h
    cases h
    exact Or.inr ⟨(by rw [ht]; simp), rfl⟩
  | true =>
    rcases idealGeneric_text ft b m ht with ⟨h1, h2⟩ | ⟨h1, h2⟩
    · rw [h2] at h; cases h; exact Or.inl ⟨ht, h1, rfl⟩
    · rw [h2] at h; cases h; exact Or.inr ⟨fun hh => h1 hh.2, rfl⟩

/-- C19. An input recognised as the base format of an enabled reader gets a verdict of that reader
or, if the reader gives none, the generic verdict. -/
theorem C19_degrades (cfg : Cfg) (ft : Features) (b : Bytes) (hb : IsSlice b) (g : Feature)
    (hg : g ∈ Feature.structured) (he : g.enabled ft = true) (hr : Recognised b g.base) (f : FileFormat)
    (h : fromBytes cfg ft b = .ok f) : f = g.base ∨ f ∈ g.family ∨ Generic ft b f := by
  have hb' : b.length < 2 ^ 63 := hb
  have hs := signature_of_recognised (by omega) hg hr
  rw [fromBytes_reader cfg ft b (by omega) g hg he hs] at h
  obtain ⟨k, hk⟩ := reader_all cfg g
  cases hv : val (run b (2 ^ 64 - 1) (readerOf cfg g).2 0) with
  | ok f' =>
    rw [hv] at h
    cases h
    rcases List.mem_cons.mp (hk.run_value hv) with h1 | h1
    · exact Or.inl h1
    · exact Or.inr (Or.inl h1)
  | error x =>
    rw [hv] at h
    cases x with
    | err e => exact Or.inr (Or.inr (generic_of_ideal h))
    | panic => cases h
    | diverge => cases h

/-- C19, the finding: enabling a reader can lose a correct signature verdict. A truncated archive
becomes arbitrary data, and a truncated executable becomes text. -/
theorem C19_loses_signature_verdict :
    Recognised (b!"PK\x03\x04") Zip ∧
    fromBytes Cfg.release { zip := true } (b!"PK\x03\x04") = .ok ArbitraryBinaryData ∧
    Recognised (b!"MZ") MsDosExecutable ∧
    fromBytes Cfg.release { exe := true, txt := true } (b!"MZ") = .ok PlainText := by
  unfold Recognised
  decide +kernel

-- Non-vacuity of the three cases of C19.
example : Recognised (b!"%PDF-1.7 AIPrivateData") PortableDocumentFormat ∧
    fromBytes Cfg.release { pdf := true } (b!"%PDF-1.7 AIPrivateData") = .ok AdobeIllustratorArtwork ∧
    fromBytes Cfg.release { pdf := true } (b!"%PDF-1.7") = .ok PortableDocumentFormat := by
  unfold Recognised; decide +kernel

end FF.Props
