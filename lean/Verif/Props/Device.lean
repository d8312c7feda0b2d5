import Verif.Proofs.Device3
import Verif.Props.Family
/-!
# C63, C64: detection on any `Read + Seek`
-/

namespace FF.Props
open FF FileFormat Spec

variable {σ : Type} {D : Device σ}

/-- On a stream with a fixed content and a schedule, detection on devices is detection on streams. -/
theorem C63_fixed_content (cfg : Cfg) (ft : Features) (s : Src) :
    fromDevice srcDevice cfg ft s = fromReader cfg ft s := fromDevice_src cfg ft s

theorem recognised_nonempty {b : Bytes} (hb : b.length < 2 ^ 64) {g : Feature}
    (hg : g ∈ Feature.structured) :
    Recognised b g.base ↔ fromSignature b = some g.base :=
  ⟨signature_of_recognised hb hg, recognised_of_signature hb⟩

/-- C63, errors: whatever the device does, detection fails exactly when the first read fails, and
with its error. -/
theorem C63_error_iff (hL : D.Lawful) (cfg : Cfg) (ft : Features) (st : σ) (e : ErrKind) :
    (fromDevice D cfg ft st).1 = .error (.err e) ↔ (D.read st 36870).1 = .error e := by
  have hb : bufferSize = 36870 := rfl
  cases hx : D.read st 36870 with
  | mk r st' =>
    cases r with
    | error e' =>
      simp only [fromDevice, hb, hx]
      constructor
      · intro h; cases h; rfl
      · intro h; cases h; rfl
    | ok buf =>
      refine ⟨fun h => ?_, fun h => by cases h⟩
      exfalso
      have hg : ∀ s : σ, (fromGenericReaderD D ft s).1 ≠ .error (.err e) := by
        intro s h
        rcases fromGenericReaderD_spec hL ft s with h1 | ⟨_, h1⟩
        · rw [h1] at h; cases h
        · rw [h1] at h; cases h
      simp only [fromDevice, hb, hx] at h
      split at h
      · cases h
      · cases hs : fromSignature buf with
        | none => rw [hs] at h; exact hg _ h
        | some fmt =>
          rw [hs] at h
          simp only at h
          generalize fromFmtReaderD D cfg ft fmt st' = x at h
          obtain ⟨r, s''⟩ := x
          rcases r with (_ | _ | _) | f
          · exact hg _ h
          · cases h
          · cases h
          · cases h

/-- The outcome on a device whose first read gives `buf`: a documented format, or a failure of the
reader that takes part. -/
theorem device_outcome (hL : D.Lawful) (cfg : Cfg) (ft : Features) (st : σ) {buf : Bytes} {st' : σ}
    (hr : D.read st 36870 = (.ok buf, st'))
    (hP : (∃ position, D.Positioned position) ∨
      ∀ g ∈ Feature.structured, g.enabled ft = true → Recognised buf g.base → g.asksPosition = false) :
    (∃ f, (fromDevice D cfg ft st).1 = .ok f ∧ Documented ft buf f) ∨
    (∃ g ∈ Feature.structured, g.enabled ft = true ∧ Recognised buf g.base ∧
      ∃ f, (fromDevice D cfg ft st).1 = .error f ∧ ¬ IsErr f ∧ Failure cfg g f) := by
  have hlen : buf.length < 2 ^ 64 := by
    have := hL.read_le _ _ _ _ hr
    omega
  rcases fromDevice_outcome hL cfg ft st (buf := buf) (st' := st') hr
    (hP.imp id fun h g hg he hs => h g hg he (recognised_of_signature hlen hs)) with
    ⟨f, h1, h2⟩ | ⟨g, hg, he, hs, f, h1, h2, h3⟩
  · refine Or.inl ⟨f, h1, ?_⟩
    rcases h2 with ⟨h, hf⟩ | h | ⟨g, hg, he, hs, hfam⟩ | ⟨ht, hf⟩ | hf
    · exact .empty h hf
    · exact .signature (recognised_of_signature hlen h)
    · rcases List.mem_cons.mp hfam with rfl | hfam
      · exact .signature (recognised_of_signature hlen hs)
      · exact .family g hg he (recognised_of_signature hlen hs) hfam
    · exact .text ht hf
    · exact .default hf
  · exact Or.inr ⟨g, hg, he, recognised_of_signature hlen hs, f, h1, h2, h3⟩

/-- C63, verdicts: whatever the device does after its first read, a verdict is a format documented
for the bytes of that read and the enabled features. -/
theorem C63_documented (hL : D.Lawful) {position : σ → Nat} (hP : D.Positioned position) (cfg : Cfg)
    (ft : Features) (st : σ) (f : FileFormat) (h : (fromDevice D cfg ft st).1 = .ok f) :
    ∃ buf, (D.read st 36870).1 = .ok buf ∧ Documented ft buf f := by
  cases hx : D.read st 36870 with
  | mk r st' =>
    cases r with
    | error e => rw [(C63_error_iff hL cfg ft st e).mpr (by rw [hx])] at h; cases h
    | ok buf =>
      refine ⟨buf, rfl, ?_⟩
      rcases device_outcome hL cfg ft st hx (Or.inl ⟨_, hP⟩) with ⟨f', h1, h2⟩ | ⟨g, _, _, _, f', h1, _, _⟩
      · rw [h1] at h; cases h; exact h2
      · rw [h1] at h; cases h

/-- C63, no panic: in release builds detection on a device with a position of its own never panics,
however its content changes and its calls fail. -/
theorem C63_no_panic (hL : D.Lawful) {position : σ → Nat} (hP : D.Positioned position)
    (ft : Features) (st : σ) : (fromDevice D Cfg.release ft st).1 ≠ .error .panic := by
  intro h
  cases hx : D.read st 36870 with
  | mk r st' =>
    cases r with
    | error e => rw [(C63_error_iff hL Cfg.release ft st e).mpr (by rw [hx])] at h; cases h
    | ok buf =>
      rcases device_outcome hL Cfg.release ft st hx (Or.inl ⟨_, hP⟩) with ⟨f', h1, h2⟩ | ⟨g, _, _, _, f', h1, h2, h3⟩
      · rw [h1] at h; cases h
      · rw [h1] at h
        cases h
        rcases h3 with ⟨e, h3⟩ | ⟨h3, _⟩ | ⟨_, h3⟩
        · cases h3
        · cases h3
        · cases h3

/-- C63, termination: in release builds detection on a device with a position of its own returns,
unless the first read shows an ID3v2 tag and the feature for it is enabled. -/
theorem C63_returns_unless_id3v2 (hL : D.Lawful) {position : σ → Nat} (hP : D.Positioned position)
    (ft : Features) (st : σ)
    (hid : ft.id3v2 = true → ∀ buf, (D.read st 36870).1 = .ok buf → ¬ Recognised buf Id3v2) :
    Returns (fromDevice D Cfg.release ft st).1 := by
  cases hx : D.read st 36870 with
  | mk r st' =>
    cases r with
    | error e => exact Or.inr ⟨e, (C63_error_iff hL Cfg.release ft st e).mpr (by rw [hx])⟩
    | ok buf =>
      rcases device_outcome hL Cfg.release ft st hx (Or.inl ⟨_, hP⟩) with
        ⟨f', h1, h2⟩ | ⟨g, hg, he, hr, f', h1, h2, h3⟩
      · exact Or.inl ⟨f', h1⟩
      · exfalso
        rcases h3 with h3 | ⟨h3, _⟩ | ⟨rfl, _⟩
        · exact h2 h3
        · cases h3
        · exact hid he buf (by rw [hx]) hr

/-- C63, termination on devices that end: with at most `2^63 - 1` bytes, however they change, every
detection returns. In checked builds the signature verdict must not be ASF, MP4 or ZIP with the
reader enabled (C02). -/
theorem C63_returns (hL : D.Lawful) {position : σ → Nat} {len : Nat} (hE : D.Ending position len)
    (hlen : len < 2 ^ 63) (cfg : Cfg) (ft : Features) (st : σ)
    (hc : cfg = Cfg.release ∨ ∀ f ∈ [Feature.asf, .mp4, .zip], f.enabled ft = true →
      ∀ buf, (D.read st 36870).1 = .ok buf → ¬ Recognised buf f.base) :
    Returns (fromDevice D cfg ft st).1 := by
  cases hx : D.read st 36870 with
  | mk r st' =>
    cases r with
    | error e => exact Or.inr ⟨e, (C63_error_iff hL cfg ft st e).mpr (by rw [hx])⟩
    | ok buf =>
      have hbl : buf.length < 2 ^ 64 := by
        have := hL.read_le _ _ _ _ hx
        omega
      rcases device_outcome hL cfg ft st hx (Or.inl ⟨_, hE.positioned⟩) with
        ⟨f', h1, h2⟩ | ⟨g, hg, he, hr, f', h1, h2, h3⟩
      · exact Or.inl ⟨f', h1⟩
      · exfalso
        have hid : g ≠ .id3v2 := by
          rintro rfl
          have hs := signature_of_recognised hbl hg hr
          have hne : buf.length ≠ 0 := by
            intro h0
            have : buf = [] := List.eq_nil_of_length_eq_zero h0
            subst this
            have hn : fromSignature [] = none := by decide +kernel
            rw [hn] at hs; cases hs
          have hid3 : fmtReader cfg ft Id3v2 = some (false, id3v2Reader cfg) := by
            have he : ft.id3v2 = true := he
            simp only [fmtReader, he, if_true]
          have hb : bufferSize = 36870 := rfl
          have hnc := id3v2_ends hL hE hlen cfg st'
          have hs : fromSignature buf = some Id3v2 := hs
          simp only [fromDevice, hb, hx, if_neg hne, hs, fromFmtReaderD, hid3] at h1
          generalize execOnD D false (id3v2Reader cfg) st' = x at hnc h1
          obtain ⟨r, s⟩ := x
          rcases r with (_ | _ | _) | a
          · rcases fromGenericReaderD_spec hL ft s with h | ⟨_, h⟩
            · rw [h] at h1; cases h1
            · rw [h] at h1; cases h1
          · exact hnc
          · exact hnc
          · cases h1
        rcases h3 with h3 | ⟨h3, h4, _⟩ | ⟨h3, _⟩
        · exact h2 h3
        · rcases h4 with h4 | h4
          · rcases hc with rfl | hc
            · cases h3
            · refine hc g ?_ he buf (by rw [hx]) hr
              revert h4; cases g <;> decide
          · exact hid h4
        · exact hid h3

/-! ## Files that change -/

theorem changing_lawful (contents : Nat → Bytes) (limit : Nat) : (changing contents limit).Lawful where
  read_le := by
    rintro ⟨t, p⟩ n bs s' h
    cases h
    rw [length_slice]; omega
  read_patience := fun _ _ _ _ _ => Nat.le_refl _
  interrupted := by
    rintro ⟨t, p⟩ n s' h
    cases h
  seek_patience := fun _ _ _ _ _ => Nat.le_refl _
  tell_patience := fun _ _ _ _ => Nat.le_refl _

theorem changing_ending (contents : Nat → Bytes) (limit len : Nat)
    (h : ∀ t, (contents t).length ≤ len) : (changing contents limit).Ending (·.2) len where
  positioned := {
    read := by rintro ⟨t, p⟩ n bs s' h; cases h; rfl
    tell := by rintro ⟨t, p⟩ q s' h; cases h; exact ⟨rfl, rfl⟩ }
  interrupted := by
    rintro ⟨t, p⟩ n s' h
    cases h
  start := by
    rintro ⟨t, p⟩ n q s' h
    simp only [changing, seekTarget] at h
    split at h
    · rename_i q' hq
      split at hq
      · cases hq; cases h; rfl
      · cases hq
    · cases h
  bounded := by
    rintro ⟨t, p⟩ n bs s' hr hne
    cases hr
    have := h t
    have : (slice (contents t) p n).length ≠ 0 := fun h0 => hne (List.eq_nil_of_length_eq_zero h0)
    rw [length_slice] at this ⊢
    show p + _ ≤ len
    omega

/-- C63 for a file that other processes change, extend or truncate in any way between any two calls:
in release builds detection returns a format, and it is one documented for the bytes that the first
read saw. -/
theorem C63_changing_file (contents : Nat → Bytes) (limit : Nat)
    (hlen : ∀ t, (contents t).length < 2 ^ 63) (ft : Features) (p : Nat) :
    ∃ f, (fromDevice (changing contents limit) Cfg.release ft (0, p)).1 = .ok f ∧
      Documented ft (slice (contents 0) p 36870) f := by
  have hL := changing_lawful contents limit
  have hE := changing_ending contents limit (2 ^ 63 - 1) (fun t => by have := hlen t; omega)
  rcases C63_returns hL hE (by omega) Cfg.release ft (0, p) (Or.inl rfl) with ⟨f, hf⟩ | ⟨e, he⟩
  · obtain ⟨buf, h1, h2⟩ := C63_documented hL hE.positioned Cfg.release ft (0, p) f hf
    cases h1
    exact ⟨f, hf, h2⟩
  · rw [C63_error_iff hL] at he
    cases he

/-- A program that is truncated to nothing after the first read, and a text file that is replaced by
an archive. -/
def truncatedExe (t : Nat) : Bytes := if t = 0 then b!"MZ\x90\x00\x03" else []

-- Non-vacuity: the signature verdict is a program; the reader fails on the truncated file.
example : Recognised (truncatedExe 0) MsDosExecutable ∧ ∀ t, (truncatedExe t).length < 2 ^ 63 := by
  refine ⟨by unfold Recognised; decide +kernel, fun t => ?_⟩
  unfold truncatedExe
  split <;> decide
example : (fromDevice (changing truncatedExe 100) Cfg.release { exe := true } (0, 0)).1 =
    .ok ArbitraryBinaryData := by decide +kernel
example : (fromDevice (changing truncatedExe 100) Cfg.release Features.all (0, 0)).1 =
    .ok PlainText := by decide +kernel

/-- An EBML header naming `matroska`, replaced by one naming `webm` of the same size once the first
read is done. -/
def swappedEbml (t : Nat) : Bytes :=
  if t = 0 then b!"\x1A\x45\xDF\xA3\x8B\x42\x82\x88matroska"
  else b!"\x1A\x45\xDF\xA3\x87\x42\x82\x84webm"

-- The verdict is a member of the family of the format that the first read showed.
example : (fromDevice (changing swappedEbml 100) Cfg.release Features.all (0, 0)).1 = .ok Webm := by
  decide +kernel

/-! ## A device without an end -/

theorem endless_lawful : endlessTags.Lawful where
  read_le := by
    intro p n bs s' h
    cases h
    simp only [List.length_take]
    omega
  read_patience := fun _ _ _ _ _ => Nat.le_refl _
  interrupted := by
    intro p n s' h
    cases h
  seek_patience := fun _ _ _ _ _ => Nat.le_refl _
  tell_patience := fun _ _ _ _ => Nat.le_refl _

theorem endless_positioned : endlessTags.Positioned id where
  read := by
    intro p n bs s' h
    cases h
    simp only [List.length_take, id]
    rfl
  tell := by intro p q s' h; cases h; exact ⟨rfl, rfl⟩

theorem u64Add_release (a b : Nat) : ∃ n, u64Add Cfg.release a b = .ok n := by
  unfold u64Add
  split
  · exact ⟨_, rfl⟩
  · exact ⟨_, rfl⟩

theorem endless_loop (fuel off p : Nat) :
    (execD endlessTags (id3Loop Cfg.release fuel off) ⟨p, false, []⟩).1 = .error .diverge := by
  induction fuel generalizing off p with
  | zero => rfl
  | succ fuel ih =>
    obtain ⟨n, hn⟩ := u64Add_release off 10
    obtain ⟨m, hm⟩ := u64Add_release n 0
    have key : execD endlessTags (id3Loop Cfg.release (fuel + 1) off) ⟨p, false, []⟩ =
        execD endlessTags (do
          let next ← Prog.lift (u64Add Cfg.release off 10)
          let next ← Prog.lift (u64Add Cfg.release next 0)
          id3Loop Cfg.release fuel next) ⟨off + 10, false, []⟩ := rfl
    rw [key, hn]
    have key2 : execD endlessTags (do
          let next ← Prog.lift (.ok n)
          let next ← Prog.lift (u64Add Cfg.release next 0)
          id3Loop Cfg.release fuel next) ⟨off + 10, false, []⟩ =
        execD endlessTags (do
          let next ← Prog.lift (u64Add Cfg.release n 0)
          id3Loop Cfg.release fuel next) ⟨off + 10, false, []⟩ := rfl
    rw [key2, hm]
    exact ih m (off + 10)

theorem endless_bind {α : Type} (fuel off p : Nat) (f : Nat → Prog α) :
    (execOnD endlessTags false (id3Loop Cfg.release fuel off >>= f) p).1 = .error .diverge := by
  have h := endless_loop fuel off p
  unfold execOnD
  rw [execD_bind]
  generalize execD endlessTags (id3Loop Cfg.release fuel off) ⟨p, false, []⟩ = x at h
  obtain ⟨r, s⟩ := x
  simp only at h
  subst h
  rfl

theorem fromDevice_diverges (cfg : Cfg) (ft : Features) (st st' : σ) (buf : Bytes) (fmt : FileFormat)
    (b : Bool) (prog : Prog FileFormat) (hr : D.read st bufferSize = (.ok buf, st'))
    (hne : buf.length ≠ 0) (hs : fromSignature buf = some fmt)
    (hf : fmtReader cfg ft fmt = some (b, prog)) (hx : (execOnD D b prog st').1 = .error .diverge) :
    (fromDevice D cfg ft st).1 = .error .diverge := by
  simp only [fromDevice, hr, if_neg hne, hs, fromFmtReaderD, hf]
  generalize execOnD D b prog st' = x at hx
  obtain ⟨r, s⟩ := x
  simp only at hx
  subst hx
  rfl

/-- C63: the hypothesis on ID3v2 is needed. On a device without an end that shows an empty ID3v2 tag
at every position the tag loop never stops. -/
theorem C63_endless_tags :
    (fromDevice endlessTags Cfg.release { id3v2 := true } 0).1 = .error .diverge := by
  refine fromDevice_diverges _ _ 0 10 (b!"ID3\x04\x00\x00\x00\x00\x00\x00") Id3v2 false
    (id3v2Reader Cfg.release) (by decide +kernel) (by decide) (by decide +kernel) rfl ?_
  unfold id3v2Reader
  exact endless_bind _ _ _ _

/-! ## C64: a shared position -/

/-- C64 as one would wish it: no `Read + Seek` makes a release build panic. -/
def C64_statement : Prop :=
  ∀ (σ : Type) (D : Device σ), D.Lawful → ∀ (ft : Features) (st : σ),
    (fromDevice D Cfg.release ft st).1 ≠ .error .panic

theorem rewound_lawful (data : Bytes) : (rewound data).Lawful where
  read_le := by
    intro p n bs s' h
    cases h
    rw [length_slice]; omega
  read_patience := fun _ _ _ _ _ => Nat.le_refl _
  interrupted := by
    intro p n s' h
    cases h
  seek_patience := fun _ _ _ _ _ => Nat.le_refl _
  tell_patience := fun _ _ _ _ => Nat.le_refl _

/-- A short EBML file whose position somebody else resets after every read: `stream_position` of
`BufReader` subtracts the number of buffered bytes from the position and panics. -/
theorem C64_ebml_panics :
    (fromDevice (rewound (b!"\x1A\x45\xDF\xA3\x8B\x42\x82\x88matroska")) Cfg.release
      { ebml := true } 0).1 = .error .panic := by decide +kernel

/-- C64 does not hold of the code. -/
theorem C64_fails : ¬ C64_statement := fun h =>
  h _ _ (rewound_lawful _) { ebml := true } 0 C64_ebml_panics

theorem disturbed_lawful (data : Bytes) (k : Nat) : (disturbed data k).Lawful where
  read_le := by
    rintro ⟨t, p⟩ n bs s' h
    cases h
    rw [length_slice]; omega
  read_patience := fun _ _ _ _ _ => Nat.le_refl _
  interrupted := by
    rintro ⟨t, p⟩ n s' h
    cases h
  seek_patience := fun _ _ _ _ _ => Nat.le_refl _
  tell_patience := fun _ _ _ _ => Nat.le_refl _

/-- For each reader that asks for the position, a file whose position is moved once during the run. -/
def disturbedRuns : List (Feature × Features × Bytes × Nat) := [
  (.asf, { asf := true }, (b!"\x30\x26\xB2\x75\x8E\x66\xCF\x11\xA6\xD9\x00\xAA\x00\x62\xCE\x6C" ++ List.replicate 8 0 ++ b!"\x01\x00\x00\x00\x01\x02" ++
    b!"\x40\xA4\xD0\xD2\x07\xE3\xD2\x11\x97\xF0\x00\xA0\xC9\x5E\xA8\x50" ++ List.replicate 12 0), 2),
  (.ebml, { ebml := true }, b!"\x1A\x45\xDF\xA3\x8B\x42\x82\x88matroska", 1),
  (.mp4, { mp4 := true }, b!"\x00\x00\x00\x0Cftypisom\x00\x00\x00\x10moov\x00\x00\x00\x08", 2),
  (.rm, { rm := true }, b!".RMF\x00\x00\x00\x12\x00\x00\x00\x00\x00\x00\x00\x00\x00\x02MDPR\x00\x00\x00\x20....", 1)]

/-- C64, the exceptions are real: for each of the four readers there is a file of the format, enabled alone, and a single
movement of its position by somebody else, with which a release build panics. -/
theorem C64_all_four : disturbedRuns.map Prod.fst = [Feature.asf, .ebml, .mp4, .rm] ∧
    ∀ x ∈ disturbedRuns, Recognised x.2.2.1 x.1.base ∧ (disturbed x.2.2.1 x.2.2.2).Lawful ∧
      (fromDevice (disturbed x.2.2.1 x.2.2.2) Cfg.release x.2.1 (0, 0)).1 = .error .panic := by
  refine ⟨rfl, ?_⟩
  have h : (disturbedRuns.all fun x => decide (fromBytes Cfg.release Features.none x.2.2.1 = .ok x.1.base) &&
      decide ((fromDevice (disturbed x.2.2.1 x.2.2.2) Cfg.release x.2.1 (0, 0)).1 = .error .panic)) = true := by
    decide +kernel
  intro x hx
  have h := List.all_eq_true.mp h x hx
  rw [Bool.and_eq_true, decide_eq_true_eq, decide_eq_true_eq] at h
  exact ⟨h.1, disturbed_lawful _ _, h.2⟩

/-- C64, the part that holds: on any device, also one whose position others move, a release build
does not panic unless the bytes of the first read are recognised as ASF, EBML, MP4 or RealMedia and
the reader is enabled; verdicts stay documented. -/
theorem C64_no_panic_partial (hL : D.Lawful) (ft : Features) (st : σ)
    (h : ∀ g ∈ [Feature.asf, .ebml, .mp4, .rm], g.enabled ft = true →
      ∀ buf, (D.read st 36870).1 = .ok buf → ¬ Recognised buf g.base) :
    (fromDevice D Cfg.release ft st).1 ≠ .error .panic ∧
    ∀ f, (fromDevice D Cfg.release ft st).1 = .ok f →
      ∃ buf, (D.read st 36870).1 = .ok buf ∧ Documented ft buf f := by
  cases hx : D.read st 36870 with
  | mk r st' =>
    cases r with
    | error e =>
      have := (C63_error_iff hL Cfg.release ft st e).mpr (by rw [hx])
      rw [this]
      exact ⟨(fun h => by cases h), (fun f h => by cases h)⟩
    | ok buf =>
      have hP : ∀ g ∈ Feature.structured, g.enabled ft = true → Recognised buf g.base →
          g.asksPosition = false := by
        intro g hg he hr
        cases ha : g.asksPosition with
        | false => rfl
        | true =>
          refine absurd hr (h g ?_ he buf (by rw [hx]))
          revert ha; cases g <;> decide
      rcases device_outcome hL Cfg.release ft st hx (Or.inr hP) with ⟨f', h1, h2⟩ | ⟨g, _, _, _, f', h1, h2, h3⟩
      · rw [h1]
        refine ⟨(fun h => by cases h), fun f hf => ?_⟩
        cases hf
        exact ⟨buf, rfl, h2⟩
      · rw [h1]
        refine ⟨fun h => ?_, fun f hf => by cases hf⟩
        cases h
        rcases h3 with ⟨e, h3⟩ | ⟨h3, _⟩ | ⟨_, h3⟩
        · cases h3
        · cases h3
        · cases h3

-- Non-vacuity: the rewound device is lawful and shows a ZIP archive; it has no position of its own.
example : ∀ g ∈ [Feature.asf, .ebml, .mp4, .rm],
    ∀ buf, ((rewound (b!"PK\x03\x04")).read 0 36870).1 = .ok buf → ¬ Recognised buf g.base := by
  intro g hg buf hb
  have : buf = b!"PK\x03\x04" := by
    have h : ((rewound (b!"PK\x03\x04")).read 0 36870).1 = .ok (b!"PK\x03\x04") := by decide +kernel
    rw [h] at hb; cases hb; rfl
  subst this
  unfold Recognised
  revert g hg
  decide +kernel
example : ¬ ∃ position, (rewound (b!"PK\x03\x04")).Positioned position := by
  rintro ⟨position, h⟩
  have h1 := h.read 0 4 _ _ rfl
  have h2 := h.read 0 2 _ _ rfl
  have e1 : (slice (b!"PK\x03\x04") 0 4).length = 4 := by decide
  rw [e1] at h1
  omega

end FF.Props
