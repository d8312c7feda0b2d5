import Verif.Proofs.Range
/-!
# C10-C14, C42: streams and files
-/

namespace FF.Props
open FF FileFormat Spec

theorem fromReader_eq2 (cfg : Cfg) (ft : Features) (src : Src) :
    fromReader cfg ft src =
      match src.read 36870 with
      | (.error e, src) => (.error (.err e), src)
      | (.ok buf, src) => afterRead cfg ft buf src := rfl

/-! ## C10 -/

/-- C10. `from_reader` returns `Err(e)` exactly when the very first `read` call does. -/
theorem C10_error_iff (cfg : Cfg) (ft : Features) (s : Src) (e : ErrKind) :
    (fromReader cfg ft s).1 = .error (.err e) ↔ (s.read 36870).1 = .error e := by
  rw [fromReader_eq2]
  cases hr : s.read 36870 with
  | mk r s' =>
    cases r with
    | error e' => simp
    | ok buf =>
      simp only [reduceCtorEq, iff_false]
      have hg : ∀ s : Src, (fromGenericReader ft s).1 ≠ .error (.err e) := by
        intro s
        unfold fromGenericReader
        split
        · generalize execOn true txtReader s = x
          obtain ⟨r, s'⟩ := x
          rcases r with (_ | _ | _) | f <;> simp
        · simp
      unfold afterRead
      split
      · simp
      · cases fromSignature buf with
        | none => exact hg _
        | some fmt =>
          simp only
          generalize fromFmtReader cfg ft fmt s' = x
          obtain ⟨r, s''⟩ := x
          rcases r with (_ | _ | _) | f
          · exact hg _
          · simp
          · simp
          · simp

/-- In terms of the stream: the first scheduled read event is that failure. -/
theorem C10_error_iff_event (cfg : Cfg) (ft : Features) (s : Src) (e : ErrKind) :
    (fromReader cfg ft s).1 = .error (.err e) ↔ s.revs.head? = some (.error e) := by
  rw [C10_error_iff]
  unfold Src.read
  cases s.revs with
  | nil => simp
  | cons ev es => cases ev <;> simp

-- Non-vacuity: a failing first read, and a failure later on which is absorbed.
example : (fromReader Cfg.release Features.all
    { cursor (b!"%PDF-1.4") with revs := [.error (.other 13)] }).1 = .error (.err (.other 13)) := by
  decide +kernel
example : (fromReader Cfg.release Features.all
    { cursor (b!"%PDF-1.4") with revs := [.full, .error (.other 13)] }).1 = .ok PlainText := by
  decide +kernel

/-! ## C11 -/

theorem bareRead_iff {ft : Features} {d : Bytes} (hd : d.length < 2 ^ 64)
    (h : ∀ f ∈ [Feature.pdf, .sqlite3, .xml], f.enabled ft = true → ¬ Recognised d f.base) :
    ¬ BareRead ft d := by
  rintro ⟨f, hf, hb, he, hs⟩
  have hmem : f ∈ [Feature.pdf, .sqlite3, .xml] := by revert hb; cases f <;> decide
  refine h f hmem he ?_
  unfold Recognised
  rw [fromSignature_take d _ (Nat.le_refl _)] at hs
  rw [fromBytes_none _ _ hd, hs, if_neg]
  · rfl
  · intro h0
    have : d = [] := List.eq_nil_of_length_eq_zero h0
    subst this
    have hn : fromSignature [] = none := by decide +kernel
    rw [hn] at hs; cases hs

/-- The stream after the first read. -/
theorem fromReader_window (cfg : Cfg) (ft : Features) (s : Src) (hs : s.WF) (hb : s.Benign)
    (hw : (s.read 36870).1 = .ok (s.data.take 36870)) (hc : BareRead ft s.data → s.Calm) :
    (fromReader cfg ft s).1 = ideal cfg ft s.data s.maxPos := by
  rw [fromReader_eq2]
  obtain ⟨hle, hwf, _⟩ := Src.read_spec s 36870 hs
  cases hr : s.read 36870 with
  | mk r s' =>
    rw [hr] at hle hwf hw
    simp only at hle hwf hw
    subst hw
    simp only
    have hd : s'.data = s.data := hle.data
    have hm : s'.maxPos = s.maxPos := hle.maxPos
    rw [← hd, ← hm]
    exact afterRead_ideal cfg ft s' hwf (hb.mono hle) (fun h => (hc (by rw [← hd]; exact h)).mono hle)

/-- C11. Two streams with the same content whose first read delivers the signature window give the
same verdict, however the later reads are cut and interrupted, unless the PDF, SQLite or XML reader
takes part. (The readers of the other formats run behind a `BufReader` or not; this cannot be
observed either: the result is the one on the undisturbed in-memory stream.) -/
theorem C11_schedule_independent (cfg : Cfg) (ft : Features) (s s' : Src) (hs : s.WF) (hs' : s'.WF)
    (hl : IsSlice s.data)
    (hd : s.data = s'.data) (hm : s.maxPos = s'.maxPos) (hb : s.Benign) (hb' : s'.Benign)
    (hw : (s.read 36870).1 = .ok (s.data.take 36870))
    (hw' : (s'.read 36870).1 = .ok (s'.data.take 36870))
    (hf : ∀ f ∈ [Feature.pdf, .sqlite3, .xml], f.enabled ft = true → ¬ Recognised s.data f.base) :
    (fromReader cfg ft s).1 = (fromReader cfg ft s').1 := by
  have hl' : s.data.length < 2 ^ 63 := hl
  have hn := bareRead_iff (by omega) hf
  rw [fromReader_window cfg ft s hs hb hw (fun h => absurd h hn),
    fromReader_window cfg ft s' hs' hb' hw' (fun h => absurd h (by rw [← hd]; exact hn)), hd, hm]

/-- C11 against the in-memory stream: any such stream gives the verdict of `from_bytes`. -/
theorem C11_as_from_bytes (cfg : Cfg) (ft : Features) (s : Src) (hs : s.WF) (hl : IsSlice s.data)
    (hm : s.maxPos = 2 ^ 64 - 1) (hb : s.Benign) (hw : (s.read 36870).1 = .ok (s.data.take 36870))
    (hf : ∀ f ∈ [Feature.pdf, .sqlite3, .xml], f.enabled ft = true → ¬ Recognised s.data f.base) :
    (fromReader cfg ft s).1 = fromBytes cfg ft s.data := by
  have hl' : s.data.length < 2 ^ 63 := hl
  have hn := bareRead_iff (by omega) hf
  rw [fromReader_window cfg ft s hs hb hw (fun h => absurd h hn), fromBytes_ideal _ _ _ (by omega), hm]

/-- An ID3v2 tag before FLAC data on a stream that delivers one byte per call and interrupts. -/
def drip : Src :=
  { cursor (b!"ID3\x04\x00\x00\x00\x00\x00\x00fLaC\x00\x00\x00\x00\x00\x00\x00") with
    revs := [.full, .short 0, .error .interrupted, .short 0, .short 0, .error .interrupted, .short 1] }

-- Non-vacuity.
example : drip.WF ∧ drip.Benign ∧ (drip.read 36870).1 = .ok (drip.data.take 36870) := by
  refine ⟨⟨by decide, by decide⟩, ⟨?_, ?_⟩, by decide +kernel⟩
  · intro e he; simp [drip] at he; exact he
  · intro e he; simp [drip, cursor] at he
example : (fromReader Cfg.release Features.all drip).1 = .ok FreeLosslessAudioCodec := by decide +kernel

/-! ## C12 -/

/-- C12 as one would wish it. -/
def C12_statement : Prop :=
  ∀ (cfg : Cfg) (ft : Features) (s s' : Src), s.WF → s'.WF → s.Benign → s'.Benign →
    s.data = s'.data → s.pos = 0 → s'.pos = 0 → s.maxPos = s'.maxPos →
    (∀ e, s.revs.head? ≠ some (.error e)) → (∀ e, s'.revs.head? ≠ some (.error e)) →
    (fromReader cfg ft s).1 = (fromReader cfg ft s').1

/-- C12 does not hold: `from_reader` makes one `read` call; a short one hides the magic. -/
theorem C12_fails : ¬ C12_statement := by
  intro h
  have := h Cfg.release Features.none (cursor (b!"\x89PNG\r\n\x1a\n"))
    { cursor (b!"\x89PNG\r\n\x1a\n") with revs := [.short 2] }
    ⟨by decide, by decide⟩ ⟨by decide, by decide⟩
    ⟨(fun _ he => nomatch he), (fun _ he => nomatch he)⟩
    ⟨fun e he => by simp at he, (fun _ he => nomatch he)⟩
    rfl rfl rfl rfl (by intro e; simp [cursor]) (by intro e; simp)
  revert this
  decide +kernel

/-- A short read in the XML reader has the same effect: the marker is not seen. -/
theorem C12_xml_short_read :
    (fromReader Cfg.release { xml := true } (cursor (b!"<?xml version=\"1.0\"?><svg>"))).1 =
      .ok ScalableVectorGraphics ∧
    (fromReader Cfg.release { xml := true }
      { cursor (b!"<?xml version=\"1.0\"?><svg>") with revs := [.full, .short 9] }).1 =
      .ok ExtensibleMarkupLanguage := by decide +kernel

/-- C12, the part that holds: without readers the verdict is exactly the one on the bytes that the
first read delivers; if it delivers the whole window, its size does not matter. -/
theorem C12_first_read_partial (cfg : Cfg) (s : Src) (hs : s.WF) (hl : IsSlice s.data) (buf : Bytes)
    (hr : (s.read 36870).1 = .ok buf) :
    (fromReader cfg Features.none s).1 = fromBytes cfg Features.none buf := by
  have hl' : s.data.length < 2 ^ 63 := hl
  have hlen : buf.length < 2 ^ 64 := by
    obtain ⟨_, _, h⟩ := Src.read_spec s 36870 hs
    rcases h with ⟨k, h1, _, h2, _⟩ | ⟨e, h2, _⟩
    · rw [h2] at hr; cases hr; rw [length_slice]; omega
    · rw [h2] at hr; cases hr
  rw [fromBytes_none cfg buf hlen, fromReader_eq2]
  cases hx : s.read 36870 with
  | mk r s' =>
    rw [hx] at hr
    simp only at hr
    subst hr
    simp only [afterRead]
    split
    · rfl
    · cases hs : fromSignature buf with
      | none => rfl
      | some fmt => simp only [fromFmtReader, fmtReader_none]; rfl

/-! ## C13 -/

/-- A stream that serves every call in full and supports every `u64` offset (what `Cursor` does),
positioned at the start. -/
structure Perfect (s : Src) (b : Bytes) : Prop where
  data : s.data = b
  pos : s.pos = 0
  maxPos : s.maxPos = 2 ^ 64 - 1
  calm : s.Calm

theorem perfect_window {s : Src} (hp : s.pos = 0) (hc : s.Calm) (n : Nat) :
    (s.read n).1 = .ok (s.data.take n) := by
  rw [(Src.read_calm s n hc).1, hp]
  rfl

/-- C13. `from_bytes`, `From<&[u8]>`, `from_reader` and `from_file` agree. -/
theorem C13_entry_points_agree {Path : Type} (cfg : Cfg) (ft : Features) (b : Bytes) (hl : IsSlice b)
    (s : Src) (hs : Perfect s b) (fs : FileSystem Path) (p : Path) (hfs : fs p = .ok s) :
    fromSlice cfg ft b = fromBytes cfg ft b ∧
    (fromReader cfg ft s).1 = fromBytes cfg ft b ∧
    fromFile cfg ft fs p = fromBytes cfg ft b := by
  have hl' : b.length < 2 ^ 63 := hl
  have h : (fromReader cfg ft s).1 = fromBytes cfg ft b := by
    rw [fromReader_window cfg ft s ⟨by rw [hs.data, hs.maxPos]; omega, by rw [hs.pos]; omega⟩ hs.calm.benign
      (perfect_window hs.pos hs.calm _) (fun _ => hs.calm), hs.data, hs.maxPos, fromBytes_ideal _ _ _ (by omega)]
  refine ⟨rfl, h, ?_⟩
  unfold fromFile
  rw [hfs]
  exact h

/-- C13 for streams with a smaller seek range, e.g. files, whose offsets end at `i64::MAX`: the
verdict is that of `from_bytes`, or a seek was rejected and it is the fallback verdict. -/
theorem C13_or_fallback (cfg : Cfg) (ft : Features) (s : Src) (hs : s.WF) (hl : IsSlice s.data)
    (hp : s.pos = 0) (hm : s.maxPos < 2 ^ 64) (hc : s.Calm) :
    (fromReader cfg ft s).1 = fromBytes cfg ft s.data ∨
    (fromReader cfg ft s).1 = .ok ArbitraryBinaryData ∨
    (ft.txt = true ∧ (fromReader cfg ft s).1 = .ok PlainText) := by
  have hl' : s.data.length < 2 ^ 63 := hl
  rw [fromReader_window cfg ft s hs hc.benign (perfect_window hp hc _) (fun _ => hc),
    fromBytes_ideal _ _ _ (by omega)]
  rcases ideal_range cfg ft s.data s.maxPos (2 ^ 64 - 1) (by omega) with h | h
  · exact Or.inl h
  · rw [h]
    rcases idealGeneric_cases ft s.data s.maxPos with ⟨ht, _, hg⟩ | ⟨_, hg⟩
    · exact Or.inr (Or.inr ⟨ht, hg⟩)
    · exact Or.inr (Or.inl hg)

/-- C13. `from_file` fails exactly when opening the file or the first read fails, with that error. -/
theorem C13_from_file_error {Path : Type} (cfg : Cfg) (ft : Features) (fs : FileSystem Path) (p : Path)
    (e : ErrKind) :
    fromFile cfg ft fs p = .error (.err e) ↔
      fs p = .error e ∨ ∃ s, fs p = .ok s ∧ (s.read 36870).1 = .error e := by
  unfold fromFile
  cases h : fs p with
  | error e' => simp
  | ok s => simp [C10_error_iff]

-- Non-vacuity.
example : Perfect (cursor (b!"%PDF-1.4")) (b!"%PDF-1.4") :=
  ⟨rfl, rfl, rfl, ⟨(fun _ he => nomatch he), (fun _ he => nomatch he)⟩⟩

/-! ## C14 -/

/-- C14 as one would wish it. -/
def C14_statement : Prop :=
  ∀ (cfg : Cfg) (ft : Features) (s : Src), s.WF → s.Calm → IsSlice s.data →
    (fromReader cfg ft s).1 = fromBytes cfg ft (s.data.drop s.pos)

/-- C14 does not hold: format-specific readers seek to absolute offsets. -/
theorem C14_fails : ¬ C14_statement := by
  intro h
  have := h Cfg.release { id3v2 := true }
    { cursor (b!"..........ID3\x04\x00\x00\x00\x00\x00\x00fLaC\x00\x00\x00\x00\x00\x00\x00") with pos := 10 }
    ⟨by decide, by decide⟩ ⟨(fun _ he => nomatch he), (fun _ he => nomatch he)⟩ (by decide)
  revert this
  decide +kernel

/-- C14, the part that holds: as long as no reader takes part (none is enabled for the format
recognised from the current position on, and `reader-txt` is off), the content from the current
position on decides. -/
theorem C14_current_position_partial (cfg : Cfg) (ft : Features) (s : Src) (_hs : s.WF) (hc : s.Calm)
    (hl : IsSlice s.data) (ht : ft.txt = false)
    (hf : ∀ f ∈ Feature.structured, f.enabled ft = true → ¬ Recognised (s.data.drop s.pos) f.base) :
    (fromReader cfg ft s).1 = fromBytes cfg ft (s.data.drop s.pos) := by
  have hl' : s.data.length < 2 ^ 63 := hl
  have hlen : (s.data.drop s.pos).length < 2 ^ 64 := by rw [List.length_drop]; omega
  have hread := (Src.read_calm s 36870 hc).1
  rw [fromBytes_ideal _ _ _ hlen, fromReader_eq2]
  cases hx : s.read 36870 with
  | mk r s' =>
    rw [hx] at hread
    simp only at hread
    subst hread
    simp only [afterRead, ideal]
    have hw : slice s.data s.pos 36870 = (s.data.drop s.pos).take bufferSize := rfl
    rw [hw]
    generalize hD : s.data.drop s.pos = D at hf hlen
    have h0 : (D.take bufferSize).length = 0 ↔ D.length = 0 := by
      rw [List.length_take]; simp only [bufferSize]; omega
    by_cases hz : D.length = 0
    · rw [if_pos hz, if_pos (h0.mpr hz)]
    · rw [if_neg hz, if_neg (fun h => hz (h0.mp h))]
      cases hsig : fromSignature (D.take bufferSize) with
      | none => simp only [fromGenericReader, idealGeneric, ht]; rfl
      | some fmt =>
        simp only
        rcases fmtReader_cases cfg ft fmt with hn | ⟨g, hg, he, hb, hr⟩
        · simp only [fromFmtReader, hn]
        · exfalso
          refine hf g hg he ?_
          unfold Recognised
          rw [fromSignature_take D _ (Nat.le_refl _)] at hsig
          rw [fromBytes_none _ _ hlen, if_neg hz, hsig, hb]
          rfl

-- Non-vacuity: a PNG in the middle of a stream, with every structured reader enabled.
example : ∀ f ∈ Feature.structured, f.enabled { Features.all with txt := false } = true →
    ¬ Recognised ((b!"..\x89PNG\r\n\x1a\n").drop 2) f.base := by
  unfold Recognised; decide +kernel
example : (fromReader Cfg.release { Features.all with txt := false }
    { cursor (b!"..\x89PNG\r\n\x1a\n") with pos := 2 }).1 = .ok PortableNetworkGraphics := by decide +kernel

/-! ## C42 -/

/-- A regular file: every call is served in full, offsets end at `i64::MAX`. -/
structure RegularFile (s : Src) (b : Bytes) : Prop where
  data : s.data = b
  pos : s.pos = 0
  maxPos : s.maxPos = 2 ^ 63 - 1
  calm : s.Calm

/-- C42 as one would wish it. -/
def C42_statement : Prop :=
  ∀ (cfg : Cfg) (ft : Features) (b : Bytes) (s : Src) (fs : FileSystem Unit), IsSlice b →
    RegularFile s b → fs () = .ok s → fromFile cfg ft fs () = fromBytes cfg ft b

/-- An MP4 file whose last box declares a 64-bit size of 2^63 - 1. -/
def mp4HugeBox : Bytes :=
  [0, 0, 0, 12] ++ b!"ftypisom" ++ [0, 0, 0, 1] ++ b!"mdat" ++ [0x7F, 0xFF, 0xFF, 0xFF, 0xFF, 0xFF, 0xFF, 0xFF]

/-- C42 does not hold: the seek behind the last box succeeds in memory and fails on a file. -/
theorem C42_fails : ¬ C42_statement := by
  intro h
  have := h Cfg.release { mp4 := true } mp4HugeBox { cursor mp4HugeBox with maxPos := 2 ^ 63 - 1 }
    (fun _ => .ok { cursor mp4HugeBox with maxPos := 2 ^ 63 - 1 }) (by decide)
    ⟨rfl, rfl, rfl, ⟨(fun _ he => nomatch he), (fun _ he => nomatch he)⟩⟩ rfl
  revert this
  decide +kernel

/-- C42, a part that holds: the verdict on a file is the one in memory or the fallback verdict. -/
theorem C42_or_fallback_partial {Path : Type} (cfg : Cfg) (ft : Features) (b : Bytes) (hl : IsSlice b)
    (s : Src) (hs : RegularFile s b) (fs : FileSystem Path) (p : Path) (hfs : fs p = .ok s) :
    fromFile cfg ft fs p = fromBytes cfg ft b ∨
    fromFile cfg ft fs p = .ok ArbitraryBinaryData ∨
    (ft.txt = true ∧ fromFile cfg ft fs p = .ok PlainText) := by
  have hl' : b.length < 2 ^ 63 := hl
  unfold fromFile
  rw [hfs]
  have := C13_or_fallback cfg ft s ⟨by rw [hs.data, hs.maxPos]; omega, by rw [hs.pos]; omega⟩
    (by rw [hs.data]; exact hl) hs.pos (by rw [hs.maxPos]; omega) hs.calm
  rw [hs.data] at this
  exact this

end FF.Props
