import Verif.Spec.Verdict
import Verif.Props.Walk
import Verif.Props.Window
import Verif.Props.Cfb
import Verif.Props.Exe
import Verif.Props.Signature
import Verif.Props.Positions
import Verif.Props.Second
/-!
# C72, C73: the complete specification of the verdict
-/

namespace FF.Props
open FF FileFormat Spec

/-! ## Compound files and executables, for any range of positions -/

theorem le_u16 (b : Bytes) (p : Nat) : leAt b p 2 = u16At b p := by simp only [leAt, u16At]; omega
theorem le_u32 (b : Bytes) (p : Nat) : leAt b p 4 = u32At b p := by
  simp only [leAt, u32At, u16At, Nat.add_assoc, Nat.reduceAdd]; omega

theorem ends_step {β : Type} {d : Bytes} {m p : Nat} {r : β} {i : Int} {k : Nat → Prog β} (n : Nat) (h : i = n) :
    Ends d m (Prog.sk (.current i) >>= k) p r ↔ p + n ≤ m ∧ Ends d m (k (p + n)) (p + n) r := by
  rw [ends_current]
  constructor
  · rintro ⟨q, hq, hk⟩
    obtain ⟨rfl, h2⟩ := (goes_lit n i h).mp hq
    exact ⟨h2, hk⟩
  · rintro ⟨h2, hk⟩
    exact ⟨_, (goes_lit n i h).mpr ⟨rfl, h2⟩, hk⟩

theorem clsid_says (b : Bytes) (hd : cfbDirectory b + 96 ≤ b.length) (f : FileFormat) :
    cfbClsids.lookup (guidStr (slice b (cfbDirectory b + 80) 16)) = some f ↔
      ∃ r ∈ clsids, MagicAt (cfbDirectory b + 80) r.1.bytes b ∧ r.2 = f := by
  rw [clsid_lookup _ (length_slice_eq b _ 16 (by omega)) f]
  constructor
  · rintro ⟨r, hm, h1, h2⟩
    exact ⟨r, hm, (magicAt_slice (length_guid _) (by omega)).mpr h1.symm, h2⟩
  · rintro ⟨r, hm, h1, h2⟩
    exact ⟨r, hm, ((magicAt_slice (length_guid _) (by omega)).mp h1).symm, h2⟩

theorem magic_length {b x : Bytes} {p : Nat} (h : MagicAt p x b) : p + x.length ≤ b.length := by
  obtain ⟨pre, suf, rfl, rfl⟩ := h
  simp only [List.length_append]
  omega

theorem cfb_says (b : Bytes) (m : Nat) (hm : b.length ≤ m) (f : FileFormat) :
    Ends b m cfbReader 0 f ↔ CfbContent b f := by
  have hname2 : utf16 b!"MatOST" = b!"M\x00a\x00t\x00O\x00S\x00T\x00" := by decide
  have hname3 : utf16 b!"WksSSWorkBook" = b!"W\x00k\x00s\x00S\x00S\x00W\x00o\x00r\x00k\x00B\x00o\x00o\x00k\x00" := by decide
  have hoff : (if u16At b 26 = 3 then 512 else 4096) * (1 + u32At b 48) + 80 = cfbDirectory b + 80 := rfl
  unfold cfbReader
  dsimp only
  rw [ends_start, ends_u16le, ends_step (i := 20) 20 rfl, ends_u32le, le_u16, le_u32, hoff, ends_start, ends_guid]
  rcases Nat.lt_or_ge b.length (52) with hl | hl
  · constructor
    · rintro ⟨_, _, _, h, _⟩; omega
    · intro h; cases h <;> omega
  rcases Nat.lt_or_ge b.length (cfbDirectory b + 96) with hd | hd
  · constructor
    · rintro ⟨_, _, _, _, _, h, _⟩; omega
    · intro h
      cases h with
      | clsid _ _ hm =>
        have := magic_length hm
        rw [length_guid] at this
        omega
      | second => omega
      | third => omega
      | other => omega
  have hpre : ∀ X : Prop, (26 ≤ m ∧ 26 + 2 ≤ b.length ∧ 26 + 2 + 20 ≤ m ∧ 26 + 2 + 20 + 4 ≤ b.length ∧
      cfbDirectory b + 80 ≤ m ∧ cfbDirectory b + 80 + 16 ≤ b.length ∧ X) ↔ X :=
    fun X => ⟨fun h => h.2.2.2.2.2.2, fun h => ⟨by omega, by omega, by omega, by omega, by omega, by omega, h⟩⟩
  rw [hpre]
  have hcls := clsid_says b hd
  cases hx : cfbClsids.lookup (guidStr (slice b (cfbDirectory b + 80) 16)) with
  | some g =>
    simp only
    rw [ends_pure]
    obtain ⟨r, hr, hm', rfl⟩ := (hcls g).mp hx
    constructor
    · rintro rfl; exact .clsid hl hr hm'
    · intro h
      cases h with
      | clsid _ hr' hm'' =>
        have := (hcls _).mpr ⟨_, hr', hm'', rfl⟩
        rw [hx] at this
        exact (Option.some.inj this).symm
      | second _ hu => exact absurd hm' (hu r hr)
      | third _ hu => exact absurd hm' (hu r hr)
      | other _ hu => exact absurd hm' (hu r hr)
  | none =>
    simp only
    have hu : UnknownClsid b := by
      intro r hr hm'
      have := (hcls _).mpr ⟨r, hr, hm', rfl⟩
      rw [hx] at this
      cases this
    rw [ends_step (i := 32) 32 rfl, ends_bytes]
    rcases Nat.lt_or_ge b.length (cfbDirectory b + 192) with h2 | h2
    · constructor
      · rintro ⟨_, h, _⟩; omega
      · intro h
        cases h with
        | clsid _ hr hm' => exact absurd hm' (hu _ hr)
        | second => omega
        | third => omega
        | other => omega
    have hp2 := prefix_slice (b := b) (m := b!"M\x00a\x00t\x00O\x00S\x00T\x00") (p := cfbDirectory b + 80 + 16 + 32) (n := 64)
      (by omega) (by decide)
    have hpre2 : ∀ X : Prop, (cfbDirectory b + 80 + 16 + 32 ≤ m ∧ (64 = 0 ∨ cfbDirectory b + 80 + 16 + 32 + 64 ≤ b.length) ∧ X) ↔ X :=
      fun X => ⟨fun h => h.2.2, fun h => ⟨by omega, by omega, h⟩⟩
    rw [hpre2]
    by_cases hm2 : MagicAt (cfbDirectory b + 128) (b!"M\x00a\x00t\x00O\x00S\x00T\x00") b
    · rw [if_pos (hp2.mpr hm2), ends_pure]
      constructor
      · rintro rfl; exact .second hl hu h2 (hname2 ▸ hm2)
      · intro h
        cases h with
        | clsid _ hr hm' => exact absurd hm' (hu _ hr)
        | second => rfl
        | third _ _ _ hn => exact absurd hm2 (hname2 ▸ hn)
        | other _ _ _ hn => exact absurd hm2 (hname2 ▸ hn)
    · rw [if_neg (fun h => hm2 (hp2.mp h)), ends_step (i := 64) 64 rfl, ends_bytes]
      rcases Nat.lt_or_ge b.length (cfbDirectory b + 320) with h3 | h3
      · constructor
        · rintro ⟨_, h, _⟩; omega
        · intro h
          cases h with
          | clsid _ hr hm' => exact absurd hm' (hu _ hr)
          | second _ _ _ hn => exact absurd (hname2 ▸ hn) hm2
          | third => omega
          | other => omega
      have hp3 := prefix_slice (b := b) (m := b!"W\x00k\x00s\x00S\x00S\x00W\x00o\x00r\x00k\x00B\x00o\x00o\x00k\x00")
        (p := cfbDirectory b + 80 + 16 + 32 + 64 + 64) (n := 64) (by omega) (by decide)
      have hpre3 : ∀ X : Prop, (cfbDirectory b + 80 + 16 + 32 + 64 + 64 ≤ m ∧
          (64 = 0 ∨ cfbDirectory b + 80 + 16 + 32 + 64 + 64 + 64 ≤ b.length) ∧ X) ↔ X :=
        fun X => ⟨fun h => h.2.2, fun h => ⟨by omega, by omega, h⟩⟩
      rw [hpre3]
      by_cases hm3 : MagicAt (cfbDirectory b + 256) (b!"W\x00k\x00s\x00S\x00S\x00W\x00o\x00r\x00k\x00B\x00o\x00o\x00k\x00") b
      · rw [if_pos (hp3.mpr hm3), ends_pure]
        constructor
        · rintro rfl; exact .third hl hu h3 (hname2 ▸ hm2) (hname3 ▸ hm3)
        · intro h
          cases h with
          | clsid _ hr hm' => exact absurd hm' (hu _ hr)
          | second _ _ _ hn => exact absurd (hname2 ▸ hn) hm2
          | third => rfl
          | other _ _ _ _ hn => exact absurd hm3 (hname3 ▸ hn)
      · rw [if_neg (fun h => hm3 (hp3.mp h)), ends_pure]
        constructor
        · rintro rfl; exact .other hl hu h3 (hname2 ▸ hm2) (hname3 ▸ hm3)
        · intro h
          cases h with
          | clsid _ hr hm' => exact absurd hm' (hu _ hr)
          | second _ _ _ hn => exact absurd (hname2 ▸ hn) hm2
          | third _ _ _ _ hn => exact absurd (hname3 ▸ hn) hm3
          | other => rfl

theorem exe_says (b : Bytes) (m : Nat) (hm : b.length ≤ m) (f : FileFormat) :
    Ends b m exeReader 0 f ↔ ExeContent b f := by
  unfold exeReader
  rw [ends_end hm, ends_start, ends_u32le, le_u32]
  rcases Nat.lt_or_ge b.length (64) with hl | hl
  · constructor
    · rintro ⟨_, h, _⟩; omega
    · intro h; cases h <;> omega
  have hpre : ∀ X : Prop, (60 ≤ m ∧ 60 + 4 ≤ b.length ∧ X) ↔ X := fun X => ⟨fun h => h.2.2, fun h => ⟨by omega, by omega, h⟩⟩
  rw [hpre]
  rcases (Nat.lt_or_ge (u32At b 60 + 4) b.length).symm with h4 | h4
  · rw [if_neg (by omega), ends_pure]
    constructor
    · rintro rfl; exact .dos hl (by omega)
    · intro h
      cases h with
      | dos => rfl
      | library => omega
      | program => omega
      | linear => omega
      | new => omega
      | other => omega
  rw [if_pos h4, ends_start, ends_bytes]
  have hpre2 : ∀ X : Prop, (u32At b 60 ≤ m ∧ (4 = 0 ∨ u32At b 60 + 4 ≤ b.length) ∧ X) ↔ X :=
    fun X => ⟨fun h => h.2.2, fun h => ⟨by omega, by omega, h⟩⟩
  rw [hpre2]
  have hno : ∀ {x : Bytes}, x.length = 2 → MagicAt (u32At b 60) x b → x ≠ b!"PE" →
      ¬ MagicAt (u32At b 60) b!"PE\x00\x00" b := by
    intro x hx h1 h2 h3
    rw [magicAt_slice hx (by omega)] at h1
    rw [magicAt_slice (n := 4) rfl (by omega)] at h3
    have := take_slice_two b (u32At b 60) (by omega)
    rw [h3, h1] at this
    injection this with this
    exact h2 this.symm
  by_cases hpe : MagicAt (u32At b 60) b!"PE\x00\x00" b
  · have hs := (magicAt_slice (n := 4) rfl (by omega)).mp hpe
    rw [if_pos hs, ends_step (i := 18) 18 rfl, ends_u16le, le_u16, ends_pure]
    rcases Nat.lt_or_ge b.length (u32At b 60 + 24) with h24 | h24
    · constructor
      · rintro ⟨_, h, _⟩; omega
      · intro h
        cases h with
        | dos => omega
        | library => omega
        | program => omega
        | linear _ _ h => rcases h with h | h <;> exact absurd hpe (hno rfl h (by decide))
        | new _ _ h => exact absurd hpe (hno rfl h (by decide))
        | other _ _ h => exact absurd hpe h
    have hbit := bit13 (u16At b (u32At b 60 + 4 + 18))
    constructor
    · rintro ⟨_, _, rfl⟩
      by_cases hb : (u16At b (u32At b 60 + 4 + 18)).testBit 13 = true
      · rw [if_pos (hbit.mpr hb)]
        exact .library hl h24 hpe hb
      · rw [if_neg (fun h => hb (hbit.mp h))]
        exact .program hl h24 hpe (by cases hx : (u16At b (u32At b 60 + 22)).testBit 13 <;> trivial)
    · intro h
      refine ⟨by omega, by omega, ?_⟩
      cases h with
      | dos => omega
      | library _ _ _ hb => exact (if_pos (hbit.mpr hb)).symm
      | program _ _ _ hb => exact (if_neg (fun h => by have := hbit.mp h; rw [hb] at this; cases this)).symm
      | linear _ _ h => rcases h with h | h <;> exact absurd hpe (hno rfl h (by decide))
      | new _ _ h => exact absurd hpe (hno rfl h (by decide))
      | other _ _ h => exact absurd hpe h
  · rw [if_neg (fun h => hpe ((magicAt_slice (n := 4) rfl (by omega)).mpr h)), ends_lift (take_slice_two b _ (by omega))]
    have hle : ∀ x : Bytes, x.length = 2 → (MagicAt (u32At b 60) x b ↔ slice b (u32At b 60) 2 = x) :=
      fun x hx => magicAt_slice hx (by omega)
    have hE := hle b!"LE" rfl
    have hX := hle b!"LX" rfl
    have hN := hle b!"NE" rfl
    by_cases h1 : slice b (u32At b 60) 2 = b!"LE" ∨ slice b (u32At b 60) 2 = b!"LX"
    · rw [if_pos h1, ends_pure]
      have hm' : MagicAt (u32At b 60) b!"LE" b ∨ MagicAt (u32At b 60) b!"LX" b := h1.imp hE.mpr hX.mpr
      constructor
      · rintro rfl; exact .linear hl h4 hm'
      · intro h
        cases h with
        | dos => omega
        | library _ _ h => exact absurd h hpe
        | program _ _ h => exact absurd h hpe
        | linear => rfl
        | new _ _ h =>
          rw [hN] at h
          rw [h] at h1
          rcases h1 with h1 | h1 <;> exact absurd h1 (by decide)
        | other _ _ _ h2 h3 => rcases hm' with h | h <;> contradiction
    · rw [if_neg h1]
      by_cases h2 : slice b (u32At b 60) 2 = b!"NE"
      · rw [if_pos h2, ends_pure]
        constructor
        · rintro rfl; exact .new hl h4 (hN.mpr h2)
        · intro h
          cases h with
          | dos => omega
          | library _ _ h => exact absurd h hpe
          | program _ _ h => exact absurd h hpe
          | linear _ _ h => exact absurd (h.imp hE.mp hX.mp) h1
          | new => rfl
          | other _ _ _ _ _ h3 => exact absurd (hN.mpr h2) h3
      · rw [if_neg h2, ends_pure]
        constructor
        · rintro rfl
          exact .other hl h4 hpe (fun h => h1 (Or.inl (hE.mp h))) (fun h => h1 (Or.inr (hX.mp h))) (fun h => h2 (hN.mp h))
        · intro h
          cases h with
          | dos => rfl
          | library _ _ h => exact absurd h hpe
          | program _ _ h => exact absurd h hpe
          | linear _ _ h => exact absurd (h.imp hE.mp hX.mp) h1
          | new _ _ h => exact absurd (hN.mp h) h2
          | other => rfl

/-! ## The readers that look for markers -/

/-- A slice in which positions go up to `m`. -/
def boundedCursor (b : Bytes) (m : Nat) : Src := { cursor b with maxPos := m }

theorem val_ends {b : Bytes} {m : Nat} {p : Prog FileFormat} {f : FileFormat} : val (run b m p 0) = .ok f ↔ Ends b m p 0 f := by
  unfold Ends
  cases run b m p 0 with
  | ok y =>
    obtain ⟨a, q⟩ := y
    constructor
    · intro h
      have : a = f := by injection h
      exact ⟨q, by rw [this]⟩
    · rintro ⟨q', h⟩
      injection h with h
      injection h with h
      rw [h]; rfl
  | error e =>
    constructor
    · intro h; cases h
    · rintro ⟨q, h⟩; cases h

theorem ends_of_val {b : Bytes} {m : Nat} {p : Prog FileFormat} {f g : FileFormat} (h : val (run b m p 0) = .ok g) :
    Ends b m p 0 f ↔ f = g := by
  rw [← val_ends, h]
  exact ⟨fun h => by injection h with h; exact h.symm, fun h => by rw [h]⟩

theorem pdf_says (b : Bytes) (m : Nat) (hm : b.length ≤ m) (f : FileFormat) :
    Ends b m pdfReader 0 f ↔ PdfContent b m 33554432 f := by
  rcases Nat.lt_or_ge m (5) with h5 | h5
  · constructor
    · unfold pdfReader
      rw [ends_start]
      intro h; omega
    · intro h
      cases h with
      | artwork h =>
        obtain ⟨pre, suf, rfl, h1, h2⟩ := h
        simp only [List.length_append] at hm
        omega
      | document => omega
  have hcalm : (boundedCursor b m).Calm := ⟨(fun _ h => nomatch h), (fun _ h => nomatch h)⟩
  have hwf : (boundedCursor b m).WF := ⟨hm, Nat.zero_le _⟩
  obtain ⟨g, T, h1, h2, h3, h4, _⟩ := pdfReader_exec (boundedCursor b m) hwf hcalm.noFail h5
  obtain ⟨k, hk⟩ := reader_all Cfg.release .pdf
  have hx := execOn_calm pdfReader (boundedCursor b m) hwf hcalm (hk.untilBuffered (fun _ => id)) (reader_abs Cfg.release .pdf)
  rw [h1] at hx
  have hT := h4 hcalm
  have hlim : pdfReadLimit = 33554432 := rfl
  have hd : (boundedCursor b m).data = b := rfl
  rw [hd] at h2
  have hv : val (run b m pdfReader 0) = .ok g := hx.symm
  rw [ends_of_val hv]
  rcases pdfDone_cases h2 h3 with ⟨rfl, ho⟩ | ⟨rfl, ho⟩
  · have ho' := occursWithin_mono (hi' := 33554437) (by omega) ho
    constructor
    · rintro rfl; exact .artwork ho'
    · intro h
      cases h with
      | artwork => rfl
      | document _ h => exact absurd ho' h
  · constructor
    · rintro rfl; exact .document h5 ho
    · intro h
      cases h with
      | artwork h => exact absurd h ho
      | document => rfl

theorem sqlite_says (b : Bytes) (m : Nat) (hm : b.length ≤ m) (f : FileFormat) :
    Ends b m sqlite3Reader 0 f ↔ SqliteContent b m 32768 f := by
  rcases Nat.lt_or_ge m (100) with h5 | h5
  · constructor
    · unfold sqlite3Reader
      rw [ends_start]
      intro h; omega
    · intro h
      cases h with
      | sketch h =>
        obtain ⟨pre, suf, rfl, h1, h2⟩ := h
        simp only [List.length_append] at hm
        omega
      | database => omega
  rcases sqlite3_run b m h5 0 with ⟨h1, h2⟩ | ⟨h1, h2⟩
  · rw [ends_of_val h2]
    constructor
    · rintro rfl; exact .sketch h1
    · intro h
      cases h with
      | sketch => rfl
      | database _ h => exact absurd h1 h
  · rw [ends_of_val h2]
    constructor
    · rintro rfl; exact .database h5 h1
    · intro h
      cases h with
      | sketch h => exact absurd h h1
      | database => rfl

theorem xml_says (b : Bytes) (m : Nat) (f : FileFormat) :
    Ends b m xmlReader 0 f ↔ 5 ≤ m ∧ XmlVerdict b f := by
  rcases Nat.lt_or_ge m (5) with h5 | h5
  · constructor
    · unfold xmlReader
      rw [ends_start]
      intro h; omega
    · intro h; omega
  obtain ⟨g, h1, h2⟩ := xml_run b m h5 0
  have h3 : XmlVerdict b g := xmlVerdict_of_row h2
  rw [ends_of_val h1]
  constructor
  · rintro rfl; exact ⟨h5, h3⟩
  · rintro ⟨_, h⟩
    exact xmlVerdict_unique h3 h

/-- Every reader finds what the specification says, and nothing if it says nothing. -/
theorem reader_says (b : Bytes) (m : Nat) (hb : b.length < 2 ^ 63) (hm : b.length ≤ m) (g : Feature)
    (hg : g ∈ Feature.structured) (f : FileFormat) :
    Ends b m (readerOf Cfg.release g).2 0 f ↔ ReaderSays b m Reads.full g f := by
  cases g with
  | asf => exact asfReader_walk b m hm hb f
  | cfb => exact cfb_says b m hm f
  | ebml => exact ebmlReader_walk b m hm f
  | exe => exact exe_says b m hm f
  | id3v2 => exact id3v2Reader_walk hb hm f
  | mp4 => exact mp4Reader_walk b m hm f
  | pdf => exact pdf_says b m hm f
  | rm => exact rmReader_walk b m hm f
  | sqlite3 => exact sqlite_says b m hm f
  | txt => exact absurd hg (by decide)
  | xml =>
    rw [show readerOf Cfg.release .xml = (false, xmlReader) from rfl]
    show Ends b m xmlReader 0 f ↔ 5 ≤ m ∧ XmlVerdict (b.take 8197) f
    rw [xml_says, xmlVerdict_take]
  | zip => exact zipReader_walk b m hm hb f

/-! ## The signature -/

theorem signatureSays_some {b : Bytes} {f : FileFormat} (h : fromSignature b = some f) (g : FileFormat) :
    SignatureSays b g ↔ g = f := by
  have hne : b ≠ [] := by
    rintro rfl
    have hn : fromSignature [] = none := by decide +kernel
    rw [hn] at h; cases h
  constructor
  · intro hs
    cases hs with
    | empty h0 => exact absurd h0 hne
    | magic hg hn =>
      rcases fromSignature_first hg h with rfl | hb
      · rfl
      · exact absurd (fromSignature_some h) (hn _ hb)
    | unknown _ hn => exact absurd (fromSignature_some h) (hn _)
  · rintro rfl
    refine .magic (fromSignature_some h) fun x hx hm => ?_
    rcases fromSignature_first hm h with rfl | hb
    · exact (C05_order_strict _ _ hx).2 rfl
    · exact (C05_order_strict _ _ hx).1 hb

theorem signatureSays_none {b : Bytes} (hne : b ≠ []) (h : fromSignature b = none) (g : FileFormat) :
    SignatureSays b g ↔ g = ArbitraryBinaryData := by
  have hn := fromSignature_none.mp h
  constructor
  · intro hs
    cases hs with
    | empty h0 => exact absurd h0 hne
    | magic hg => exact absurd hg (hn _)
    | unknown => rfl
  · rintro rfl; exact .unknown hne hn

theorem signatureSays_empty (g : FileFormat) : SignatureSays [] g ↔ g = FileFormat.Empty := by
  have hn : ∀ f, ¬ HasMagic f [] := fromSignature_none.mp (by decide +kernel)
  constructor
  · intro hs
    cases hs with
    | empty => rfl
    | magic hg => exact absurd hg (hn _)
    | unknown h => exact absurd rfl h
  · rintro rfl; exact .empty rfl

/-! ## The verdict -/

theorem base_ne_empty : ∀ g : Feature, g.base ≠ FileFormat.Empty := by intro g; cases g <;> decide
theorem structured_of_ne : ∀ g : Feature, g ≠ .txt → g ∈ Feature.structured := by intro g; cases g <;> decide
theorem base_default : ∀ g ∈ Feature.structured, g.base ≠ ArbitraryBinaryData := by decide
theorem no_magic_default (b : Bytes) : fromSignature b ≠ some ArbitraryBinaryData := by
  intro h
  obtain ⟨e, he, hf, _⟩ := fromSignature_some h
  exact absurd hf (not_default he)

theorem generic_says (ft : Features) (b : Bytes) (m : Nat) (rd : Reads) (f : FileFormat) :
    idealGeneric ft b m = .ok f ↔ (ft.txt = true ∧ ReaderSays b m rd .txt f) ∨
      (¬ (ft.txt = true ∧ ∃ f, ReaderSays b m rd .txt f) ∧ f = ArbitraryBinaryData) := by
  cases ht : ft.txt with
  | false =>
    have : idealGeneric ft b m = .ok ArbitraryBinaryData := by unfold idealGeneric; rw [ht]; rfl
    rw [this]
    constructor
    · intro h; injection h with h; exact Or.inr ⟨(by rintro ⟨⟨⟩, _⟩), h.symm⟩
    · rintro (⟨⟨⟩, _⟩ | ⟨_, rfl⟩); rfl
  | true =>
    rcases idealGeneric_text ft b m ht with ⟨h1, h2⟩ | ⟨h1, h2⟩
    · rw [h2]
      constructor
      · intro h; injection h with h; exact Or.inl ⟨rfl, h1, h.symm⟩
      · rintro (⟨_, _, rfl⟩ | ⟨h, _⟩)
        · rfl
        · exact absurd ⟨rfl, _, h1, rfl⟩ h
    · rw [h2]
      constructor
      · intro h; injection h with h; exact Or.inr ⟨(by rintro ⟨_, _, h, _⟩; exact h1 h), h.symm⟩
      · rintro (⟨_, h, _⟩ | ⟨_, rfl⟩)
        · exact absurd h h1
        · rfl

theorem boundedCursor_calm (b : Bytes) (m : Nat) : (boundedCursor b m).Calm :=
  ⟨(fun _ h => nomatch h), (fun _ h => nomatch h)⟩

theorem ideal_total (ft : Features) (b : Bytes) (hb : IsSlice b) (m : Nat) (hm : b.length ≤ m) :
    ∃ v, ideal Cfg.release ft b m = .ok v := by
  have hcalm := boundedCursor_calm b m
  have hwf : (boundedCursor b m).WF := ⟨hm, Nat.zero_le _⟩
  have hw := perfect_window (s := boundedCursor b m) rfl hcalm 36870
  have h := fromReader_window Cfg.release ft (boundedCursor b m) hwf hcalm.benign hw (fun _ => hcalm)
  have hdm : ideal Cfg.release ft (boundedCursor b m).data (boundedCursor b m).maxPos = ideal Cfg.release ft b m := rfl
  rw [hdm] at h
  rw [← h]
  rcases C01_from_reader_total ft (boundedCursor b m) hwf hb with h | ⟨e, h⟩
  · exact h
  · have := (C10_error_iff _ _ _ _).mp h
    rw [hw] at this
    cases this

theorem enabled_ne {ft : Features} {b : Bytes} {fmt : FileFormat} (hs : fromSignature b = some fmt)
    (hr : fmtReader Cfg.release ft fmt = none) (g : Feature) (he : g.enabled ft = true) : g.base ≠ fmt := by
  rintro rfl
  by_cases hg : g = .txt
  · subst hg
    exact no_magic_default b hs
  · rw [fmtReader_base Cfg.release ft g (structured_of_ne g hg), he] at hr
    cases hr

/-- The readers that insist on all of the bytes they ask for, on a stream without failures. -/
theorem exact_reader_says (s : Src) (hs : s.WF) (hl : IsSlice s.data) (hb : s.Benign) (rd : Reads) (g : Feature)
    (hg : g ∈ Feature.structured) (hx : g.bareRead = false) (f : FileFormat) :
    (execOn (readerOf Cfg.release g).1 (readerOf Cfg.release g).2 s).1 = .ok f ↔ ReaderSays s.data s.maxPos rd g f := by
  rcases execOn_exact _ _ s hs (reader_exact Cfg.release g hx) (reader_abs Cfg.release g) with h | ⟨h, _⟩
  · rw [h, val_ends, reader_says s.data s.maxPos hl hs.len g hg]
    cases g <;> first | exact Iff.rfl | cases hx
  · exact absurd hb h

/-- All readers, on a stream that serves every call in full. -/
theorem calm_reader_says (s : Src) (hs : s.WF) (hl : IsSlice s.data) (hc : s.Calm) (g : Feature)
    (hg : g ∈ Feature.structured) (f : FileFormat) :
    (execOn (readerOf Cfg.release g).1 (readerOf Cfg.release g).2 s).1 = .ok f ↔ ReaderSays s.data s.maxPos Reads.full g f := by
  cases hx : g.bareRead with
  | false => exact exact_reader_says s hs hl hc.benign Reads.full g hg hx f
  | true =>
    have hfalse : (readerOf Cfg.release g).1 = false := by cases g <;> first | rfl | cases hx
    obtain ⟨k, hk⟩ := reader_all Cfg.release g
    have hu := hk.untilBuffered (fun _ => id)
    rw [hfalse] at hu ⊢
    rw [execOn_calm _ s hs hc hu (reader_abs Cfg.release g), val_ends, reader_says s.data s.maxPos hl hs.len g hg]

/-- What follows the first read. -/
theorem afterRead_verdict (ft : Features) (w : Bytes) (s : Src) (hs : s.WF) (hl : IsSlice s.data) (hb : s.Benign) (rd : Reads)
    (hread : ∀ g ∈ Feature.structured, g.enabled ft = true → fromSignature w = some g.base → ∀ f,
      ((execOn (readerOf Cfg.release g).1 (readerOf Cfg.release g).2 s).1 = .ok f ↔ ReaderSays s.data s.maxPos rd g f))
    (f : FileFormat) :
    (afterRead Cfg.release ft w s).1 = .ok f ↔ VerdictOn ft w s.data s.maxPos rd f := by
  unfold afterRead
  by_cases hne : w = []
  · subst hne
    rw [if_pos (show ([] : Bytes).length = 0 from rfl)]
    constructor
    · intro h
      injection h with h
      subst h
      exact .signature (.empty rfl) (fun g _ => base_ne_empty g)
    · intro h
      cases h with
      | signature hs => rw [(signatureSays_empty _).mp hs]
      | reader _ hs => exact absurd ((signatureSays_empty _).mp hs) (base_ne_empty _)
      | text _ hs => exact absurd ((signatureSays_empty _).mp hs) (base_ne_empty _)
      | default _ hs => exact absurd ((signatureSays_empty _).mp hs) (base_ne_empty _)
  have hlen : w.length ≠ 0 := fun h => hne (List.eq_nil_of_length_eq_zero h)
  rw [if_neg hlen]
  cases hsig : fromSignature w with
  | none =>
    simp only
    rw [fromGenericReader_ideal ft s hs hb]
    have hsays := signatureSays_none hne hsig
    have htxt : ∀ g : Feature, g.base = ArbitraryBinaryData → g = .txt := by
      intro g; cases g <;> decide
    rw [generic_says ft s.data s.maxPos rd]
    constructor
    · rintro (⟨ht, h⟩ | ⟨hn, rfl⟩)
      · exact .reader (g := .txt) ht ((hsays _).mpr rfl) h
      · cases ht : ft.txt with
        | true =>
          refine .default (g := .txt) ht ((hsays _).mpr rfl) (fun x hx => hn ⟨ht, x, hx⟩) hn
        | false =>
          refine .signature ((hsays _).mpr rfl) fun g he hg => ?_
          have := htxt g hg
          subst this
          have he' : ft.txt = true := he
          rw [ht] at he'
          cases he'
    · intro h
      cases h with
      | signature hs hn =>
        have := (hsays _).mp hs
        subst this
        exact Or.inr ⟨fun h => hn .txt h.1 rfl, rfl⟩
      | reader he hs h =>
        have := htxt _ ((hsays _).mp hs)
        subst this
        exact Or.inl ⟨he, h⟩
      | text he hs hn ht h => exact Or.inl ⟨ht, h⟩
      | default he hs hn ht => exact Or.inr ⟨ht, rfl⟩
  | some fmt =>
    simp only
    have hsays := signatureSays_some hsig
    rcases fmtReader_cases Cfg.release ft fmt with hr | ⟨g, hg, he, rfl, hr⟩
    · simp only [fromFmtReader, hr]
      have hno := enabled_ne hsig hr
      constructor
      · intro h
        injection h with h
        subst h
        exact .signature ((hsays _).mpr rfl) hno
      · intro h
        cases h with
        | signature hs => rw [(hsays _).mp hs]
        | reader he hs => exact absurd ((hsays _).mp hs) (hno _ he)
        | text he hs => exact absurd ((hsays _).mp hs) (hno _ he)
        | default he hs => exact absurd ((hsays _).mp hs) (hno _ he)
    · simp only [fromFmtReader, hr]
      have hsame : ∀ g' : Feature, SignatureSays w g'.base → g' = g := by
        intro g' hs
        have hbase := (hsays _).mp hs
        by_cases ht : g' = .txt
        · subst ht
          rw [← hbase] at hsig
          exact absurd hsig (no_magic_default w)
        · exact base_injective g' (structured_of_ne g' ht) g hg hbase
      have hread := hread g hg he hsig
      have hsay : SignatureSays w g.base := (hsays _).mpr rfl
      have hnc := execOn_notCrash Cfg.release g s hs hl (Or.inl rfl)
      obtain ⟨k, hk⟩ := reader_all Cfg.release g
      obtain ⟨hle, hwf, _⟩ := execOn_le _ _ s hs (hk.untilBuffered (fun _ => id))
      generalize execOn (readerOf Cfg.release g).1 (readerOf Cfg.release g).2 s = r at hread hnc hle hwf
      obtain ⟨r, s'⟩ := r
      cases r with
      | ok y =>
        have hy : ReaderSays s.data s.maxPos rd g y := (hread y).mp rfl
        constructor
        · intro h
          injection h with h
          subst h
          exact .reader he hsay hy
        · intro h
          cases h with
          | signature hs hn => exact absurd ((hsays _).mp hs).symm (hn g he)
          | reader _ hs h =>
            have := hsame _ hs
            subst this
            exact (hread _).mpr h
          | text _ hs hn =>
            have := hsame _ hs
            subst this
            exact absurd hy (hn _)
          | default _ hs hn =>
            have := hsame _ hs
            subst this
            exact absurd hy (hn _)
      | error x =>
        have hno : ∀ x, ¬ ReaderSays s.data s.maxPos rd g x := by
          intro y h
          cases (hread _).mpr h
        cases x with
        | panic => cases hnc
        | diverge => cases hnc
        | err e =>
          have hd : s'.data = s.data := hle.data
          have hm : s'.maxPos = s.maxPos := hle.maxPos
          simp only
          rw [fromGenericReader_ideal ft s' hwf (hb.mono hle), hd, hm, generic_says ft s.data s.maxPos rd]
          constructor
          · rintro (⟨ht, h⟩ | ⟨hn, rfl⟩)
            · exact .text he hsay hno ht h
            · exact .default he hsay hno hn
          · intro h
            cases h with
            | signature hs hn => exact absurd ((hsays _).mp hs).symm (hn g he)
            | reader _ hs h =>
              have := hsame _ hs
              subst this
              exact absurd h (hno _)
            | text _ _ _ ht h => exact Or.inl ⟨ht, h⟩
            | default _ _ _ ht => exact Or.inr ⟨ht, rfl⟩

/-- Nothing of the content behind the signature window matters to the magic numbers. -/
theorem signatureSays_take (b : Bytes) (f : FileFormat) : SignatureSays (b.take 36870) f ↔ SignatureSays b f := by
  have h : fromSignature (b.take 36870) = fromSignature b := fromSignature_take _ bufferSize (Nat.le_refl _)
  by_cases hne : b = []
  · subst hne; exact Iff.rfl
  have hne' : b.take 36870 ≠ [] := by
    intro h0
    have := congrArg List.length h0
    rw [List.length_take] at this
    have : b.length ≠ 0 := fun h => hne (List.eq_nil_of_length_eq_zero h)
    simp only [List.length_nil] at *
    omega
  cases hb : fromSignature b with
  | some g => rw [signatureSays_some hb, signatureSays_some (h.trans hb)]
  | none => rw [signatureSays_none hne hb, signatureSays_none hne' (h.trans hb)]

theorem verdictOn_window (ft : Features) (b : Bytes) (top : Nat) (rd : Reads) (f : FileFormat) :
    VerdictOn ft (b.take 36870) b top rd f ↔ VerdictOn ft b b top rd f := by
  constructor
  · intro h
    cases h with
    | signature hs hn => exact .signature ((signatureSays_take b _).mp hs) hn
    | reader he hs h => exact .reader he ((signatureSays_take b _).mp hs) h
    | text he hs hn ht h => exact .text he ((signatureSays_take b _).mp hs) hn ht h
    | default he hs hn ht => exact .default he ((signatureSays_take b _).mp hs) hn ht
  · intro h
    cases h with
    | signature hs hn => exact .signature ((signatureSays_take b _).mpr hs) hn
    | reader he hs h => exact .reader he ((signatureSays_take b _).mpr hs) h
    | text he hs hn ht h => exact .text he ((signatureSays_take b _).mpr hs) hn ht h
    | default he hs hn ht => exact .default he ((signatureSays_take b _).mpr hs) hn ht

theorem ideal_verdict (ft : Features) (b : Bytes) (hb : IsSlice b) (m : Nat) (hm : b.length ≤ m) (f : FileFormat) :
    ideal Cfg.release ft b m = .ok f ↔ Verdict ft b m f := by
  have hcalm := boundedCursor_calm b m
  have hwf : (boundedCursor b m).WF := ⟨hm, Nat.zero_le _⟩
  have h := afterRead_ideal Cfg.release ft (boundedCursor b m) hwf hcalm.benign (fun _ => hcalm)
  change _ = ideal Cfg.release ft b m at h
  rw [← h, afterRead_verdict ft _ _ hwf hb hcalm.benign Reads.full
    (fun g hg _ _ f => calm_reader_says _ hwf hb hcalm g hg f)]
  exact verdictOn_window ft b m Reads.full f

/-- C72. `from_bytes` reports a format exactly if it is the verdict on the content. -/
theorem C72_from_bytes (ft : Features) (b : Bytes) (hb : IsSlice b) (f : FileFormat) :
    fromBytes Cfg.release ft b = .ok f ↔ Verdict ft b (2 ^ 64 - 1) f := by
  have hb' : b.length < 2 ^ 63 := hb
  rw [fromBytes_ideal _ _ _ (by omega)]
  exact ideal_verdict ft b hb _ (by omega) f

/-- C72. On every content there is exactly one verdict. -/
theorem C72_exactly_one (ft : Features) (b : Bytes) (hb : IsSlice b) (top : Nat) (hm : b.length ≤ top) :
    ∃ f, Verdict ft b top f ∧ ∀ g, Verdict ft b top g → g = f := by
  obtain ⟨v, hv⟩ := ideal_total ft b hb top hm
  refine ⟨v, (ideal_verdict ft b hb top hm v).mp hv, fun g hg => ?_⟩
  have := (ideal_verdict ft b hb top hm g).mpr hg
  rw [hv] at this
  injection this with this
  exact this.symm

/-- C72 for streams: if the first read delivers the signature window and no call fails, `from_reader` reports the verdict
on the content of the stream. All calls have to be served in full only if the PDF, SQLite or XML reader takes part. -/
theorem C72_from_reader (ft : Features) (s : Src) (hs : s.WF) (hl : IsSlice s.data) (hb : s.Benign)
    (hw : (s.read 36870).1 = .ok (s.data.take 36870))
    (hc : s.Calm ∨ ∀ g ∈ [Feature.pdf, .sqlite3, .xml], g.enabled ft = true → ¬ SignatureSays s.data g.base) (f : FileFormat) :
    (fromReader Cfg.release ft s).1 = .ok f ↔ Verdict ft s.data s.maxPos f := by
  have hl' : s.data.length < 2 ^ 63 := hl
  rw [fromReader_window Cfg.release ft s hs hb hw, ideal_verdict ft s.data hl s.maxPos hs.len]
  rintro ⟨g, hg, hbare, he, hsig⟩
  rcases hc with hc | hc
  · exact hc
  · rw [fromSignature_take _ bufferSize (Nat.le_refl _)] at hsig
    refine absurd ((signatureSays_some hsig _).mpr rfl) (hc g ?_ he)
    revert hbare; cases g <;> decide

/-- C72 for files: opened, and read without failures or interruptions, at offsets up to the largest signed number. -/
theorem C72_from_file {Path : Type} (ft : Features) (fs : FileSystem Path) (p : Path) (s : Src) (hfs : fs p = .ok s)
    (hs : s.WF) (hl : IsSlice s.data) (hp : s.pos = 0) (hc : s.Calm) (f : FileFormat) :
    fromFile Cfg.release ft fs p = .ok f ↔ Verdict ft s.data s.maxPos f := by
  rw [← C72_from_reader ft s hs hl hc.benign (perfect_window hp hc _) (Or.inl hc)]
  unfold fromFile
  rw [hfs]

-- Not vacuous: each way to a verdict, derived from the specification alone or found by the theorem.
example : Verdict {} [] 100 FileFormat.Empty := .signature (.empty rfl) (fun _ _ => base_ne_empty _)
example : Verdict { txt := true } b!"hello" (2 ^ 64 - 1) PlainText :=
  (C72_from_bytes _ _ (by decide) _).mp (by decide +kernel)
example : Verdict { txt := true } [1, 2, 3] (2 ^ 64 - 1) ArbitraryBinaryData :=
  (C72_from_bytes _ _ (by decide) _).mp (by decide +kernel)
example : Verdict { exe := true } b!"MZ" (2 ^ 64 - 1) ArbitraryBinaryData :=
  (C72_from_bytes _ _ (by decide) _).mp (by decide +kernel)
example : Verdict { exe := true, txt := true } b!"MZ" (2 ^ 64 - 1) PlainText :=
  (C72_from_bytes _ _ (by decide) _).mp (by decide +kernel)
example : Verdict { pdf := true } b!"%PDF-1.4 ..AIPrivateData.." (2 ^ 63 - 1) AdobeIllustratorArtwork := by
  refine .reader (g := .pdf) rfl ?_ (.artwork ⟨b!"%PDF-1.4 ..", b!"..", rfl, by decide, by decide⟩)
  exact (signatureSays_some (by decide +kernel) _).mpr rfl
example : ¬ Verdict { pdf := true } b!"%PDF-1.4 ..AIPrivateData.." (2 ^ 64 - 1) PortableDocumentFormat :=
  fun h => absurd ((C72_from_bytes _ _ (by decide) _).mpr h) (by decide +kernel)

/-! ## C73: every stream whose calls do not fail -/

theorem first_window (s : Src) (hq : s.NoFail) :
    (s.read 36870).1 = .ok (firstWindow s) ∧ (s.read 36870).2.revs = s.revs.tail := by
  cases hx : s.read 36870 with
  | mk r s1 =>
    cases r with
    | error e =>
      exfalso
      unfold Src.read at hx
      split at hx
      · injection hx with h; cases h
      · injection hx with h; cases h
      · injection hx with h; cases h
      · rename_i hr
        exact hq.reads _ (by rw [hr]; exact List.mem_cons_self)
    | ok c =>
      obtain ⟨k, hk, h⟩ := read_size hx
      rcases h with ⟨h1, h2, h3⟩ | ⟨e, es, h1, h2, h3⟩
      · exact ⟨by rw [hk, h2]; unfold firstWindow; rw [h1]; rfl, by rw [h3, h1]; rfl⟩
      · exact ⟨by rw [hk, h2]; unfold firstWindow; rw [h1]; rfl, by rw [h3, h1]; rfl⟩

/-- A program that begins with a position out of range fails. -/
theorem exec_far {α : Type} (s : Src) (hs : s.WF) (p : Nat) (hp : ¬ p ≤ s.maxPos) (k : Nat → Prog α) (f : α) :
    (execOn false (Prog.sk (.start p) >>= k) s).1 ≠ .ok f := by
  have hrun : execOn false (Prog.sk (.start p) >>= k) s =
      match s.seek (.start p) with
      | (.ok q, s1) => execOn false (k q) s1
      | (.error e, s1) => (.error (.err e), s1) := by
    show (match exec (Prog.seek (.start p) k) { src := s, buffered := false, buf := [] } with
      | (r, s) => (r, s.src)) = _
    simp only [exec, Rd.seek, if_true]
    cases s.seek (.start p) with
    | mk r s1 => cases r <;> rfl
  rw [hrun]
  obtain ⟨_, _, hc⟩ := Src.seek_spec s (.start p) hs
  cases hx : s.seek (.start p) with
  | mk r s2 =>
    rw [hx] at hc
    cases r with
    | error e => intro h; cases h
    | ok q =>
      rcases hc with ⟨q', h3, _, _⟩ | ⟨_, h, _⟩ | ⟨_, h, _⟩
      · simp only [seekTarget, if_neg hp] at h3
        cases h3
      · cases h
      · cases h

theorem xml_stream (s s1 : Src) (hs : s.WF) (hq : s.NoFail) (buf : Bytes) (h1 : s.read 36870 = (.ok buf, s1)) (f : FileFormat) :
    (execOn false xmlReader s1).1 = .ok f ↔ 5 ≤ s.maxPos ∧ XmlVerdict (s.data.take (5 + s.secondRead 8192)) f := by
  obtain ⟨hle, hwf, _⟩ := Src.read_spec s 36870 hs
  rw [h1] at hle hwf
  by_cases hm : 5 ≤ s.maxPos
  · obtain ⟨s', h⟩ := exec_second s s1 hs hq 5 8192 hm buf h1 (fun buf => Prog.lift (xmlClassify buf xmlRules))
    obtain ⟨f', hf, hfr⟩ := xmlClassify_spec (s.data.take (5 + s.secondRead 8192)) xmlRules xmlRules_ne
    rw [xmlRules_eq] at hfr
    rw [slice_of_take _ _ _ _ (secondRead_le s 8192)] at hf
    have hv := xmlVerdict_of_row hfr
    have hres : (execOn false xmlReader s1).1 = .ok f' := by
      show (execOn false (Prog.sk (.start 5) >>= fun _ => Prog.rd 8192 >>= fun buf =>
        Prog.lift (xmlClassify buf xmlRules)) s1).1 = _
      rw [h, hf]
      rfl
    rw [hres]
    constructor
    · intro h; injection h with h; rw [← h]; exact ⟨hm, hv⟩
    · rintro ⟨_, h⟩; rw [xmlVerdict_unique hv h]
  · constructor
    · intro h
      exact absurd h (exec_far s1 hwf 5 (by rw [hle.maxPos]; exact hm) _ f)
    · rintro ⟨h, _⟩; exact absurd h hm

theorem sqlite_stream (s s1 : Src) (hs : s.WF) (hq : s.NoFail) (buf : Bytes) (h1 : s.read 36870 = (.ok buf, s1))
    (f : FileFormat) :
    (execOn false sqlite3Reader s1).1 = .ok f ↔ SqliteContent s.data s.maxPos (s.secondRead 32768) f := by
  obtain ⟨hle, hwf, _⟩ := Src.read_spec s 36870 hs
  rw [h1] at hle hwf
  by_cases hm : 100 ≤ s.maxPos
  · obtain ⟨s', h⟩ := exec_second s s1 hs hq 100 32768 hm buf h1 (fun buf => Prog.lift (holdsBytes buf sketchMarker) >>=
      fun found => if found = true then pure Sketch else pure Sqlite3)
    obtain ⟨r, hr', hi⟩ := holdsBytes_spec (slice s.data 100 (s.secondRead 32768)) sketchMarker
    rw [occursWithin_iff (by decide)] at hi
    have hres : (execOn false sqlite3Reader s1).1 = .ok (if r = true then Sketch else Sqlite3) := by
      show (execOn false (Prog.sk (.start 100) >>= fun _ => Prog.rd 32768 >>= fun buf =>
        Prog.lift (holdsBytes buf sketchMarker) >>= fun found => if found = true then pure Sketch else pure Sqlite3) s1).1 = _
      rw [h, hr']
      cases r <;> rfl
    rw [hres]
    cases r with
    | true =>
      have ho := hi.mp rfl
      constructor
      · intro h; injection h with h; rw [← h]; exact .sketch ho
      · intro h
        cases h with
        | sketch => rfl
        | database _ h => exact absurd ho h
    | false =>
      have ho : ¬ OccursWithin sketchMarker 100 (100 + s.secondRead 32768) s.data := fun h => absurd (hi.mpr h) (by decide)
      constructor
      · intro h; injection h with h; rw [← h]; exact .database hm ho
      · intro h
        cases h with
        | sketch h => exact absurd h ho
        | database => rfl
  · constructor
    · intro h
      exact absurd h (exec_far s1 hwf 100 (by rw [hle.maxPos]; exact hm) _ f)
    · intro h
      have hlen := hs.len
      cases h with
      | sketch h =>
        obtain ⟨pre, suf, e, h1, h2⟩ := h
        have := congrArg List.length e
        simp only [List.length_append] at this
        omega
      | database h => exact absurd h hm

theorem pdf_stream (s : Src) (hs : s.WF) (hq : s.NoFail) (f : FileFormat) :
    (execOn false pdfReader s).1 = .ok f ↔ PdfContent s.data s.maxPos (reach 33554432 32768 s.revs 0) f := by
  by_cases hm : 5 ≤ s.maxPos
  · obtain ⟨g, T, h1, h2, h3, _, h4, h5⟩ := pdfReader_exec s hs hq hm
    have hR : pdfReach s.revs 0 = reach 33554432 32768 s.revs 0 := rfl
    rw [hR] at h4 h5
    rw [h1]
    rcases h2 with ⟨rfl, ho⟩ | ⟨rfl, ho, hend⟩
    · rw [occursWithin_iff (by decide)] at ho
      have ho' : OccursWithin b!"AIPrivateData" 5 (5 + reach 33554432 32768 s.revs 0) s.data := occursWithin_mono (by omega) ho
      constructor
      · intro h; injection h with h; rw [← h]; exact .artwork ho'
      · intro h
        cases h with
        | artwork => rfl
        | document _ h => exact absurd ho' h
    · have ho' : ¬ OccursWithin b!"AIPrivateData" 5 (5 + reach 33554432 32768 s.revs 0) s.data := by
        intro hc
        apply ho
        rw [occursWithin_iff (by decide)]
        rcases h5 rfl with h | h
        · exact occursWithin_mono (by omega) hc
        · obtain ⟨pre, suf, e, h6, h7⟩ := hc
          have := congrArg List.length e
          simp only [List.length_append] at this
          have hai : List.length aiMarker = (b!"AIPrivateData").length := rfl
          exact ⟨pre, suf, e, h6, by omega⟩
      constructor
      · intro h; injection h with h; rw [← h]; exact .document hm ho'
      · intro h
        cases h with
        | artwork h => exact absurd h ho'
        | document => rfl
  · constructor
    · intro h
      exact absurd h (exec_far s hs 5 hm _ f)
    · intro h
      have hlen := hs.len
      cases h with
      | artwork h =>
        obtain ⟨pre, suf, e, h1, h2⟩ := h
        have := congrArg List.length e
        simp only [List.length_append] at this
        omega
      | document h => exact absurd h hm

/-- C73. `from_reader` on any stream whose calls do not fail, from any position, however its reads are cut: the verdict that
the magic numbers in what the first `read` delivers, and the content as far as the later reads get, lead to. -/
theorem C73_from_reader (ft : Features) (s : Src) (hs : s.WF) (hl : IsSlice s.data) (hq : s.NoFail) (f : FileFormat) :
    (fromReader Cfg.release ft s).1 = .ok f ↔ VerdictOn ft (firstWindow s) s.data s.maxPos (laterReads s) f := by
  obtain ⟨hw, hrev⟩ := first_window s hq
  obtain ⟨hle, hwf, _⟩ := Src.read_spec s 36870 hs
  rw [fromReader_eq2]
  cases hx : s.read 36870 with
  | mk r s1 =>
    rw [hx] at hw hrev hle hwf
    simp only at hw hrev hle hwf ⊢
    subst hw
    simp only
    have hd : s1.data = s.data := hle.data
    have hm : s1.maxPos = s.maxPos := hle.maxPos
    have hq1 : s1.NoFail := hq.mono hle
    have h := afterRead_verdict ft (firstWindow s) s1 hwf (by rw [hd]; exact hl) hq1.benign (laterReads s) ?_ f
    · rw [hd, hm] at h
      exact h
    intro g hg _ _ f
    cases hb : g.bareRead with
    | false => exact exact_reader_says s1 hwf (by rw [hd]; exact hl) hq1.benign (laterReads s) g hg hb f
    | true =>
      rw [hd, hm]
      cases g with
      | xml => exact xml_stream s s1 hs hq _ hx f
      | sqlite3 => exact sqlite_stream s s1 hs hq _ hx f
      | pdf =>
        have := pdf_stream s1 hwf hq1 f
        rw [hd, hm, hrev] at this
        exact this
      | _ => cases hb

/-- C73. On such a stream there is exactly one verdict, and no error. -/
theorem C73_exactly_one (ft : Features) (s : Src) (hs : s.WF) (hl : IsSlice s.data) (hq : s.NoFail) :
    ∃ f, (fromReader Cfg.release ft s).1 = .ok f ∧ VerdictOn ft (firstWindow s) s.data s.maxPos (laterReads s) f ∧
      ∀ g, VerdictOn ft (firstWindow s) s.data s.maxPos (laterReads s) g → g = f := by
  have hres : ∃ f, (fromReader Cfg.release ft s).1 = .ok f := by
    rcases C01_from_reader_total ft s hs hl with h | ⟨e, h⟩
    · exact h
    · have := (C10_error_iff _ _ _ _).mp h
      rw [(first_window s hq).1] at this
      cases this
  obtain ⟨f, hf⟩ := hres
  refine ⟨f, hf, (C73_from_reader ft s hs hl hq f).mp hf, fun g hg => ?_⟩
  have := (C73_from_reader ft s hs hl hq g).mpr hg
  rw [hf] at this
  injection this with this
  exact this.symm

/-- C73. Two streams that agree in the content, in what their first reads deliver and in how far the later ones get get the
same verdict. -/
theorem C73_determined (ft : Features) (s s' : Src) (hs : s.WF) (hs' : s'.WF) (hl : IsSlice s.data) (hq : s.NoFail)
    (hq' : s'.NoFail) (hd : s.data = s'.data) (hm : s.maxPos = s'.maxPos) (hw : firstWindow s = firstWindow s')
    (hr : laterReads s = laterReads s') : (fromReader Cfg.release ft s).1 = (fromReader Cfg.release ft s').1 := by
  obtain ⟨f, hf, hv, _⟩ := C73_exactly_one ft s hs hl hq
  rw [hf]
  rw [hd, hm, hw, hr] at hv
  exact ((C73_from_reader ft s' hs' (by rw [← hd]; exact hl) hq' f).mpr hv).symm

/-- Not vacuous: a stream at position 3 that delivers its bytes in pieces, the marker across two of them. -/
def pieces : Src :=
  { cursor (b!"xxx%PDF-1.4 ..AIPrivateData..") with pos := 3, revs := [.short 8, .short 11, .short 2, .short 40] }
example : pieces.WF ∧ pieces.NoFail ∧ firstWindow pieces = b!"%PDF-1.4 " ∧
    laterReads pieces = ⟨12, 12, 33554488⟩ :=
  ⟨⟨by decide, by decide⟩, ⟨by simp [pieces, cursor], by simp [pieces, cursor]⟩, by decide +kernel, rfl⟩
example : (fromReader Cfg.release { pdf := true } pieces).1 = .ok AdobeIllustratorArtwork := by
  refine (C73_from_reader _ pieces ⟨by decide, by decide⟩ (by unfold IsSlice; decide +kernel)
    ⟨by simp [pieces, cursor], by simp [pieces, cursor]⟩ _).mpr ?_
  refine .reader (g := .pdf) rfl ((signatureSays_some (by decide +kernel) _).mpr rfl) (.artwork ?_)
  exact ⟨b!"xxx%PDF-1.4 ..", b!"..", rfl, by decide, by decide +kernel⟩

end FF.Props
