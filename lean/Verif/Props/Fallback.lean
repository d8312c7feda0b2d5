import Verif.Props.Family
import Verif.Props.Window
import Verif.Props.TextForm
import Verif.Props.Walk
import Verif.Props.Profile
/-!
# Which recognised contents can be reported as text (C19)
-/

namespace FF.Props
open FF FileFormat Spec

/-- A byte that no text contains: the code of a control character that is not white space. -/
def controlByte (x : UInt8) : Bool := (x.toNat ≤ 0x1F && !(0x9 ≤ x.toNat && x.toNat ≤ 0xD)) || x.toNat == 0x7F

theorem isText_no_control {t : Bytes} (h : IsText t) {x : UInt8} (hx : controlByte x = true) : x ∉ t := by
  intro hm
  obtain ⟨a, b, rfl⟩ := List.append_of_mem hm
  obtain ⟨cs, hcs, hf⟩ := h
  have hx' : x.toNat ≤ 0x1F ∧ ¬ (0x9 ≤ x.toNat ∧ x.toNat ≤ 0xD) ∨ x.toNat = 0x7F := by
    unfold controlByte at hx
    simp only [Bool.or_eq_true, Bool.and_eq_true, Bool.not_eq_true', Bool.and_eq_false_iff, decide_eq_true_eq, decide_eq_false_iff_not,
      beq_iff_eq] at hx
    omega
  obtain ⟨c1, c, c2, rfl, h1, h2, h3⟩ := utf8_split (x := x) (by omega) hcs.symm
  refine hf c (by simp) ?_
  unfold Forbidden
  omega

theorem firstLines_one_line {p : Bytes} (hp : 10 ∉ p) (n : Nat) (t : Bytes) :
    firstLines (n + 1) (p ++ t) = p ++ firstLines (n + 1) t := by
  induction p with
  | nil => rfl
  | cons y p ih =>
    have hy : y ≠ 10 := fun e => hp (by simp [e])
    have hp' : 10 ∉ p := fun e => hp (by simp [e])
    rw [List.cons_append, firstLines, if_neg hy, ih hp']
    rfl

/-- A magic value that starts the content, has no line feed and has a control character. -/
def hasControl (alt : List Part) : Bool :=
  alt.any fun p => p.offset == 0 && p.value.length ≤ 65536 && !p.value.contains 10 && p.value.any controlByte

theorem carries_no_text {b : Bytes} {alt : List Part} (hc : Carries b alt) (h : hasControl alt = true) :
    ¬ IsText (firstLines 16 (b.take 65536)) := by
  intro ht
  unfold hasControl at h
  rw [List.any_eq_true] at h
  obtain ⟨p, hp, h⟩ := h
  simp only [Bool.and_eq_true, beq_iff_eq, decide_eq_true_eq, Bool.not_eq_true', List.contains_eq_mem,
    decide_eq_false_iff_not, List.any_eq_true] at h
  obtain ⟨⟨⟨h0, hl⟩, hn⟩, x, hx, hxc⟩ := h
  obtain ⟨pre, suf, rfl, hpre⟩ := hc p hp
  rw [h0] at hpre
  have : pre = [] := List.eq_nil_of_length_eq_zero hpre
  subst this
  rw [List.nil_append, List.take_append, List.take_of_length_le hl, firstLines_one_line hn] at ht
  exact isText_no_control ht hxc (List.mem_append_left _ hx)

theorem binary_bases : signatureTable.all (fun e =>
    !([AdvancedSystemsFormat, CompoundFileBinary, ExtensibleBinaryMetaLanguage, Id3v2, Realmedia, Sqlite3, Zip].contains e.format) ||
      e.alts.all hasControl) = true := by decide +kernel

theorem base_no_text {g : Feature} (hg : g ∈ [Feature.asf, .cfb, .ebml, .id3v2, .rm, .sqlite3, .zip]) {b : Bytes} (hb : IsSlice b)
    (hr : Recognised b g.base) : ¬ IsText (firstLines 16 (b.take 65536)) := by
  have hbase : g.base ∈ [AdvancedSystemsFormat, CompoundFileBinary, ExtensibleBinaryMetaLanguage, Id3v2, Realmedia, Sqlite3, Zip] ∧
      g.base ≠ FileFormat.Empty ∧ g.base ≠ ArbitraryBinaryData := by
    revert hg; cases g <;> decide
  obtain ⟨e, he, hf, alt, ha, hc⟩ := recognised_magic hb hbase.2.1 hbase.2.2 hr
  have h := List.all_eq_true.mp binary_bases e he
  rw [hf] at h
  have hin : ([AdvancedSystemsFormat, CompoundFileBinary, ExtensibleBinaryMetaLanguage, Id3v2, Realmedia, Sqlite3, Zip].contains g.base) = true := by
    simpa using hbase.1
  rw [hin] at h
  simp only [Bool.not_true, Bool.false_or] at h
  exact carries_no_text hc (List.all_eq_true.mp h alt ha)

theorem mem_firstLines (n : Nat) (b : Bytes) : ∀ x ∈ b.take n, x ∈ firstLines n b := by
  induction b generalizing n with
  | nil => simp
  | cons y b ih =>
    cases n with
    | zero => simp
    | succ n =>
      intro x hx
      rw [List.take_succ_cons, List.mem_cons] at hx
      rw [firstLines]
      rcases hx with rfl | hx
      · split <;> exact List.mem_cons_self
      · split
        · exact List.mem_cons_of_mem _ (ih n x hx)
        · refine List.mem_cons_of_mem _ (ih (n + 1) x ?_)
          exact List.mem_of_mem_take (i := n) (by rw [List.take_take, Nat.min_eq_left (Nat.le_succ n)]; exact hx)

theorem first_bytes {b : Bytes} (ht : IsText (firstLines 16 (b.take 65536))) (i : Nat) (hi : i < 4) (x : UInt8)
    (hx : b[i]? = some x) : 9 ≤ x.toNat := by
  refine Classical.byContradiction fun hlt => ?_
  have hc : controlByte x = true := by
    unfold controlByte
    simp only [Bool.or_eq_true, Bool.and_eq_true, Bool.not_eq_true', Bool.and_eq_false_iff, decide_eq_true_eq,
      decide_eq_false_iff_not, beq_iff_eq]
    omega
  refine isText_no_control ht hc (mem_firstLines 16 _ x ?_)
  rw [List.take_take]
  refine List.mem_of_getElem? (i := i) ?_
  rw [List.getElem?_take_of_lt (by omega)]
  exact hx

def ftypFirst (alt : List Part) : Bool := alt.any fun p => p.offset == 4 && p.value.take 4 == b!"ftyp" && p.value.length == 8

theorem mp4_ftyp : signatureTable.all (fun e => !(e.format == Mpeg4Part14) || e.alts.all ftypFirst) = true := by decide +kernel

theorem mp4_first_box {b : Bytes} (hb : IsSlice b) (hr : Recognised b Mpeg4Part14) :
    ∃ pre suf, b = pre ++ b!"ftyp" ++ suf ∧ pre.length = 4 ∧ 4 ≤ suf.length := by
  obtain ⟨e, he, hf, alt, ha, hc⟩ := recognised_magic hb (by decide) (by decide) hr
  have h := List.all_eq_true.mp mp4_ftyp e he
  rw [hf] at h
  simp only [BEq.rfl, Bool.not_true, Bool.false_or] at h
  have h := List.all_eq_true.mp h alt ha
  unfold ftypFirst at h
  rw [List.any_eq_true] at h
  obtain ⟨p, hp, h⟩ := h
  simp only [Bool.and_eq_true, beq_iff_eq] at h
  obtain ⟨⟨h0, ht⟩, hl⟩ := h
  obtain ⟨pre, suf, hbe, hpre⟩ := hc p hp
  refine ⟨pre, p.value.drop 4 ++ suf, ?_, hpre.trans h0, ?_⟩
  · rw [← ht, hbe, List.append_assoc, List.append_assoc, ← List.append_assoc (p.value.take 4), List.take_append_drop]
  · rw [List.length_append, List.length_drop, hl]; omega

theorem byteAt_text {b : Bytes} (ht : IsText (firstLines 16 (b.take 65536))) (hl : 4 ≤ b.length) (i : Nat) (hi : i < 4) :
    9 ≤ Spec.byteAt b i := by
  unfold Spec.byteAt
  rw [List.getD_eq_getElem?_getD, List.getElem?_eq_getElem (by omega)]
  exact first_bytes ht i hi _ (List.getElem?_eq_getElem (by omega))

theorem mp4_text_long (cfg : Cfg) (ft : Features) (b : Bytes) (hb : IsSlice b) (he : ft.mp4 = true)
    (hr : Recognised b Mpeg4Part14) (h : fromBytes cfg ft b = .ok PlainText)
    (ht : IsText (firstLines 16 (b.take 65536))) : 0x09090909 < b.length := by
  have h' : fromBytes Cfg.release ft b = .ok PlainText := by
    obtain ⟨o⟩ := cfg
    cases o with
    | false => exact h
    | true => exact C46_verdict ft b _ h
  obtain ⟨pre, suf, hbe, hpre, hsuf⟩ := mp4_first_box hb hr
  have hlen : 12 ≤ b.length := by
    rw [hbe]; simp only [List.length_append, hpre, List.length_cons, List.length_nil]; omega
  have hsize : 0x09090909 ≤ beAt b 0 4 := by
    have h0 := byteAt_text ht (by omega) 0 (by omega)
    have h1 := byteAt_text ht (by omega) 1 (by omega)
    have h2 := byteAt_text ht (by omega) 2 (by omega)
    have h3 := byteAt_text ht (by omega) 3 (by omega)
    simp only [beAt, Nat.zero_add]
    omega
  have hlt : beAt b 0 4 < 256 ^ 4 := beAt_lt b 0 4
  refine Classical.byContradiction fun hshort => ?_
  have hw : Mp4Walk b topOffset 256 0 [] (mp4Of []) := by
    refine Mp4Walk.skip (n := 255) (type := b!"ftyp") (size := beAt b 0 4) (q := 8) (r := beAt b 0 4)
      ⟨⟨pre, suf, hbe, by simpa using hpre⟩, rfl, Or.inl ⟨by omega, rfl, rfl⟩⟩ (by decide) ⟨?_, ?_⟩ (Mp4Walk.finish (n := 254) (by omega))
    · unfold wrapped
      rw [Int.bmod_eq_of_le (by omega) (by omega)]
      omega
    · unfold topOffset; omega
  have := (C62_mp4 ft he b hb hr _).mpr (Or.inl hw)
  rw [h'] at this
  cases this

/-- C19. Of the contents with the magic of a format that a reader refines, only those of executables and of MP4 can be
reported as text, and of MP4 only those of more than 151587081 bytes: the magic values of ASF, compound files, EBML, ID3v2,
RealMedia, SQLite and ZIP contain control characters, the readers of PDF and XML do not fail on bytes, and the size of the first box
of an MP4 file that is text is beyond the end of smaller contents. -/
theorem C19_text_only_from_two (cfg : Cfg) (ft : Features) (b : Bytes) (hb : IsSlice b) (g : Feature)
    (hg : g ∈ Feature.structured) (hr : Recognised b g.base) (h : fromBytes cfg ft b = .ok PlainText) :
    (g = .exe ∨ (g = .mp4 ∧ 0x09090909 < b.length)) ∧ g.enabled ft = true ∧ ft.txt = true ∧
      IsText (firstLines 16 (b.take 65536)) := by
  have hon : g.enabled ft = true := by
    cases he : g.enabled ft with
    | true => rfl
    | false =>
      rw [recognised_disabled cfg ft b hb g hg he hr] at h
      exfalso; revert h hg; cases g <;> decide
  have hgen : Generic ft b PlainText := by
    rcases C19_degrades cfg ft b hb g hg hon hr _ h with h | h | h
    · exfalso; revert h hg; cases g <;> decide
    · exfalso; revert h hg; cases g <;> decide
    · exact h
  have htx : ft.txt = true ∧ IsText (firstLines 16 (b.take 65536)) := by
    rcases hgen with ⟨h1, h2, _⟩ | ⟨_, h2⟩
    · exact ⟨h1, h2⟩
    · cases h2
  refine ⟨?_, hon, htx⟩
  have hbin : g ∉ [Feature.asf, .cfb, .ebml, .id3v2, .rm, .sqlite3, .zip] := fun hm => base_no_text hm hb hr htx.2
  have hpdf : g ≠ .pdf := by
    rintro rfl
    obtain ⟨h1, h2⟩ := C21_artwork cfg ft b hb hon hr
    by_cases ho : OccursWithin b!"AIPrivateData" 5 33554437 b
    · rw [h1 ho] at h; cases h
    · rw [h2 ho] at h; cases h
  have hxml : g ≠ .xml := by
    rintro rfl
    rcases (C22_xml cfg ft b hb hon hr _).mp h with ⟨before, row, after, hx, hf, _⟩ | ⟨hf, _⟩
    · have hm : row ∈ xmlMarkers := by rw [hx]; simp
      have key : ∀ row ∈ xmlMarkers, row.1 ≠ PlainText := by decide +kernel
      exact key row hm hf
    · cases hf
  have htwo : g = .exe ∨ g = .mp4 := by
    revert hbin hpdf hxml hg
    cases g <;> decide
  rcases htwo with rfl | rfl
  · exact Or.inl rfl
  · exact Or.inr ⟨rfl, mp4_text_long cfg ft b hb hon hr h htx.2⟩

/-- C19. Of executables the shortest are enough. -/
theorem C19_exe_becomes_text : Recognised b!"MZ, see you tomorrow\n" MsDosExecutable ∧
    fromBytes Cfg.release Features.all b!"MZ, see you tomorrow\n" = .ok PlainText := by
  unfold Recognised
  decide +kernel

/-- 151587082 bytes of text: four tabs, `ftypisom`, and the letter a. -/
def tabbed (n : Nat) : Bytes := b!"\t\t\t\tftypisom" ++ List.replicate n 97

def tabbedAt (i : Nat) : UInt8 := b!"\t\t\t\tftypisom".getD i 97

theorem tabbed_get {n i : Nat} {x : UInt8} (h : (tabbed n)[i]? = some x) : x = tabbedAt i := by
  unfold tabbed at h
  unfold tabbedAt
  rw [List.getD_eq_getElem?_getD]
  by_cases hi : i < 12
  · rw [List.getElem?_append_left (by exact hi)] at h
    rw [h]; rfl
  · rw [List.getElem?_append_right (by exact Nat.le_of_not_lt hi), List.getElem?_replicate] at h
    rw [List.getElem?_eq_none (by exact Nat.le_of_not_lt hi)]
    split at h
    · cases h; rfl
    · cases h

/-- Some byte of the part is not the one of the text. -/
def offTabbed (off : Nat) : Bytes → Bool
  | [] => false
  | x :: v => x != tabbedAt off || offTabbed (off + 1) v

theorem offTabbed_not {n : Nat} (v : Bytes) (off : Nat) (h : offTabbed off v = true) : ¬ MagicAt off v (tabbed n) := by
  rintro ⟨pre, suf, hb, hp⟩
  have key : ∀ (v : Bytes) (off : Nat), (∀ i, i < v.length → (tabbed n)[off + i]? = v[i]?) → offTabbed off v = false := by
    intro v
    induction v with
    | nil => intros; rfl
    | cons x v ih =>
      intro off hv
      rw [offTabbed, Bool.or_eq_false_iff]
      constructor
      · have h0 := hv 0 (by simp)
        rw [Nat.add_zero, List.getElem?_cons_zero] at h0
        rw [tabbed_get h0]; simp
      · refine ih (off + 1) fun i hi => ?_
        have h1 := hv (i + 1) (by simpa using hi)
        rw [List.getElem?_cons_succ] at h1
        rw [← h1]; congr 1; omega
  have := key v off fun i hi => by
    rw [hb, List.append_assoc, List.getElem?_append_right (by omega), List.getElem?_append_left (by omega)]
    congr 1; omega
  rw [h] at this
  cases this

theorem tabbed_others : signatureTable.all (fun e => e.format == Mpeg4Part14 ||
    e.alts.all fun alt => alt.any fun p => offTabbed p.offset p.value) = true := by decide +kernel

theorem tabbed_recognised {n : Nat} (hs : IsSlice (tabbed n)) : Recognised (tabbed n) Mpeg4Part14 := by
  have hm : HasMagic Mpeg4Part14 (tabbed n) := by
    have hin : signatureTable.any (fun e => e.format == Mpeg4Part14 &&
        e.alts.any fun alt => alt.all fun p => p.offset == 4 && p.value == b!"ftypisom") = true := by decide +kernel
    obtain ⟨e, he, h⟩ := List.any_eq_true.mp hin
    rw [Bool.and_eq_true, beq_iff_eq, List.any_eq_true] at h
    obtain ⟨hf, alt, ha, h⟩ := h
    refine ⟨e, he, hf, alt, ha, fun p hp => ?_⟩
    have h := List.all_eq_true.mp h p hp
    rw [Bool.and_eq_true, beq_iff_eq, beq_iff_eq] at h
    rw [h.1, h.2]
    exact ⟨b!"\t\t\t\t", List.replicate n 97, rfl, rfl⟩
  obtain ⟨g, hg, ⟨e, he, hf, alt, ha, hc⟩, _⟩ := C05_complete Cfg.release (tabbed n) hs _ hm
  have h := List.all_eq_true.mp tabbed_others e he
  rw [Bool.or_eq_true, beq_iff_eq] at h
  rcases h with h | h
  · unfold Recognised
    rw [hf] at h
    subst h
    exact hg
  · have h := List.all_eq_true.mp h alt ha
    obtain ⟨p, hp, h⟩ := List.any_eq_true.mp h
    exact absurd (hc p hp) (offTabbed_not _ _ h)

theorem tabbed_isText (n : Nat) : IsText (tabbed n) := by
  have h1 : ∀ n, utf8 (List.replicate n 'a') = List.replicate n 97 := by
    intro n
    induction n with
    | zero => rfl
    | succ n ih => rw [List.replicate_succ, utf8_cons, ih, List.replicate_succ]; rfl
  refine ⟨"\t\t\t\tftypisom".toList ++ List.replicate n 'a', ?_, ?_⟩
  · rw [utf8_append, h1]; rfl
  · intro c hc
    rcases List.mem_append.mp hc with hc | hc
    · have key : ∀ c ∈ "\t\t\t\tftypisom".toList, ¬ Forbidden c := by decide +kernel
      exact key c hc
    · rw [List.mem_replicate] at hc; rw [hc.2]; decide

theorem tabbed_length (n : Nat) : (tabbed n).length = 12 + n := by
  unfold tabbed; rw [List.length_append, List.length_replicate]; rfl

/-- C19. The exception for MP4 is real: the smallest content of that kind. -/
theorem C19_mp4_becomes_text (n : Nat) (hn : 12 + n = 0x09090909 + 1) : IsSlice (tabbed n) ∧
    Recognised (tabbed n) Mpeg4Part14 ∧ fromBytes Cfg.release Features.all (tabbed n) = .ok PlainText := by
  have hl := tabbed_length n
  have hs : IsSlice (tabbed n) := by unfold IsSlice; omega
  have hr := tabbed_recognised hs
  refine ⟨hs, hr, (C62_mp4 Features.all rfl (tabbed n) hs hr _).mpr (Or.inr ⟨fun x hw => ?_, Or.inl ⟨rfl, ?_, rfl⟩⟩)⟩
  · have hbe : beAt (tabbed n) 0 4 = 0x09090909 := by
      have h0 : Spec.byteAt (tabbed n) 0 = 9 := rfl
      have h1 : Spec.byteAt (tabbed n) 1 = 9 := rfl
      have h2 : Spec.byteAt (tabbed n) 2 = 9 := rfl
      have h3 : Spec.byteAt (tabbed n) 3 = 9 := rfl
      simp only [beAt, Nat.zero_add, h0, h1, h2, h3]
    have htype : ∀ type, MagicAt (0 + 4) type (tabbed n) → type.length = 4 → type = b!"ftyp" := by
      rintro type ⟨pre, suf, hb, hp⟩ hlen
      have h1 : ((tabbed n).drop 4).take 4 = type := by
        rw [hb, List.append_assoc, List.drop_left' (by omega), List.take_left' hlen]
      rw [← h1]; rfl
    cases hw with
    | finish h => rw [hl] at h; omega
    | enter hb ht _ =>
      rw [htype _ hb.1 hb.2.1] at ht
      revert ht; decide
    | handler hb _ _ _ _ =>
      have := htype _ hb.1 hb.2.1
      revert this; decide
    | skip hb ht hg hw =>
      rcases hb.2.2 with ⟨_, hsz, hq⟩ | ⟨h1, _⟩
      · rw [hbe] at hsz
        subst hsz hq
        obtain ⟨hg, _⟩ := hg
        unfold wrapped at hg
        rw [Int.bmod_eq_of_le (by omega) (by omega)] at hg
        have hr' : ∀ r : Nat, (r : Int) = ((0 + 8 : Nat) : Int) + (((0x09090909 : Nat) : Int) - 8) → 12 + n = r + 1 := by omega
        have hend := hr' _ hg
        have hno : ∀ type size q r, r + 1 = 12 + n → ¬ BoxAt (tabbed n) r type size q := by
          rintro type size q r hr ⟨⟨pre, suf, hb, hp⟩, hlen, _⟩
          have := congrArg List.length hb
          rw [hl, List.length_append, List.length_append] at this
          omega
        cases hw with
        | finish h => rw [hl] at h; omega
        | enter hb _ _ => exact hno _ _ _ _ hend.symm hb
        | handler hb _ _ _ _ => exact hno _ _ _ _ hend.symm hb
        | skip hb _ _ _ => exact hno _ _ _ _ hend.symm hb
      · rw [hbe] at h1; omega
  · refine firstLines_isText 16 ?_
    have : (tabbed n).take 65536 = tabbed (65536 - 12) := by
      unfold tabbed
      rw [List.take_append, List.take_of_length_le (by decide), List.take_replicate]
      congr 2
      simp only [List.length_cons, List.length_nil]
      omega
    rw [this]
    exact tabbed_isText _

example : ∃ n, 12 + n = 0x09090909 + 1 := ⟨151587070, rfl⟩

end FF.Props
