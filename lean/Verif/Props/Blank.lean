import Verif.Props.Signature
import Verif.Props.Text
import Verif.Props.Family
/-!
# C55: content that repeats one byte
-/

namespace FF.Props
open FF Spec FileFormat

/-- A byte of ASCII text: printable, or white space. -/
def TextByte (c : UInt8) : Prop := (0x20 ≤ c.toNat ∧ c.toNat ≤ 0x7E) ∨ (0x9 ≤ c.toNat ∧ c.toNat ≤ 0xD)

instance decidableTextByte (c : UInt8) : Decidable (TextByte c) := inferInstanceAs (Decidable (_ ∨ _))

/-- The bytes of a magic value are not all the same, but for the sync bytes of MPEG-2 transport streams. -/
theorem table_uniform : signatureTable.all (fun e => e.alts.all fun alt =>
    let bytes := alt.flatMap Part.value
    bytes.any (· != bytes.headD 0) ||
      (bytes.headD 0 == 0x47 && (e.format == BdavMpeg2TransportStream || e.format == Mpeg2TransportStream))) = true := by
  decide +kernel

/-- Offset and value of the parts of all magic values. -/
def pairsOf (e : SigEntry) : List (List (Nat × Bytes)) := e.alts.map (·.map fun p => (p.offset, p.value))

theorem table_ts : signatureTable.all (fun e =>
    (e.format != BdavMpeg2TransportStream || pairsOf e == [[(4, b!"G"), (196, b!"G")]]) &&
    (e.format != Mpeg2TransportStream || pairsOf e == [[(0, b!"G"), (188, b!"G")]])) = true := by
  decide +kernel

theorem hasMagic_pairs {e : SigEntry} {b : Bytes} :
    (∃ alt ∈ e.alts, Carries b alt) ↔ ∃ l ∈ pairsOf e, ∀ q ∈ l, MagicAt q.1 q.2 b := by
  unfold pairsOf Carries
  constructor
  · rintro ⟨alt, ha, hc⟩
    refine ⟨_, List.mem_map.mpr ⟨alt, ha, rfl⟩, fun q hq => ?_⟩
    obtain ⟨p, hp, rfl⟩ := List.mem_map.mp hq
    exact hc p hp
  · rintro ⟨l, hl, hc⟩
    obtain ⟨alt, ha, rfl⟩ := List.mem_map.mp hl
    exact ⟨alt, ha, fun p hp => hc _ (List.mem_map.mpr ⟨p, hp, rfl⟩)⟩

theorem magicAt_uniform (c : UInt8) (o n : Nat) : MagicAt o [c] (List.replicate n c) ↔ o < n := by
  constructor
  · rintro ⟨pre, suf, h, ho⟩
    have := congrArg List.length h
    simp only [List.length_replicate, List.length_append, ho, List.length_cons, List.length_nil] at this
    omega
  · intro h
    refine ⟨List.replicate o c, List.replicate (n - o - 1) c, ?_, by simp⟩
    have : n = o + 1 + (n - o - 1) := by omega
    conv => lhs; rw [this]
    rw [← List.replicate_append_replicate, List.replicate_succ']

/-- Two sync bytes that far apart. -/
theorem ts_magic (n : Nat) : (HasMagic BdavMpeg2TransportStream (List.replicate n 0x47) ↔ 196 < n) ∧
    (HasMagic Mpeg2TransportStream (List.replicate n 0x47) ↔ 188 < n) := by
  have hex : (∃ e ∈ signatureTable, e.format = BdavMpeg2TransportStream) ∧ ∃ e ∈ signatureTable, e.format = Mpeg2TransportStream := by
    have h : ∀ f ∈ [BdavMpeg2TransportStream, Mpeg2TransportStream], signatureTable.any (fun e => e.format == f) = true := by
      decide +kernel
    constructor
    · obtain ⟨e, he, hf⟩ := List.any_eq_true.mp (h BdavMpeg2TransportStream (by simp))
      exact ⟨e, he, by simpa using hf⟩
    · obtain ⟨e, he, hf⟩ := List.any_eq_true.mp (h Mpeg2TransportStream (by simp))
      exact ⟨e, he, by simpa using hf⟩
  have hp1 : ∀ e ∈ signatureTable, e.format = BdavMpeg2TransportStream → pairsOf e = [[(4, b!"G"), (196, b!"G")]] := by
    intro e he hf
    have := List.all_eq_true.mp table_ts e he
    rw [hf] at this
    simpa using this
  have hp2 : ∀ e ∈ signatureTable, e.format = Mpeg2TransportStream → pairsOf e = [[(0, b!"G"), (188, b!"G")]] := by
    intro e he hf
    have := List.all_eq_true.mp table_ts e he
    rw [hf] at this
    simpa using this
  constructor
  · constructor
    · rintro ⟨e, he, hf, h⟩
      rw [hasMagic_pairs, hp1 e he hf] at h
      obtain ⟨l, hl, h⟩ := h
      cases List.mem_singleton.mp hl
      exact (magicAt_uniform _ _ _).mp (h (196, b!"G") (by simp))
    · intro hn
      obtain ⟨e, he, hf⟩ := hex.1
      refine ⟨e, he, hf, hasMagic_pairs.mpr ?_⟩
      rw [hp1 e he hf]
      refine ⟨_, List.mem_singleton.mpr rfl, fun q hq => ?_⟩
      simp only [List.mem_cons, List.not_mem_nil, or_false] at hq
      rcases hq with rfl | rfl <;> exact (magicAt_uniform _ _ _).mpr (by show _ < n; omega)
  · constructor
    · rintro ⟨e, he, hf, h⟩
      rw [hasMagic_pairs, hp2 e he hf] at h
      obtain ⟨l, hl, h⟩ := h
      cases List.mem_singleton.mp hl
      exact (magicAt_uniform _ _ _).mp (h (188, b!"G") (by simp))
    · intro hn
      obtain ⟨e, he, hf⟩ := hex.2
      refine ⟨e, he, hf, hasMagic_pairs.mpr ?_⟩
      rw [hp2 e he hf]
      refine ⟨_, List.mem_singleton.mpr rfl, fun q hq => ?_⟩
      simp only [List.mem_cons, List.not_mem_nil, or_false] at hq
      rcases hq with rfl | rfl <;> exact (magicAt_uniform _ _ _).mpr (by show _ < n; omega)

theorem uniform_magic {n : Nat} {c : UInt8} {f : FileFormat} (h : HasMagic f (List.replicate n c)) :
    c = 0x47 ∧ (f = BdavMpeg2TransportStream ∨ f = Mpeg2TransportStream) := by
  obtain ⟨e, he, rfl, alt, ha, hc⟩ := h
  have hall : ∀ x ∈ alt.flatMap Part.value, x = c := by
    intro x hx
    obtain ⟨p, hp, hx⟩ := List.mem_flatMap.mp hx
    obtain ⟨pre, suf, h4, _⟩ := hc p hp
    have h5 : x ∈ List.replicate n c := by rw [h4]; simp [hx]
    exact (List.mem_replicate.mp h5).2
  have h1 := List.all_eq_true.mp (List.all_eq_true.mp table_uniform e he) alt ha
  simp only [Bool.or_eq_true, Bool.and_eq_true, beq_iff_eq] at h1
  cases hb : alt.flatMap Part.value with
  | nil =>
    rw [hb] at h1
    simp at h1
  | cons y t =>
    rw [hb] at h1 hall
    have hy : y = c := hall y (by simp)
    subst hy
    rcases h1 with h1 | h1
    · obtain ⟨x, hx, h3⟩ := List.any_eq_true.mp h1
      rw [hall x hx] at h3
      simp at h3
    · exact h1

theorem uniform_long {n : Nat} {c : UInt8} {f : FileFormat} (h : HasMagic f (List.replicate n c)) : 189 ≤ n := by
  obtain ⟨rfl, rfl | rfl⟩ := uniform_magic h
  · have := (ts_magic n).1.mp h
    omega
  · have := (ts_magic n).2.mp h
    omega

theorem encode_byte {c : UInt8} (h : c.toNat < 128) : ∃ ch : Char, String.utf8EncodeChar ch = [c] ∧ ch.toNat = c.toNat := by
  obtain ⟨ch, hch⟩ := encode_of (v := c.toNat) (Or.inl (by omega))
  refine ⟨ch, ?_, hch⟩
  have hv : ch.val.toNat = ch.toNat := rfl
  unfold String.utf8EncodeChar
  simp only [hv, hch]
  rw [if_pos (by omega), UInt8.ofNat_toNat]

theorem forbidden_byte {c : UInt8} {ch : Char} (h : ch.toNat = c.toNat) (hc : c.toNat < 128) : ¬ Forbidden ch ↔ TextByte c := by
  unfold Forbidden TextByte
  omega

theorem uniform_text {k : Nat} {c : UInt8} (hk : k ≠ 0) : IsText (List.replicate k c) ↔ TextByte c := by
  constructor
  · rintro ⟨cs, hcs, hf⟩
    obtain ⟨j, rfl⟩ := Nat.exists_eq_succ_of_ne_zero hk
    cases cs with
    | nil => simp [utf8, List.replicate_succ] at hcs
    | cons ch cs =>
      have hall : ∀ x ∈ String.utf8EncodeChar ch, x = c := by
        intro x hx
        have : x ∈ List.replicate (j + 1) c := by rw [hcs, utf8_cons]; simp [hx]
        exact (List.mem_replicate.mp this).2
      by_cases hc : c.toNat < 128
      · have hne : c ∈ String.utf8EncodeChar ch := by
          have := encode_length ch
          cases he : String.utf8EncodeChar ch with
          | nil => rw [he] at this; simp at this
          | cons x t =>
            rw [he] at hall
            rw [hall x (by simp)]
            simp
        exact (forbidden_byte (encode_ascii hne hc).2 hc).mp (hf ch (by simp))
      · exfalso
        have hlast : c.toNat < 0xC0 := utf8_last (cs := ch :: cs) (a := List.replicate j c) (by
          rw [← hcs, List.replicate_succ'])
        have hr := char_range ch
        have hv : ch.val.toNat = ch.toNat := rfl
        unfold String.utf8EncodeChar at hall
        simp only [hv] at hall
        generalize ch.toNat = v at hr hall
        by_cases h1 : v ≤ 127
        · rw [if_pos h1] at hall
          have := congrArg UInt8.toNat (hall _ List.mem_cons_self)
          rw [toNat_ofNat_lt (by omega)] at this
          omega
        · rw [if_neg h1] at hall
          by_cases h2 : v ≤ 2047
          · rw [if_pos h2] at hall
            have := congrArg UInt8.toNat (hall _ List.mem_cons_self)
            rw [toNat_ofNat_lt (by omega)] at this
            omega
          · rw [if_neg h2] at hall
            by_cases h3 : v ≤ 65535
            · rw [if_pos h3] at hall
              have := congrArg UInt8.toNat (hall _ List.mem_cons_self)
              rw [toNat_ofNat_lt (by omega)] at this
              omega
            · rw [if_neg h3] at hall
              have := congrArg UInt8.toNat (hall _ List.mem_cons_self)
              rw [toNat_ofNat_lt (by omega)] at this
              omega
  · intro ht
    have hc : c.toNat < 128 := by unfold TextByte at ht; omega
    obtain ⟨ch, he, hn⟩ := encode_byte hc
    refine ⟨List.replicate k ch, ?_, fun c' hc' => ?_⟩
    · unfold utf8
      clear hk
      induction k with
      | zero => rfl
      | succ k ih => rw [List.replicate_succ, List.replicate_succ, List.flatMap_cons, ← ih, he]; rfl
    · rw [(List.mem_replicate.mp hc').2]
      exact (forbidden_byte hn hc).mpr ht

theorem firstLines_uniform {n : Nat} {c : UInt8} (hn : n ≠ 0) :
    ∃ k, k ≠ 0 ∧ firstLines 16 ((List.replicate n c).take 65536) = List.replicate k c := by
  rw [firstLines_take]
  obtain ⟨r, hr⟩ := firstLines_prefix 16 (List.replicate n c)
  have hrep : ∀ (m : Nat) (l : Bytes), (∀ x ∈ l, x = c) → l = List.replicate l.length c := fun _ l h =>
    List.eq_replicate_iff.mpr ⟨rfl, h⟩
  have hall : ∀ x ∈ (firstLines 16 (List.replicate n c)).take 65536, x = c := by
    intro x hx
    have : x ∈ List.replicate n c := by rw [hr]; exact List.mem_append_left _ (List.mem_of_mem_take hx)
    exact (List.mem_replicate.mp this).2
  refine ⟨_, ?_, hrep 0 _ hall⟩
  have hne : (firstLines 16 (List.replicate n c)).length ≠ 0 := by
    obtain ⟨j, rfl⟩ := Nat.exists_eq_succ_of_ne_zero hn
    rw [List.replicate_succ, firstLines]
    split <;> simp
  rw [List.length_take]
  omega

/-- C55. Content of any positive length that repeats one byte has no format: with `reader-txt` it is plain text if the byte
is printable or white space; otherwise it is arbitrary binary data, as in the example of the documentation
(`from_bytes(&[0; 1000])`). The sync byte `G` of MPEG-2 transport streams, at least 189 times, is the only exception. -/
theorem C55_blank (cfg : Cfg) (ft : Features) (n : Nat) (c : UInt8) (hn : 0 < n) (hs : n < 2 ^ 63) (hc : c ≠ 0x47 ∨ n < 189) :
    fromBytes cfg ft (List.replicate n c) = .ok (if ft.txt = true ∧ TextByte c then PlainText else ArbitraryBinaryData) := by
  have hm : ∀ f, ¬ HasMagic f (List.replicate n c) := by
    intro f h
    rcases hc with hc | hc
    · exact hc (uniform_magic h).1
    · have := uniform_long h
      omega
  have hsl : IsSlice (List.replicate n c) := by show (List.replicate n c).length < 2 ^ 63; rwa [List.length_replicate]
  have hne : List.replicate n c ≠ [] := by
    intro h
    have := congrArg List.length h
    simp at this
    omega
  by_cases ht : ft.txt = true
  · have hr : Recognised (List.replicate n c) ArbitraryBinaryData :=
      (C09_default Cfg.release Features.none _ hsl hne hm rfl).1
    obtain ⟨h1, h2⟩ := C23_text_iff cfg ft _ hsl hne ht hr
    obtain ⟨k, hk, he⟩ := firstLines_uniform (n := n) (c := c) (by omega)
    rw [he, uniform_text hk] at h1 h2
    by_cases htb : TextByte c
    · rw [if_pos ⟨ht, htb⟩, h1.mpr htb]
    · rw [if_neg (fun h => htb h.2), h2.mpr htb]
  · rw [if_neg (fun h => ht h.1), (C09_default cfg ft _ hsl hne hm (by simpa using ht)).1]
    rfl

theorem listedBefore_of {f g : FileFormat} (i j : Nat) (hij : i < j) (hi : (signatureTable.map SigEntry.format)[i]? = some f)
    (hj : (signatureTable.map SigEntry.format)[j]? = some g) : ListedBefore f g := by
  rw [List.getElem?_map] at hi hj
  obtain ⟨e, he, rfl⟩ := Option.map_eq_some_iff.mp hi
  obtain ⟨e', he', rfl⟩ := Option.map_eq_some_iff.mp hj
  unfold ListedBefore
  generalize signatureTable = t at *
  obtain ⟨h1, rfl⟩ := List.getElem?_eq_some_iff.mp he
  obtain ⟨h2, rfl⟩ := List.getElem?_eq_some_iff.mp he'
  have s1 : t = t.take j ++ t[j] :: t.drop (j + 1) := by
    rw [← List.drop_eq_getElem_cons h2, List.take_append_drop]
  have hi' : i < (t.take j).length := by rw [List.length_take]; omega
  have s2 : t.take j = (t.take j).take i ++ t[i] :: (t.take j).drop (i + 1) := by
    have : t[i] = (t.take j)[i] := by rw [List.getElem_take]
    rw [this, ← List.drop_eq_getElem_cons hi', List.take_append_drop]
  refine ⟨(t.take j).take i, t[i], (t.take j).drop (i + 1), t[j], t.drop (j + 1), ?_, rfl, rfl⟩
  rw [← s2]
  exact s1

theorem bdav_first : ListedBefore BdavMpeg2TransportStream Mpeg2TransportStream :=
  listedBefore_of 332 338 (by decide) (by decide +kernel) (by decide +kernel)

/-- C55. The exception: a run of the sync byte is a transport stream as soon as two sync bytes are where they should
be, whatever the features. -/
theorem C55_sync (cfg : Cfg) (ft : Features) (n : Nat) (hn : 189 ≤ n) (hs : n < 2 ^ 63) :
    fromBytes cfg ft (List.replicate n 0x47) =
      .ok (if n < 197 then Mpeg2TransportStream else BdavMpeg2TransportStream) := by
  have hl : (List.replicate n (0x47 : UInt8)).length = n := List.length_replicate
  obtain ⟨t1, t2⟩ := ts_magic n
  have hsig : fromSignature (List.replicate n 0x47) =
      some (if n < 197 then Mpeg2TransportStream else BdavMpeg2TransportStream) := by
    cases hx : fromSignature (List.replicate n 0x47) with
    | none => exact absurd (t2.mpr (by omega)) (fromSignature_none.mp hx _)
    | some f =>
      have hm := fromSignature_some hx
      rcases (uniform_magic hm).2 with rfl | rfl
      · rw [if_neg (by have := t1.mp hm; omega)]
      · by_cases h : n < 197
        · rw [if_pos h]
        · exfalso
          rcases fromSignature_first (t1.mpr (by omega)) hx with h1 | h1
          · cases h1
          · exact (C05_order_strict _ _ bdav_first).1 h1
  have hb : ∀ g ∈ Feature.structured, (if n < 197 then Mpeg2TransportStream else BdavMpeg2TransportStream) ≠ g.base := by
    have h1 : ∀ g ∈ Feature.structured, Mpeg2TransportStream ≠ g.base ∧ BdavMpeg2TransportStream ≠ g.base := by decide
    intro g hg
    split
    · exact (h1 g hg).1
    · exact (h1 g hg).2
  cases fromBytes_outcome cfg ft (List.replicate n 0x47) (by omega) with
  | empty hd _ => rw [hd] at hl; simp at hl; omega
  | unknown hd hs' _ => rw [hsig] at hs'; cases hs'
  | plain hd f hs' hn' hr => rw [hsig] at hs'; cases hs'; exact hr
  | refined hd g hg he hs' => rw [hsig] at hs'; exact (hb g hg (Option.some.inj hs')).elim
  | failed hd g hg he hs' => rw [hsig] at hs'; exact (hb g hg (Option.some.inj hs')).elim
  | crashed hd g hg he hs' => rw [hsig] at hs'; exact (hb g hg (Option.some.inj hs')).elim

-- Non-vacuity: the example of the documentation, and others.
example : fromBytes Cfg.release Features.none (List.replicate 1000 0) = .ok ArbitraryBinaryData :=
  C55_blank _ _ _ _ (by decide) (by decide) (by decide)
example : fromBytes Cfg.release { txt := true } (List.replicate 100000 32) = .ok PlainText := by
  rw [C55_blank _ _ _ _ (by decide) (by decide) (by decide), if_pos (by decide)]

end FF.Props
