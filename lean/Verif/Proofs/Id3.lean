import Verif.Spec.Id3
import Verif.Proofs.Offsets
/-!
# The ID3v2 reader on encoded tags
-/

namespace FF
open Spec FileFormat

theorem id3TagSize_synchsafe (v : Nat) (h : v < 2 ^ 28) :
    id3TagSize (UInt8.ofNat (v / 2 ^ 21 % 128)) (UInt8.ofNat (v / 2 ^ 14 % 128)) (UInt8.ofNat (v / 2 ^ 7 % 128))
      (UInt8.ofNat (v % 128)) = v := by
  unfold id3TagSize
  rw [toNat_ofNat_lt (by omega), toNat_ofNat_lt (by omega), toNat_ofNat_lt (by omega), toNat_ofNat_lt (by omega)]
  have hm : ∀ x, x < 128 → x &&& 0x7F = x := by
    intro x hx
    rw [show (0x7F : Nat) = 2 ^ 7 - 1 from rfl, Nat.and_two_pow_sub_one_eq_mod]
    exact Nat.mod_eq_of_lt hx
  rw [hm _ (by omega), hm _ (by omega), hm _ (by omega), hm _ (by omega)]
  have e1 : (v / 2 ^ 7 % 128) <<< 7 ||| v % 128 = v % 2 ^ 14 := by
    rw [← Nat.shiftLeft_add_eq_or_of_lt (by omega), Nat.shiftLeft_eq]; omega
  have e2 : (v / 2 ^ 14 % 128) <<< 14 ||| v % 2 ^ 14 = v % 2 ^ 21 := by
    rw [← Nat.shiftLeft_add_eq_or_of_lt (by omega), Nat.shiftLeft_eq]; omega
  have e3 : (v / 2 ^ 21 % 128) <<< 21 ||| v % 2 ^ 21 = v := by
    rw [← Nat.shiftLeft_add_eq_or_of_lt (by omega), Nat.shiftLeft_eq]; omega
  rw [Nat.or_assoc, Nat.or_assoc, e1, e2, e3]

theorem mp3Syncs_iff : ∀ b : Fin 256, (mp3Syncs.contains [0xFF, UInt8.ofNat b.val] = true ↔
    (b.val / 32 = 7 ∧ b.val / 8 % 4 ≠ 1 ∧ b.val / 2 % 4 = 1)) := by decide +kernel

theorem mp3Syncs_spec (d : Bytes) (h : 2 ≤ d.length) :
    mp3Syncs.contains (d.take 2) = true ↔ StartsLayer3 d := by
  match d, h with
  | a :: b :: rest, _ =>
    rw [List.take_succ_cons, List.take_succ_cons, List.take_zero]
    have hb := mp3Syncs_iff ⟨b.toNat, b.toNat_lt⟩
    simp only [UInt8.ofNat_toNat] at hb
    constructor
    · intro hc
      have ha : a = 0xFF := by
        simp only [mp3Syncs, List.contains_eq_mem, List.mem_cons, List.cons.injEq, List.not_mem_nil, or_false,
          decide_eq_true_eq] at hc
        rcases hc with h | h | h | h | h | h <;> exact h.1
      subst ha
      exact ⟨b, rest, rfl, hb.mp hc⟩
    · rintro ⟨b', rest', h1, h2⟩
      cases h1
      exact hb.mpr h2

theorem length_synchsafe (v : Nat) : (synchsafe v).length = 4 := rfl

/-- What the reader skips after a tag with an extended header: the value of the four size bytes. -/
def Id3Tag.gap (t : Id3Tag) : Nat := if t.hasExtended = true then beNat (t.extended.take 4) else 0

theorem flag_ne {v : Nat} (i : Nat) : (v &&& 2 ^ i ≠ 0) ↔ v.testBit i = true := by
  rw [and_two_pow]
  cases v.testBit i <;> simp

theorem id3Loop_skip (cfg : Cfg) (d : Bytes) (hd : d.length < 2 ^ 63) (m : Nat) (hm : d.length ≤ m)
    (tags : List (Id3Tag × Bytes)) (ht : ∀ x ∈ tags, x.1.Valid ∧ x.2.length = Id3Tag.gap x.1) (rest : Bytes)
    (p q : Nat)
    (h : At d p (tags.flatMap (fun x => x.1.encode ++ x.2) ++ rest)) (fuel : Nat) :
    ∃ q', run d m (id3Loop cfg (tags.length + fuel) p) q = run d m (id3Loop cfg fuel (d.length - rest.length)) q' := by
  induction tags generalizing p q with
  | nil =>
    have hl := h.len
    rw [List.flatMap_nil, List.nil_append] at hl
    exact ⟨q, by rw [List.length_nil, Nat.zero_add, show d.length - rest.length = p by omega]⟩
  | cons x tags ih =>
    obtain ⟨t, gap⟩ := x
    rw [List.length_cons, Nat.add_right_comm]
    obtain ⟨⟨hsz, hfoot, hne, hext⟩, hgap⟩ := ht (t, gap) (by simp)
    simp only at hsz hfoot hne hext hgap
    have hl := h.len
    rw [List.flatMap_cons] at h
    have h0 : At d p ([73, 68, 51, t.major, t.revision, t.flags,
        UInt8.ofNat ((t.extended.length + t.frames.length) / 2 ^ 21 % 128),
        UInt8.ofNat ((t.extended.length + t.frames.length) / 2 ^ 14 % 128),
        UInt8.ofNat ((t.extended.length + t.frames.length) / 2 ^ 7 % 128),
        UInt8.ofNat ((t.extended.length + t.frames.length) % 128)] ++ (t.extended ++ (t.frames ++ (t.footer ++ (gap ++
          (tags.flatMap (fun x => x.1.encode ++ x.2) ++ rest)))))) := by
      simpa only [Id3Tag.encode, synchsafe, List.append_assoc, List.cons_append, List.nil_append] using h
    have h1 := h0.skip' (n := 10) rfl
    have h2 := h1.skip
    have h3 := h2.skip
    have h4 := h3.skip
    have h5 := h4.skip
    have hl1 := h1.len
    simp only [List.length_append] at hl1
    have hdist : t.footer.length ≤ 10 := by rw [hfoot]; split <;> omega
    have hnext : ∀ q, ∃ q', run d m (id3Loop cfg (tags.length + fuel) (p + 10 + t.extended.length + t.frames.length + t.footer.length + gap.length)) q =
        run d m (id3Loop cfg fuel (d.length - rest.length)) q' := fun q => ih (fun x hx => ht x (by simp [hx])) _ q h5
    rw [id3Loop, run_bind, run_sk_start _ _ (by omega), andThen_ok, run_bind, h0.readBytes (n := 10) rfl, andThen_ok]
    have hsl : ∀ a b c e f g h i j : UInt8, sliceIdx [a, b, c, e, f, g, h, i, j, j] 0 3 = .ok [a, b, c] := by
      intros; rfl
    simp only [run_bind, sliceIdx, List.length_cons, List.length_nil, Nat.zero_add, Nat.reduceAdd, Nat.reduceLeDiff,
      Nat.zero_le, and_self, if_true, List.take_succ_cons, List.take_zero, List.drop_zero, run_lift_ok, andThen_ok,
      ne_eq, not_true_eq_false, if_false, index, List.getElem?_cons_succ, List.getElem?_cons_zero]
    rw [id3TagSize_synchsafe _ hsz, u64Add_ok cfg (by omega), run_lift_ok, andThen_ok, u64Add_ok cfg (by omega),
      run_lift_ok, andThen_ok]
    have hgapv : Id3Tag.gap t = gap.length := hgap.symm
    have hext' : ∃ q1, run d m (id3Extended cfg t.flags (p + 10 + (t.extended.length + t.frames.length))) (p + 10) =
        .ok (p + 10 + (t.extended.length + t.frames.length) + gap.length, q1) := by
      unfold id3Extended
      unfold Id3Tag.gap at hgapv
      cases hx : t.hasExtended with
      | false =>
        have hx' : ¬ (t.flags.toNat &&& 2 ^ 6 ≠ 0) := by
          rw [flag_ne]; exact fun hc => by unfold Id3Tag.hasExtended at hx; rw [hx] at hc; cases hc
        rw [hx] at hgapv
        rw [if_neg hx', ← hgapv]
        exact ⟨_, rfl⟩
      | true =>
        have hx' : t.flags.toNat &&& 2 ^ 6 ≠ 0 := (flag_ne 6).mpr hx
        rw [if_pos hx']
        rw [hx, if_pos rfl] at hgapv
        have h1' : At d (p + 10) (t.extended.take 4 ++ (t.extended.drop 4 ++ (t.frames ++ (t.footer ++ (gap ++
          (tags.flatMap (fun x => x.1.encode ++ x.2) ++ rest)))))) := by
          rw [← List.append_assoc, List.take_append_drop]; exact h1
        have hle := (hext hx).1
        unfold readU32be
        rw [run_bind, run_bind, h1'.rdExact (n := 4) (by simp; omega), andThen_ok, run_pure, andThen_ok, hgapv,
          u64Add_ok cfg (by omega)]
        exact ⟨_, rfl⟩
    obtain ⟨q1, hq1⟩ := hext'
    rw [hq1, andThen_ok]
    have hfoot' : id3Footer cfg t.flags (p + 10 + (t.extended.length + t.frames.length) + gap.length) =
        .ok (p + 10 + t.extended.length + t.frames.length + t.footer.length + gap.length) := by
      unfold id3Footer
      cases hx : t.hasFooter with
      | false =>
        have hx' : ¬ (t.flags.toNat &&& 2 ^ 4 ≠ 0) := by
          rw [flag_ne]; exact fun hc => by unfold Id3Tag.hasFooter at hx; rw [hx] at hc; cases hc
        rw [hx] at hfoot
        rw [if_neg hx', hfoot]
        congr 1; simp; omega
      | true =>
        have hx' : t.flags.toNat &&& 2 ^ 4 ≠ 0 := (flag_ne 4).mpr hx
        rw [hx, if_pos rfl] at hfoot
        rw [if_pos hx', u64Add_ok cfg (by omega)]
        congr 1; omega
    rw [hfoot', run_lift_ok, andThen_ok]
    exact hnext q1

theorem id3Loop_run (cfg : Cfg) (d : Bytes) (hd : d.length < 2 ^ 63) (m : Nat) (hm : d.length ≤ m)
    (tags : List (Id3Tag × Bytes)) (ht : ∀ x ∈ tags, x.1.Valid ∧ x.2.length = Id3Tag.gap x.1) (rest : Bytes)
    (hr : 10 ≤ rest.length) (hn : ¬ b!"ID3" <+: rest) (p q : Nat)
    (h : At d p (tags.flatMap (fun x => x.1.encode ++ x.2) ++ rest)) (fuel : Nat) (hf : tags.length < fuel) :
    ∃ q', run d m (id3Loop cfg fuel p) q = .ok (d.length - rest.length, q') := by
  obtain ⟨k, rfl⟩ : ∃ k, fuel = tags.length + (k + 1) := ⟨fuel - tags.length - 1, by omega⟩
  obtain ⟨q', hq⟩ := id3Loop_skip cfg d hd m hm tags ht rest p q h (k + 1)
  have h' := h.skip
  have hl := h'.len
  rw [show p + (tags.flatMap (fun x => x.1.encode ++ x.2)).length = d.length - rest.length by omega] at h'
  have h10 : At d (d.length - rest.length) (rest.take 10 ++ rest.drop 10) := by rwa [List.take_append_drop]
  have hsl : sliceIdx (rest.take 10) 0 3 = .ok (rest.take 3) := by
    rw [sliceIdx, if_pos ⟨by decide, by simp; omega⟩, List.drop_zero, List.take_take]; rfl
  have hne : rest.take 3 ≠ b!"ID3" := fun hc => hn ⟨rest.drop 3, by rw [← hc, List.take_append_drop]⟩
  rw [hq, id3Loop, run_bind, run_sk_start _ _ (by omega), andThen_ok, run_bind, h10.readBytes (n := 10) (by simp; omega),
    andThen_ok, hsl, run_bind, run_lift_ok, andThen_ok, if_pos hne]
  exact ⟨_, rfl⟩

theorem tags_length (tags : List (Id3Tag × Bytes)) (rest : Bytes) :
    tags.length ≤ (tags.flatMap (fun x => x.1.encode ++ x.2) ++ rest).length := by
  induction tags with
  | nil => simp
  | cons x tags ih =>
    simp only [List.flatMap_cons, List.length_append, List.length_cons, Id3Tag.encode] at ih ⊢
    omega

/-- Less than 10 bytes behind the tags: the reader fails. -/
theorem id3v2Reader_short (cfg : Cfg) (m : Nat) (tags : List (Id3Tag × Bytes))
    (ht : ∀ x ∈ tags, x.1.Valid ∧ x.2.length = Id3Tag.gap x.1) (rest : Bytes) (hr : rest.length < 10)
    (hd : (tags.flatMap (fun x => x.1.encode ++ x.2) ++ rest).length < 2 ^ 63)
    (hm : (tags.flatMap (fun x => x.1.encode ++ x.2) ++ rest).length ≤ m) :
    val (run (tags.flatMap (fun x => x.1.encode ++ x.2) ++ rest) m (id3v2Reader cfg) 0) = .error (.err .unexpectedEof) := by
  have hlen := tags_length tags rest
  obtain ⟨k, hk⟩ : ∃ k, id3Fuel = tags.length + (k + 1) := ⟨2 ^ 64 - tags.length - 1, by
    rw [show id3Fuel = 2 ^ 64 from rfl]; omega⟩
  obtain ⟨q', hq⟩ := id3Loop_skip cfg _ hd m hm tags ht rest 0 0 (At.start _) (k + 1)
  unfold id3v2Reader
  rw [run_bind, hk, hq, id3Loop, run_bind, run_sk_start _ _ (by omega), andThen_ok, run_bind,
    run_readBytes_eof (by omega) (by omega)]
  rfl

open Classical in
theorem id3v2Reader_run (cfg : Cfg) (m : Nat) (tags : List (Id3Tag × Bytes))
    (ht : ∀ x ∈ tags, x.1.Valid ∧ x.2.length = Id3Tag.gap x.1) (rest : Bytes)
    (hr : 10 ≤ rest.length) (hn : ¬ b!"ID3" <+: rest)
    (hd : (tags.flatMap (fun x => x.1.encode ++ x.2) ++ rest).length < 2 ^ 63)
    (hm : (tags.flatMap (fun x => x.1.encode ++ x.2) ++ rest).length ≤ m) :
    val (run (tags.flatMap (fun x => x.1.encode ++ x.2) ++ rest) m (id3v2Reader cfg) 0) =
      .ok (if b!"fLaC" <+: rest then FreeLosslessAudioCodec
        else if StartsLayer3 rest then Mpeg12AudioLayer3 else Id3v2) := by
  have hlen := tags_length tags rest
  obtain ⟨q', hq⟩ := id3Loop_run cfg _ hd m hm tags ht rest hr hn 0 0 (At.start _) id3Fuel (by
    rw [show id3Fuel = 2 ^ 64 from rfl]; omega)
  generalize hD : tags.flatMap (fun x => x.1.encode ++ x.2) ++ rest = d at *
  have hat : At d (d.length - rest.length) (rest.take 4 ++ rest.drop 4) := by
    rw [List.take_append_drop]
    refine ⟨by omega, ?_⟩
    subst hD
    rw [List.length_append, Nat.add_sub_cancel, List.drop_left]
  have hl := hat.len
  have hflac : rest.take 4 = b!"fLaC" ↔ b!"fLaC" <+: rest := by
    rw [List.prefix_iff_eq_take]; exact eq_comm
  have hsl : sliceIdx (rest.take 4) 0 2 = .ok (rest.take 2) := by
    rw [sliceIdx, if_pos ⟨by decide, by simp; omega⟩, List.drop_zero, List.take_take]; rfl
  unfold id3v2Reader
  rw [run_bind, hq, andThen_ok, run_bind, run_sk_start _ _ (by omega), andThen_ok, run_bind,
    hat.readBytes (n := 4) (by simp; omega), andThen_ok]
  by_cases h1 : b!"fLaC" <+: rest
  · rw [if_pos (hflac.mpr h1), if_pos h1]; rfl
  · rw [if_neg (fun h => h1 (hflac.mp h)), if_neg h1, hsl, run_bind, run_lift_ok, andThen_ok]
    have hs := mp3Syncs_spec rest (by omega)
    by_cases h2 : StartsLayer3 rest
    · rw [if_pos (hs.mpr h2), if_pos h2]; rfl
    · rw [if_neg (fun h => h2 (hs.mp h)), if_neg h2]; rfl

end FF
