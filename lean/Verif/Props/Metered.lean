import Verif.Proofs.Metered
import Verif.Props.Device
/-!
# C85: the number of calls on any `Read + Seek`
-/

namespace FF.Props
open FF FileFormat Spec

variable {σ : Type} {D : Device σ} {calls : σ → Nat}

theorem opEx_cost {b : Bool} {n : Nat} (hn : 2 ≤ n) (o : Op) (h : OpEx b n o) : o.cost ≤ n := by
  obtain ⟨h1, h2⟩ := h
  cases o <;> simp only [Op.cost, Op.size] at h2 ⊢ <;> omega

theorem opRd_cost {n : Nat} (o : Op) (h : OpRd n o) : o.cost ≤ 2 := by
  obtain ⟨h1, h2, h3⟩ := h
  cases o with
  | readExact m => exact absurd rfl (h3 m)
  | readUntil m => simp [Op.untilBuffered] at h1
  | _ => simp only [Op.cost] <;> omega

/-- The calls that the reader of a feature may take. -/
def readerCalls : Feature → Nat
  | .asf => (3 + 165 * 256) * 64
  | .cfb => 10 * 64
  | .ebml => (2 + 15 * 256) * 64
  | .exe => 7 * 64
  | .id3v2 => 0
  | .mp4 => (2 + 7 * 256) * 64
  | .pdf => (1 + (pdfReadLimit + 1)) * 2
  | .rm => (2 + 10 * 64) * 255
  | .sqlite3 => 2 * 2
  | .txt => 17 * 65536
  | .xml => 2 * 2
  | .zip => (12 + (10 * zipEntryLimit + 5)) * (2 ^ 32 - 1)

theorem reader_pot (hL : D.Lawful) (hM : D.Meter calls) (cfg : Cfg) (g : Feature) (hg : g ≠ .id3v2) (st : σ) :
    pot D calls (execOnD D (readerOf cfg g).1 (readerOf cfg g).2 st).2 ≤ pot D calls st + readerCalls g := by
  have ex : ∀ {F : Fail → Prop} {b : Bool} {n k : Nat} {p : Prog FileFormat} {Q : FileFormat → Prop}, 2 ≤ n →
      All (OpEx b n) F Q p k → pot D calls (execOnD D b p st).2 ≤ pot D calls st + k * n := by
    intro F b n k p Q hn h
    exact execD_pot hL hM n p k b h (fun _ => OpEx.until _) (opEx_cost hn) ⟨st, b, []⟩ (DRd.inv_nil st _) rfl
  have rd : ∀ {F : Fail → Prop} {n k : Nat} {p : Prog FileFormat} {Q : FileFormat → Prop},
      All (OpRd n) F Q p k → pot D calls (execOnD D false p st).2 ≤ pot D calls st + k * 2 := by
    intro F n k p Q h
    exact execD_pot hL hM 2 p k false h (fun _ => OpRd.until _) opRd_cost ⟨st, false, []⟩ (DRd.inv_nil st _) rfl
  cases g with
  | asf => exact ex (by decide) (asfReader_all cfg)
  | cfb => exact ex (by decide) cfbReader_all
  | ebml => exact ex (by decide) ebmlReader_all
  | exe => exact ex (by decide) exeReader_all
  | id3v2 => exact absurd rfl hg
  | mp4 => exact ex (by decide) (mp4Reader_all cfg)
  | pdf => exact rd pdfReader_all
  | rm => exact ex (by decide) rmReader_all
  | sqlite3 => exact rd sqlite3Reader_all
  | txt => exact ex (by decide) txtReader_all
  | xml => exact rd xmlReader_all
  | zip => exact ex (by decide) (zipReader_all cfg)

theorem generic_pot (hL : D.Lawful) (hM : D.Meter calls) (ft : Features) (st : σ) :
    pot D calls (fromGenericReaderD D ft st).2 ≤ pot D calls st + 17 * 65536 := by
  have h0 := reader_pot hL hM Cfg.release .txt (by decide) st
  obtain ⟨k, hk, h⟩ : ∃ k, k = 17 * 65536 ∧ pot D calls (execOnD D true txtReader st).2 ≤ pot D calls st + k :=
    ⟨readerCalls .txt, rfl, h0⟩
  clear h0
  rw [← hk]
  clear hk
  unfold fromGenericReaderD
  split
  · generalize execOnD D true txtReader st = x at h
    obtain ⟨(_ | _ | _) | _, s⟩ := x <;> exact h
  · exact Nat.le_add_right _ _

theorem readerCalls_le (g : Feature) (ft : Features) (he : g.enabled ft = true) :
    readerCalls g ≤ if ft.zip then 2 ^ 46 else 67108868 := by
  have h1 : g ≠ .zip → readerCalls g ≤ 67108868 := by cases g <;> decide +kernel
  have h2 : readerCalls g ≤ 2 ^ 46 := by cases g <;> decide +kernel
  split
  · exact h2
  · rename_i hz
    exact h1 (fun h => hz (by subst h; exact he))

theorem device_pot (hL : D.Lawful) (hM : D.Meter calls) (cfg : Cfg) (ft : Features) (st : σ) (B : Nat)
    (hid : ft.id3v2 = true → ∀ buf, (D.read st 36870).1 = .ok buf → Recognised buf Id3v2 →
      ∀ st, pot D calls (execOnD D false (id3v2Reader cfg) st).2 ≤ pot D calls st + B) :
    pot D calls (fromDevice D cfg ft st).2 ≤
      pot D calls st + 1 + ((if ft.zip then 2 ^ 46 else 67108868) + (if ft.id3v2 then B else 0)) + 17 * 65536 := by
  have hb : bufferSize = 36870 := rfl
  cases hx : D.read st 36870 with
  | mk r st' =>
    have h1 := (pot_read hL hM hx).1
    cases r with
    | error e =>
      simp only [fromDevice, hb, hx]
      omega
    | ok buf =>
      have hlen : buf.length < 2 ^ 64 := by
        have := hL.read_le _ _ _ _ hx
        omega
      have hg := generic_pot hL hM ft
      simp only [fromDevice, hb, hx]
      split
      · show pot D calls st' ≤ _
        omega
      · cases hs : fromSignature buf with
        | none =>
          have := hg st'
          simp only
          omega
        | some fmt =>
          simp only
          rcases fmtReader_cases cfg ft fmt with hn | ⟨g, hgs, he, rfl, hrd⟩
          · simp only [fromFmtReaderD, hn]
            omega
          · simp only [fromFmtReaderD, hrd]
            have h2 : pot D calls (execOnD D (readerOf cfg g).1 (readerOf cfg g).2 st').2 ≤
                pot D calls st' + ((if ft.zip then 2 ^ 46 else 67108868) + (if ft.id3v2 then B else 0)) := by
              by_cases hne : g = .id3v2
              · subst hne
                have he' : ft.id3v2 = true := he
                have := hid he' buf (by rw [hx]) (recognised_of_signature hlen hs) st'
                rw [if_pos he']
                show pot D calls (execOnD D false (id3v2Reader cfg) st').2 ≤ _
                omega
              · have h2 := reader_pot hL hM cfg g hne st'
                have h3 := readerCalls_le g ft he
                omega
            generalize execOnD D (readerOf cfg g).1 (readerOf cfg g).2 st' = x at h2
            obtain ⟨(_ | _ | _) | _, s⟩ := x
            · have h4 := hg s
              simp only at h2 ⊢
              omega
            · simp only at h2 ⊢
              omega
            · simp only at h2 ⊢
              omega
            · simp only at h2 ⊢
              omega

/-- C85: on any `Read + Seek`, whatever it answers (without an end, changing under the detection,
failing, cutting reads short, telling positions that are not its own), a detection makes at most a
constant number of calls, plus one for each interruption. The constant is `2^47` with the ZIP reader
and `2^27` without. The exception is the ID3v2 reader, which takes part if it is enabled and the
first read shows a tag. -/
theorem C85_calls (hL : D.Lawful) (hM : D.Meter calls) (cfg : Cfg) (ft : Features) (st : σ)
    (hid : ft.id3v2 = true → ∀ buf, (D.read st 36870).1 = .ok buf → ¬ Recognised buf Id3v2) :
    calls (fromDevice D cfg ft st).2 ≤ calls st + (if ft.zip then 2 ^ 47 else 2 ^ 27) + D.patience st := by
  have h := device_pot hL hM cfg ft st 0 (fun he buf h1 h2 => absurd h2 (hid he buf h1))
  unfold pot at h
  revert h
  split <;> split <;> intro h <;> omega

/-- C85: on a device that ends, the ID3v2 reader adds 20 calls per byte at most. -/
theorem C85_ending (hL : D.Lawful) (hM : D.Meter calls) {position : σ → Nat} {len : Nat} (hE : D.Ending position len)
    (hlen : len < 2 ^ 63) (cfg : Cfg) (ft : Features) (st : σ) :
    calls (fromDevice D cfg ft st).2 ≤
      calls st + (if ft.zip then 2 ^ 47 else 2 ^ 27) + (if ft.id3v2 then 20 * len else 0) + D.patience st := by
  have h := device_pot hL hM cfg ft st (20 * len + 320) (fun _ _ _ _ st => by
    have := id3v2_pot hL hM hE hlen cfg st
    omega)
  unfold pot at h
  revert h
  split <;> split <;> intro h <;> omega

/-! ## Every device with a counter -/

theorem counted_lawful (hL : D.Lawful) : (counted D).Lawful where
  read_le := by
    rintro s n bs s' h
    simp only [counted, Prod.mk.injEq] at h
    exact hL.read_le s.1 n bs (D.read s.1 n).2 (by rw [← h.1])
  read_patience := by
    rintro s n r s' h
    simp only [counted, Prod.mk.injEq] at h
    rw [← h.2]
    exact hL.read_patience s.1 n r _ (by rw [← h.1])
  interrupted := by
    rintro s n s' h
    simp only [counted, Prod.mk.injEq] at h
    rw [← h.2]
    exact hL.interrupted s.1 n _ (by rw [← h.1])
  seek_patience := by
    rintro s p r s' h
    simp only [counted, Prod.mk.injEq] at h
    rw [← h.2]
    exact hL.seek_patience s.1 p r _ (by rw [← h.1])
  tell_patience := by
    rintro s r s' h
    simp only [counted, Prod.mk.injEq] at h
    rw [← h.2]
    exact hL.tell_patience s.1 r _ (by rw [← h.1])

theorem counted_meter (D : Device σ) : (counted D).Meter Prod.snd :=
  ⟨fun _ _ => Nat.le_refl _, fun _ _ => Nat.le_refl _, fun _ => Nat.le_refl _⟩

/-- C85 with a counter beside any device: it ends at the constant at most. -/
theorem C85_counted (hL : D.Lawful) (cfg : Cfg) (ft : Features) (st : σ)
    (hid : ft.id3v2 = true → ∀ buf, (D.read st 36870).1 = .ok buf → ¬ Recognised buf Id3v2) :
    (fromDevice (counted D) cfg ft (st, 0)).2.2 ≤ (if ft.zip then 2 ^ 47 else 2 ^ 27) + D.patience st := by
  have := C85_calls (counted_lawful hL) (counted_meter D) cfg ft (st, 0) hid
  simp only [Nat.zero_add] at this
  exact this

/-! ## The size of the reads -/

variable {ok : σ → Prop}

theorem reader_keeps (hL : D.Lawful) {limit : Nat} (hK : D.Keeps limit ok) (hl : 65536 ≤ limit) (cfg : Cfg) (g : Feature)
    (hg : g = .zip → 2 ^ 32 - 1 ≤ limit) (st : σ) (hs : ok st) :
    ok (execOnD D (readerOf cfg g).1 (readerOf cfg g).2 st).2 := by
  have ex : ∀ {F : Fail → Prop} {b : Bool} {n k : Nat} {p : Prog FileFormat} {Q : FileFormat → Prop}, n ≤ limit →
      All (OpEx b n) F Q p k → ok (execOnD D b p st).2 := by
    intro F b n k p Q hn h
    refine execD_keeps hL hK (by omega) p k b h (fun _ => OpEx.until _) ?_ ⟨st, b, []⟩ (DRd.inv_nil st _) rfl hs
    rintro m (h | h)
    · have : m ≤ n := h.2
      omega
    · have : m ≤ n := h.2
      omega
  have rd : ∀ {F : Fail → Prop} {n k : Nat} {p : Prog FileFormat} {Q : FileFormat → Prop}, n ≤ limit →
      All (OpRd n) F Q p k → ok (execOnD D false p st).2 := by
    intro F n k p Q hn h
    refine execD_keeps hL hK (by omega) p k false h (fun _ => OpRd.until _) ?_ ⟨st, false, []⟩ (DRd.inv_nil st _) rfl hs
    rintro m (h | h)
    · exact absurd rfl (h.2.2 m)
    · have : m ≤ n := h.2.1
      omega
  cases g with
  | asf => exact ex (by omega) (asfReader_all cfg)
  | cfb => exact ex (by omega) cfbReader_all
  | ebml => exact ex (by omega) ebmlReader_all
  | exe => exact ex (by omega) exeReader_all
  | id3v2 => exact ex (by omega) (id3v2Reader_all cfg)
  | mp4 => exact ex (by omega) (mp4Reader_all cfg)
  | pdf => exact rd (by omega) pdfReader_all
  | rm => exact ex (by omega) rmReader_all
  | sqlite3 => exact rd (by omega) sqlite3Reader_all
  | txt => exact ex hl txtReader_all
  | xml => exact rd (by omega) xmlReader_all
  | zip => exact ex (hg rfl) (zipReader_all cfg)

theorem generic_keeps (hL : D.Lawful) {limit : Nat} (hK : D.Keeps limit ok) (hl : 65536 ≤ limit) (ft : Features) (st : σ)
    (hs : ok st) : ok (fromGenericReaderD D ft st).2 := by
  have h : ok (execOnD D true txtReader st).2 := reader_keeps hL hK hl Cfg.release .txt (fun h => nomatch h) st hs
  unfold fromGenericReaderD
  split
  · generalize execOnD D true txtReader st = x at h
    obtain ⟨(_ | _ | _) | _, s⟩ := x <;> exact h
  · exact hs

/-- C86: whatever the `Read + Seek` answers, a detection does nothing to it but reads for less than
64 KiB + 1 bytes (4 GiB if the first read is recognised as ZIP and the ZIP reader is enabled), seeks
and questions for the position: what these keep, the detection keeps. -/
theorem C86_keeps (hL : D.Lawful) {limit : Nat} (hK : D.Keeps limit ok) (hl : 65536 ≤ limit) (cfg : Cfg) (ft : Features)
    (st : σ) (hz : ft.zip = true → ∀ buf, (D.read st 36870).1 = .ok buf → Recognised buf Zip → 2 ^ 32 - 1 ≤ limit)
    (hs : ok st) : ok (fromDevice D cfg ft st).2 := by
  have hb : bufferSize = 36870 := rfl
  have hk := hK.read st 36870 (by omega) hs
  cases hx : D.read st 36870 with
  | mk r st' =>
    rw [hx] at hk
    simp only at hk
    cases r with
    | error e =>
      simp only [fromDevice, hb, hx]
      exact hk
    | ok buf =>
      have hlen : buf.length < 2 ^ 64 := by
        have := hL.read_le _ _ _ _ hx
        omega
      have hg := generic_keeps hL hK hl ft
      simp only [fromDevice, hb, hx]
      split
      · exact hk
      · cases hsig : fromSignature buf with
        | none => exact hg st' hk
        | some fmt =>
          simp only
          rcases fmtReader_cases cfg ft fmt with hn | ⟨g, hgs, he, rfl, hrd⟩
          · simp only [fromFmtReaderD, hn]
            exact hk
          · simp only [fromFmtReaderD, hrd]
            have h2 := reader_keeps hL hK hl cfg g (by
              rintro rfl
              exact hz he buf (by rw [hx]) (recognised_of_signature hlen hsig)) st' hk
            generalize execOnD D (readerOf cfg g).1 (readerOf cfg g).2 st' = x at h2
            obtain ⟨(_ | _ | _) | _, s⟩ := x
            · exact hg s h2
            · exact h2
            · exact h2
            · exact h2

theorem largest_lawful (hL : D.Lawful) : (largest D).Lawful where
  read_le := by
    rintro s n bs s' h
    simp only [largest, Prod.mk.injEq] at h
    exact hL.read_le s.1 n bs (D.read s.1 n).2 (by rw [← h.1])
  read_patience := by
    rintro s n r s' h
    simp only [largest, Prod.mk.injEq] at h
    rw [← h.2]
    exact hL.read_patience s.1 n r _ (by rw [← h.1])
  interrupted := by
    rintro s n s' h
    simp only [largest, Prod.mk.injEq] at h
    rw [← h.2]
    exact hL.interrupted s.1 n _ (by rw [← h.1])
  seek_patience := by
    rintro s p r s' h
    simp only [largest, Prod.mk.injEq] at h
    rw [← h.2]
    exact hL.seek_patience s.1 p r _ (by rw [← h.1])
  tell_patience := by
    rintro s r s' h
    simp only [largest, Prod.mk.injEq] at h
    rw [← h.2]
    exact hL.tell_patience s.1 r _ (by rw [← h.1])

theorem largest_keeps (D : Device σ) (limit : Nat) : (largest D).Keeps limit (fun s => s.2 ≤ limit) :=
  ⟨fun _ _ hn hs => Nat.max_le.mpr ⟨hs, hn⟩, fun _ _ hs => hs, fun _ hs => hs⟩

/-- C86: on any device no read asks for more than 65536 bytes, unless the ZIP reader takes part. -/
theorem C86_reads (hL : D.Lawful) (cfg : Cfg) (ft : Features) (st : σ)
    (hz : ft.zip = true → ∀ buf, (D.read st 36870).1 = .ok buf → ¬ Recognised buf Zip) :
    (fromDevice (largest D) cfg ft (st, 0)).2.2 ≤ 65536 :=
  C86_keeps (largest_lawful hL) (largest_keeps D 65536) (Nat.le_refl _) cfg ft (st, 0)
    (fun h buf h1 h2 => absurd h2 (hz h buf h1)) (Nat.zero_le _)

/-- C86: with the ZIP reader no read asks for 4 GiB or more. -/
theorem C86_all_reads (hL : D.Lawful) (cfg : Cfg) (ft : Features) (st : σ) :
    (fromDevice (largest D) cfg ft (st, 0)).2.2 < 2 ^ 32 := by
  have := C86_keeps (largest_lawful hL) (largest_keeps D (2 ^ 32 - 1)) (by omega) cfg ft (st, 0)
    (fun _ _ _ _ => Nat.le_refl _) (Nat.zero_le _)
  exact Nat.lt_of_le_of_lt this (by decide)

/-! ## Non-vacuity: a file without an end, and one that changes -/

theorem zeros_lawful : zeros.Lawful where
  read_le := by
    intro p n bs s' h
    cases h
    simp
  read_patience := fun _ _ _ _ _ => Nat.le_refl _
  interrupted := by
    intro p n s' h
    cases h
  seek_patience := fun _ _ _ _ _ => Nat.le_refl _
  tell_patience := fun _ _ _ _ => Nat.le_refl _

theorem zeros_no_tag (buf : Bytes) (h : (zeros.read 0 36870).1 = .ok buf) : ¬ Recognised buf Id3v2 := by
  intro hr
  have hb : buf = List.replicate 36870 0 := by cases h; rfl
  have hl : buf.length < 2 ^ 64 := by rw [hb, List.length_replicate]; decide
  have hs := signature_of_recognised (g := .id3v2) hl (by decide) hr
  have hall : ∀ e ∈ signatureTable, e.format = Id3v2 → ∀ alt ∈ e.alts, ∃ p ∈ alt, 0x49 ∈ p.value := by decide +kernel
  obtain ⟨e, he, hf, alt, ha, hc⟩ := fromSignature_some hs
  obtain ⟨p, hp, hm⟩ := hall e he hf alt ha
  obtain ⟨pre, suf, h1, h2⟩ := hc p hp
  have hin : (0x49 : UInt8) ∈ buf := by
    rw [h1]
    simp [hm]
  rw [hb] at hin
  exact absurd (List.eq_of_mem_replicate hin) (by decide)

-- On `/dev/zero` every detection ends, within the bound, with all readers.
example (cfg : Cfg) : (fromDevice (counted zeros) cfg Features.all (0, 0)).2.2 ≤ 2 ^ 47 :=
  C85_counted zeros_lawful cfg Features.all 0 (fun _ => zeros_no_tag)

-- A file of three bytes that is replaced after the first read.
example : (fromDevice (counted (changing (fun t => if t = 0 then b!"abc" else b!"de\xff") 100)) Cfg.release { txt := true } ((0, 0), 0)).2.2 = 4 := by
  decide +kernel
example : (fromDevice (largest (changing (fun t => if t = 0 then b!"abc" else b!"de\xff") 100)) Cfg.release { txt := true } ((0, 0), 0)).2.2 = 36870 := by
  decide +kernel

/-- C85 for files that others change, of at most `len` bytes at any time: the state counts the calls. -/
theorem C85_changing (contents : Nat → Bytes) (limit len : Nat) (hl : ∀ t, (contents t).length ≤ len) (hlen : len < 2 ^ 63)
    (cfg : Cfg) (ft : Features) (p : Nat) :
    (fromDevice (changing contents limit) cfg ft (0, p)).2.1 ≤
      (if ft.zip then 2 ^ 47 else 2 ^ 27) + (if ft.id3v2 then 20 * len else 0) := by
  have hM : (changing contents limit).Meter Prod.fst :=
    ⟨fun _ _ => Nat.le_refl _, fun s p => by simp only [changing]; split <;> exact Nat.le_refl _, fun _ => Nat.le_refl _⟩
  have := C85_ending (changing_lawful contents limit) hM (changing_ending contents limit len hl) hlen cfg ft (0, p)
  simp only [Nat.zero_add] at this
  exact this

end FF.Props
