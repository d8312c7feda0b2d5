import Verif.Proofs.Serve
import Verif.Props.Stream
import Verif.Props.After
import Verif.Props.Verdict
/-!
# C82: any implementation of `Read + Seek` that serves a content
-/

namespace FF.Props
open FF FileFormat Spec

variable {σ : Type} {D : Device σ} {data : Bytes} {top : Nat} {position : σ → Nat} {I : σ → Prop}

/-- C82. Whatever the implementation does, it does what a stream with the same content at the same position does on which
some calls are cut short and some fail: same result, same position afterwards. If none of its calls fail, none of the
stream's do; if its reads are served in full, so are the stream's. -/
theorem C82_schedule (hL : D.Lawful) (hS : D.Serves data top position I) (cfg : Cfg) (ft : Features) (st : σ) (hI : I st) :
    ∃ s : Src, s.data = data ∧ s.pos = position st ∧ s.maxPos = top ∧
      (fromReader cfg ft s).1 = (fromDevice D cfg ft st).1 ∧
      (fromReader cfg ft s).2.pos = position (fromDevice D cfg ft st).2 ∧ I (fromDevice D cfg ft st).2 ∧
      (s.read 36870).1 = (D.read st 36870).1 ∧
      ∀ may, D.Reliable data top position I may →
        (∀ e, Ev.error e ∈ s.revs → may e) ∧ (∀ e ∈ s.sevs, e = none) ∧
        (D.Full data position I → ∀ k, Ev.short k ∉ s.revs) := by
  let X : Served σ := {
    D := D, data := data, top := top, position := position, I := I,
    safe := (∃ may, D.Reliable data top position I may),
    may := (fun e => ∀ may, D.Reliable data top position I may → may e),
    full := D.Full data position I,
    lawful := hL, serves := hS,
    reliable := (fun ⟨m, hm⟩ => ⟨fun s n e s' hi h may hr => hr.read s n e s' hi h, hm.seek, hm.tell⟩),
    complete := id }
  obtain ⟨lr, ls, h1, hi, hc, h2⟩ := serve_detect X cfg ft st hI
  refine ⟨X.src st lr ls [], rfl, rfl, rfl, ?_, ?_, hi, ?_, ?_⟩
  · obtain ⟨lg, h⟩ := h2 [] [] []
    rw [List.append_nil, List.append_nil] at h
    rw [h]
  · obtain ⟨lg, h⟩ := h2 [] [] []
    rw [List.append_nil, List.append_nil] at h
    rw [h]
    rfl
  · have := h1 [] ls [] 36870 rfl
    rw [List.append_nil] at this
    exact this
  · intro may hr
    obtain ⟨c1, c2⟩ := hc ⟨may, hr⟩
    refine ⟨fun e he => (c1 _ he : ∀ m, D.Reliable data top position I m → m e) may hr, c2, fun hf k hk => ?_⟩
    exact (c1 _ hk : ¬ D.Full data position I) hf

/-- C82. Detection returns: a format, or the error of the first read. -/
theorem C82_total (hL : D.Lawful) (hS : D.Serves data top position I) (ft : Features) (st : σ) (hI : I st)
    (hl : IsSlice data) (hd : data.length ≤ top) (hp : position st ≤ top) :
    Returns (fromDevice D Cfg.release ft st).1 := by
  obtain ⟨s, h1, h2, h3, h4, _⟩ := C82_schedule hL hS Cfg.release ft st hI
  rw [← h4]
  exact C01_from_reader_total ft s ⟨by rw [h1, h3]; exact hd, by rw [h2, h3]; exact hp⟩ (by rw [h1]; exact hl)

/-- C82. If no call fails, the verdict is the specified one, on the content, for what the first read delivers. -/
theorem C82_verdict (hL : D.Lawful) (hS : D.Serves data top position I)
    (hR : D.Reliable data top position I (fun _ => False)) (ft : Features) (st : σ) (hI : I st)
    (hl : IsSlice data) (hd : data.length ≤ top) (hp : position st ≤ top) :
    ∃ w r, (D.read st 36870).1 = .ok w ∧
      ∀ f, (fromDevice D Cfg.release ft st).1 = .ok f ↔ VerdictOn ft w data top r f := by
  obtain ⟨s, h1, h2, h3, h4, _, _, h5, h6⟩ := C82_schedule hL hS Cfg.release ft st hI
  obtain ⟨h6, h7, _⟩ := h6 _ hR
  have hq : s.NoFail := ⟨h6, h7⟩
  refine ⟨firstWindow s, laterReads s, ?_, fun f => ?_⟩
  · rw [← h5]; exact (first_window s hq).1
  · rw [← h4, C73_from_reader ft s ⟨by rw [h1, h3]; exact hd, by rw [h2, h3]; exact hp⟩ (by rw [h1]; exact hl) hq f, h1, h3]

/-- C82. Reads may be cut short and interrupted as the implementation likes: if the first one delivers the beginning of the
content, the verdict is the one of `from_bytes`, unless a reader takes part that calls `read` only once per buffer. -/
theorem C82_as_from_bytes (hL : D.Lawful) (hS : D.Serves data (2 ^ 64 - 1) position I)
    (hR : D.Reliable data (2 ^ 64 - 1) position I (fun e => e = .interrupted)) (cfg : Cfg) (ft : Features) (st : σ) (hI : I st)
    (hl : IsSlice data) (hp : position st < 2 ^ 64) (hw : (D.read st 36870).1 = .ok (data.take 36870))
    (hf : ∀ f ∈ [Feature.pdf, .sqlite3, .xml], f.enabled ft = true → ¬ Recognised data f.base) :
    (fromDevice D cfg ft st).1 = fromBytes cfg ft data := by
  have hl' : data.length < 2 ^ 63 := hl
  obtain ⟨s, h1, h2, h3, h4, _, _, h5, h6⟩ := C82_schedule hL hS cfg ft st hI
  obtain ⟨h6, h7, _⟩ := h6 _ hR
  rw [← h4, ← h1]
  refine C11_as_from_bytes cfg ft s ⟨by rw [h1, h3]; omega, by rw [h2, h3]; omega⟩ (by rw [h1]; exact hl) h3 ⟨h6, h7⟩
    (by rw [h5, h1]; exact hw) (by rw [h1]; exact hf)

theorem calm_of_full (s : Src) (h1 : ∀ e, Ev.error e ∈ s.revs → False) (h2 : ∀ e ∈ s.sevs, e = none)
    (h3 : ∀ k, Ev.short k ∉ s.revs) : s.Calm := by
  refine ⟨fun e he => ?_, h2⟩
  cases e with
  | full => rfl
  | short k => exact absurd he (h3 k)
  | error e => exact (h1 e he).elim

/-- C82. If reads are served in full and nothing fails, an implementation at its start gives the verdict of `from_bytes`. -/
theorem C82_full (hL : D.Lawful) (hS : D.Serves data (2 ^ 64 - 1) position I)
    (hR : D.Reliable data (2 ^ 64 - 1) position I (fun _ => False)) (hF : D.Full data position I)
    (cfg : Cfg) (ft : Features) (st : σ) (hI : I st) (hl : IsSlice data) (hp : position st = 0) :
    (fromDevice D cfg ft st).1 = fromBytes cfg ft data := by
  obtain ⟨s, h1, h2, h3, h4, _, _, _, h6⟩ := C82_schedule hL hS cfg ft st hI
  obtain ⟨h6, h7, h8⟩ := h6 _ hR
  rw [← h4]
  exact (C13_entry_points_agree cfg ft data hl s ⟨h1, h2.trans hp, h3, calm_of_full s h6 h7 (h8 hF)⟩
    (fun _ : Unit => .ok s) () rfl).2.1

/-- C82. Two implementations that serve the same content in full, at the same position, get the same result. -/
theorem C82_same {σ' : Type} {D' : Device σ'} {position' : σ' → Nat} {I' : σ' → Prop}
    (hL : D.Lawful) (hS : D.Serves data top position I) (hR : D.Reliable data top position I (fun _ => False))
    (hF : D.Full data position I)
    (hL' : D'.Lawful) (hS' : D'.Serves data top position' I') (hR' : D'.Reliable data top position' I' (fun _ => False))
    (hF' : D'.Full data position' I')
    (cfg : Cfg) (ft : Features) (st : σ) (st' : σ') (hI : I st) (hI' : I' st') (hp : position st = position' st')
    (hd : data.length ≤ top) (ht : position st ≤ top) :
    (fromDevice D cfg ft st).1 = (fromDevice D' cfg ft st').1 := by
  obtain ⟨s, h1, h2, h3, h4, _, _, _, h6⟩ := C82_schedule hL hS cfg ft st hI
  obtain ⟨s', k1, k2, k3, k4, _, _, _, k6⟩ := C82_schedule hL' hS' cfg ft st' hI'
  obtain ⟨h6, h7, h8⟩ := h6 _ hR
  obtain ⟨k6, k7, k8⟩ := k6 _ hR'
  rw [← h4, ← k4]
  exact C51_no_history cfg ft s s' ⟨by rw [h1, h3]; exact hd, by rw [h2, h3]; exact ht⟩
    ⟨by rw [k1, k3]; exact hd, by rw [k2, k3, ← hp]; exact ht⟩ (calm_of_full s h6 h7 (h8 hF)) (calm_of_full s' k6 k7 (k8 hF'))
    (h1.trans k1.symm) (by rw [h2, k2, hp]) (h3.trans k3.symm)

/-! ## Not vacuous: a content kept in blocks -/

theorem blocks_lawful (k : Nat) (data : Bytes) (top : Nat) : (blocks k data top).Lawful where
  read_le := by
    intro s n bs s' h
    cases h
    rw [length_slice]; omega
  read_patience := fun _ _ _ _ _ => Nat.le_refl _
  interrupted := by intro s n s' h; cases h
  seek_patience := fun _ _ _ _ _ => Nat.le_refl _
  tell_patience := fun _ _ _ _ => Nat.le_refl _

theorem slice_length_self (d : Bytes) (p n : Nat) : slice d p n = slice d p (slice d p n).length := by
  unfold slice
  rw [List.length_take]
  by_cases h : n ≤ (d.drop p).length
  · rw [Nat.min_eq_left h]
  · rw [Nat.min_eq_right (by omega), List.take_of_length_le (by omega), List.take_of_length_le (Nat.le_refl _)]

theorem blocks_serves (k : Nat) (hk : 0 < k) (data : Bytes) (top : Nat) :
    (blocks k data top).Serves data top (fun p => p) (fun _ => True) where
  read_ok := by
    intro s n bs s' _ h
    cases h
    refine ⟨by rw [length_slice]; omega, slice_length_self _ _ _, fun h => ?_, rfl⟩
    have := congrArg List.length h
    rw [length_slice, List.length_nil] at this
    have := Nat.mod_lt s hk
    omega
  seek_ok := by
    intro s p q s' _ h
    simp only [blocks] at h
    split at h
    · rename_i h'; cases h; exact ⟨h', rfl⟩
    · cases h
  tell_ok := by intro s q s' _ h; cases h; exact ⟨rfl, rfl⟩
  read_error := by intro s n e s' _ h; cases h
  seek_error := by
    intro s p e s' _ h
    simp only [blocks] at h
    split at h
    · cases h
    · cases h; rfl
  tell_error := by intro s e s' _ h; cases h
  read_inv := fun _ _ _ => trivial
  seek_inv := fun _ _ _ => trivial
  tell_inv := fun _ _ => trivial

theorem blocks_reliable (k : Nat) (data : Bytes) (top : Nat) (may : ErrKind → Prop) :
    (blocks k data top).Reliable data top (fun p => p) (fun _ => True) may where
  read := by intro s n e s' _ h; cases h
  seek := by
    intro s p e s' _ h
    simp only [blocks] at h
    split at h
    · cases h
    · rename_i h'; cases h; exact ⟨rfl, h'⟩
  tell := by intro s e s' _ h; cases h

/-- Blocks of 64 KiB: the first read is not cut, later ones may be. -/
example (cfg : Cfg) (ft : Features) (data : Bytes) (hl : IsSlice data)
    (hf : ∀ f ∈ [Feature.pdf, .sqlite3, .xml], f.enabled ft = true → ¬ Recognised data f.base) :
    (fromDevice (blocks 65536 data (2 ^ 64 - 1)) cfg ft 0).1 = fromBytes cfg ft data :=
  C82_as_from_bytes (blocks_lawful _ _ _) (blocks_serves _ (by decide) _ _) (blocks_reliable _ _ _ _) cfg ft 0 trivial hl
    (by decide) (by show Except.ok (slice data 0 (min 36870 (65536 - 0 % 65536))) = _; rfl) hf
/-- Blocks of four bytes: a format is returned, though the first read delivers four bytes only. -/
example (ft : Features) (data : Bytes) (hl : IsSlice data) :
    Returns (fromDevice (blocks 4 data (2 ^ 63 - 1)) Cfg.release ft 0).1 := by
  have hl' : data.length < 2 ^ 63 := hl
  exact C82_total (blocks_lawful _ _ _) (blocks_serves _ (by decide) _ _) ft 0 trivial hl (by omega) (by decide)
/-- A program in blocks of four bytes, a PNG file in blocks of four bytes: the latter has a longer magic number. -/
example : (fromDevice (blocks 4 (b!"\x7fELF\x02\x01\x01") 100) Cfg.release Features.all 0).1 = .ok ExecutableAndLinkableFormat ∧
    (fromDevice (blocks 4 (b!"\x89PNG\r\n\x1a\n\x00\x00") 100) Cfg.release Features.all 0).1 = .ok ArbitraryBinaryData ∧
    (fromDevice (blocks 8 (b!"\x89PNG\r\n\x1a\n\x00\x00") 100) Cfg.release Features.all 0).1 = .ok PortableNetworkGraphics := by
  decide +kernel
/-- An ID3v2 tag before FLAC data, in blocks of seven bytes: the tag is recognised, the blocks behind are put together. -/
example : (fromDevice (blocks 7 (b!"ID3\x04\x00\x00\x00\x00\x00\x00fLaC\x00\x00\x00\x00\x00\x00\x00") 100)
    Cfg.release Features.all 0).1 = .ok FreeLosslessAudioCodec := by decide +kernel
/-- Served in full: blocks that are larger than the content. -/
theorem blocks_full (k : Nat) (data : Bytes) (top : Nat) (hk : data.length ≤ k) (hk0 : 0 < k) :
    (blocks k data top).Full data (fun p => p) (fun _ => True) := by
  intro s n bs s' _ h
  cases h
  show slice data s (min n (k - s % k)) = slice data s n
  by_cases hs : s < k
  · rw [Nat.mod_eq_of_lt hs]
    unfold slice
    by_cases hn : n ≤ k - s
    · rw [Nat.min_eq_left hn]
    · rw [List.take_of_length_le (by rw [List.length_drop]; omega), List.take_of_length_le (by rw [List.length_drop]; omega)]
  · unfold slice
    rw [List.drop_of_length_le (by omega), List.take_nil, List.take_nil]
example (cfg : Cfg) (ft : Features) (data : Bytes) (hl : IsSlice data) :
    (fromDevice (blocks (2 ^ 63) data (2 ^ 64 - 1)) cfg ft 0).1 = fromBytes cfg ft data := by
  have hl' : data.length < 2 ^ 63 := hl
  exact C82_full (blocks_lawful _ _ _) (blocks_serves _ (by decide) _ _) (blocks_reliable _ _ _ _)
    (blocks_full _ _ _ (by omega) (by decide)) cfg ft 0 trivial hl rfl

end FF.Props
