import Verif.Proofs.Override
import Verif.Props.Serve
import Verif.Props.Damaged
import Verif.Props.Device
import Verif.Proofs.Buffered
/-!
# C91: implementations of `Read + Seek` with a `read_exact` of their own
-/

namespace FF.Props
open FF FileFormat Spec

variable {σ : Type} {D : Device σ} {data : Bytes} {top : Nat} {position : σ → Nat} {I : σ → Prop}
  {own : σ → Nat → Except ErrKind Bytes × σ}

/-- C91. What an implementation with its own `read_exact` gets is what a stream with the same content at the same position
gets on which some calls are cut short and some fail. If none of its calls fail but for a `read_exact` behind which the
content ends, none of the stream's do; if its reads are served in full, so are the stream's. -/
theorem C91_schedule (hL : D.Lawful) (hS : D.Serves data top position I) (hX : Device.ServesExact own data position I)
    (cfg : Cfg) (ft : Features) (st : σ) (hI : I st) :
    ∃ s : Src, s.data = data ∧ s.pos = position st ∧ s.maxPos = top ∧
      (fromReader cfg ft s).1 = (fromOwn D own cfg ft st).1 ∧ I (fromOwn D own cfg ft st).2 ∧
      (s.read 36870).1 = (D.read st 36870).1 ∧
      ∀ may, D.Reliable data top position I may → Device.ReliableExact own data position I →
        (∀ e, Ev.error e ∈ s.revs → may e) ∧ (∀ e ∈ s.sevs, e = none) ∧
        (D.Full data position I → ∀ k, Ev.short k ∉ s.revs) := by
  let X : ServedO σ := {
    D := D, data := data, top := top, position := position, I := I,
    safe := (∃ may, D.Reliable data top position I may) ∧ Device.ReliableExact own data position I,
    may := (fun e => ∀ may, D.Reliable data top position I may → may e),
    full := D.Full data position I,
    lawful := hL, serves := hS,
    reliable := (fun ⟨⟨m, hm⟩, _⟩ => ⟨fun s n e s' hi h may hr => hr.read s n e s' hi h, hm.seek, hm.tell⟩),
    complete := id,
    own := own, exact := hX, certain := fun h => h.2 }
  obtain ⟨lr, ls, h1, hc, hi, h2⟩ := own_detect X cfg ft st hI
  refine ⟨X.src st lr ls [], rfl, rfl, rfl, h2, hi, h1, ?_⟩
  intro may hr hx
  obtain ⟨c1, c2⟩ := hc ⟨⟨may, hr⟩, hx⟩
  refine ⟨fun e he => (c1 _ he : ∀ m, D.Reliable data top position I m → m e) may hr, c2, fun hf k hk => ?_⟩
  exact (c1 _ hk : ¬ D.Full data position I) hf

/-- C91. Detection returns: a format, or the error of the first read. -/
theorem C91_total (hL : D.Lawful) (hS : D.Serves data top position I) (hX : Device.ServesExact own data position I)
    (ft : Features) (st : σ) (hI : I st) (hl : IsSlice data) (hd : data.length ≤ top) (hp : position st ≤ top) :
    Returns (fromOwn D own Cfg.release ft st).1 := by
  obtain ⟨s, h1, h2, h3, h4, _⟩ := C91_schedule hL hS hX Cfg.release ft st hI
  rw [← h4]
  exact C01_from_reader_total ft s ⟨by rw [h1, h3]; exact hd, by rw [h2, h3]; exact hp⟩ (by rw [h1]; exact hl)

/-- C91. If no call fails, the verdict is the specified one, on the content, for what the first read delivers. -/
theorem C91_verdict (hL : D.Lawful) (hS : D.Serves data top position I) (hX : Device.ServesExact own data position I)
    (hR : D.Reliable data top position I (fun _ => False)) (hC : Device.ReliableExact own data position I) (ft : Features)
    (st : σ) (hI : I st) (hl : IsSlice data) (hd : data.length ≤ top) (hp : position st ≤ top) :
    ∃ w r, (D.read st 36870).1 = .ok w ∧
      ∀ f, (fromOwn D own Cfg.release ft st).1 = .ok f ↔ VerdictOn ft w data top r f := by
  obtain ⟨s, h1, h2, h3, h4, _, h5, h6⟩ := C91_schedule hL hS hX Cfg.release ft st hI
  obtain ⟨h6, h7, _⟩ := h6 _ hR hC
  have hq : s.NoFail := ⟨h6, h7⟩
  refine ⟨firstWindow s, laterReads s, ?_, fun f => ?_⟩
  · rw [← h5]; exact (first_window s hq).1
  · rw [← h4, C73_from_reader ft s ⟨by rw [h1, h3]; exact hd, by rw [h2, h3]; exact hp⟩ (by rw [h1]; exact hl) hq f, h1, h3]

/-- C91. Reads may be cut short and interrupted: if the first one delivers the beginning of the content, the verdict is the
one of `from_bytes`, unless a reader takes part that calls `read` only once per buffer. -/
theorem C91_as_from_bytes (hL : D.Lawful) (hS : D.Serves data (2 ^ 64 - 1) position I)
    (hX : Device.ServesExact own data position I)
    (hR : D.Reliable data (2 ^ 64 - 1) position I (fun e => e = .interrupted))
    (hC : Device.ReliableExact own data position I) (cfg : Cfg) (ft : Features) (st : σ) (hI : I st)
    (hl : IsSlice data) (hp : position st < 2 ^ 64) (hw : (D.read st 36870).1 = .ok (data.take 36870))
    (hf : ∀ f ∈ [Feature.pdf, .sqlite3, .xml], f.enabled ft = true → ¬ Recognised data f.base) :
    (fromOwn D own cfg ft st).1 = fromBytes cfg ft data := by
  have hl' : data.length < 2 ^ 63 := hl
  obtain ⟨s, h1, h2, h3, h4, _, h5, h6⟩ := C91_schedule hL hS hX cfg ft st hI
  obtain ⟨h6, h7, _⟩ := h6 _ hR hC
  rw [← h4, ← h1]
  refine C11_as_from_bytes cfg ft s ⟨by rw [h1, h3]; omega, by rw [h2, h3]; omega⟩ (by rw [h1]; exact hl) h3 ⟨h6, h7⟩
    (by rw [h5, h1]; exact hw) (by rw [h1]; exact hf)

/-- C91. If reads are served in full and nothing fails, an implementation at its start gets the verdict of `from_bytes`. -/
theorem C91_full (hL : D.Lawful) (hS : D.Serves data (2 ^ 64 - 1) position I) (hX : Device.ServesExact own data position I)
    (hR : D.Reliable data (2 ^ 64 - 1) position I (fun _ => False)) (hC : Device.ReliableExact own data position I)
    (hF : D.Full data position I) (cfg : Cfg) (ft : Features) (st : σ) (hI : I st) (hl : IsSlice data) (hp : position st = 0) :
    (fromOwn D own cfg ft st).1 = fromBytes cfg ft data := by
  obtain ⟨s, h1, h2, h3, h4, _, _, h6⟩ := C91_schedule hL hS hX cfg ft st hI
  obtain ⟨h6, h7, h8⟩ := h6 _ hR hC
  rw [← h4]
  exact (C13_entry_points_agree cfg ft data hl s ⟨h1, h2.trans hp, h3, calm_of_full s h6 h7 (h8 hF)⟩
    (fun _ : Unit => .ok s) () rfl).2.1

/-- C91. If reads are served in full and nothing fails, bringing a `read_exact` makes no difference, at any position. -/
theorem C91_no_difference (hL : D.Lawful) (hS : D.Serves data top position I) (hX : Device.ServesExact own data position I)
    (hR : D.Reliable data top position I (fun _ => False)) (hC : Device.ReliableExact own data position I)
    (hF : D.Full data position I) (cfg : Cfg) (ft : Features) (st : σ) (hI : I st)
    (hd : data.length ≤ top) (ht : position st ≤ top) :
    (fromOwn D own cfg ft st).1 = (fromDevice D cfg ft st).1 := by
  obtain ⟨s, h1, h2, h3, h4, _, _, h6⟩ := C91_schedule hL hS hX cfg ft st hI
  obtain ⟨s', k1, k2, k3, k4, _, _, _, k6⟩ := C82_schedule hL hS cfg ft st hI
  obtain ⟨h6, h7, h8⟩ := h6 _ hR hC
  obtain ⟨k6, k7, k8⟩ := k6 _ hR
  rw [← h4, ← k4]
  exact C51_no_history cfg ft s s' ⟨by rw [h1, h3]; exact hd, by rw [h2, h3]; exact ht⟩
    ⟨by rw [k1, k3]; exact hd, by rw [k2, k3]; exact ht⟩ (calm_of_full s h6 h7 (h8 hF)) (calm_of_full s' k6 k7 (k8 hF))
    (h1.trans k1.symm) (by rw [h2, k2]) (h3.trans k3.symm)

/-- C91. Whatever calls fail: the result is the error of the first read; or there is a verdict, and it is the specified one on
the content for what the first read delivers, arbitrary data, or plain text (only if the content is text). -/
theorem C91_failures (hL : D.Lawful) (hS : D.Serves data top position I) (hX : Device.ServesExact own data position I)
    (ft : Features) (st : σ) (hI : I st) (hl : IsSlice data) (hd : data.length ≤ top) (hp : position st ≤ top) :
    (∃ e, (D.read st 36870).1 = .error e ∧ (fromOwn D own Cfg.release ft st).1 = .error (.err e)) ∨
    ∃ w r f, (D.read st 36870).1 = .ok w ∧ (fromOwn D own Cfg.release ft st).1 = .ok f ∧
      (VerdictOn ft w data top r f ∨ f = ArbitraryBinaryData ∨
        (f = PlainText ∧ ft.txt = true ∧ IsText (firstLines 16 (data.take 65536)))) := by
  obtain ⟨s, h1, h2, h3, h4, _, h5, _⟩ := C91_schedule hL hS hX Cfg.release ft st hI
  have hwf : s.WF := ⟨by rw [h1, h3]; exact hd, by rw [h2, h3]; exact hp⟩
  have hwf' : s.mended.WF := ⟨hwf.len, hwf.pos⟩
  have hl' : IsSlice s.data := by rw [h1]; exact hl
  rw [← h4, ← h5, ← h1, ← h3]
  cases hr : (s.read 36870).1 with
  | error e => exact Or.inl ⟨e, rfl, (C10_error_iff Cfg.release ft s e).mpr hr⟩
  | ok w =>
    right
    obtain ⟨g, hg, hv, _⟩ := C73_exactly_one ft s.mended hwf' hl' (mended_noFail s)
    rw [C75_window s w hr] at hv
    refine ⟨w, laterReads s.mended, ?_⟩
    rcases C75_failures Cfg.release ft s hwf hl' with ⟨e, h, _⟩ | h | h | ⟨h, ht, hx⟩
    · rw [hr] at h; cases h
    · exact ⟨g, rfl, h.trans hg, Or.inl hv⟩
    · exact ⟨_, rfl, h, Or.inr (Or.inl rfl)⟩
    · exact ⟨_, rfl, h, Or.inr (Or.inr ⟨rfl, ht, hx⟩)⟩

/-- C91. Whatever calls fail, a build with overflow checks panics only if the content makes its arithmetic overflow. -/
theorem C91_overflows (hL : D.Lawful) (hS : D.Serves data top position I) (hX : Device.ServesExact own data position I)
    (ft : Features) (st : σ) (hI : I st) (hl : IsSlice data) (hd : data.length ≤ top) (hp : position st ≤ top)
    (h : (fromOwn D own Cfg.debug ft st).1 = .error .panic) :
    ∃ w, (D.read st 36870).1 = .ok w ∧ OverflowOn ft w data top := by
  obtain ⟨s, h1, h2, h3, h4, _, h5, _⟩ := C91_schedule hL hS hX Cfg.debug ft st hI
  have hwf : s.WF := ⟨by rw [h1, h3]; exact hd, by rw [h2, h3]; exact hp⟩
  rw [← h5, ← h1, ← h3]
  exact C74_only_overflows ft s hwf (by rw [h1]; exact hl) (by rw [h4]; exact h)

/-! ## Whatever `read_exact` does

From here on `own` may put any bytes into the buffer (its length is given), fail, or move to anywhere. -/

/-- C91. Detection fails exactly when the first read fails, and with its error. -/
theorem C91_error_iff (hL : D.Lawful) (hW : ∀ s n bs s', own s n = (.ok bs, s') → bs.length = n) (cfg : Cfg) (ft : Features)
    (st : σ) (e : ErrKind) : (fromOwn D own cfg ft st).1 = .error (.err e) ↔ (D.read st 36870).1 = .error e := by
  have hb : bufferSize = 36870 := rfl
  cases hx : D.read st 36870 with
  | mk r st' =>
    cases r with
    | error e' =>
      simp only [fromOwn, hb, hx]
      constructor
      · intro h; cases h; rfl
      · intro h; cases h; rfl
    | ok buf =>
      refine ⟨fun h => ?_, fun h => by cases h⟩
      exfalso
      have hg : ∀ s : σ, (fromGenericReaderO D own ft s).1 ≠ .error (.err e) := by
        intro s h
        rw [fromGenericReaderO_eq hL] at h
        rcases fromGenericReaderD_spec hL ft s with h1 | ⟨_, h1⟩
        · rw [h1] at h; cases h
        · rw [h1] at h; cases h
      simp only [fromOwn, hb, hx] at h
      split at h
      · cases h
      · cases hs : fromSignature buf with
        | none => rw [hs] at h; exact hg _ h
        | some fmt =>
          rw [hs] at h
          simp only at h
          generalize fromFmtReaderO D own cfg ft fmt st' = x at h
          obtain ⟨r, s''⟩ := x
          rcases r with (_ | _ | _) | f
          · exact hg _ h
          · cases h
          · cases h
          · cases h

theorem own_outcome (hL : D.Lawful) (hW : ∀ s n bs s', own s n = (.ok bs, s') → bs.length = n) (cfg : Cfg) (ft : Features)
    (st : σ) {buf : Bytes} {st' : σ} (hr : D.read st 36870 = (.ok buf, st')) (hP : D.Positioned position) :
    (∃ f, (fromOwn D own cfg ft st).1 = .ok f ∧ Documented ft buf f) ∨
    (∃ g ∈ Feature.structured, g.enabled ft = true ∧ Recognised buf g.base ∧
      ∃ f, (fromOwn D own cfg ft st).1 = .error f ∧ ¬ IsErr f ∧ Failure cfg g f) := by
  have hlen : buf.length < 2 ^ 64 := by
    have := hL.read_le _ _ _ _ hr
    omega
  rcases fromOwn_outcome hL hW cfg ft st (buf := buf) (st' := st') hr (.inl ⟨_, hP⟩) with
    ⟨f, h1, h2⟩ | ⟨g, hg, he, hs, f, h1, h2, h3⟩
  · refine Or.inl ⟨f, h1, ?_⟩
    rcases h2 with ⟨h, hf⟩ | h | ⟨g, hg, he, hs, hfam⟩ | ⟨ht, hf⟩ | hf
    · exact .empty h hf
    · exact .signature (recognised_of_signature hlen h)
    · rcases List.mem_cons.mp hfam with rfl | hfam
      · exact .signature (recognised_of_signature hlen hs)
      · exact .family g hg he (recognised_of_signature hlen hs) hfam
    · exact .text ht hf
    · exact .default hf
  · exact Or.inr ⟨g, hg, he, recognised_of_signature hlen hs, f, h1, h2, h3⟩

/-- C91. A verdict is a format documented for the bytes of the first read and the enabled features. -/
theorem C91_documented (hL : D.Lawful) (hW : ∀ s n bs s', own s n = (.ok bs, s') → bs.length = n) (hP : D.Positioned position)
    (cfg : Cfg) (ft : Features) (st : σ) (f : FileFormat) (h : (fromOwn D own cfg ft st).1 = .ok f) :
    ∃ buf, (D.read st 36870).1 = .ok buf ∧ Documented ft buf f := by
  cases hx : D.read st 36870 with
  | mk r st' =>
    cases r with
    | error e => rw [(C91_error_iff hL hW cfg ft st e).mpr (by rw [hx])] at h; cases h
    | ok buf =>
      refine ⟨buf, rfl, ?_⟩
      rcases own_outcome hL hW cfg ft st hx hP with ⟨f', h1, h2⟩ | ⟨g, _, _, _, f', h1, _, _⟩
      · rw [h1] at h; cases h; exact h2
      · rw [h1] at h; cases h

/-- C91. A release build does not panic. -/
theorem C91_no_panic (hL : D.Lawful) (hW : ∀ s n bs s', own s n = (.ok bs, s') → bs.length = n) (hP : D.Positioned position)
    (ft : Features) (st : σ) : (fromOwn D own Cfg.release ft st).1 ≠ .error .panic := by
  intro h
  cases hx : D.read st 36870 with
  | mk r st' =>
    cases r with
    | error e => rw [(C91_error_iff hL hW Cfg.release ft st e).mpr (by rw [hx])] at h; cases h
    | ok buf =>
      rcases own_outcome hL hW Cfg.release ft st hx hP with ⟨f', h1, h2⟩ | ⟨g, hg, he, hr, f', h1, h2, h3⟩
      · rw [h1] at h; cases h
      · rw [h1] at h
        cases h
        rcases h3 with ⟨e, h3⟩ | ⟨h3, _⟩ | ⟨_, h3⟩
        · cases h3
        · cases h3
        · cases h3

/-- C91. It returns, unless the first read shows an ID3v2 tag and the feature for it is enabled. -/
theorem C91_returns_unless_id3v2 (hL : D.Lawful) (hW : ∀ s n bs s', own s n = (.ok bs, s') → bs.length = n)
    (hP : D.Positioned position) (ft : Features) (st : σ)
    (hid : ft.id3v2 = true → ∀ buf, (D.read st 36870).1 = .ok buf → ¬ Recognised buf Id3v2) :
    Returns (fromOwn D own Cfg.release ft st).1 := by
  cases hx : D.read st 36870 with
  | mk r st' =>
    cases r with
    | error e => exact Or.inr ⟨e, (C91_error_iff hL hW Cfg.release ft st e).mpr (by rw [hx])⟩
    | ok buf =>
      rcases own_outcome hL hW Cfg.release ft st hx hP with ⟨f', h1, h2⟩ | ⟨g, hg, he, hr, f', h1, h2, h3⟩
      · exact Or.inl ⟨f', h1⟩
      · exfalso
        rcases h3 with h3 | ⟨h3, _⟩ | ⟨rfl, _⟩
        · exact h2 h3
        · cases h3
        · exact hid he buf (by rw [hx]) hr

/-! ## The `read_exact` of `BufReader` -/

/-- C91. If a `read_exact` does what the default body does, on whatever device, nothing changes: not the result, and not
what becomes of the device. -/
theorem C91_default (hL : D.Lawful)
    (h : ∀ st n, (⟨st, false, []⟩ : DRd σ).readExactO D own n = (⟨st, false, []⟩ : DRd σ).readExact D n)
    (cfg : Cfg) (ft : Features) (st : σ) : fromOwn D own cfg ft st = fromDevice D cfg ft st :=
  fromOwn_same hL h cfg ft st

/-- C91. So for a `BufReader` as the argument of `from_reader`, around any device, its own `read_exact` makes no difference
(C83 is about what difference the `BufReader` makes). -/
theorem C91_buf_reader (hL : D.Lawful) (cap : Nat) (cfg : Cfg) (ft : Features) (s : σ × Bytes) :
    fromOwn (bufReader cap D) (bufReadExact cap D) cfg ft s = fromDevice (bufReader cap D) cfg ft s := by
  refine fromOwn_same (bufReader_lawful cap hL) (fun s n => ?_) cfg ft s
  obtain ⟨st, buf⟩ := s
  have hd : (⟨(st, buf), false, []⟩ : DRd (σ × Bytes)).readExact (bufReader cap D) n =
      DRd.readExactLoop (bufReader cap D) (n + D.patience st + 1) ⟨(st, buf), false, []⟩ n [] := by
    unfold DRd.readExact
    rw [if_neg (by rintro ⟨h, _⟩; cases h)]
    rfl
  rw [hd]
  simp only [DRd.readExactO, bufReadExact]
  by_cases hn : n ≤ buf.length
  · rw [if_pos hn]
    cases n with
    | zero =>
      rw [DRd.readExactLoop]
      rfl
    | succ m =>
      have hne : buf ≠ [] := by
        rintro rfl
        exact absurd hn (Nat.not_succ_le_zero m)
      have hr : (⟨(st, buf), false, []⟩ : DRd (σ × Bytes)).read (bufReader cap D) (m + 1) =
          (.ok (buf.take (m + 1)), ⟨(st, buf.drop (m + 1)), false, []⟩) := by
        unfold DRd.read
        rw [if_pos rfl]
        simp only [bufReader]
        rw [if_neg hne]
      have hl : (buf.take (m + 1)).length = m + 1 := by
        rw [List.length_take]
        omega
      rw [DRd.readExactLoop, hr]
      have h0 : ¬ (buf.take (m + 1)).length = 0 := by
        rw [hl]
        omega
      simp only
      rw [if_neg (by decide), if_neg h0, hl, Nat.sub_self, DRd.readExactLoop]
      rfl
  · rw [if_neg hn]
    cases hx : DRd.readExactLoop (bufReader cap D) (n + D.patience st + 1) ⟨(st, buf), false, []⟩ n [] with
    | mk r s1 =>
      rw [hx] at hd
      obtain ⟨hN, hr⟩ := DRd.readExact_spec (position := fun _ => 0) (bufReader_lawful cap hL) _ (DRd.inv_nil _ false) n hd
      have hs1 : s1 = ⟨s1.st, false, []⟩ := by
        have h1 : s1.buffered = false := hN.buffered
        have h2 := hN.inv.unbuf h1
        obtain ⟨a, b, c⟩ := s1
        cases h1
        cases h2
        rfl
      rcases hr with ⟨bs, rfl, hl⟩ | ⟨e, rfl⟩
      · simp only
        rw [if_neg (by decide)]
        rw [hs1]
      · simp only
        rw [if_neg (by decide)]
        rw [hs1]

/-! ## Not vacuous: blocks with the `read_exact` of a cursor -/

theorem cursor_serves (data : Bytes) : Device.ServesExact (cursorExact data) data (fun p => p) (fun _ => True) where
  ok := by
    intro s n bs s' _ h
    unfold cursorExact at h
    split at h
    · rename_i hc
      cases h
      refine ⟨?_, rfl, rfl⟩
      rw [length_slice]
      omega
    · cases h
  error := by
    intro s n e s' _ h
    unfold cursorExact at h
    split at h
    · cases h
    · rename_i hc; exact fun h0 => hc (.inr h0)
  inv := fun _ _ _ => trivial

theorem cursor_reliable (data : Bytes) : Device.ReliableExact (cursorExact data) data (fun p => p) (fun _ => True) := by
  intro s n e s' _ h
  unfold cursorExact at h
  split at h
  · cases h
  · rename_i hc
    cases h
    exact ⟨rfl, Nat.lt_of_not_le fun h => hc (.inl h)⟩

theorem cursorDevice_lawful (data : Bytes) : (cursorDevice data).Lawful where
  read_le := by
    intro s n bs s' h
    cases h
    rw [length_slice]
    omega
  read_patience := fun _ _ _ _ _ => Nat.le_refl _
  interrupted := by intro s n s' h; cases h
  seek_patience := fun _ _ _ _ _ => Nat.le_refl _
  tell_patience := fun _ _ _ _ => Nat.le_refl _

theorem cursorDevice_serves (data : Bytes) : (cursorDevice data).Serves data (2 ^ 64 - 1) (fun p => p) (fun _ => True) where
  read_ok := by
    intro s n bs s' _ h
    cases h
    refine ⟨by rw [length_slice]; omega, slice_length_self _ _ _, fun h => ?_, rfl⟩
    have := congrArg List.length h
    rw [length_slice, List.length_nil] at this
    omega
  seek_ok := by
    intro s p q s' _ h
    simp only [cursorDevice] at h
    split at h
    · rename_i h'; cases h; exact ⟨h', rfl⟩
    · cases h
  tell_ok := by intro s q s' _ h; cases h; exact ⟨rfl, rfl⟩
  read_error := by intro s n e s' _ h; cases h
  seek_error := by
    intro s p e s' _ h
    simp only [cursorDevice] at h
    split at h
    · cases h
    · cases h; rfl
  tell_error := by intro s e s' _ h; cases h
  read_inv := fun _ _ _ => trivial
  seek_inv := fun _ _ _ => trivial
  tell_inv := fun _ _ => trivial

theorem cursorDevice_reliable (data : Bytes) (may : ErrKind → Prop) :
    (cursorDevice data).Reliable data (2 ^ 64 - 1) (fun p => p) (fun _ => True) may where
  read := by intro s n e s' _ h; cases h
  seek := by
    intro s p e s' _ h
    simp only [cursorDevice] at h
    split at h
    · cases h
    · rename_i h'; cases h; exact ⟨rfl, h'⟩
  tell := by intro s e s' _ h; cases h

/-- C91. A `Cursor` on the bytes, with the `read_exact` that std gives it (`from_bytes` makes one, `src/lib.rs` 328). -/
theorem C91_cursor (cfg : Cfg) (ft : Features) (data : Bytes) (hl : IsSlice data) :
    (fromOwn (cursorDevice data) (cursorExact data) cfg ft 0).1 = fromBytes cfg ft data :=
  C91_full (cursorDevice_lawful _) (cursorDevice_serves _) (cursor_serves _) (cursorDevice_reliable _ _)
    (cursor_reliable _) (fun _ _ _ _ _ h => by cases h; rfl) cfg ft 0 trivial hl rfl

example (cfg : Cfg) (ft : Features) (data : Bytes) (hl : IsSlice data) :
    (fromOwn (blocks (2 ^ 63) data (2 ^ 64 - 1)) (cursorExact data) cfg ft 0).1 = fromBytes cfg ft data := by
  have hl' : data.length < 2 ^ 63 := hl
  exact C91_full (blocks_lawful _ _ _) (blocks_serves _ (by decide) _ _) (cursor_serves _) (blocks_reliable _ _ _ _)
    (cursor_reliable _) (blocks_full _ _ _ (by omega) (by decide)) cfg ft 0 trivial hl rfl
example (ft : Features) (data : Bytes) (hl : IsSlice data) :
    Returns (fromOwn (blocks 4 data (2 ^ 63 - 1)) (cursorExact data) Cfg.release ft 0).1 := by
  have hl' : data.length < 2 ^ 63 := hl
  exact C91_total (blocks_lawful _ _ _) (blocks_serves _ (by decide) _ _) (cursor_serves _) ft 0 trivial hl (by omega) (by decide)
/-- An ID3v2 tag (no `BufReader`, `read_exact` in use) before FLAC data, in blocks of seven bytes. -/
example : (fromOwn (blocks 7 (b!"ID3\x04\x00\x00\x00\x00\x00\x00fLaC\x00\x00\x00\x00\x00\x00\x00") 100)
    (cursorExact (b!"ID3\x04\x00\x00\x00\x00\x00\x00fLaC\x00\x00\x00\x00\x00\x00\x00"))
    Cfg.release Features.all 0).1 = .ok FreeLosslessAudioCodec := by decide +kernel
/-- The same in a `BufReader` of five bytes. -/
example : (fromOwn (bufReader 5 (blocks 7 (b!"ID3\x04\x00\x00\x00\x00\x00\x00fLaC\x00\x00\x00\x00\x00\x00\x00") 100))
    (bufReadExact 5 (blocks 7 (b!"ID3\x04\x00\x00\x00\x00\x00\x00fLaC\x00\x00\x00\x00\x00\x00\x00") 100))
    Cfg.release Features.all (0, [])).1 = .ok FreeLosslessAudioCodec := by decide +kernel
/-- A `read_exact` that breaks its contract can change the verdict: one that fills the buffer with nulls does not find the
header of a program behind the DOS stub. -/
example : (fromOwn (blocks 100 (b!"MZ" ++ List.replicate 58 0 ++ [64, 0, 0, 0] ++ b!"PE\x00\x00" ++ List.replicate 20 0) 100)
      (cursorExact (b!"MZ" ++ List.replicate 58 0 ++ [64, 0, 0, 0] ++ b!"PE\x00\x00" ++ List.replicate 20 0))
      Cfg.release Features.all 0).1 = .ok PortableExecutable ∧
    (fromOwn (blocks 100 (b!"MZ" ++ List.replicate 58 0 ++ [64, 0, 0, 0] ++ b!"PE\x00\x00" ++ List.replicate 20 0) 100)
      (fun p n => (.ok (List.replicate n 0), p + n)) Cfg.release Features.all 0).1 = .ok MsDosExecutable := by
  decide +kernel

end FF.Props
