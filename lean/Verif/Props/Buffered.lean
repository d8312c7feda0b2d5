import Verif.Proofs.Buffered2
import Verif.Props.Serve
import Verif.Props.Second
import Verif.Props.Device
/-!
# C83: `from_reader` on a `BufReader`
-/

namespace FF.Props
open FF FileFormat Spec

variable {σ : Type} {D : Device σ} {data : Bytes} {top : Nat} {position : σ → Nat} {I J : σ → Prop} {cap : Nat}

theorem verdictOn_mono {ft : Features} {w b : Bytes} {top : Nat} {r r' : Reads}
    (h : ∀ g : Feature, g.enabled ft = true → SignatureSays w g.base → ∀ f, ReaderSays b top r g f ↔ ReaderSays b top r' g f)
    {f : FileFormat} (hv : VerdictOn ft w b top r f) : VerdictOn ft w b top r' f := by
  cases hv with
  | signature hs hn => exact .signature hs hn
  | reader he hs h' => exact .reader he hs ((h _ he hs _).mp h')
  | text he hs hn ht h' => exact .text he hs (fun x hx => hn x ((h _ he hs x).mpr hx)) ht h'
  | default he hs hn ht => exact .default he hs (fun x hx => hn x ((h _ he hs x).mpr hx)) ht

theorem reach_ge (limit n : Nat) (hn : 0 < n) (es : List Ev) (total : Nat) : limit ≤ reach limit n es total := by
  induction es generalizing total with
  | nil =>
    unfold reach
    split
    · have h := Nat.div_add_mod (limit - total + n - 1) n
      have h2 := Nat.mod_lt (limit - total + n - 1) hn
      generalize n * ((limit - total + n - 1) / n) = x at h ⊢
      omega
    · omega
  | cons e es ih =>
    unfold reach
    split
    · exact ih _
    · omega

theorem pdfContent_long {b : Bytes} {top n m : Nat} (hn : b.length ≤ 5 + n) (hm : b.length ≤ 5 + m) {f : FileFormat}
    (h : PdfContent b top n f) : PdfContent b top m f := by
  have key : OccursWithin b!"AIPrivateData" 5 (5 + n) b ↔ OccursWithin b!"AIPrivateData" 5 (5 + m) b := by
    constructor
    · rintro ⟨pre, suf, e, h1, h2⟩
      have := congrArg List.length e
      simp only [List.length_append] at this
      exact ⟨pre, suf, e, h1, by omega⟩
    · rintro ⟨pre, suf, e, h1, h2⟩
      have := congrArg List.length e
      simp only [List.length_append] at this
      exact ⟨pre, suf, e, h1, by omega⟩
  cases h with
  | artwork h => exact .artwork (key.mp h)
  | document ht h => exact .document ht (fun h' => h (key.mpr h'))

theorem bare_total (b : Bytes) (top : Nat) (ht : 100 ≤ top) (g : Feature) (hg : g = .pdf ∨ g = .sqlite3 ∨ g = .xml) :
    ∃ f, ReaderSays b top Reads.full g f := by
  rcases hg with rfl | rfl | rfl
  · by_cases h : OccursWithin b!"AIPrivateData" 5 (5 + 33554432) b
    · exact ⟨_, .artwork h⟩
    · exact ⟨_, .document (by omega) h⟩
  · by_cases h : OccursWithin b!"com.bohemiancoding.sketch3" 100 (100 + 32768) b
    · exact ⟨_, .sketch h⟩
    · exact ⟨_, .database ht h⟩
  · obtain ⟨f, hf⟩ := xmlVerdict_total (b.take (5 + 8192))
    exact ⟨f, by omega, hf⟩

theorem signature_of_says {w : Bytes} {g : Feature} (h : SignatureSays w g.base) (hg : g = .pdf ∨ g = .sqlite3 ∨ g = .xml) :
    w ≠ [] ∧ fromSignature w = some g.base := by
  have hb : g.base ≠ FileFormat.Empty ∧ g.base ≠ ArbitraryBinaryData := by
    rcases hg with rfl | rfl | rfl <;> decide
  by_cases hw : w = []
  · subst hw
    exact absurd ((signatureSays_empty _).mp h) hb.1
  · refine ⟨hw, ?_⟩
    cases hs : fromSignature w with
    | none => exact absurd ((signatureSays_none hw hs _).mp h) hb.2
    | some f => rw [(signatureSays_some hs _).mp h]

theorem fmtReader_bare (cfg : Cfg) (ft : Features) {g : Feature} (hg : g = .pdf ∨ g = .sqlite3 ∨ g = .xml)
    (he : g.enabled ft = true) : fmtReader cfg ft g.base = some (false, (readerOf cfg g).2) := by
  rcases hg with rfl | rfl | rfl <;> exact if_pos he

/-- The verdict on a device that serves the calls of the readers that do not insist in full. -/
theorem big_verdict (hL : D.Lawful) (hB : ServedBig D data top position I J cap) (ft : Features) (st : σ) (hI : I st)
    (hl : IsSlice data) (hd : data.length ≤ top) (ht : 100 ≤ top) (hp : position st ≤ top)
    (hpdf : ft.pdf = true → cap ≤ 32768 ∨ data.length ≤ 33554432) {w : Bytes} (hw : (D.read st 36870).1 = .ok w)
    (f : FileFormat) :
    (fromDevice D Cfg.release ft st).1 = .ok f ↔ VerdictOn ft w data top Reads.full f := by
  have hl' : data.length < 2 ^ 63 := hl
  obtain ⟨s, h1, h2, h3, h4, _, _, h5, h6⟩ := C82_schedule hL hB.serves Cfg.release ft st hI
  obtain ⟨h6, h7, _⟩ := h6 _ hB.reliable
  have hq : s.NoFail := ⟨h6, h7⟩
  have hwf : s.WF := ⟨by rw [h1, h3]; exact hd, by rw [h2, h3]; exact hp⟩
  have hw' : firstWindow s = w := by
    have := (first_window s hq).1
    rw [h5, hw] at this
    injection this with this
    exact this.symm
  by_cases hbare : ∃ g : Feature, (g = .sqlite3 ∨ g = .xml ∨ (g = .pdf ∧ cap ≤ 32768)) ∧ g.enabled ft = true ∧ SignatureSays w g.base
  · obtain ⟨g, hg, he, hs⟩ := hbare
    have hg' : g = .pdf ∨ g = .sqlite3 ∨ g = .xml := by
      rcases hg with h | h | ⟨h, _⟩
      · exact Or.inr (Or.inl h)
      · exact Or.inr (Or.inr h)
      · exact Or.inl h
    have hseeks : SeeksFirst cap (readerOf Cfg.release g).2 := by
      rcases hg with rfl | rfl | ⟨rfl, h⟩
      · exact sqlite3_seeks cap
      · exact xml_seeks cap
      · exact pdf_seeks h
    have hgs : g ∈ Feature.structured := by rcases hg' with rfl | rfl | rfl <;> decide
    obtain ⟨hne, hsig⟩ := signature_of_says hs hg'
    obtain ⟨f0, hf0⟩ := bare_total data top ht g hg'
    -- the device
    have hdev : (fromDevice D Cfg.release ft st).1 = .ok f0 := by
      have hr : (execOnD D false (readerOf Cfg.release g).2 (D.read st 36870).2).1 = .ok f0 := by
        rw [execOnD_seeks hB hseeks _ (hB.serves.read_inv _ _ hI)]
        obtain ⟨q, hq⟩ := (reader_says data top hl' hd g hgs f0).mpr hf0
        rw [hq]
        rfl
      have hb : bufferSize = 36870 := rfl
      unfold fromDevice
      rw [hb]
      generalize D.read st 36870 = x at hw hr
      obtain ⟨r, st1⟩ := x
      simp only at hw hr
      subst hw
      simp only
      rw [if_neg (fun h => hne (List.eq_nil_of_length_eq_zero h))]
      simp only [hsig, fromFmtReaderD, fmtReader_bare Cfg.release ft hg' he]
      generalize execOnD D false (readerOf Cfg.release g).2 st1 = y at hr
      obtain ⟨r, st2⟩ := y
      simp only at hr
      subst hr
      rfl
    -- a stream with the same first read, all later calls of which are served in full
    obtain ⟨es, hes⟩ : ∃ es, es = s.revs.take 1 := ⟨_, rfl⟩
    let s0 : Src := { s with revs := es, sevs := [] }
    have hlen : es.length ≤ 1 := by rw [hes, List.length_take]; omega
    have hq0 : s0.NoFail := ⟨fun e he => hq.reads e (List.mem_of_mem_take (by rw [← hes]; exact he)), (fun _ h => nomatch h)⟩
    have hw0 : firstWindow s0 = w := by
      rw [← hw']
      show (s.data.drop s.pos).take ((es.head?.getD .full).size 36870) = _
      rw [hes, show (s.revs.take 1).head? = s.revs.head? from by cases s.revs <;> rfl]
      rfl
    have hr0 : laterReads s0 = Reads.full := by
      have hrv : s0.revs = es := rfl
      unfold laterReads Src.secondRead
      rw [hrv]
      match es, hlen with
      | [], _ => rfl
      | [e], _ => rfl
    obtain ⟨f1, _, hv1, hu⟩ := C73_exactly_one ft s0 ⟨hwf.1, hwf.2⟩ (by show IsSlice s.data; rw [h1]; exact hl) hq0
    rw [hw0, hr0, show s0.data = data from h1, show s0.maxPos = top from h3] at hv1 hu
    have hf01 := hu f0 (.reader he hs hf0)
    rw [hdev]
    constructor
    · intro h; injection h with h; subst h; exact .reader he hs hf0
    · intro h; rw [hu f h, hf01]
  · have h := C73_from_reader ft s hwf (by rw [h1]; exact hl) hq f
    rw [h4, hw', h1, h3] at h
    rw [h]
    have key : ∀ g : Feature, g.enabled ft = true → SignatureSays w g.base →
        ∀ f, ReaderSays data top (laterReads s) g f ↔ ReaderSays data top Reads.full g f := by
      intro g he hs f
      cases g with
      | sqlite3 => exact absurd ⟨_, Or.inl rfl, he, hs⟩ hbare
      | xml => exact absurd ⟨_, Or.inr (Or.inl rfl), he, hs⟩ hbare
      | pdf =>
        rcases hpdf he with h | h
        · exact absurd ⟨_, Or.inr (Or.inr ⟨rfl, h⟩), he, hs⟩ hbare
        · have hr : 33554432 ≤ (laterReads s).pdf := reach_ge 33554432 32768 (by decide) _ _
          exact ⟨pdfContent_long (by omega) (by show _ ≤ 5 + 33554432; omega),
            pdfContent_long (by show _ ≤ 5 + 33554432; omega) (by omega)⟩
      | _ => exact Iff.rfl
    exact ⟨verdictOn_mono key, verdictOn_mono fun g he hs f => (key g he hs f).symm⟩

/-- The verdict on an implementation that serves all reads in full. -/
theorem full_verdict (hL : D.Lawful) (hS : D.Serves data top position I)
    (hR : D.Reliable data top position I (fun _ => False)) (hF : D.Full data position I) (ft : Features) (st : σ) (hI : I st)
    (hl : IsSlice data) (hd : data.length ≤ top) (ht : 100 ≤ top) (hp : position st ≤ top) (f : FileFormat) :
    (fromDevice D Cfg.release ft st).1 = .ok f ↔ VerdictOn ft (slice data (position st) 36870) data top Reads.full f := by
  refine big_verdict hL (full_big hS hR hF) ft st hI hl hd ht hp (fun _ => Or.inl (Nat.zero_le _)) ?_ f
  cases hx : D.read st 36870 with
  | mk r st' =>
    cases r with
    | error e => exact (hR.read _ _ _ _ hI hx).elim
    | ok bs => rw [hF _ _ _ _ hI hx]

/-- C83. The verdict on a `BufReader` over an implementation that serves reads in full and does not fail: the magic numbers are
looked for in what is left in the buffer, if there is something left; the readers see the content as usual. (`hpdf`: see
`C83_fresh_partial`.) -/
theorem C83_verdict_partial (hL : D.Lawful) (hS : D.Serves data top position I)
    (hR : D.Reliable data top position I (fun _ => False)) (hF : D.Full data position I) (hc : 0 < cap) (ft : Features)
    (s : σ × Bytes) (hB : Buffered data top position I s)
    (hl : IsSlice data) (hd : data.length ≤ top) (ht : 100 ≤ top)
    (hpdf : ft.pdf = true → cap ≤ 32768 ∨ data.length ≤ 33554432) (f : FileFormat) :
    (fromDevice (bufReader cap D) Cfg.release ft s).1 = .ok f ↔
      VerdictOn ft (bufWindow data position s) data top Reads.full f := by
  have hpos : bufPosition position s ≤ top := Nat.le_trans (Nat.sub_le _ _) hB.2.1
  refine big_verdict (bufReader_lawful cap hL) (bufReader_big hS hR hF hd hc) ft s hB hl hd ht hpos hpdf ?_ f
  cases hx : (bufReader cap D).read s 36870 with
  | mk r s' =>
    obtain ⟨_, _, _, h4, _, h6, h7⟩ := bufReader_read hS hd hc s hB 36870 hx
    unfold bufWindow
    cases r with
    | error e => exact (h4 _ hR e rfl).elim
    | ok bs =>
      by_cases he : s.2 = []
      · rw [if_pos he, h7 he hF bs rfl]
        unfold bufPosition
        rw [he]
        rfl
      · rw [if_neg he]
        exact h6 he

/-- C83 as one would wish it: a `BufReader` makes no difference. -/
def C83_statement : Prop :=
  ∀ (σ : Type) (D : Device σ) (data : Bytes) (top : Nat) (position : σ → Nat) (I : σ → Prop) (cap : Nat) (ft : Features)
    (s : σ × Bytes) (st : σ), D.Lawful → D.Serves data top position I →
    D.Reliable data top position I (fun _ => False) → D.Full data position I → 0 < cap → IsSlice data → 2 ^ 63 - 1 ≤ top →
    Buffered data top position I s → I st → position st = bufPosition position s →
    (fromDevice (bufReader cap D) Cfg.release ft s).1 = (fromDevice D Cfg.release ft st).1

theorem verdict_eq {σ' : Type} {D' : Device σ'} {ft : Features} {st : σ} {st' : σ'} {w w' : Bytes} {r : Reads}
    (h : ∀ f, (fromDevice D Cfg.release ft st).1 = .ok f ↔ VerdictOn ft w data top r f)
    (h' : ∀ f, (fromDevice D' Cfg.release ft st').1 = .ok f ↔ VerdictOn ft w' data top r f)
    (hw : ∀ f, SignatureSays w f ↔ SignatureSays w' f) (hex : ∃ f, VerdictOn ft w data top r f) :
    (fromDevice D Cfg.release ft st).1 = (fromDevice D' Cfg.release ft st').1 := by
  obtain ⟨f, hf⟩ := hex
  rw [(h f).mpr hf]
  symm
  rw [h' f]
  cases hf with
  | signature hs hn => exact .signature ((hw _).mp hs) hn
  | reader he hs h => exact .reader he ((hw _).mp hs) h
  | text he hs hn ht h => exact .text he ((hw _).mp hs) hn ht h
  | default he hs hn ht => exact .default he ((hw _).mp hs) hn ht

/-- C83, the part that holds: if what is left in the buffer is recognised as the content from there on is, the `BufReader`
makes no difference.

Missing: buffers that hold too little (`C83_fails`), and documents of more than 32 MiB in a `BufReader` of more than 32 KiB if
the PDF reader is enabled, which then may see a few KiB beyond 32 MiB. -/
theorem C83_leftover_partial (hL : D.Lawful) (hS : D.Serves data top position I)
    (hR : D.Reliable data top position I (fun _ => False)) (hF : D.Full data position I) (hc : 0 < cap) (ft : Features)
    (s : σ × Bytes) (st : σ) (hB : Buffered data top position I s) (hI : I st)
    (hpos : position st = bufPosition position s) (hl : IsSlice data) (ht : 2 ^ 63 - 1 ≤ top)
    (hpdf : ft.pdf = true → cap ≤ 32768 ∨ data.length ≤ 33554432)
    (hs : s.2 ≠ [] → ∀ f, SignatureSays s.2 f ↔ SignatureSays (data.drop (position st)) f) :
    (fromDevice (bufReader cap D) Cfg.release ft s).1 = (fromDevice D Cfg.release ft st).1 := by
  have hl' : data.length < 2 ^ 63 := hl
  have hd : data.length ≤ top := by omega
  have hp : position st ≤ top := by rw [hpos]; exact Nat.le_trans (Nat.sub_le _ _) hB.2.1
  have hfull := full_verdict hL hS hR hF ft st hI hl hd (by omega) hp
  refine Eq.symm (verdict_eq hfull (C83_verdict_partial hL hS hR hF hc ft s hB hl hd (by omega) hpdf) (fun f => ?_) ?_)
  · have hsl : slice data (position st) 36870 = (data.drop (position st)).take 36870 := rfl
    unfold bufWindow
    by_cases he : s.2 = []
    · rw [if_pos he, hpos]
      unfold bufPosition
      rw [he]
      exact Iff.rfl
    · rw [if_neg he, hsl, signatureSays_take, signatureSays_take, hs he f]
  · rcases C82_total hL hS ft st hI hl hd hp with ⟨f, hf⟩ | ⟨e, he⟩
    · exact ⟨f, (hfull f).mp hf⟩
    · exfalso
      have := (C63_error_iff hL Cfg.release ft st e).mp he
      cases hx : D.read st 36870 with
      | mk r st' =>
        rw [hx] at this
        simp only at this
        subst this
        exact hR.read _ _ _ _ hI hx

/-- C83. An empty buffer: a new `BufReader`, whatever its capacity and wherever the reader inside is. -/
theorem C83_fresh_partial (hL : D.Lawful) (hS : D.Serves data top position I)
    (hR : D.Reliable data top position I (fun _ => False)) (hF : D.Full data position I) (hc : 0 < cap) (ft : Features)
    (st : σ) (hI : I st) (hp : position st ≤ top) (hl : IsSlice data) (ht : 2 ^ 63 - 1 ≤ top)
    (hpdf : ft.pdf = true → cap ≤ 32768 ∨ data.length ≤ 33554432) :
    (fromDevice (bufReader cap D) Cfg.release ft (st, [])).1 = (fromDevice D Cfg.release ft st).1 :=
  C83_leftover_partial hL hS hR hF hc ft (st, []) st ⟨hI, hp, Nat.zero_le _, by simp [slice]⟩ hI rfl hl ht hpdf
    (fun h => absurd rfl h)

/-- C83, the way out: after a successful seek on the `BufReader`, even to where it is, nothing is left in the buffer. -/
theorem C83_seek_partial (hL : D.Lawful) (hS : D.Serves data top position I)
    (hR : D.Reliable data top position I (fun _ => False)) (hF : D.Full data position I) (hc : 0 < cap) (ft : Features)
    (s s' : σ × Bytes) (p : SeekFrom) (q : Nat) (st : σ) (hB : Buffered data top position I s) (hI : I st)
    (hseek : (bufReader cap D).seek s p = (.ok q, s')) (hpos : position st = q) (hl : IsSlice data) (ht : 2 ^ 63 - 1 ≤ top)
    (hpdf : ft.pdf = true → cap ≤ 32768 ∨ data.length ≤ 33554432) :
    (fromDevice (bufReader cap D) Cfg.release ft s').1 = (fromDevice D Cfg.release ft st).1 := by
  have hl' : data.length < 2 ^ 63 := hl
  obtain ⟨h1, h2, _⟩ := bufReader_seek hS (by omega) cap s hB p hseek
  obtain ⟨h3, _, h5⟩ := h2 q rfl
  exact C83_leftover_partial hL hS hR hF hc ft s' st h1 hI (hpos.trans h5.symm) hl ht hpdf (fun h => absurd h3 h)

/-- C83. All of the content that follows is in the buffer: no difference either. -/
theorem C83_all_buffered_partial (hL : D.Lawful) (hS : D.Serves data top position I)
    (hR : D.Reliable data top position I (fun _ => False)) (hF : D.Full data position I) (hc : 0 < cap) (ft : Features)
    (s : σ × Bytes) (st : σ) (hB : Buffered data top position I s) (hI : I st)
    (hpos : position st = bufPosition position s) (hl : IsSlice data) (ht : 2 ^ 63 - 1 ≤ top)
    (hpdf : ft.pdf = true → cap ≤ 32768 ∨ data.length ≤ 33554432) (hend : data.length ≤ position s.1) :
    (fromDevice (bufReader cap D) Cfg.release ft s).1 = (fromDevice D Cfg.release ft st).1 := by
  refine C83_leftover_partial hL hS hR hF hc ft s st hB hI hpos hl ht hpdf fun _ f => ?_
  have hb := hB.2.2.2
  have : data.drop (position st) = s.2 := by
    rw [hpos]
    unfold slice at hb
    have hle := hB.2.2.1
    rw [List.take_of_length_le (by rw [List.length_drop]; omega)] at hb
    exact hb.symm
  rw [this]

/-- C83. Whatever the reader inside does within its contract, detection on a `BufReader` over it returns. -/
theorem C83_total (hL : D.Lawful) (hS : D.Serves data top position I) (hc : 0 < cap) (ft : Features) (s : σ × Bytes)
    (hB : Buffered data top position I s) (hl : IsSlice data) (hd : data.length ≤ top) :
    Returns (fromDevice (bufReader cap D) Cfg.release ft s).1 :=
  C82_total (bufReader_lawful cap hL) (bufReader_serves hS hd hc) ft s hB hl hd
    (Nat.le_trans (Nat.sub_le _ _) hB.2.1)

/-- The content of the counterexample: an ISO 9660 image, cut after the magic number. -/
def isoImage : Bytes := List.replicate 32769 0 ++ b!"CD001"

theorem isoImage_length : isoImage.length = 32774 := by
  unfold isoImage
  rw [List.length_append, List.length_replicate]
  rfl

/-- A `BufReader` of the usual capacity of which `fill_buf` was called and nothing consumed: it is at the start of the image and
holds its first 8192 bytes. -/
def peeked : Nat × Bytes := (8192, List.replicate 8192 0)

theorem isoImage_front : isoImage.take 8192 = List.replicate 8192 0 := by
  unfold isoImage
  rw [List.take_append_of_le_length (by rw [List.length_replicate]; decide), List.take_replicate]
  rfl

theorem peeked_buffered : Buffered isoImage (2 ^ 63 - 1) (fun p => p) (fun _ => True) peeked := by
  have h : peeked.2.length = 8192 := List.length_replicate ..
  have h1 : peeked.1 = 8192 := rfl
  have h2 : peeked.2 = isoImage.take 8192 := isoImage_front.symm
  refine ⟨trivial, ?_, ?_, ?_⟩
  · simp only [h1]; decide
  · simp only [h1, h]; exact Nat.le_refl _
  · simp only [h1, h, Nat.sub_self]
    exact h2

/-- C83 does not hold: the signature of the image is beyond what `fill_buf` got. -/
theorem C83_fails : ¬ C83_statement := by
  intro h
  have hlen := isoImage_length
  have hl : IsSlice isoImage := by unfold IsSlice; rw [hlen]; decide
  have hfull : (blocks (2 ^ 63) isoImage (2 ^ 63 - 1)).Full isoImage (fun p => p) (fun _ => True) :=
    blocks_full _ _ _ (by rw [hlen]; decide) (by decide)
  have hser := blocks_serves (2 ^ 63) (by decide) isoImage (2 ^ 63 - 1)
  have hrel := blocks_reliable (2 ^ 63) isoImage (2 ^ 63 - 1) (fun _ => False)
  have hlaw := blocks_lawful (2 ^ 63) isoImage (2 ^ 63 - 1)
  have hpk : List.length peeked.2 = 8192 := List.length_replicate ..
  have key := h Nat (blocks (2 ^ 63) isoImage (2 ^ 63 - 1)) isoImage (2 ^ 63 - 1) (fun p => p) (fun _ => True) 8192
    Features.none peeked 0 hlaw hser hrel hfull (by decide) hl (Nat.le_refl _) peeked_buffered trivial (by
      unfold bufPosition
      rw [hpk]
      rfl)
  have hiso : (fromDevice (blocks (2 ^ 63) isoImage (2 ^ 63 - 1)) Cfg.release Features.none 0).1 = .ok Iso9660 := by
    rw [full_verdict hlaw hser hrel hfull Features.none 0 trivial hl (by rw [hlen]; decide) (by decide) (by decide)]
    refine .signature ?_ (fun g hg => by cases g <;> cases hg)
    have hs : fromSignature isoImage = some Iso9660 := by decide +kernel
    rw [show slice isoImage 0 36870 = isoImage.take 36870 from rfl, signatureSays_take, signatureSays_some hs]
  have hno : (fromDevice (bufReader 8192 (blocks (2 ^ 63) isoImage (2 ^ 63 - 1))) Cfg.release Features.none peeked).1 =
      .ok ArbitraryBinaryData := by
    rw [C83_verdict_partial hlaw hser hrel hfull (by decide) Features.none peeked peeked_buffered hl (by rw [hlen]; decide)
      (by decide) (fun h => by cases h)]
    refine .signature ?_ (fun g hg => by cases g <;> cases hg)
    have hne : peeked.2 ≠ [] := by intro h; rw [h] at hpk; cases hpk
    have hs : fromSignature peeked.2 = none := by decide +kernel
    rw [show bufWindow isoImage (fun p : Nat => p) peeked = peeked.2.take 36870 from if_neg hne, signatureSays_take,
      signatureSays_none hne hs]
  rw [hiso, hno] at key
  cases key

/-! ## Not vacuous -/

/-- A new `BufReader` over any content, of any capacity. -/
example (data : Bytes) (hl : IsSlice data) (cap : Nat) (hc : 0 < cap) (hc' : cap ≤ 32768) (ft : Features) :
    (fromDevice (bufReader cap (blocks (2 ^ 63) data (2 ^ 63 - 1))) Cfg.release ft (0, [])).1 =
      (fromDevice (blocks (2 ^ 63) data (2 ^ 63 - 1)) Cfg.release ft 0).1 := by
  have hl' : data.length < 2 ^ 63 := hl
  exact C83_fresh_partial (blocks_lawful _ _ _) (blocks_serves _ (by decide) _ _) (blocks_reliable _ _ _ _)
    (blocks_full _ _ _ (by omega) (by decide)) hc ft 0 trivial (by decide) hl (Nat.le_refl _) (fun _ => Or.inl hc')
/-- Of a capacity of four bytes, at an ID3v2 tag before FLAC data: new, and with four bytes in its buffer. With
three, they do not tell. -/
example : (fromDevice (bufReader 4 (blocks 100 (b!"ID3\x04\x00\x00\x00\x00\x00\x00fLaC\x00\x00\x00\x00\x00\x00\x00") 100))
      Cfg.release Features.all (0, [])).1 = .ok FreeLosslessAudioCodec ∧
    (fromDevice (bufReader 4 (blocks 100 (b!"ID3\x04\x00\x00\x00\x00\x00\x00fLaC\x00\x00\x00\x00\x00\x00\x00") 100))
      Cfg.release Features.all (4, b!"ID3\x04")).1 = .ok FreeLosslessAudioCodec ∧
    (fromDevice (bufReader 4 (blocks 100 (b!"ID3\x04\x00\x00\x00\x00\x00\x00fLaC\x00\x00\x00\x00\x00\x00\x00") 100))
      Cfg.release Features.all (3, b!"ID3")).1 = .ok ArbitraryBinaryData := by decide +kernel
/-- A document, in a `BufReader` of seven bytes. -/
example : (fromDevice (bufReader 7 (blocks 100 (b!"%PDF-1.4 ..AIPrivateData..") 100)) Cfg.release { pdf := true } (0, [])).1 =
    .ok AdobeIllustratorArtwork := by decide +kernel

end FF.Props
