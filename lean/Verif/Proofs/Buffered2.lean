import Verif.Proofs.Buffered
/-!
# The readers that call `read` once per buffer, on devices that serve those calls in full
-/

namespace FF
open FileFormat

variable {σ α β : Type}

/-- No calls. -/
def Quiet : Prog α → Prop
  | .pure _ => True
  | .fail _ => True
  | _ => False

/-- Only seeks, and reads of at least `cap` bytes; a smaller read is the last call. -/
def BigReads (cap : Nat) : Prog α → Prop
  | .pure _ => True
  | .fail _ => True
  | .read n c => ∀ x, (cap ≤ n → BigReads cap (c x)) ∧ (n < cap → Quiet (c x))
  | .seek _ c => ∀ q, BigReads cap (c q)
  | _ => False

theorem Quiet.big {cap : Nat} {p : Prog α} (h : Quiet p) : BigReads cap p := by cases p <;> first | trivial | exact h.elim

/-- What is asked of the device: `J` are the states in which reads are served in full, seeking gets there, and reads of at
least `cap` bytes stay there. -/
structure ServedBig (D : Device σ) (data : Bytes) (top : Nat) (position : σ → Nat) (I J : σ → Prop) (cap : Nat) : Prop where
  serves : D.Serves data top position I
  reliable : D.Reliable data top position I (fun _ => False)
  inside : ∀ s, J s → I s
  seek : ∀ s p q s', I s → D.seek s p = (.ok q, s') → J s'
  read : ∀ s n bs s', J s → D.read s n = (.ok bs, s') → bs = slice data (position s) n ∧ (cap ≤ n → J s')

variable {D : Device σ} {data : Bytes} {top : Nat} {position : σ → Nat} {I J : σ → Prop} {cap : Nat}

theorem bare_read {st st' : σ} {n : Nat} {r : Except ErrKind Bytes} (h : D.read st n = (r, st')) :
    DRd.read D ⟨st, false, []⟩ n = (r, ⟨st', false, []⟩) := by
  unfold DRd.read
  rw [if_pos rfl, h]

theorem bare_seek {st st' : σ} {p : SeekFrom} {r : Except ErrKind Nat} (h : D.seek st p = (r, st')) :
    DRd.seek D ⟨st, false, []⟩ p = (r, ⟨st', false, []⟩) := by
  unfold DRd.seek
  rw [if_pos rfl, h]

theorem execD_quiet (p : Prog α) (h : Quiet p) (st : σ) (q : Nat) :
    (execD D p ⟨st, false, []⟩).1 = (run data top p q).map Prod.fst := by
  cases p <;> first | rfl | exact h.elim

theorem execD_big (hB : ServedBig D data top position I J cap) (p : Prog α) (hp : BigReads cap p) (st : σ) (hJ : J st) :
    (execD D p ⟨st, false, []⟩).1 = (run data top p (position st)).map Prod.fst := by
  induction p generalizing st with
  | pure a => rfl
  | fail f => rfl
  | readExact n c ih => exact hp.elim
  | tell c ih => exact hp.elim
  | readUntil n c ih => exact hp.elim
  | read n c ih =>
    simp only [execD, run]
    cases hx : D.read st n with
    | mk r st' =>
      cases r with
      | error e => exact (hB.reliable.read _ _ _ _ (hB.inside _ hJ) hx).elim
      | ok bs =>
        obtain ⟨h1, h2⟩ := hB.read _ _ _ _ hJ hx
        obtain ⟨_, _, _, h3⟩ := hB.serves.read_ok _ _ _ _ (hB.inside _ hJ) hx
        rw [bare_read hx, ← h1]
        by_cases hn : cap ≤ n
        · rw [← h3]
          exact ih bs ((hp bs).1 hn) st' (h2 hn)
        · exact execD_quiet _ ((hp bs).2 (by omega)) st' _
  | seek a c ih =>
    simp only [execD, run]
    cases hx : D.seek st a with
    | mk r st' =>
      cases r with
      | error e =>
        obtain ⟨h1, h2⟩ := hB.reliable.seek _ _ _ _ (hB.inside _ hJ) hx
        rw [bare_seek hx, h2, h1]
        rfl
      | ok q =>
        obtain ⟨h1, h2⟩ := hB.serves.seek_ok _ _ _ _ (hB.inside _ hJ) hx
        rw [bare_seek hx, h1]
        have := ih q (hp q) st' (hB.seek _ _ _ _ (hB.inside _ hJ) hx)
        rw [h2] at this
        exact this

/-- A program that begins with a seek to an absolute offset. -/
theorem execD_seek (hB : ServedBig D data top position I J cap) (n : Nat) (c : Nat → Prog α)
    (hp : ∀ q, BigReads cap (c q)) (st : σ) (hI : I st) (x : Nat) :
    (execD D (.seek (.start n) c) ⟨st, false, []⟩).1 = (run data top (.seek (.start n) c) x).map Prod.fst := by
  simp only [execD, run]
  cases hx : D.seek st (.start n) with
  | mk r st' =>
    cases r with
    | error e =>
      obtain ⟨h1, h2⟩ := hB.reliable.seek _ _ _ _ hI hx
      have h2' : seekTarget data.length top x (.start n) = none := h2
      rw [bare_seek hx, h2', h1]
      rfl
    | ok q =>
      obtain ⟨h1, h2⟩ := hB.serves.seek_ok _ _ _ _ hI hx
      have h1' : seekTarget data.length top x (.start n) = some q := h1
      rw [bare_seek hx, h1']
      have := execD_big hB (c q) (hp q) st' (hB.seek _ _ _ _ hI hx)
      rw [h2] at this
      exact this

theorem quiet_lift (x : Except Fail α) (f : α → Prog β) (hf : ∀ a, Quiet (f a)) : Quiet ((Prog.lift x) >>= f) := by
  cases x with
  | ok a => exact hf a
  | error e => trivial

theorem big_lift (cap : Nat) (x : Except Fail α) (f : α → Prog β) (hf : ∀ a, BigReads cap (f a)) :
    BigReads cap ((Prog.lift x) >>= f) := by
  cases x with
  | ok a => exact hf a
  | error e => trivial

theorem big_pdfLoop (hc : cap ≤ 32768) (fuel total : Nat) (overlap : Bytes) : BigReads cap (pdfLoop fuel total overlap) := by
  induction fuel generalizing total overlap with
  | zero => trivial
  | succ n ih =>
    unfold pdfLoop
    split
    · intro chunk
      refine ⟨fun _ => ?_, fun h => ?_⟩
      · show BigReads cap (if chunk.length = 0 then _ else _)
        split
        · trivial
        · refine big_lift cap _ _ fun w => big_lift cap _ _ fun found => ?_
          split
          · trivial
          · exact ih _ _
      · exact absurd h (Nat.not_lt.mpr hc)
    · trivial

/-- The reader begins with a seek, after which all reads are big. -/
def SeeksFirst (cap : Nat) (p : Prog α) : Prop := ∃ n c, p = .seek (.start n) c ∧ ∀ q, BigReads cap (c q)

theorem pdf_seeks (hc : cap ≤ 32768) : SeeksFirst cap pdfReader :=
  ⟨5, _, rfl, fun _ => big_pdfLoop hc _ _ _⟩

theorem sqlite3_seeks (cap : Nat) : SeeksFirst cap sqlite3Reader := by
  have hq : ∀ x : Bytes, Quiet ((Prog.lift (holdsBytes x sketchMarker)) >>= fun found =>
      if found then Pure.pure Sketch else Pure.pure Sqlite3 : Prog FileFormat) := by
    intro x
    refine quiet_lift _ _ fun found => ?_
    split <;> trivial
  exact ⟨100, _, rfl, fun _ x => ⟨fun _ => (hq x).big, fun _ => hq x⟩⟩

theorem xml_seeks (cap : Nat) : SeeksFirst cap xmlReader := by
  have hq : ∀ x : Bytes, Quiet (Prog.lift (xmlClassify x xmlRules)) := by
    intro x
    generalize xmlClassify x xmlRules = y
    cases y <;> trivial
  exact ⟨5, _, rfl, fun _ x => ⟨fun _ => (hq x).big, fun _ => hq x⟩⟩

theorem execOnD_seeks (hB : ServedBig D data top position I J cap) {p : Prog α} (hp : SeeksFirst cap p) (st : σ) (hI : I st) :
    (execOnD D false p st).1 = (run data top p 0).map Prod.fst := by
  obtain ⟨n, c, rfl, h⟩ := hp
  exact execD_seek hB n c h st hI 0

/-- `BufReader`: after a seek its buffer is empty. -/
theorem bufReader_big (hS : D.Serves data top position I) (hR : D.Reliable data top position I (fun _ => False))
    (hF : D.Full data position I) (hd : data.length ≤ top) (hc : 0 < cap) :
    ServedBig (bufReader cap D) data top (bufPosition position) (Buffered data top position I)
      (fun s => Buffered data top position I s ∧ s.2 = []) cap where
  serves := bufReader_serves hS hd hc
  reliable := bufReader_reliable hS hd hc hR
  inside := fun s h => h.1
  seek := fun s p q s' hB h =>
    ⟨(bufReader_seek hS hd cap s hB p h).1, ((bufReader_seek hS hd cap s hB p h).2.1 q rfl).1⟩
  read := by
    intro s n bs s' ⟨hB, he⟩ h
    obtain ⟨h1, h2, _, _, h5, _, h7⟩ := bufReader_read hS hd hc s hB n h
    exact ⟨h7 he hF bs rfl, fun hn => ⟨h1, h5 he hn⟩⟩

/-- A device that serves all reads in full. -/
theorem full_big (hS : D.Serves data top position I) (hR : D.Reliable data top position I (fun _ => False))
    (hF : D.Full data position I) : ServedBig D data top position I I 0 where
  serves := hS
  reliable := hR
  inside := fun _ => id
  seek := fun s p q s' hI h => by have := hS.seek_inv s p hI; rw [h] at this; exact this
  read := fun s n bs s' hI h => ⟨hF _ _ _ _ hI h, fun _ => by have := hS.read_inv s n hI; rw [h] at this; exact this⟩

end FF
