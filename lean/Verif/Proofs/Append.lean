import Verif.Proofs.Cases
/-!
# Runs on longer content

A program that only reads exactly and seeks from the start or from the current position does not see what
follows the bytes it reads: if it returns on some content, it returns the same on every longer one.
-/

namespace FF
open FileFormat Prog Spec

/-- The program makes no plain `read`, no line read, and does not seek from the end. -/
def Local {α : Type} : Prog α → Prop
  | .pure _ => True
  | .fail _ => True
  | .readExact _ k => ∀ x, Local (k x)
  | .read _ _ => False
  | .seek (.start _) k => ∀ q, Local (k q)
  | .seek (.current _) k => ∀ q, Local (k q)
  | .seek (.fromEnd _) _ => False
  | .tell k => ∀ q, Local (k q)
  | .readUntil _ _ => False

variable {α β : Type}

theorem Local.bind {p : Prog α} {f : α → Prog β} (hp : Local p) (hf : ∀ a, Local (f a)) : Local (p >>= f) := by
  show Local (p.bind f)
  induction p with
  | pure a => exact hf a
  | fail e => trivial
  | readExact n k ih => exact fun x => ih x (hp x)
  | read n k ih => exact hp.elim
  | seek s k ih =>
    cases s with
    | start n => exact fun q => ih q (hp q)
    | current i => exact fun q => ih q (hp q)
    | fromEnd i => exact hp.elim
  | tell k ih => exact fun q => ih q (hp q)
  | readUntil l k ih => exact hp.elim

theorem local_lift (x : Except Fail α) : Local (lift x) := by cases x <;> exact trivial
theorem local_start (n : Nat) : Local (sk (.start n)) := fun _ => trivial
theorem local_current (i : Int) : Local (sk (.current i)) := fun _ => trivial
theorem local_pos : Local pos := fun _ => trivial
theorem local_readBytes (n : Nat) : Local (readBytes n) := fun _ => trivial
theorem local_readU16le : Local readU16le := fun _ => trivial
theorem local_readU32le : Local readU32le := fun _ => trivial
theorem local_readU64le : Local readU64le := fun _ => trivial
theorem local_readU32be : Local readU32be := fun _ => trivial
theorem local_readU8 : Local readU8 := fun _ => local_lift _
theorem local_readGuid : Local readGuid := (local_readBytes 16).bind fun _ => local_lift _
theorem local_pure (a : α) : Local (Pure.pure a : Prog α) := trivial

theorem slice_longer {d t : Bytes} {p n : Nat} (h : p + n ≤ d.length) : slice (d ++ t) p n = slice d p n := by
  unfold slice
  rw [List.drop_append_of_le_length (by omega), List.take_append_of_le_length (by rw [List.length_drop]; omega)]

theorem Local.run_longer {p : Prog α} (hp : Local p) {d t : Bytes} {m q : Nat} {r : α × Nat} (h : run d m p q = .ok r) :
    run (d ++ t) m p q = .ok r := by
  induction p generalizing q with
  | pure a => exact h
  | fail e => exact h
  | readExact n k ih =>
    simp only [run] at h ⊢
    by_cases hc : n = 0 ∨ q + n ≤ d.length
    · rw [if_pos hc] at h
      have hc' : n = 0 ∨ q + n ≤ (d ++ t).length := by rw [List.length_append]; omega
      rw [if_pos hc']
      have hs : slice (d ++ t) q n = slice d q n := by
        rcases hc with rfl | hc
        · simp [slice]
        · exact slice_longer hc
      rw [hs]
      exact ih _ (hp _) h
    · rw [if_neg hc] at h
      cases h
  | read n k ih => exact hp.elim
  | seek s k ih =>
    cases s with
    | start n =>
      simp only [run, seekTarget] at h ⊢
      split at h
      · exact ih _ (hp _) h
      · cases h
    | current i =>
      simp only [run, seekTarget] at h ⊢
      split at h
      · exact ih _ (hp _) h
      · cases h
    | fromEnd i => exact hp.elim
  | tell k ih => exact ih _ (hp _) h
  | readUntil l k ih => exact hp.elim

theorem local_asfDescriptors (n : Nat) : Local (asfDescriptors n) := by
  induction n with
  | zero => trivial
  | succ n ih =>
    unfold asfDescriptors
    refine local_readU16le.bind fun len => (local_readBytes _).bind fun name => ?_
    split
    · trivial
    · exact (local_current _).bind fun _ => local_readU16le.bind fun _ => (local_current _).bind fun _ => ih

theorem local_asfObjects (cfg : Cfg) (n : Nat) (a v : Bool) : Local (asfObjects cfg n a v) := by
  induction n generalizing a v with
  | zero => trivial
  | succ n ih =>
    unfold asfObjects
    refine local_readGuid.bind fun guid => local_readU64le.bind fun size => ?_
    split
    · exact local_readGuid.bind fun _ => (local_lift _).bind fun _ => (local_current _).bind fun _ => ih _ _
    · split
      · refine local_readU16le.bind fun _ => local_pos.bind fun _ => (local_asfDescriptors _).bind fun dvr => ?_
        split
        · trivial
        · exact (local_lift _).bind fun _ => (local_lift _).bind fun _ => (local_start _).bind fun _ => ih _ _
      · exact (local_lift _).bind fun _ => (local_current _).bind fun _ => ih _ _

theorem local_asfReader (cfg : Cfg) : Local (asfReader cfg) :=
  (local_start _).bind fun _ => local_readU32le.bind fun _ => (local_current _).bind fun _ => local_asfObjects _ _ _ _

theorem local_cfbReader : Local cfbReader := by
  unfold cfbReader
  refine (local_start _).bind fun _ => local_readU16le.bind fun _ => (local_current _).bind fun _ =>
    local_readU32le.bind fun _ => (local_start _).bind fun _ => local_readGuid.bind fun _ => ?_
  split
  · trivial
  · refine (local_current _).bind fun _ => (local_readBytes _).bind fun _ => ?_
    split
    · trivial
    · refine (local_current _).bind fun _ => (local_readBytes _).bind fun _ => ?_
      split <;> trivial

theorem local_id3Loop (cfg : Cfg) (fuel offset : Nat) : Local (id3Loop cfg fuel offset) := by
  induction fuel generalizing offset with
  | zero => trivial
  | succ n ih =>
    unfold id3Loop
    refine (local_start _).bind fun _ => (local_readBytes _).bind fun _ => (local_lift _).bind fun _ => ?_
    split
    · trivial
    · refine (local_lift _).bind fun _ => (local_lift _).bind fun _ => (local_lift _).bind fun _ => (local_lift _).bind fun _ =>
        (local_lift _).bind fun flags => (local_lift _).bind fun _ => (local_lift _).bind fun next => Local.bind ?_ fun _ =>
        (local_lift _).bind fun _ => ih _
      unfold id3Extended
      split
      · exact local_readU32be.bind fun _ => local_lift _
      · trivial

theorem local_id3v2Reader (cfg : Cfg) : Local (id3v2Reader cfg) := by
  unfold id3v2Reader
  refine (local_id3Loop _ _ _).bind fun _ => (local_start _).bind fun _ => (local_readBytes _).bind fun _ => ?_
  split
  · trivial
  · refine (local_lift _).bind fun _ => ?_
    split <;> trivial

theorem local_rmLoop (n : Nat) (a v : Bool) : Local (rmLoop n a v) := by
  induction n generalizing a v with
  | zero => trivial
  | succ n ih =>
    unfold rmLoop
    refine (local_readBytes _).bind fun _ => local_readU32be.bind fun _ => ?_
    split
    · exact local_pos.bind fun _ => (local_current _).bind fun _ => local_readU8.bind fun _ => (local_current _).bind fun _ =>
        local_readU8.bind fun _ => (local_readBytes _).bind fun _ => (local_start _).bind fun _ =>
        (local_current _).bind fun _ => ih _ _
    · exact (local_current _).bind fun _ => ih _ _

theorem local_rmReader : Local rmReader :=
  (local_start _).bind fun _ => local_readU32be.bind fun _ => local_rmLoop _ _ _

theorem local_readString (n : Nat) : Local (readString n) := fun _ => trivial

theorem local_zipMimetype (size offset : Nat) : Local (zipMimetype size offset) := by
  unfold zipMimetype
  refine (local_start _).bind fun _ => local_readU16le.bind fun _ => local_readU16le.bind fun _ => (local_current _).bind fun _ =>
    (local_readString _).bind fun _ => ?_
  split <;> trivial

theorem local_zipEntries (n : Nat) (f : FileFormat) : Local (zipEntries n f) := by
  induction n generalizing f with
  | zero => trivial
  | succ n ih =>
    unfold zipEntries
    refine (local_current _).bind fun _ => local_readU32le.bind fun _ => local_readU32le.bind fun _ => local_readU16le.bind fun _ =>
      local_readU16le.bind fun _ => local_readU16le.bind fun _ => (local_current _).bind fun _ => local_readU32le.bind fun _ =>
      (local_readString _).bind fun _ => ?_
    split
    · exact local_pure _
    · split
      · exact (local_current _).bind fun _ => ih _
      · split
        · exact local_zipMimetype _ _
        · split
          · exact local_pure _
          · exact (local_current _).bind fun _ => ih _

/-- The EXE reader behind the test of the length (`src/readers.rs` 437-459). -/
def exeTail (offset : Nat) : Prog FileFormat := do
  let _ ← sk (.start offset)
  let signature ← readBytes 4
  if signature = b!"PE\x00\x00" then
    let _ ← sk (.current 18)
    let characteristics ← readU16le
    Pure.pure (if characteristics &&& 0x2000 = 0x2000 then DynamicLinkLibrary else PortableExecutable)
  else
    let two ← lift (sliceIdx signature 0 2)
    if two = b!"LE" ∨ two = b!"LX" then Pure.pure LinearExecutable
    else if two = b!"NE" then Pure.pure NewExecutable
    else Pure.pure MsDosExecutable

theorem exeReader_eq : exeReader = (sk (.fromEnd 0) >>= fun len => sk (.start 60) >>= fun _ => readU32le >>= fun offset =>
    if offset + 4 < len then exeTail offset else Pure.pure MsDosExecutable) := rfl

theorem local_exeTail (offset : Nat) : Local (exeTail offset) := by
  unfold exeTail
  refine (local_start _).bind fun _ => (local_readBytes _).bind fun _ => ?_
  split
  · exact (local_current _).bind fun _ => local_readU16le.bind fun _ => local_pure _
  · refine (local_lift _).bind fun _ => ?_
    split
    · exact local_pure _
    · split
      · exact local_pure _
      · exact local_pure _

/-- The EXE reader looks at the length only to see whether the extended header is there. -/
theorem exe_longer {d t : Bytes} {m : Nat} (hm : (d ++ t).length ≤ m) {f : FileFormat} (hf : f ≠ MsDosExecutable)
    (h : val (run d m exeReader 0) = .ok f) : val (run (d ++ t) m exeReader 0) = .ok f := by
  have hl : d.length ≤ (d ++ t).length := by rw [List.length_append]; omega
  rw [exeReader_eq] at h ⊢
  rw [run_bind, run_sk_end _ (by omega), andThen_ok, run_bind] at h
  rw [run_bind, run_sk_end _ hm, andThen_ok, run_bind]
  cases hsk : run d m (sk (.start 60)) d.length with
  | error e => rw [hsk] at h; cases h
  | ok r =>
    obtain ⟨x, q⟩ := r
    rw [hsk, andThen_ok, run_bind] at h
    have h60 : run (d ++ t) m (sk (.start 60)) (d ++ t).length = .ok (x, q) := by
      have := (local_start 60).run_longer (t := t) hsk
      rw [run_sk] at this ⊢
      exact this
    rw [h60, andThen_ok, run_bind]
    cases hu : run d m readU32le q with
    | error e => rw [hu] at h; cases h
    | ok r =>
      obtain ⟨offset, q'⟩ := r
      rw [hu, andThen_ok] at h
      rw [local_readU32le.run_longer hu, andThen_ok]
      by_cases hc : offset + 4 < d.length
      · rw [if_pos hc] at h
        rw [if_pos (by omega)]
        cases hr : run d m (exeTail offset) q' with
        | error e => rw [hr] at h; cases h
        | ok r => rw [(local_exeTail offset).run_longer hr]; rw [hr] at h; exact h
      · rw [if_neg hc] at h
        cases h
        exact absurd rfl hf

end FF
