import Verif.Proofs.Detect
/-!
# Debug and release runs of the same program
-/

namespace FF
open FileFormat Prog Spec

/-- The first program does what the second does, unless it panics. -/
inductive Agrees {α : Type} : Prog α → Prog α → Prop where
  | panic (q : Prog α) : Agrees (.fail .panic) q
  | refl (p : Prog α) : Agrees p p
  | readExact (n : Nat) {k k' : Bytes → Prog α} (h : ∀ x, Agrees (k x) (k' x)) : Agrees (.readExact n k) (.readExact n k')
  | read (n : Nat) {k k' : Bytes → Prog α} (h : ∀ x, Agrees (k x) (k' x)) : Agrees (.read n k) (.read n k')
  | seek (p : SeekFrom) {k k' : Nat → Prog α} (h : ∀ x, Agrees (k x) (k' x)) : Agrees (.seek p k) (.seek p k')
  | tell {k k' : Nat → Prog α} (h : ∀ x, Agrees (k x) (k' x)) : Agrees (.tell k) (.tell k')
  | readUntil (l : Nat) {k k' : Bytes → Prog α} (h : ∀ x, Agrees (k x) (k' x)) : Agrees (.readUntil l k) (.readUntil l k')

theorem Agrees.after {α β : Type} (p : Prog α) {f g : α → Prog β} (h : ∀ a, Agrees (f a) (g a)) :
    Agrees (p >>= f) (p >>= g) := by
  show Agrees (p.bind f) (p.bind g)
  induction p with
  | pure a => exact h a
  | fail e => exact .refl _
  | readExact n k ih => exact .readExact n ih
  | read n k ih => exact .read n ih
  | seek s k ih => exact .seek s ih
  | tell k ih => exact .tell ih
  | readUntil l k ih => exact .readUntil l ih

theorem Agrees.bind {α β : Type} {p q : Prog α} {f g : α → Prog β} (hp : Agrees p q) (h : ∀ a, Agrees (f a) (g a)) :
    Agrees (p >>= f) (q >>= g) := by
  induction hp with
  | panic q => exact .panic _
  | refl p => exact .after p h
  | readExact n _ ih => exact .readExact n ih
  | read n _ ih => exact .read n ih
  | seek s _ ih => exact .seek s ih
  | tell _ ih => exact .tell ih
  | readUntil l _ ih => exact .readUntil l ih

theorem agrees_i64Sub (a b : Int) : Agrees (lift (i64Sub Cfg.debug a b)) (lift (i64Sub Cfg.release a b)) := by
  unfold i64Sub
  split
  · exact .refl _
  · exact .panic _

theorem agrees_u64Add (a b : Nat) : Agrees (lift (u64Add Cfg.debug a b)) (lift (u64Add Cfg.release a b)) := by
  unfold u64Add
  split
  · exact .refl _
  · exact .panic _

theorem agrees_u64Sub (a b : Nat) : Agrees (lift (u64Sub Cfg.debug a b)) (lift (u64Sub Cfg.release a b)) := by
  unfold u64Sub
  split
  · exact .refl _
  · exact .panic _

theorem agrees_asfObjects (n : Nat) (audio video : Bool) :
    Agrees (asfObjects Cfg.debug n audio video) (asfObjects Cfg.release n audio video) := by
  induction n generalizing audio video with
  | zero => exact .refl _
  | succ n ih =>
    unfold asfObjects
    refine .after _ fun guid => .after _ fun size => ?_
    split
    · exact .after _ fun _ => .bind (agrees_i64Sub _ _) fun _ => .after _ fun _ => ih _ _
    · split
      · refine .after _ fun _ => .after _ fun _ => .after _ fun dvr => ?_
        split
        · exact .refl _
        · exact .bind (agrees_u64Add _ _) fun _ => .bind (agrees_u64Sub _ _) fun _ => .after _ fun _ => ih _ _
      · exact .bind (agrees_i64Sub _ _) fun _ => .after _ fun _ => ih _ _

theorem agrees_asfReader : Agrees (asfReader Cfg.debug) (asfReader Cfg.release) :=
  .after _ fun _ => .after _ fun _ => .after _ fun _ => agrees_asfObjects _ _ _

theorem agrees_id3Loop (fuel offset : Nat) : Agrees (id3Loop Cfg.debug fuel offset) (id3Loop Cfg.release fuel offset) := by
  induction fuel generalizing offset with
  | zero => exact .refl _
  | succ n ih =>
    unfold id3Loop
    refine .after _ fun _ => .after _ fun buf => .after _ fun magic => ?_
    split
    · exact .refl _
    · refine .after _ fun _ => .after _ fun _ => .after _ fun _ => .after _ fun _ => .after _ fun flags =>
        .bind (agrees_u64Add _ _) fun _ => .bind (agrees_u64Add _ _) fun _ => .bind ?_ fun _ => .bind ?_ fun _ => ih _
      · unfold id3Extended
        split
        · exact .after _ fun _ => agrees_u64Add _ _
        · exact .refl _
      · unfold id3Footer
        split
        · exact agrees_u64Add _ _
        · exact .refl _

theorem agrees_id3v2Reader : Agrees (id3v2Reader Cfg.debug) (id3v2Reader Cfg.release) :=
  .bind (agrees_id3Loop _ _) fun _ => .refl _

theorem agrees_mp4Loop (len n : Nat) (t : Tracks) :
    Agrees (mp4Loop Cfg.debug len n t) (mp4Loop Cfg.release len n t) := by
  induction n generalizing t with
  | zero => exact .refl _
  | succ n ih =>
    unfold mp4Loop
    refine .after _ fun p => ?_
    split
    · refine .after _ fun _ => .after _ fun _ => .after _ fun _ => ?_
      split
      · exact ih _
      · split
        · exact .after _ fun _ => .after _ fun _ => .bind (agrees_i64Sub _ _) fun _ => .after _ fun _ => ih _
        · exact .bind (agrees_i64Sub _ _) fun _ => .after _ fun _ => ih _
    · exact .refl _

theorem agrees_mp4Reader : Agrees (mp4Reader Cfg.debug) (mp4Reader Cfg.release) :=
  .after _ fun _ => .after _ fun _ => agrees_mp4Loop _ _ _

theorem agrees_zipReader : Agrees (zipReader Cfg.debug) (zipReader Cfg.release) := by
  unfold zipReader
  refine .after _ fun _ => .after _ fun _ => .after _ fun _ => .after _ fun found => ?_
  cases found with
  | none => exact .refl _
  | some i =>
    refine .bind (agrees_u64Add _ _) fun _ => .after _ fun zip64 => .bind ?_ fun _ => .refl _
    unfold zipEnd
    split
    · exact .after _ fun _ => .after _ fun _ => .bind (agrees_u64Add _ _) fun _ => .refl _
    · exact .bind (agrees_u64Add _ _) fun _ => .refl _

/-- On every stream, whatever its schedule: the first program panics, or both end in the same way and leave
the stream in the same state. -/
theorem Agrees.exec {α : Type} {p q : Prog α} (h : Agrees p q) (s : Rd) :
    (FF.exec p s).1 = .error .panic ∨ FF.exec p s = FF.exec q s := by
  induction h generalizing s with
  | panic q => exact .inl rfl
  | refl p => exact .inr rfl
  | readExact n _ ih =>
    unfold FF.exec
    rcases s.readExact n with ⟨r, s'⟩
    cases r with
    | ok bs => exact ih bs s'
    | error f => exact .inr rfl
  | read n _ ih =>
    unfold FF.exec
    rcases s.read n with ⟨r, s'⟩
    cases r with
    | ok bs => exact ih bs s'
    | error f => exact .inr rfl
  | seek t _ ih =>
    unfold FF.exec
    rcases s.seek t with ⟨r, s'⟩
    cases r with
    | ok bs => exact ih bs s'
    | error f => exact .inr rfl
  | tell _ ih =>
    unfold FF.exec
    rcases s.tell with ⟨r, s'⟩
    cases r with
    | ok bs => exact ih bs s'
    | error f => exact .inr rfl
  | readUntil l _ ih =>
    unfold FF.exec
    rcases s.readUntil l with ⟨r, s'⟩
    cases r with
    | ok bs => exact ih bs s'
    | error f => exact .inr rfl

theorem Agrees.execOn {α : Type} {p q : Prog α} (h : Agrees p q) (b : Bool) (s : Src) :
    (FF.execOn b p s).1 = .error .panic ∨ FF.execOn b p s = FF.execOn b q s := by
  unfold FF.execOn
  rcases h.exec { src := s, buffered := b, buf := [] } with h | h
  · exact .inl h
  · exact .inr (by rw [h])

theorem agrees_readerOf (g : Feature) : (readerOf Cfg.debug g).1 = (readerOf Cfg.release g).1 ∧
    Agrees (readerOf Cfg.debug g).2 (readerOf Cfg.release g).2 := by
  cases g with
  | asf => exact ⟨rfl, agrees_asfReader⟩
  | id3v2 => exact ⟨rfl, agrees_id3v2Reader⟩
  | mp4 => exact ⟨rfl, agrees_mp4Reader⟩
  | zip => exact ⟨rfl, agrees_zipReader⟩
  | _ => exact ⟨rfl, .refl _⟩

theorem fromFmtReader_profile (ft : Features) (fmt : FileFormat) (s : Src) :
    (fromFmtReader Cfg.debug ft fmt s).1 = .error .panic ∨
      fromFmtReader Cfg.debug ft fmt s = fromFmtReader Cfg.release ft fmt s := by
  unfold fromFmtReader
  by_cases h : ∃ g ∈ Feature.structured, fmt = g.base
  · obtain ⟨g, hg, rfl⟩ := h
    rw [fmtReader_base _ _ _ hg, fmtReader_base _ _ _ hg]
    by_cases he : g.enabled ft = true
    · rw [if_pos he, if_pos he]
      obtain ⟨h1, h2⟩ := agrees_readerOf g
      simp only
      rw [h1]
      exact h2.execOn _ _
    · rw [if_neg he, if_neg he]
      exact .inr rfl
  · have hn : ∀ cfg, fmtReader cfg ft fmt = none := fun cfg => by
      rcases fmtReader_cases cfg ft fmt with h' | ⟨f, hf, _, h', _⟩
      · exact h'
      · exact absurd ⟨f, hf, h'⟩ h
    rw [hn, hn]
    exact .inr rfl

theorem fromReader_profile (ft : Features) (s : Src) :
    (fromReader Cfg.debug ft s).1 = .error .panic ∨ fromReader Cfg.debug ft s = fromReader Cfg.release ft s := by
  unfold fromReader
  rcases s.read bufferSize with ⟨r, s'⟩
  cases r with
  | error e => exact .inr rfl
  | ok buf =>
    show (if buf.length = 0 then _ else _ : Except Fail FileFormat × Src).1 = _ ∨
      (if buf.length = 0 then _ else _ : Except Fail FileFormat × Src) = (if buf.length = 0 then _ else _)
    by_cases h : buf.length = 0
    · rw [if_pos h]
      exact .inr (if_pos h).symm
    · rw [if_neg h, if_neg h]
      cases fromSignature buf with
      | none => exact .inr rfl
      | some fmt =>
        simp only
        rcases fromFmtReader_profile ft fmt s' with h | h
        · left
          rcases hx : fromFmtReader Cfg.debug ft fmt s' with ⟨r, s''⟩
          rw [hx] at h
          cases h
          rfl
        · right; rw [h]

end FF
