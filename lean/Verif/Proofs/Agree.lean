import Verif.Proofs.Cost
import Verif.Proofs.Detect
/-!
# Programs that do the same on a content

`Alike b d m p p' q`: on every stream with content `d` that supports offsets up to `m`, whatever its schedule, from
position `q` on, the programs make the same calls and end in the same way. `b` tells whether they run behind a
`BufReader`.
-/

namespace FF
open FileFormat Spec

/-- A run that returns a value follows the ideal run. -/
theorem exec_ok_run {α : Type} (p : Prog α) (s : Rd) (h : s.Ok) (hp : Exact s.buffered p) (a : α) (t : Rd)
    (he : exec p s = (.ok a, t)) :
    run s.src.data s.src.maxPos p s.lpos = .ok (a, t.lpos) ∧ s.src.Le t.src ∧ t.Ok ∧ t.buffered = s.buffered := by
  induction p generalizing s with
  | pure b => cases he; exact ⟨rfl, Src.Le.refl _, h, rfl⟩
  | fail e => cases he
  | readExact n k ih =>
    obtain ⟨hle, hbf, hok, hr⟩ := Rd.readExact_spec s n h
    cases hx : s.readExact n with
    | mk r s' =>
      rw [hx] at hle hbf hok hr
      simp only [exec, run, hx] at hle hbf hok hr he ⊢
      rcases hr with ⟨h1, h2, h3⟩ | ⟨h1, h2⟩ | ⟨h1, e, h2⟩
      · subst h2
        simp only [if_pos h1]
        have hlen : (slice s.src.data s.lpos n).length = n := by rw [length_slice]; omega
        obtain ⟨r1, r2, r3, r4⟩ := ih _ s' hok (by rw [hbf]; exact hp _ hlen) he
        rw [hle.data, hle.maxPos, h3] at r1
        exact ⟨r1, hle.trans r2, r3, r4.trans hbf⟩
      · subst h2; cases he
      · subst h2; cases he
  | read n k ih => exact absurd hp (by simp [Exact])
  | seek p k ih =>
    obtain ⟨hle, hbf, hok, hr⟩ := Rd.seek_spec s p h
    cases hx : s.seek p with
    | mk r s' =>
      rw [hx] at hle hbf hok hr
      simp only [exec, run, hx] at hle hbf hok hr he ⊢
      rcases hr with ⟨q, h1, h2, h3⟩ | ⟨h1, h2⟩ | ⟨h1, e, h2⟩
      · subst h2
        simp only [h1]
        obtain ⟨r1, r2, r3, r4⟩ := ih _ s' hok (hbf ▸ hp _) he
        rw [hle.data, hle.maxPos, h3] at r1
        exact ⟨r1, hle.trans r2, r3, r4.trans hbf⟩
      · subst h2; cases he
      · subst h2; cases he
  | tell k ih =>
    obtain ⟨hle, hbf, hok, hr⟩ := Rd.tell_spec s h
    cases hx : s.tell with
    | mk r s' =>
      rw [hx] at hle hbf hok hr
      simp only [exec, run, hx] at hle hbf hok hr he ⊢
      rcases hr with ⟨h2, h3⟩ | ⟨h1, e, h2⟩
      · subst h2
        obtain ⟨r1, r2, r3, r4⟩ := ih _ s' hok (hbf ▸ hp _) he
        rw [hle.data, hle.maxPos, h3] at r1
        exact ⟨r1, hle.trans r2, r3, r4.trans hbf⟩
      · subst h2; cases he
  | readUntil n k ih =>
    obtain ⟨hle, hbf, hok, hr⟩ := Rd.readUntil_spec s n h hp.1
    cases hx : s.readUntil n with
    | mk r s' =>
      rw [hx] at hle hbf hok hr
      simp only [exec, run, hx] at hle hbf hok hr he ⊢
      rcases hr with ⟨h2, h3⟩ | ⟨h1, e, h2⟩
      · subst h2
        obtain ⟨r1, r2, r3, r4⟩ := ih _ s' hok (hbf ▸ hp.2 _ (length_uptoNewline_slice _ _ _)) he
        rw [hle.data, hle.maxPos, h3] at r1
        exact ⟨r1, hle.trans r2, r3, r4.trans hbf⟩
      · subst h2; cases he

/-- See above. -/
def Alike {α : Type} (b : Bool) (d : Bytes) (m : Nat) (p p' : Prog α) (q : Nat) : Prop :=
  ∀ s : Rd, s.Ok → s.buffered = b → s.src.data = d → s.src.maxPos = m → s.lpos = q → exec p s = exec p' s

variable {α β : Type} {b : Bool} {d : Bytes} {m q : Nat}

theorem Alike.refl (p : Prog α) (q : Nat) : Alike b d m p p q := fun _ _ _ _ _ _ => rfl

theorem Alike.bind {p p' : Prog α} {f f' : α → Prog β} (h : Alike b d m p p' q) (hp : Exact b p')
    (hf : ∀ a q', run d m p' q = .ok (a, q') → Alike b d m (f a) (f' a) q') :
    Alike b d m (p >>= f) (p' >>= f') q := by
  intro s hs hb hd hm hq
  rw [exec_bind, exec_bind, h s hs hb hd hm hq]
  cases hx : exec p' s with
  | mk r t =>
    cases r with
    | error e => rfl
    | ok a =>
      obtain ⟨h1, h2, h3, h4⟩ := exec_ok_run p' s hs (hb ▸ hp) a t hx
      rw [hd, hm, hq] at h1
      exact hf a t.lpos h1 t h3 (h4.trans hb) (h2.data.trans hd) (h2.maxPos.trans hm) rfl

/-- Sequencing after a common first part. -/
theorem Alike.next {p : Prog α} {f f' : α → Prog β} (hp : Exact b p)
    (hf : ∀ a q', run d m p q = .ok (a, q') → Alike b d m (f a) (f' a) q') :
    Alike b d m (p >>= f) (p >>= f') q := Alike.bind (Alike.refl p q) hp hf

/-- A final computation that changes nothing. -/
theorem Alike.map {p : Prog α} {g : α → α} (hp : Exact b p) (h : ∀ a q', run d m p q = .ok (a, q') → g a = a) :
    Alike b d m (p >>= fun a => Pure.pure (g a)) p q := by
  intro s hs hb hd hm hq
  rw [exec_bind]
  cases hx : exec p s with
  | mk r t =>
    cases r with
    | error e => rfl
    | ok a =>
      obtain ⟨h1, _⟩ := exec_ok_run p s hs (hb ▸ hp) a t hx
      rw [hd, hm, hq] at h1
      show (Except.ok (g a), t) = _
      rw [h a _ h1]

theorem Alike.execOn {p p' : Prog α} {src : Src} (h : ∀ q, Alike b src.data src.maxPos p p' q) (hs : src.WF) :
    execOn b p src = execOn b p' src := by
  unfold FF.execOn
  rw [h _ { src := src, buffered := b, buf := [] } (Rd.ok_fresh src b hs) rfl rfl rfl rfl]

theorem exact_lift {α : Type} (x : Except Fail α) : Exact b (Prog.lift x) := by cases x <;> exact trivial

theorem exact_readU8 : Exact b readU8 := fun _ _ => exact_lift _

theorem exact_sk (p : SeekFrom) : Exact b (Prog.sk p) := fun _ => trivial
theorem exact_pos : Exact b Prog.pos := fun _ => trivial
theorem exact_readBytes (n : Nat) : Exact b (readBytes n) := fun _ _ => trivial
theorem exact_readString (n : Nat) : Exact b (readString n) := fun _ _ => trivial
theorem exact_readU16le : Exact b readU16le := fun _ _ => trivial
theorem exact_readU32le : Exact b readU32le := fun _ _ => trivial
theorem exact_readU64le : Exact b readU64le := fun _ _ => trivial
theorem exact_ebmlId : Exact true ebmlId := ebmlId_all.exact fun _ h => h.1
theorem exact_ebmlSize : Exact true ebmlSize := ebmlSize_all.exact fun _ h => h.1
theorem exact_zipEnd (cfg : Cfg) (z : Bool) (off : Nat) : Exact b (zipEnd cfg z off) :=
  (zipEnd_all cfg z off 8 (by omega)).exact fun _ h => h.1
theorem exact_zipIsZip64 (off : Nat) : Exact b (zipIsZip64 off) := by
  unfold zipIsZip64
  split
  · exact fun _ _ _ => trivial
  · exact trivial

/-- Proves that one of the basic reads is exact. -/
macro "exactly" : tactic => `(tactic| first
  | exact exact_sk _ | exact exact_pos | exact exact_readBytes _ | exact exact_readString _ | exact exact_readU8
  | exact exact_readU16le | exact exact_readU32le | exact exact_readU64le | exact exact_ebmlId | exact exact_ebmlSize
  | exact exact_zipEnd _ _ _ | exact exact_zipIsZip64 _ | exact exact_lift _)

end FF
