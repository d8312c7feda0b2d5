import Verif.Proofs.Claim2
import Verif.Props.Device
/-!
# C78: readers that claim to have read more than there was room for
-/

namespace FF.Props
open FF FileFormat Spec

variable {σ : Type} {D : Device σ}

/-- C78, the bad case: if during the run the device claims more bytes than it was asked for, the run ends in a panic (no
verdict, no error). -/
theorem C78_stops (cfg : Cfg) (ft : Features) (st : σ) (h : (fromDevice (watched D) cfg ft (st, false)).2.2 = true) :
    (fromClaims D cfg ft st).1 = .error .panic := by
  rcases follows_fromReader D cfg ft st with ⟨_, h2⟩ | ⟨_, h2⟩
  · exact h2
  · rw [h2] at h; cases h

/-- C78, the good case: if it never does, the run is the run on the device cut down to the contract. -/
theorem C78_otherwise (cfg : Cfg) (ft : Features) (st : σ)
    (h : (fromDevice (watched D) cfg ft (st, false)).2.2 = false) :
    (fromDevice (watched D) cfg ft (st, false)).1 = (fromClaims D cfg ft st).1 ∧
    (fromDevice (watched D) cfg ft (st, false)).2.1 = (fromClaims D cfg ft st).2 := by
  rcases follows_fromReader D cfg ft st with ⟨h1, _⟩ | ⟨h1, h2⟩
  · rw [h1] at h; cases h
  · exact ⟨h1.symm, by rw [h2]⟩

/-- The watched device keeps the contract. -/
theorem watched_lawful (hP : D.Patient) : (watched D).Lawful where
  read_le := by
    rintro ⟨s, b⟩ n bs ⟨s', b'⟩ h
    simp only [watched] at h
    generalize D.read s n = x at h
    rcases x with ⟨r, t⟩
    cases r with
    | error e => cases h
    | ok cs => cases h; rw [List.length_take]; omega
  read_patience := by
    rintro ⟨s, b⟩ n r ⟨s', b'⟩ h
    simp only [watched] at h
    cases hx : D.read s n with
    | mk r t =>
      rw [hx] at h
      have := hP.read_patience _ _ _ _ hx
      cases r <;> cases h <;> exact this
  interrupted := by
    rintro ⟨s, b⟩ n ⟨s', b'⟩ h
    simp only [watched] at h
    cases hx : D.read s n with
    | mk r t =>
      rw [hx] at h
      cases r with
      | ok cs => cases h
      | error e => cases h; exact hP.interrupted _ _ _ hx
  seek_patience := by
    rintro ⟨s, b⟩ p r ⟨s', b'⟩ h
    cases h
    exact hP.seek_patience _ _ _ _ rfl
  tell_patience := by
    rintro ⟨s, b⟩ r ⟨s', b'⟩ h
    cases h
    exact hP.tell_patience _ _ _ rfl

theorem patient_of_lawful (hL : D.Lawful) : D.Patient :=
  ⟨hL.read_patience, hL.interrupted, hL.seek_patience, hL.tell_patience⟩

theorem claims_outcome (cfg : Cfg) (ft : Features) (st : σ) :
    (fromClaims D cfg ft st).1 = .error .panic ∨
    (fromClaims D cfg ft st).1 = (fromDevice (watched D) cfg ft (st, false)).1 := by
  rcases follows_fromReader D cfg ft st with ⟨_, h2⟩ | ⟨h1, _⟩
  · exact .inl h2
  · exact .inr h1

/-- C78, the first read: if it claims too much, detection panics. -/
theorem C78_first_read (cfg : Cfg) (ft : Features) (st : σ) (bs : Bytes) (h : (D.read st 36870).1 = .ok bs)
    (hlen : 36870 < bs.length) : (fromClaims D cfg ft st).1 = .error .panic := by
  have hb : bufferSize = 36870 := rfl
  unfold fromClaims claimRead
  rw [hb]
  generalize D.read st 36870 = x at h
  rcases x with ⟨r, s⟩
  simp only at h
  subst h
  simp only [if_neg (by omega : ¬ bs.length ≤ 36870)]

/-- C78, errors: whatever the device claims, an error is returned exactly if the first read fails, and it is that error. -/
theorem C78_error_iff (hP : D.Patient) (cfg : Cfg) (ft : Features) (st : σ) (e : ErrKind) :
    (fromClaims D cfg ft st).1 = .error (.err e) ↔ (D.read st 36870).1 = .error e := by
  have hw : ((watched D).read (st, false) 36870).1 = .error e ↔ (D.read st 36870).1 = .error e := by
    simp only [watched]
    rcases D.read st 36870 with ⟨r, s⟩
    cases r with
    | error e' => exact Iff.rfl
    | ok bs => exact ⟨(fun h => by cases h), (fun h => by cases h)⟩
  constructor
  · intro h
    rcases claims_outcome (D := D) cfg ft st with h' | h'
    · rw [h'] at h; cases h
    · rw [h'] at h
      exact hw.mp ((C63_error_iff (watched_lawful hP) cfg ft (st, false) e).mp h)
  · intro h
    have hb : bufferSize = 36870 := rfl
    unfold fromClaims claimRead
    rw [hb]
    generalize D.read st 36870 = x at h
    rcases x with ⟨r, s⟩
    simp only at h
    subst h
    rfl

/-- C78, verdicts: whatever the device claims and does, a verdict is given only if the first read kept the contract, and it is
a format documented for its bytes. (The device has its own position, as in C63; without that, the readers that ask for
it must not take part.) -/
theorem C78_documented (hP : D.Patient) (cfg : Cfg) (ft : Features) (st : σ)
    (hA : (∃ position, (watched D).Positioned position) ∨
      ∀ g ∈ [Feature.asf, .ebml, .mp4, .rm], g.enabled ft = true →
        ∀ buf, (D.read st 36870).1 = .ok buf → ¬ Recognised buf g.base)
    (f : FileFormat) (h : (fromClaims D cfg ft st).1 = .ok f) :
    ∃ buf, (D.read st 36870).1 = .ok buf ∧ buf.length ≤ 36870 ∧ Documented ft buf f := by
  have hL := watched_lawful hP
  cases hx : D.read st 36870 with
  | mk r s =>
    cases r with
    | error e => rw [(C78_error_iff hP cfg ft st e).mpr (by rw [hx])] at h; cases h
    | ok buf =>
      refine ⟨buf, rfl, ?_⟩
      by_cases hlen : buf.length ≤ 36870
      · refine ⟨hlen, ?_⟩
        have hw : (watched D).read (st, false) 36870 = (.ok buf, (s, false)) := by
          simp only [watched, hx]
          rw [List.take_of_length_le hlen, decide_eq_false (by omega)]
          rfl
        have hQ : (∃ position, (watched D).Positioned position) ∨
            ∀ g ∈ Feature.structured, g.enabled ft = true → Recognised buf g.base → g.asksPosition = false := by
          refine hA.imp id fun hA g _ he hr => ?_
          cases ha : g.asksPosition with
          | false => rfl
          | true =>
            refine absurd hr (hA g ?_ he buf (by rw [hx]))
            revert ha; cases g <;> decide
        rcases claims_outcome (D := D) cfg ft st with h' | h'
        · rw [h'] at h; cases h
        · rw [h'] at h
          rcases device_outcome hL cfg ft (st, false) hw hQ with ⟨f', h1, h2⟩ | ⟨_, _, _, _, f', h1, _, _⟩
          · rw [h1] at h; cases h; exact h2
          · rw [h1] at h; cases h
      · rw [C78_first_read cfg ft st buf (by rw [hx]) (by omega)] at h
        cases h

/-- C78, at once: no call follows the one that claims too much; if there is one, the run ends in a panic. -/
theorem C78_at_once (cfg : Cfg) (ft : Features) (st : σ) :
    (fromClaims (tallied D) cfg ft (st, false, 0)).2.2.2 = 0 ∧
    ((fromClaims (tallied D) cfg ft (st, false, 0)).2.2.1 = true →
      (fromClaims (tallied D) cfg ft (st, false, 0)).1 = .error .panic) := by
  have hS : (tallied D).Steps (fun s => s.2.1 = false ∧ s.2.2 = 0) (fun s => s.2.1 = true ∧ s.2.2 = 0) := by
    constructor
    · rintro ⟨s, b, k⟩ n bs ⟨s', b', k'⟩ ⟨hb, hk⟩ h hl
      simp only at hb hk
      subst hb hk
      simp only [tallied] at h
      generalize D.read s n = x at h
      rcases x with ⟨r, t⟩
      cases r with
      | error e => cases h
      | ok cs => cases h; exact ⟨by simp; omega, rfl⟩
    · rintro ⟨s, b, k⟩ n bs ⟨s', b', k'⟩ ⟨hb, hk⟩ h hl
      simp only at hb hk
      subst hb hk
      simp only [tallied] at h
      generalize D.read s n = x at h
      rcases x with ⟨r, t⟩
      cases r with
      | error e => cases h
      | ok cs => cases h; exact ⟨by simp; omega, rfl⟩
    · rintro ⟨s, b, k⟩ n e ⟨s', b', k'⟩ ⟨hb, hk⟩ h
      simp only at hb hk
      subst hb hk
      simp only [tallied] at h
      generalize D.read s n = x at h
      rcases x with ⟨r, t⟩
      cases r with
      | error e => cases h; exact ⟨rfl, rfl⟩
      | ok cs => cases h
    · rintro ⟨s, b, k⟩ p r ⟨s', b', k'⟩ ⟨hb, hk⟩ h
      simp only at hb hk
      subst hb hk
      cases h
      exact ⟨rfl, rfl⟩
    · rintro ⟨s, b, k⟩ r ⟨s', b', k'⟩ ⟨hb, hk⟩ h
      simp only at hb hk
      subst hb hk
      cases h
      exact ⟨rfl, rfl⟩
  rcases ends_fromClaims hS cfg ft (st, false, 0) ⟨rfl, rfl⟩ with ⟨h1, h2⟩ | ⟨⟨h1, h2⟩, h3⟩
  · exact ⟨h2, fun h => by rw [h1] at h; cases h⟩
  · exact ⟨h2, fun _ => h3⟩

/-- C78, devices that keep the contract: the checks never fail. -/
theorem C78_lawful (hL : D.Lawful) (cfg : Cfg) (ft : Features) (st : σ) :
    fromClaims D cfg ft st = fromDevice D cfg ft st := fromClaims_lawful hL cfg ft st

-- Non-vacuity: `boasting data k` breaks the contract from its `k`-th call on.
theorem boasting_patient (data : Bytes) (k : Nat) : (boasting data k).Patient where
  read_patience := fun _ _ _ _ _ => Nat.le_refl _
  interrupted := by
    rintro ⟨t, p⟩ n s' h
    simp only [boasting] at h
    split at h <;> cases h
  seek_patience := fun _ _ _ _ _ => Nat.le_refl _
  tell_patience := fun _ _ _ _ => Nat.le_refl _

example : ¬ (boasting (b!"PK\x03\x04") 1).Lawful := fun h => by
  have := h.read_le (1, 0) 3 _ _ rfl
  revert this; decide

-- In the first call: a panic. (The number of bytes is not looked at by `decide`.)
example (data : Bytes) (st : Nat × Nat) : (fromClaims (boasting data 0) Cfg.release {} st).1 = .error .panic := by
  obtain ⟨t, p⟩ := st
  exact C78_first_read _ _ _ _ rfl (by rw [List.length_replicate]; omega)
-- In the second call, which is the first one of the reader for EBML: a panic. Without the reader there is no such call.
example : (fromDevice (watched (boasting (b!"\x1A\x45\xDF\xA3") 1)) Cfg.release { ebml := true } ((0, 0), false)).2.2 = true ∧
    (fromClaims (boasting (b!"\x1A\x45\xDF\xA3") 1) Cfg.release { ebml := true } (0, 0)).1 = .error .panic ∧
    (fromDevice (watched (boasting (b!"\x1A\x45\xDF\xA3") 1)) Cfg.release {} ((0, 0), false)).2.2 = false ∧
    (fromClaims (boasting (b!"\x1A\x45\xDF\xA3") 1) Cfg.release {} (0, 0)).1 = .ok ExtensibleBinaryMetaLanguage := by
  decide +kernel
-- The record of such a run: a claim, and no call after it.
example : (fromClaims (tallied (boasting (b!"\x1A\x45\xDF\xA3") 1)) Cfg.release { ebml := true } ((0, 0), false, 0)).2.2 =
    (true, 0) := by decide +kernel
-- Later than the last call: the verdict on the file.
example : (fromClaims (boasting (b!"\x1A\x45\xDF\xA3\x87\x42\x82\x84webm") 50) Cfg.release Features.all (0, 0)).1 =
    .ok Webm := by decide +kernel
-- A device that keeps the contract.
example : fromClaims (rewound (b!"\x1A\x45\xDF\xA3")) Cfg.release { ebml := true } 0 =
    fromDevice (rewound (b!"\x1A\x45\xDF\xA3")) Cfg.release { ebml := true } 0 :=
  C78_lawful (rewound_lawful _) _ _ _

end FF.Props
