import Verif.Spec.Handles
import Verif.Props.Serve
import Verif.Props.Damaged
import Verif.Props.Metered
/-!
# C87: detections at the same time
-/

namespace FF.Props
open FF FileFormat Spec

variable {data : Bytes} {top i : Nat} {others : Nat → (Nat → Nat) → Nat → Nat}

theorem handle_lawful : (handle data top i others).Lawful where
  read_le := by
    intro s n bs s' h
    cases h
    rw [length_slice]
    omega
  read_patience := fun _ _ _ _ _ => Nat.le_refl _
  interrupted := by intro s n s' h; cases h
  seek_patience := fun _ _ _ _ _ => Nat.le_refl _
  tell_patience := fun _ _ _ _ => Nat.le_refl _

theorem handle_serves (ho : OwnHandle i others) :
    (handle data top i others).Serves data top (fun s => s.2 i) (fun _ => True) where
  read_ok := by
    intro s n bs s' _ h
    cases h
    simp only [ho s.1 s.2, if_true]
    refine ⟨by rw [length_slice]; omega, slice_length_self _ _ _, fun h => ?_, trivial⟩
    have := congrArg List.length h
    rw [length_slice, List.length_nil] at this
    omega
  seek_ok := by
    intro s p q s' _ h
    simp only [handle, ho s.1 s.2] at h
    split at h
    · rename_i h'; cases h; exact ⟨h', if_pos rfl⟩
    · cases h
  tell_ok := by intro s q s' _ h; cases h; exact ⟨ho s.1 s.2, ho s.1 s.2⟩
  read_error := by intro s n e s' _ h; cases h
  seek_error := by
    intro s p e s' _ h
    simp only [handle] at h
    split at h
    · cases h
    · cases h; exact ho s.1 s.2
  tell_error := by intro s e s' _ h; cases h
  read_inv := fun _ _ _ => trivial
  seek_inv := fun _ _ _ => trivial
  tell_inv := fun _ _ => trivial

theorem handle_reliable (ho : OwnHandle i others) (may : ErrKind → Prop) :
    (handle data top i others).Reliable data top (fun s => s.2 i) (fun _ => True) may where
  read := by intro s n e s' _ h; cases h
  seek := by
    intro s p e s' _ h
    simp only [handle, ho s.1 s.2] at h
    split at h
    · cases h
    · rename_i h'; cases h; exact ⟨rfl, h'⟩
  tell := by intro s e s' _ h; cases h

theorem handle_full (ho : OwnHandle i others) : (handle data top i others).Full data (fun s => s.2 i) (fun _ => True) := by
  intro s n bs s' _ h
  cases h
  simp only [ho s.1 s.2]

/-- C87: with a handle of its own a detection gets the verdict it would get alone, whatever others do with theirs at the
same time, and however their calls fall between its own. -/
theorem C87_alone (ho : OwnHandle i others) (cfg : Cfg) (ft : Features) (t : Nat) (positions : Nat → Nat)
    (hd : data.length ≤ top) (hp : positions i ≤ top) :
    (fromDevice (handle data top i others) cfg ft (t, positions)).1 =
      (fromDevice (handle data top i (fun _ p => p)) cfg ft (0, positions)).1 :=
  C82_same handle_lawful (handle_serves ho) (handle_reliable ho _) (handle_full ho)
    handle_lawful (handle_serves fun _ _ => rfl) (handle_reliable (fun _ _ => rfl) _) (handle_full fun _ _ => rfl)
    cfg ft (t, positions) (0, positions) trivial trivial rfl hd hp

/-- C87: at the start of the file that is the verdict of `from_bytes` on the content (for a file whose positions, as in
memory, go up to `2^64 - 1`). -/
theorem C87_from_bytes (ho : OwnHandle i others) (cfg : Cfg) (ft : Features) (t : Nat) (positions : Nat → Nat)
    (hl : IsSlice data) (hp : positions i = 0) :
    (fromDevice (handle data (2 ^ 64 - 1) i others) cfg ft (t, positions)).1 = fromBytes cfg ft data :=
  C82_full handle_lawful (handle_serves ho) (handle_reliable ho _) (handle_full ho) cfg ft (t, positions) trivial hl hp

/-- C87: with any largest position it is the specified one, on the content, for the first 36870 bytes from the position of
the handle. -/
theorem C87_verdict (ho : OwnHandle i others) (ft : Features) (t : Nat) (positions : Nat → Nat)
    (hl : IsSlice data) (hd : data.length ≤ top) (hp : positions i ≤ top) :
    ∃ r, ∀ f, (fromDevice (handle data top i others) Cfg.release ft (t, positions)).1 = .ok f ↔
      VerdictOn ft (slice data (positions i) 36870) data top r f := by
  obtain ⟨w, r, hw, h⟩ := C82_verdict handle_lawful (handle_serves ho) (handle_reliable ho _) ft (t, positions) trivial hl hd hp
  have : w = slice data (positions i) 36870 := by
    simp only [handle, ho t positions, Except.ok.injEq] at hw
    exact hw.symm
  subst this
  exact ⟨r, h⟩

/-- C87: a detection leaves the handles of others where they are. -/
theorem C87_others (cfg : Cfg) (ft : Features) (t : Nat) (positions : Nat → Nat) (j : Nat) (hj : j ≠ i) :
    (fromDevice (handle data top i (fun _ p => p)) cfg ft (t, positions)).2.2 j = positions j := by
  refine C86_keeps (limit := 2 ^ 32) (ok := fun s => s.2 j = positions j) handle_lawful ⟨?_, ?_, ?_⟩ (by decide) cfg ft
    (t, positions) (fun _ _ _ _ => by decide) rfl
  · intro s n _ h
    simp only [handle, if_neg hj]
    exact h
  · intro s p h
    simp only [handle]
    split
    · simp only [if_neg hj]
      exact h
    · exact h
  · intro s h
    exact h

/-! ## Non-vacuity -/

/-- Another thread with handle 2 examines the whole file whenever it can. -/
def busy (data : Bytes) : Nat → (Nat → Nat) → Nat → Nat := fun t positions =>
  (fromDevice (handle data 1000 2 (fun _ p => p)) Cfg.release Features.all (t, fun j => if j = 2 then 0 else positions j)).2.2

theorem busy_own (data : Bytes) : OwnHandle 1 (busy data) := by
  intro t positions
  unfold busy
  rw [C87_others _ _ _ _ _ (by decide)]
  rfl

-- Two detections on an ID3v2 tag before FLAC data, each on a handle of its own.
example (data : Bytes) (hl : IsSlice data) (cfg : Cfg) (ft : Features) :
    (fromDevice (handle data (2 ^ 64 - 1) 1 (busy data)) cfg ft (0, fun _ => 0)).1 = fromBytes cfg ft data :=
  C87_from_bytes (busy_own data) cfg ft 0 _ hl rfl
example : (fromDevice (handle (b!"ID3\x04\x00\x00\x00\x00\x00\x00fLaC\x00\x00\x00\x00\x00\x00\x00") 1000 1
      (busy (b!"ID3\x04\x00\x00\x00\x00\x00\x00fLaC\x00\x00\x00\x00\x00\x00\x00"))) Cfg.release { id3v2 := true } (0, fun _ => 0)).1 =
    .ok FreeLosslessAudioCodec := by decide +kernel
-- With a handle that is shared the other thread is in the way.
example : (fromDevice (handle (b!"ID3\x04\x00\x00\x00\x00\x00\x00fLaC\x00\x00\x00\x00\x00\x00\x00") 1000 2
      (busy (b!"ID3\x04\x00\x00\x00\x00\x00\x00fLaC\x00\x00\x00\x00\x00\x00\x00"))) Cfg.release { id3v2 := true } (0, fun _ => 0)).1 ≠
    .ok FreeLosslessAudioCodec := by decide +kernel

end FF.Props
