import Verif.Proofs.Offsets
/-!
# DOS and Windows executables (C36)
-/

namespace FF.Props
open FF Spec FileFormat

theorem take_slice_two (b : Bytes) (off : Nat) (h : off + 4 ≤ b.length) :
    sliceIdx (slice b off 4) 0 2 = .ok (slice b off 2) := by
  rw [sliceIdx, if_pos ⟨by decide, by rw [length_slice_eq b off 4 h]; decide⟩]
  rw [List.drop_zero, slice, slice, List.take_take]
  rfl

theorem exe_head (b : Bytes) (hb : b.length < 2 ^ 63) (h : 64 ≤ b.length) (q : Nat) :
    run b (2 ^ 64 - 1) exeReader q = run b (2 ^ 64 - 1) (do
      if u32At b 60 + 4 < b.length then
        let _ ← Prog.sk (.start (u32At b 60))
        let signature ← readBytes 4
        if signature = b!"PE\x00\x00" then
          let _ ← Prog.sk (.current 18)
          let characteristics ← readU16le
          pure (if characteristics &&& 0x2000 = 0x2000 then DynamicLinkLibrary else PortableExecutable)
        else
          let two ← Prog.lift (sliceIdx signature 0 2)
          if two = b!"LE" ∨ two = b!"LX" then pure LinearExecutable
          else if two = b!"NE" then pure NewExecutable
          else pure MsDosExecutable
      else pure MsDosExecutable) 64 := by
  unfold exeReader
  rw [run_bind, run_sk_end _ (by omega), andThen_ok, run_bind, run_sk_start _ _ (by decide), andThen_ok,
    run_bind, run_u32le_ok (by omega), andThen_ok]

theorem exe_sig (b : Bytes) (hb : b.length < 2 ^ 63) (h : 64 ≤ b.length) (h4 : u32At b 60 + 4 < b.length) (q : Nat) :
    run b (2 ^ 64 - 1) exeReader q = run b (2 ^ 64 - 1) (do
        if slice b (u32At b 60) 4 = b!"PE\x00\x00" then
          let _ ← Prog.sk (.current 18)
          let characteristics ← readU16le
          pure (if characteristics &&& 0x2000 = 0x2000 then DynamicLinkLibrary else PortableExecutable)
        else
          let two ← Prog.lift (sliceIdx (slice b (u32At b 60) 4) 0 2)
          if two = b!"LE" ∨ two = b!"LX" then pure LinearExecutable
          else if two = b!"NE" then pure NewExecutable
          else pure MsDosExecutable) (u32At b 60 + 4) := by
  rw [exe_head b hb h, if_pos h4, run_bind, run_sk_start _ _ (by omega), andThen_ok, run_bind,
    run_readBytes_ok (by omega), andThen_ok]

theorem exe_two (b : Bytes) (hb : b.length < 2 ^ 63) (h : 64 ≤ b.length) (h4 : u32At b 60 + 4 < b.length) (q : Nat)
    (hpe : ¬ MagicAt (u32At b 60) b!"PE\x00\x00" b) :
    val (run b (2 ^ 64 - 1) exeReader q) = .ok
        (if slice b (u32At b 60) 2 = b!"LE" ∨ slice b (u32At b 60) 2 = b!"LX" then LinearExecutable
          else if slice b (u32At b 60) 2 = b!"NE" then NewExecutable
          else MsDosExecutable) := by
  rw [magicAt_slice (n := 4) rfl (by omega)] at hpe
  rw [exe_sig b hb h h4, if_neg hpe, take_slice_two b _ (by omega), run_bind, run_lift_ok, andThen_ok]
  split
  · rfl
  · split <;> rfl

theorem bit13 (v : Nat) : (v &&& 0x2000 = 0x2000) ↔ v.testBit 13 = true := by
  rw [show (0x2000 : Nat) = 2 ^ 13 from rfl, and_two_pow]
  cases v.testBit 13 <;> simp

/-- C36. With `reader-exe`, every input recognised by the `MZ`/`ZM` magic is classified by its extended
header, whose offset is stored at byte 60:
a file shorter than the DOS header is not an executable;
without a header after the DOS stub it is a DOS executable;
a PE signature makes it a DLL or a program, according to bit 13 of the characteristics (a file that
ends before them is not an executable); `LE` and `LX` make it a linear, `NE` a new executable;
anything else is a DOS executable. -/
theorem C36_executables (cfg : Cfg) (ft : Features) (b : Bytes) (hb : IsSlice b) (he : ft.exe = true)
    (hr : Recognised b MsDosExecutable) :
    (b.length < 64 → ∃ f, fromBytes cfg ft b = .ok f ∧ Generic ft b f) ∧
    (64 ≤ b.length →
      (b.length ≤ u32At b 60 + 4 → fromBytes cfg ft b = .ok MsDosExecutable) ∧
      (u32At b 60 + 4 < b.length →
        (MagicAt (u32At b 60) b!"PE\x00\x00" b →
          (b.length < u32At b 60 + 24 → ∃ f, fromBytes cfg ft b = .ok f ∧ Generic ft b f) ∧
          (u32At b 60 + 24 ≤ b.length →
            ((u16At b (u32At b 60 + 22)).testBit 13 = true → fromBytes cfg ft b = .ok DynamicLinkLibrary) ∧
            ((u16At b (u32At b 60 + 22)).testBit 13 = false →
              fromBytes cfg ft b = .ok PortableExecutable))) ∧
        (MagicAt (u32At b 60) b!"LE" b ∨ MagicAt (u32At b 60) b!"LX" b →
          fromBytes cfg ft b = .ok LinearExecutable) ∧
        (MagicAt (u32At b 60) b!"NE" b → fromBytes cfg ft b = .ok NewExecutable) ∧
        (¬ MagicAt (u32At b 60) b!"PE\x00\x00" b → ¬ MagicAt (u32At b 60) b!"LE" b →
          ¬ MagicAt (u32At b 60) b!"LX" b → ¬ MagicAt (u32At b 60) b!"NE" b →
          fromBytes cfg ft b = .ok MsDosExecutable))) := by
  have hb' : b.length < 2 ^ 63 := hb
  have hgen := fun e hv => recognised_error cfg ft b hb .exe (by decide) he hr e hv
  have hok := fun f hv => recognised_verdict cfg ft b hb .exe (by decide) he hr f hv
  have hprog : (readerOf cfg Feature.exe).2 = exeReader := rfl
  rw [hprog] at hgen hok
  refine ⟨fun h => ?_, fun h64 => ⟨fun h => ?_, fun h => ⟨fun hpe => ⟨fun hs => ?_, fun hs => ?_⟩, fun hle => ?_,
    fun hne => ?_, fun h1 h2 h3 h4 => ?_⟩⟩⟩
  · refine hgen .unexpectedEof ?_
    unfold exeReader
    rw [run_bind, run_sk_end _ (by omega), andThen_ok, run_bind, run_sk_start _ _ (by decide), andThen_ok,
      run_bind, run_u32le_eof (by omega), andThen_error]
    rfl
  · refine hok _ ?_
    rw [exe_head b hb' h64, if_neg (by omega)]
    rfl
  · refine hgen .unexpectedEof ?_
    rw [magicAt_slice (n := 4) rfl (by omega)] at hpe
    rw [exe_sig b hb' h64 h, if_pos hpe, run_bind, run_sk_current 18 _ (u32At b 60 + 22) (by omega) (by omega),
      andThen_ok, run_bind, run_u16le_eof (by omega), andThen_error]
    rfl
  · have hv : val (run b (2 ^ 64 - 1) exeReader 0) = .ok (if u16At b (u32At b 60 + 22) &&& 0x2000 = 0x2000
        then DynamicLinkLibrary else PortableExecutable) := by
      rw [magicAt_slice (n := 4) rfl (by omega)] at hpe
      rw [exe_sig b hb' h64 h, if_pos hpe, run_bind, run_sk_current 18 _ (u32At b 60 + 22) (by omega) (by omega),
        andThen_ok, run_bind, run_u16le_ok (by omega), andThen_ok, run_pure]
      rfl
    have hv := hok _ hv
    refine ⟨fun hbit => ?_, fun hbit => ?_⟩
    · rw [hv, if_pos ((bit13 _).mpr hbit)]
    · rw [hv, if_neg (fun hc => by rw [(bit13 _).mp hc] at hbit; cases hbit)]
  all_goals
    have hno : ∀ {m : Bytes}, m.length = 2 → MagicAt (u32At b 60) m b → m ≠ b!"PE" →
        ¬ MagicAt (u32At b 60) b!"PE\x00\x00" b := by
      intro m hm h1 h2 h3
      rw [magicAt_slice hm (by omega)] at h1
      rw [magicAt_slice (n := 4) rfl (by omega)] at h3
      have := take_slice_two b (u32At b 60) (by omega)
      rw [h3, h1] at this
      injection this with this
      exact h2 this.symm
  · rcases hle with hle | hle
    all_goals
      have hpe := hno rfl hle (by decide)
      rw [magicAt_slice (n := 2) rfl (by omega)] at hle
      rw [hok _ (exe_two b hb' h64 h 0 hpe), hle]
      rfl
  · have hpe := hno rfl hne (by decide)
    rw [magicAt_slice (n := 2) rfl (by omega)] at hne
    rw [hok _ (exe_two b hb' h64 h 0 hpe), hne]
    rfl
  · rw [magicAt_slice (n := 2) rfl (by omega)] at h2 h3 h4
    rw [hok _ (exe_two b hb' h64 h 0 h1), if_neg (fun h => h.elim h2 h3), if_neg h4]

/-- A DLL: header at 64, characteristics 0x2102. -/
def sampleDll : Bytes :=
  b!"MZ" ++ List.replicate 58 0 ++ b!"\x40\x00\x00\x00PE\x00\x00" ++ List.replicate 18 7 ++ b!"\x02\x21\x0b"

-- Non-vacuity.
example : Recognised sampleDll MsDosExecutable ∧ 64 ≤ sampleDll.length ∧ u32At sampleDll 60 = 64 ∧
    64 + 24 ≤ sampleDll.length ∧ (u16At sampleDll (64 + 22)).testBit 13 = true := by
  unfold Recognised; decide +kernel
example : MagicAt 64 b!"PE\x00\x00" sampleDll :=
  ⟨b!"MZ" ++ List.replicate 58 0 ++ b!"\x40\x00\x00\x00", List.replicate 18 7 ++ b!"\x02\x21\x0b", by decide, by decide⟩
example : fromBytes Cfg.release { exe := true } sampleDll = .ok DynamicLinkLibrary := by decide +kernel

end FF.Props
