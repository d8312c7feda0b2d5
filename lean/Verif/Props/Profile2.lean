import Verif.Proofs.Profile2
import Verif.Props.Buffered
import Verif.Props.Damaged
import Verif.Spec.Traced
import Verif.Props.Claim
/-!
# Debug and release builds on any `Read + Seek` (C46), and on a `BufReader` (C83)
-/

namespace FF.Props
open FF FileFormat Spec

/-- C46. On every implementation of `Read + Seek`, whatever it does: a build with overflow checks panics, or returns what the
release build returns and leaves the implementation in the same state. -/
theorem C46_device {σ : Type} (D : Device σ) (ft : Features) (st : σ) :
    (fromDevice D Cfg.debug ft st).1 = .error .panic ∨ fromDevice D Cfg.debug ft st = fromDevice D Cfg.release ft st :=
  fromDevice_profile D ft st

/-- C46, also if the implementation claims to have read more than there was room for. -/
theorem C46_claims {σ : Type} (D : Device σ) (ft : Features) (st : σ) :
    (fromClaims D Cfg.debug ft st).1 = .error .panic ∨ fromClaims D Cfg.debug ft st = fromClaims D Cfg.release ft st :=
  fromClaims_profile D ft st

-- Both cases occur: an MP4 box with a size that overflows, and a small executable.
example : (fromDevice (traced (b!"\x00\x00\x00\x18ftypmp42\x00\x00\x00\x00mp42isom" ++
      b!"\x00\x00\x00\x01free\x80\x00\x00\x00\x00\x00\x00\x00") 1000) Cfg.debug { mp4 := true } (0, fun _ => false)).1 =
    .error .panic := by decide +kernel

example : (fromDevice (traced b!"MZ" 1000) Cfg.debug { mp4 := true } (0, fun _ => false)).1 = .ok MsDosExecutable := by
  decide +kernel

variable {σ : Type} {D : Device σ} {data : Bytes} {top : Nat} {position : σ → Nat} {I : σ → Prop} {cap : Nat}

/-- What the first read on a `BufReader` delivers. -/
theorem bufReader_window (hS : D.Serves data top position I)
    (hR : D.Reliable data top position I (fun _ => False)) (hF : D.Full data position I) (hc : 0 < cap)
    (s : σ × Bytes) (hB : Buffered data top position I s) (hd : data.length ≤ top) :
    ((bufReader cap D).read s 36870).1 = .ok (bufWindow data position s) := by
  cases hx : (bufReader cap D).read s 36870 with
  | mk r s' =>
    obtain ⟨_, _, _, h4, _, h6, h7⟩ := bufReader_read hS hd hc s hB 36870 hx
    unfold bufWindow
    cases r with
    | error e => exact (h4 _ hR e rfl).elim
    | ok bs =>
      by_cases he : s.2 = []
      · rw [if_pos he, h7 he hF bs rfl]
        unfold bufPosition
        rw [he]
        rfl
      · rw [if_neg he]
        exact h6 he

/-- C83 in builds with overflow checks: on a `BufReader` they panic exactly if what is left in the buffer calls for a reader whose
arithmetic overflows on the content. -/
theorem C83_panics_iff (hL : D.Lawful) (hS : D.Serves data top position I)
    (hR : D.Reliable data top position I (fun _ => False)) (hF : D.Full data position I) (hc : 0 < cap) (ft : Features)
    (s : σ × Bytes) (hB : Buffered data top position I s) (hl : IsSlice data) (hd : data.length ≤ top) :
    (fromDevice (bufReader cap D) Cfg.debug ft s).1 = .error .panic ↔ OverflowOn ft (bufWindow data position s) data top := by
  obtain ⟨w, h1, h2⟩ := C82_panics_iff (bufReader_lawful cap hL) (bufReader_serves hS hd hc) (bufReader_reliable hS hd hc hR) ft s hB
    hl hd (Nat.le_trans (Nat.sub_le _ _) hB.2.1)
  rw [bufReader_window hS hR hF hc s hB hd] at h1
  cases h1
  exact h2

/-- C83. An empty buffer, in every build: a new `BufReader` makes no difference. -/
theorem C83_fresh_checked_partial (hL : D.Lawful) (hS : D.Serves data top position I)
    (hR : D.Reliable data top position I (fun _ => False)) (hF : D.Full data position I) (hc : 0 < cap) (ft : Features)
    (st : σ) (hI : I st) (hp : position st ≤ top) (hl : IsSlice data) (ht : 2 ^ 63 - 1 ≤ top)
    (hpdf : ft.pdf = true → cap ≤ 32768 ∨ data.length ≤ 33554432) :
    (fromDevice (bufReader cap D) Cfg.debug ft (st, [])).1 = (fromDevice D Cfg.debug ft st).1 := by
  have hl' : data.length < 2 ^ 63 := hl
  have hd : data.length ≤ top := by omega
  have hB : Buffered data top position I (st, []) := ⟨hI, hp, Nat.zero_le _, by simp [slice]⟩
  have h1 := C83_panics_iff hL hS hR hF hc ft (st, []) hB hl hd
  obtain ⟨w, hw, h2⟩ := C82_panics_iff hL hS hR ft st hI hl hd hp
  have hw' : w = bufWindow data position (st, []) := by
    cases hx : D.read st 36870 with
    | mk r st' =>
      rw [hx] at hw
      cases hw
      exact hF _ _ _ _ hI hx
  subst hw'
  have h3 := C83_fresh_partial hL hS hR hF hc ft st hI hp hl ht hpdf
  rcases C46_device (bufReader cap D) ft (st, []) with h | h
  · rw [h, (h2.2 (h1.1 h))]
  · rcases C46_device D ft st with h' | h'
    · rw [h', (h1.2 (h2.1 h'))]
    · rw [h, h', h3]

end FF.Props
