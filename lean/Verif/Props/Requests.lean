import Verif.Proofs.Asks
import Verif.Props.Calls
/-!
# C38: what makes a request large
-/

namespace FF.Props
open FF FileFormat Spec

/-- C38, with a bound that the content sets: no request exceeds 65557 bytes or the greatest size that an entry of the
name `mimetype` declares, whatever the stream delivers. -/
theorem C38_bounded_partial (cfg : Cfg) (ft : Features) (s : Src) (hs : s.WF) (hb : IsSlice s.data) (W : Nat) (hW : 65557 ≤ W)
    (hm : ft.zip = true → ∀ p size, MimetypeAt s.data p size → size ≤ W)
    (calls : List Call) (hc : CallsBetween s (fromReader cfg ft s).2 calls) (n : Nat) (hn : Call.read n ∈ calls) : n ≤ W := by
  have hd : s.data.length < 2 ^ 63 := hb
  have := detection_spent (bad := Ev.disturbed) (T := 170) (W := W) cfg ft s hs
    (84486 + s.data.length)
    (fun s' h1 h2 => (txt_spentD s' h1).mono (Nat.le_trans (by decide) hW))
    (fun f s' h1 h2 h3 => by
      have hsp := reader_spentD cfg f s' h1 (by rw [h2]; exact hd)
      have hle : 84486 + (if f = .id3v2 then s'.data.length else 0) ≤ 84486 + s.data.length := by
        rw [h2]; split <;> omega
      by_cases hz : f = .zip
      · subst hz
        obtain ⟨N, h⟩ := asks_zipReader (b := true) (m := s'.maxPos) cfg rfl rfl hW (hm h3) s'.pos
          { src := s', buffered := true, buf := [] } (Rd.ok_fresh s' true h1) rfl h2 rfl rfl
        exact (Spent.both hsp h).le hle
      · refine (hsp.mono ?_).le hle
        have : largestRequest f = 65536 := by cases f <;> first | rfl | exact absurd rfl hz
        omega)
    (Nat.le_trans (by decide) hW)
  obtain ⟨l, h1, h2, h3⟩ := this
  have hl : l = calls := List.append_cancel_right (h1.symm.trans hc)
  subst hl
  exact h3 n hn

/-- C38, the exact cause of its violation: a request for more than 65557 bytes is made only with `reader-zip`, and only
where an entry of the name `mimetype` declares at least that size. -/
theorem C38_cause_partial (cfg : Cfg) (ft : Features) (s : Src) (hs : s.WF) (hb : IsSlice s.data)
    (calls : List Call) (hc : CallsBetween s (fromReader cfg ft s).2 calls) (n : Nat) (hn : Call.read n ∈ calls) (h : 65557 < n) :
    ft.zip = true ∧ ∃ p size, MimetypeAt s.data p size ∧ n ≤ size := by
  apply Classical.byContradiction
  intro hne
  have := C38_bounded_partial cfg ft s hs hb (n - 1) (by omega) (by
    intro hz p size hp
    by_cases hle : n ≤ size
    · exact absurd ⟨hz, p, size, hp, hle⟩ hne
    · omega) calls hc n hn
  omega

-- The archive that breaks C38 has such an entry, of exactly the size of the request.
example : MimetypeAt zipBomb 38 4294967295 := ⟨by decide +kernel, by decide +kernel, by decide +kernel, by decide +kernel⟩
-- An archive with a modest one: no entry of the name declares more than 70000 bytes, and that many are asked for.
def zipModest : Bytes :=
  b!"PK\x03\x04" ++ List.replicate 26 0 ++ b!"mimetype" ++
  b!"PK\x01\x02" ++ List.replicate 16 0 ++ leBytes 4 70000 ++ leBytes 4 70000 ++ b!"\x08\x00\x00\x00\x00\x00" ++
  List.replicate 8 0 ++ b!"\x00\x00\x00\x00mimetype" ++
  b!"PK\x05\x06\x00\x00\x00\x00\x01\x00\x01\x00\x36\x00\x00\x00\x26\x00\x00\x00\x00\x00"
example : ∀ p size, MimetypeAt zipModest p size → size ≤ 70000 := by
  intro p size h
  have hp : p < 114 := by
    apply Classical.byContradiction
    intro hn
    have := h.name
    unfold slice at this
    rw [List.drop_eq_nil_of_le (by rw [show zipModest.length = 114 by decide +kernel]; omega)] at this
    cases this
  have key : ∀ p < 114, slice zipModest (p + 46) 8 = b!"mimetype" → leNat (slice zipModest (p + 20) 4) ≤ 70000 := by
    decide +kernel
  rw [← h.compressed]
  exact key p hp h.name
example : Call.read 70000 ∈ (fromReader Cfg.release { zip := true } (cursor zipModest)).2.log := by decide +kernel

end FF.Props
