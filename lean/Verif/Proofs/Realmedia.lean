import Verif.Spec.Realmedia
import Verif.Proofs.Parse
/-!
# The RealMedia reader on encoded files
-/

namespace FF
open Spec FileFormat

theorem startsWith_iff {s p : Bytes} : startsWith s p = true ↔ p <+: s := by
  unfold startsWith; exact List.isPrefixOf_iff_prefix

/-- What the chunk loop answers after seeing the given flags. -/
def rmVerdict (audio video : Bool) : FileFormat :=
  if video then Realvideo else if audio then Realaudio else Realmedia

theorem leBytes_one (n : Nat) : leBytes 1 n = [UInt8.ofNat (n % 256)] := rfl

open Classical in
theorem rmLoop_run (d : Bytes) (m : Nat) (hm : d.length ≤ m) (chunks : List RmChunk)
    (hc : ∀ c ∈ chunks, c.Valid) (rest : Bytes) (p : Nat)
    (h : At d p (chunks.flatMap RmChunk.encode ++ rest)) (audio video : Bool) :
    val (run d m (rmLoop chunks.length audio video) p) = .ok (rmVerdict
      (audio || decide (∃ c ∈ chunks, c.HasMime b!"audio/"))
      (video || decide (∃ c ∈ chunks, c.HasMime b!"video/"))) := by
  induction chunks generalizing p audio video with
  | nil => simp [rmLoop, rmVerdict, val]
  | cons c chunks ih =>
    have hv := hc c (by simp)
    rw [List.flatMap_cons, RmChunk.encode, List.append_assoc, List.append_assoc, List.append_assoc] at h
    have ht : c.type.length = 4 := by
      cases c with
      | mediaProperties => rfl
      | other t b => exact hv.2.1
    have hsz := hv.1
    have h1 := h.skip' ht
    have h2 := h1.skip' (length_beBytes 4 _)
    have h3 := h2.skip
    have hnext := ih (fun c hc' => hc c (by simp [hc'])) _ h3
    rw [List.length_cons, rmLoop]
    rw [run_bind, h.readBytes ht, andThen_ok, run_bind, h1.readU32be hsz, andThen_ok]
    have hback : (((8 + c.body.length : Nat) : Int) - 8) = (c.body.length : Nat) := by omega
    cases c with
    | mediaProperties fixed name mime tail =>
      obtain ⟨_, hfix, hname, hmime⟩ := hv
      rw [if_pos (show (RmChunk.mediaProperties fixed name mime tail).type = b!"MDPR" from rfl)]
      have g0 : At d (p + 4 + 4) (fixed ++ (leBytes 1 name.length ++ (name ++ (leBytes 1 mime.length ++
          (mime ++ (tail ++ (chunks.flatMap RmChunk.encode ++ rest))))))) := by
        simpa only [RmChunk.body, List.append_assoc] using h2
      have g1 := g0.skip
      have g2 := g1.skip' (length_leBytes 1 _)
      have g3 := g2.skip
      have g4 := g3.skip' (length_leBytes 1 _)
      have hl := h2.len
      rw [run_bind, run_pos, andThen_ok, run_bind, g0.sk (by omega) hm, andThen_ok, run_bind]
      rw [leBytes_one] at g1
      rw [At.readU8 g1, andThen_ok, run_bind, g2.sk _ hm, andThen_ok, run_bind]
      · rw [leBytes_one] at g3
        rw [At.readU8 g3, andThen_ok]
        have hmt : (UInt8.ofNat (mime.length % 256)).toNat = mime.length := by
          rw [toNat_ofNat_lt (by omega)]; omega
        rw [run_bind, g4.readBytes hmt.symm, andThen_ok, run_bind, run_sk_start _ _ (by omega), andThen_ok,
          run_bind, h2.sk hback hm, andThen_ok, hnext]
        congr 2
        · by_cases ha : startsWith mime b!"audio/" = true
          · have : ∃ c ∈ RmChunk.mediaProperties fixed name mime tail :: chunks, c.HasMime b!"audio/" :=
              ⟨.mediaProperties fixed name mime tail, by simp, startsWith_iff.mp ha⟩
            rw [if_pos ha, Bool.true_or, decide_eq_true this, Bool.or_true]
          · have hna : ¬ RmChunk.HasMime b!"audio/" (.mediaProperties fixed name mime tail) :=
              fun h => ha (startsWith_iff.mpr h)
            rw [if_neg ha]
            congr 1
            refine decide_eq_decide.mpr ?_
            simp only [List.mem_cons, exists_eq_or_imp, hna, false_or]
        · by_cases ha : startsWith mime b!"audio/" = true
          · rw [if_pos ha]
            have hna : ¬ RmChunk.HasMime b!"video/" (.mediaProperties fixed name mime tail) := by
              intro h
              obtain ⟨r, hr⟩ := startsWith_iff.mp ha
              obtain ⟨r', hr'⟩ := h
              rw [← hr'] at hr
              simp at hr
            congr 1
            refine decide_eq_decide.mpr ?_
            simp only [List.mem_cons, exists_eq_or_imp, hna, false_or]
          · rw [if_neg ha]
            by_cases hb : startsWith mime b!"video/" = true
            · have : ∃ c ∈ RmChunk.mediaProperties fixed name mime tail :: chunks, c.HasMime b!"video/" :=
                ⟨.mediaProperties fixed name mime tail, by simp, startsWith_iff.mp hb⟩
              rw [if_pos hb, Bool.true_or, decide_eq_true this, Bool.or_true]
            · have hna : ¬ RmChunk.HasMime b!"video/" (.mediaProperties fixed name mime tail) :=
                fun h => hb (startsWith_iff.mpr h)
              rw [if_neg hb]
              congr 1
              refine decide_eq_decide.mpr ?_
              simp only [List.mem_cons, exists_eq_or_imp, hna, false_or]
      · rw [toNat_ofNat_lt (by omega)]; omega
    | other t body =>
      rw [if_neg (show ¬ (RmChunk.other t body).type = b!"MDPR" from hv.2.2)]
      rw [run_bind, h2.sk hback hm, andThen_ok, hnext]
      congr 2
      · congr 1
        refine decide_eq_decide.mpr ?_
        simp only [List.mem_cons, exists_eq_or_imp, RmChunk.HasMime, false_or]
      · congr 1
        refine decide_eq_decide.mpr ?_
        simp only [List.mem_cons, exists_eq_or_imp, RmChunk.HasMime, false_or]

open Classical in
theorem rmReader_run (m : Nat) (header : Bytes) (n : Nat) (chunks : List RmChunk) (rest : Bytes)
    (hh : header.length = 14) (hn : n < 2 ^ 32) (hk : chunks.length = min 64 (n - 1))
    (hc : ∀ c ∈ chunks, c.Valid) (hm : (rmFile header n chunks rest).length ≤ m) (q : Nat) :
    val (run (rmFile header n chunks rest) m rmReader q) = .ok (rmVerdict
      (decide (∃ c ∈ chunks, c.HasMime b!"audio/")) (decide (∃ c ∈ chunks, c.HasMime b!"video/"))) := by
  have h0 : At (rmFile header n chunks rest) 14 (beBytes 4 n ++ (chunks.flatMap RmChunk.encode ++ rest)) :=
    At.of_append' hh.symm
  have hl := h0.len
  have h1 := h0.skip' (length_beBytes 4 n)
  have := rmLoop_run _ m hm chunks hc rest _ h1 false false
  unfold rmReader
  rw [run_bind, run_sk_start _ _ (by omega), andThen_ok, run_bind, h0.readU32be hn, andThen_ok]
  rw [hk] at this
  rw [Bool.false_or, Bool.false_or] at this
  exact this

end FF
