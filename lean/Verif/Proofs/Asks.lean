import Verif.Proofs.Target32
import Verif.Spec.Mimetype
/-!
# Requests on a content
-/

namespace FF
open FileFormat Spec

theorem Spent.both {bad : Ev → Bool} {N M W V : Nat} {s s' : Src} (h : Spent bad N W s s') (k : Spent bad M V s s') :
    Spent bad N V s s' := by
  obtain ⟨l, h1, h2, h3⟩ := h
  obtain ⟨l', k1, k2, k3⟩ := k
  have : l' = l := List.append_cancel_right (k1.symm.trans h1)
  subst this
  exact ⟨l', h1, h2, k3⟩

/-- From position `q` of a stream with content `d` the program asks for at most `W` bytes at once. -/
def AsksAt {α : Type} (b : Bool) (d : Bytes) (m W : Nat) (p : Prog α) (q : Nat) : Prop :=
  ∀ s : Rd, s.Ok → s.buffered = b → s.src.data = d → s.src.maxPos = m → s.lpos = q →
    ∃ N, Spent Ev.disturbed N W s.src (exec p s).2.src

variable {α β : Type} {b : Bool} {d : Bytes} {m W q : Nat}

theorem AsksAt.bind {p : Prog α} {f : α → Prog β} (h : AsksAt b d m W p q) (hp : Exact b p)
    (hf : ∀ a q', run d m p q = .ok (a, q') → AsksAt b d m W (f a) q') : AsksAt b d m W (p >>= f) q := by
  intro s hs hb hd hm hq
  obtain ⟨N, h1⟩ := h s hs hb hd hm hq
  rw [exec_bind]
  cases hx : exec p s with
  | mk r t =>
    rw [hx] at h1
    cases r with
    | error e => exact ⟨N, h1⟩
    | ok a =>
      obtain ⟨r1, r2, r3, r4⟩ := exec_ok_run p s hs (hb ▸ hp) a t hx
      rw [hd, hm, hq] at r1
      obtain ⟨M, h2⟩ := hf a t.lpos r1 t r3 (r4.trans hb) (r2.data.trans hd) (r2.maxPos.trans hm) rfl
      exact ⟨N + M, h1.trans h2⟩

theorem AsksAt.of_all {n k : Nat} {F : Fail → Prop} {Q : α → Prop} {p : Prog α} (h : All (OpEx false n) F Q p k)
    (hW : bufCapacity ≤ W) (hn : n ≤ W) : AsksAt b d m W p q := by
  intro s hs _ _ _ _
  refine ⟨k * 2, h.spentD hW s hs ?_ ?_ ?_⟩
  · intro o ho
    cases o <;> simp_all [OpEx, Op.exact, Op.untilBuffered]
  · intro o ho
    cases o <;> simp_all [OpEx, Op.size, Op.request] <;> omega
  · intro o ho
    cases o with
    | readExact m => exact Nat.le_refl _
    | read m => exact absurd ho.1 (by simp [Op.exact])
    | seek p => exact Nat.le_refl _
    | tell => exact Nat.le_succ _
    | readUntil m => exact absurd ho.1 (by simp [Op.exact])

theorem asks_pure (a : α) : AsksAt b d m W (Pure.pure a : Prog α) q := fun s _ _ _ _ _ => ⟨0, Spent.refl _⟩
theorem asks_throw (e : ErrKind) : AsksAt b d m W (Prog.throwErr e : Prog α) q := fun s _ _ _ _ _ => ⟨0, Spent.refl _⟩
theorem asks_lift (x : Except Fail α) : AsksAt b d m W (Prog.lift x) q := by cases x <;> exact fun s _ _ _ _ _ => ⟨0, Spent.refl _⟩

theorem asks_sk (hW : bufCapacity ≤ W) (p : SeekFrom) : AsksAt b d m W (Prog.sk p) q :=
  AsksAt.of_all (n := 0) (k := 1) (F := fun _ => True) (Q := fun _ => True) ⟨opEx_seek _ _ _, Nat.one_pos, fun _ => trivial⟩
    hW (Nat.zero_le _)

theorem asks_rdExact {f : Bytes → α} (hW : bufCapacity ≤ W) {n : Nat} (hn : n ≤ W) :
    AsksAt b d m W (Prog.rdExact n >>= fun x => Pure.pure (f x)) q :=
  AsksAt.of_all (n := n) (k := 1) (F := fun _ => True) (Q := fun _ => True)
    ⟨(opEx_readExact _ _ _).mpr (Nat.le_refl _), Nat.one_pos, fun _ _ => trivial⟩ hW hn

theorem asks_readBytes (hW : bufCapacity ≤ W) {n : Nat} (hn : n ≤ W) : AsksAt b d m W (readBytes n) q :=
  AsksAt.of_all (n := n) (k := 1) (F := fun _ => True) (Q := fun _ => True)
    ⟨(opEx_readExact _ _ _).mpr (Nat.le_refl _), Nat.one_pos, fun _ _ => trivial⟩ hW hn

/-- Along the directory, only the content of a `mimetype` entry is asked for in one go. -/
theorem asks_zipEntries (hW : 65557 ≤ W) (hmt : ∀ p size, MimetypeAt d p size → size ≤ W) (n : Nat) (fmt : FileFormat) (q : Nat) :
    AsksAt b d m W (zipEntries n fmt) q := by
  have hb : bufCapacity ≤ W := Nat.le_trans (by decide) hW
  induction n generalizing fmt q with
  | zero => exact asks_pure _
  | succ n ih =>
    unfold zipEntries
    refine AsksAt.bind (asks_sk hb _) (by exactly) fun a q1 h1 => ?_
    refine AsksAt.bind (asks_rdExact hb (by omega)) exact_readU32le fun cs q2 h2 => ?_
    refine AsksAt.bind (asks_rdExact hb (by omega)) exact_readU32le fun us q3 h3 => ?_
    refine AsksAt.bind (asks_rdExact hb (by omega)) exact_readU16le fun fl q4 h4 => ?_
    refine AsksAt.bind (asks_rdExact hb (by omega)) exact_readU16le fun el q5 h5 => ?_
    refine AsksAt.bind (asks_rdExact hb (by omega)) exact_readU16le fun cl q6 h6 => ?_
    refine AsksAt.bind (asks_sk hb _) (by exactly) fun c q7 h7 => ?_
    refine AsksAt.bind (asks_rdExact hb (by omega)) exact_readU32le fun off q8 h8 => ?_
    have p1 := Target32.sk_current_inv h1
    obtain ⟨hcs, p2⟩ := Target32.bytes_inv (g := leNat) h2
    obtain ⟨hus, p3⟩ := Target32.bytes_inv (g := leNat) h3
    obtain ⟨hfl, p4⟩ := Target32.bytes_inv (g := leNat) h4
    obtain ⟨_, p5⟩ := Target32.bytes_inv (g := leNat) h5
    obtain ⟨_, p6⟩ := Target32.bytes_inv (g := leNat) h6
    have p7 := Target32.sk_current_inv h7
    obtain ⟨_, p8⟩ := Target32.bytes_inv (g := leNat) h8
    have hflt := leNat_slice d q3 2
    rw [← hfl] at hflt
    refine AsksAt.bind (p := readString fl) (asks_rdExact hb (by omega)) (by exactly) fun name q9 h9 => ?_
    cases zipNames.lookup name with
    | some f => exact asks_pure _
    | none =>
      simp only
      split
      · exact AsksAt.bind (asks_sk hb _) (by exactly) fun _ _ _ => ih _ _
      · split
        · rename_i hc
          have hle : cs ≤ W := by
            simp only [FF.readString, run_bind] at h9
            cases hr : run d m (FF.readBytes fl) q8 with
            | error e => rw [hr] at h9; cases h9
            | ok x =>
              obtain ⟨x, q10⟩ := x
              rw [hr] at h9
              simp only [andThen_ok, run_pure] at h9
              obtain ⟨hx, _, hl⟩ := Target32.readBytes_inv hr
              have hname : x = b!"mimetype" := by
                have : decodeLossy x = s!!"mimetype" := by rw [← hc.1]; cases h9; rfl
                exact (lossy_eq b!"mimetype" (by decide) x).mp this
              have hfl8 : fl = 8 := by
                have h0 := congrArg List.length hname
                rw [hx, length_slice] at h0
                have : (b!"mimetype" : Bytes).length = 8 := rfl
                omega
              have hq8 : q8 = q + 46 := by omega
              have hq3 : q3 = q + 28 := by omega
              have hq2 : q2 = q + 24 := by omega
              have hq1 : q1 = q + 20 := by omega
              have h0 := hc.2
              rw [hcs, hus, hq1, hq2] at h0
              rw [hcs, hq1]
              exact hmt q _ ⟨by rw [← hq3, ← hfl, hfl8], by rw [← hq8, ← hname, hx, hfl8], rfl, h0.symm⟩
          exact AsksAt.of_all (zipMimetype_all (b := false) _ _ W hW hle (fun _ => True)) hb (Nat.le_refl _)
        · cases zipPatterns name with
          | some f => exact asks_pure _
          | none => exact AsksAt.bind (asks_sk hb _) (by exactly) fun _ _ _ => ih _ _

theorem asks_zipReader (cfg : Cfg) {M : Nat} (hM : zipEocdMaxSize = M) (h65 : M = 65557) (hW : M ≤ W)
    (hmt : ∀ p size, MimetypeAt d p size → size ≤ W) (q : Nat) : AsksAt b d m W (zipReader cfg) q := by
  have hb : bufCapacity ≤ W := Nat.le_trans (by rw [h65]; decide) hW
  have h22 : zipEocdMinSize = 22 := rfl
  unfold zipReader
  rw [hM]
  refine AsksAt.bind (asks_sk hb _) (by exactly) fun len q1 _ => ?_
  refine AsksAt.bind (asks_sk hb _) (by exactly) fun _ q2 _ => ?_
  refine AsksAt.bind (asks_readBytes hb (by omega)) (by exactly) fun buf q3 _ => ?_
  refine AsksAt.bind (asks_lift _) (by exactly) fun found q4 _ => ?_
  cases found with
  | none => exact asks_throw _
  | some i =>
    simp only
    refine AsksAt.bind (asks_lift _) (by exactly) fun e q5 _ => ?_
    refine AsksAt.bind (AsksAt.of_all (zipIsZip64_all (b := false) _ 8 (Nat.le_refl _) (fun _ => True)) hb (by omega)) (by exactly)
      fun z q6 _ => ?_
    refine AsksAt.bind (AsksAt.of_all (zipEnd_all (b := false) cfg _ _ 8 (Nat.le_refl _)) hb (by omega)) (by exactly) fun dir q7 _ => ?_
    exact AsksAt.bind (asks_sk hb _) (by exactly) fun _ q8 _ => asks_zipEntries (by omega) hmt _ _ _

end FF
