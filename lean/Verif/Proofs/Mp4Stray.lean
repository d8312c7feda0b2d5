import Verif.Proofs.Mp4
/-!
# The MP4 reader on files with stray bytes behind boxes with 64-bit sizes
-/

namespace FF
open Spec FileFormat

variable {stray : Mp4Box → Bytes}

/-- The bytes of a box up to its first child. -/
def shallowStray (stray : Mp4Box → Bytes) : Mp4Box → Bytes
  | .container wide type children => mp4Header wide type (Mp4Box.encodeAllStray stray children).length
  | b => b.encode ++ stray b

mutual
theorem encodeStray_visit : ∀ b : Mp4Box, b.encodeStray stray = b.visit.flatMap (shallowStray stray)
  | .container wide type children => by
    rw [Mp4Box.encodeStray, Mp4Box.visit, List.flatMap_cons, encodeAllStray_visitAll children]
    simp [shallowStray, encodeAllStray_visitAll children]
  | .handler .. => by simp [Mp4Box.visit, shallowStray, Mp4Box.encodeStray]
  | .other .. => by simp [Mp4Box.visit, shallowStray, Mp4Box.encodeStray]
theorem encodeAllStray_visitAll : ∀ bs : List Mp4Box,
    Mp4Box.encodeAllStray stray bs = (Mp4Box.visitAll bs).flatMap (shallowStray stray)
  | [] => by simp [Mp4Box.encodeAllStray, Mp4Box.visitAll]
  | b :: bs => by
    rw [Mp4Box.encodeAllStray, Mp4Box.visitAll, List.flatMap_append, encodeStray_visit b, encodeAllStray_visitAll bs]
end

mutual
theorem visit_length_stray : ∀ (b : Mp4Box) (w : Bool) (t : Bytes) (c : List Mp4Box), Mp4Box.container w t c ∈ b.visit →
    (Mp4Box.encodeAllStray stray c).length ≤ (b.encodeStray stray).length
  | .container wide type children, w, t, c, h => by
    rw [Mp4Box.visit, List.mem_cons] at h
    rw [Mp4Box.encodeStray, List.length_append]
    rcases h with h | h
    · cases h; omega
    · have := visitAll_length_stray children w t c h; omega
  | .handler .., w, t, c, h => by simp [Mp4Box.visit] at h
  | .other .., w, t, c, h => by simp [Mp4Box.visit] at h
theorem visitAll_length_stray : ∀ (bs : List Mp4Box) (w : Bool) (t : Bytes) (c : List Mp4Box),
    Mp4Box.container w t c ∈ Mp4Box.visitAll bs →
      (Mp4Box.encodeAllStray stray c).length ≤ (Mp4Box.encodeAllStray stray bs).length
  | [], w, t, c, h => by simp [Mp4Box.visitAll] at h
  | b :: bs, w, t, c, h => by
    rw [Mp4Box.visitAll, List.mem_append] at h
    rw [Mp4Box.encodeAllStray, List.length_append]
    rcases h with h | h
    · have := visit_length_stray b w t c h; omega
    · have := visitAll_length_stray bs w t c h; omega
end

/-- The length of a header. -/
theorem mp4Header_length (wide : Bool) (type : Bytes) (n : Nat) (ht : type.length = 4) :
    (mp4Header wide type n).length = if wide = true then 16 else 8 := by
  cases wide <;> simp [mp4Header, ht]

theorem mp4Loop_stray (cfg : Cfg) (d : Bytes) (hd : d.length < 2 ^ 63) (m : Nat) (hm : d.length ≤ m) (bs : List Mp4Box)
    (hb : ∀ b ∈ bs, Mp4WellFormedStray stray b ∧ Mp4StrayOk stray b) (rest : Bytes)
    (hs : ∀ w t c, Mp4Box.container w t c ∈ bs → (Mp4Box.encodeAllStray stray c).length < 2 ^ 63)
    (n p : Nat) (h : At d p (bs.flatMap (shallowStray stray) ++ rest)) (t : Tracks) :
    run d m (mp4Loop cfg d.length (bs.length + n) t) p =
      run d m (mp4Loop cfg d.length n (bs.foldl mp4Step t)) (p + (bs.flatMap (shallowStray stray)).length) := by
  induction bs generalizing p t with
  | nil => simp only [List.length_nil, Nat.zero_add, List.foldl_nil, List.flatMap_nil, Nat.add_zero]
  | cons b bs ih =>
    rw [List.length_cons, Nat.add_right_comm, List.flatMap_cons, List.length_append, ← Nat.add_assoc]
    obtain ⟨hwf, hst⟩ := hb b (by simp)
    have hl := h.len
    rw [List.flatMap_cons, List.append_assoc] at h
    have hnext := ih (fun b hb' => hb b (by simp [hb'])) (fun w t c hc => hs w t c (by simp [hc])) _ h.skip
    have hlt : p < d.length := by
      rw [hl, List.flatMap_cons]
      have : 1 ≤ (shallowStray stray b).length := by
        cases b <;> simp only [shallowStray, Mp4Box.encode, mp4Header] <;> split <;> simp <;> omega
      simp only [List.length_append]
      omega
    rw [mp4Loop, run_bind, run_pos, andThen_ok, if_pos hlt, List.foldl_cons]
    cases b with
    | container wide type children =>
      obtain ⟨htype, hsize⟩ := hwf
      have hlen : type.length = 4 := by
        simp only [mp4Containers, List.mem_cons, List.not_mem_nil, or_false] at htype
        rcases htype with rfl | rfl | rfl <;> rfl
      have hsz := hs wide type children (by simp)
      have hr := mp4Header_run (α := FileFormat) d m p wide type (Mp4Box.encodeAllStray stray children).length _ hlen hsize (by omega) h
      rw [hr, if_pos (by simpa [mp4Containers] using htype)]
      exact hnext _
    | handler wide fixed ht tail =>
      obtain ⟨hf, hht, hsize⟩ := hwf
      generalize hx : stray (.handler wide fixed ht tail) = x at *
      have hxl : x.length = if wide = true then 8 else 0 := by
        cases wide with
        | true => rw [← hx]; exact hst.1 rfl
        | false => rw [← hx, hst.2 rfl]; rfl
      have hsh : shallowStray stray (.handler wide fixed ht tail) =
          mp4Header wide b!"hdlr" (fixed ++ ht ++ tail).length ++ (fixed ++ (ht ++ (tail ++ x))) := by
        simp only [shallowStray, Mp4Box.encode, List.append_assoc, hx]
      have h0 : At d p (mp4Header wide b!"hdlr" (fixed ++ ht ++ tail).length ++ (fixed ++ (ht ++ ((tail ++ x) ++
          (bs.flatMap (shallowStray stray) ++ rest))))) := by
        rw [hsh] at h
        simpa only [List.append_assoc] using h
      have hL : (fixed ++ ht ++ tail).length = 12 + tail.length := by simp [hf, hht]; omega
      have hH := mp4Header_length wide b!"hdlr" (fixed ++ ht ++ tail).length rfl
      have h1 := h0.skip' hH
      have h2 := h1.skip' hf
      have h3 := h2.skip' hht
      have h4 := h3.skip
      have hl4 := h4.le
      have hxt : (tail ++ x).length = tail.length + x.length := List.length_append
      have hr := mp4Header_run (α := FileFormat) d m p wide b!"hdlr" _ _ rfl (by intro hw; rw [hL]; have := hsize hw; omega)
        (by rw [hL]; omega) h0
      rw [hr]
      rw [if_neg (by decide), if_pos rfl, hH, hL]
      rw [run_bind, h1.sk (by rw [hf]; rfl) hm, andThen_ok, hf, run_bind, h2.readBytes hht, andThen_ok]
      have hp : p + (shallowStray stray (.handler wide fixed ht tail)).length =
          p + (if wide = true then 16 else 8) + 8 + 4 + (tail ++ x).length := by
        rw [hsh, List.length_append, hH]
        simp only [List.length_append, hf, hht]
        omega
      cases wide with
      | false =>
        simp only [Bool.false_eq_true, if_false] at *
        have := hsize trivial
        rw [asI64_small (by omega), i64Sub_ok cfg (by omega) (by omega), run_bind, run_lift_ok, andThen_ok, run_bind,
          h3.sk (by omega) hm, andThen_ok, ← hp]
        exact hnext _
      | true =>
        simp only [if_true] at *
        rw [asI64_small (by omega), i64Sub_ok cfg (by omega) (by omega), run_bind, run_lift_ok, andThen_ok, run_bind,
          h3.sk (by omega) hm, andThen_ok, ← hp]
        exact hnext _
    | other wide type body =>
      obtain ⟨hlen, hc, hh, hsize⟩ := hwf
      generalize hx : stray (.other wide type body) = x at *
      have hxl : x.length = if wide = true then 8 else 0 := by
        cases wide with
        | true => rw [← hx]; exact hst.1 rfl
        | false => rw [← hx, hst.2 rfl]; rfl
      have hsh : shallowStray stray (.other wide type body) = mp4Header wide type body.length ++ (body ++ x) := by
        simp only [shallowStray, Mp4Box.encode, List.append_assoc, hx]
      have h0 : At d p (mp4Header wide type body.length ++ ((body ++ x) ++ (bs.flatMap (shallowStray stray) ++ rest))) := by
        rw [hsh] at h
        simpa only [List.append_assoc] using h
      have hH := mp4Header_length wide type body.length hlen
      have h1 := h0.skip' hH
      have h2 := h1.skip
      have hl2 := h2.le
      have hxt : (body ++ x).length = body.length + x.length := List.length_append
      have hr := mp4Header_run (α := FileFormat) d m p wide type _ _ hlen hsize (by omega) h0
      rw [hr, if_neg (by simpa [mp4Containers] using hc), if_neg hh, hH]
      have hp : p + (shallowStray stray (.other wide type body)).length =
          p + (if wide = true then 16 else 8) + (body ++ x).length := by
        rw [hsh]
        simp only [List.length_append, hH]
        omega
      cases wide with
      | false =>
        simp only [Bool.false_eq_true, if_false] at *
        rw [asI64_small (by omega), i64Sub_ok cfg (by omega) (by omega), run_bind, run_lift_ok, andThen_ok, run_bind,
          h1.sk (by omega) hm, andThen_ok, ← hp]
        exact hnext _
      | true =>
        simp only [if_true] at *
        rw [asI64_small (by omega), i64Sub_ok cfg (by omega) (by omega), run_bind, run_lift_ok, andThen_ok, run_bind,
          h1.sk (by omega) hm, andThen_ok, ← hp]
        exact hnext _

theorem mp4Reader_stray (cfg : Cfg) (bs : List Mp4Box) (rest : Bytes)
    (hb : ∀ b ∈ Mp4Box.visitAll bs, Mp4WellFormedStray stray b ∧ Mp4StrayOk stray b)
    (hd : (Mp4Box.encodeAllStray stray bs ++ rest).length < 2 ^ 63)
    (hr : 256 ≤ (Mp4Box.visitAll bs).length ∨ Mp4Tail rest) (q : Nat) :
    val (run (Mp4Box.encodeAllStray stray bs ++ rest) (2 ^ 64 - 1) (mp4Reader cfg) q) =
      .ok (mp4Verdict (((Mp4Box.visitAll bs).take 256).foldl mp4Step Tracks.none)) := by
  have hm : (Mp4Box.encodeAllStray stray bs ++ rest).length ≤ 2 ^ 64 - 1 := by omega
  have hsplit : Mp4Box.encodeAllStray stray bs ++ rest = ((Mp4Box.visitAll bs).take 256).flatMap (shallowStray stray) ++
      (((Mp4Box.visitAll bs).drop 256).flatMap (shallowStray stray) ++ rest) := by
    rw [← List.append_assoc, ← List.flatMap_append, List.take_append_drop, encodeAllStray_visitAll]
  have hmem : ∀ {b}, b ∈ (Mp4Box.visitAll bs).take 256 → b ∈ Mp4Box.visitAll bs := fun h => List.mem_of_mem_take h
  have hlen : ∀ w t c, Mp4Box.container w t c ∈ (Mp4Box.visitAll bs).take 256 →
      (Mp4Box.encodeAllStray stray c).length < 2 ^ 63 := by
    intro w t c h
    have := visitAll_length_stray (stray := stray) bs w t c (hmem h)
    rw [List.length_append] at hd
    omega
  have h0 : At (Mp4Box.encodeAllStray stray bs ++ rest) 0 (((Mp4Box.visitAll bs).take 256).flatMap (shallowStray stray) ++
      (((Mp4Box.visitAll bs).drop 256).flatMap (shallowStray stray) ++ rest)) := ⟨Nat.zero_le _, hsplit⟩
  have hskip := mp4Loop_stray cfg _ hd _ hm ((Mp4Box.visitAll bs).take 256) (fun b h => hb b (hmem h)) _ hlen
    (256 - ((Mp4Box.visitAll bs).take 256).length) 0 h0 Tracks.none
  have h256 : ((Mp4Box.visitAll bs).take 256).length + (256 - ((Mp4Box.visitAll bs).take 256).length) = 256 := by
    rw [List.length_take]; omega
  rw [h256] at hskip
  unfold mp4Reader
  rw [run_bind, run_sk_end _ hm, andThen_ok, run_bind, run_sk_start _ _ (Nat.zero_le _), andThen_ok,
    show mp4BoxLimit = 256 from rfl, hskip]
  by_cases h : 256 ≤ (Mp4Box.visitAll bs).length
  · rw [show 256 - ((Mp4Box.visitAll bs).take 256).length = 0 by rw [List.length_take]; omega]
    rfl
  · rcases hr with hr | hr
    · omega
    · refine mp4Loop_tail cfg _ hd rest hr _ _ ?_ _
      have := h0.skip
      rw [List.drop_eq_nil_of_le (by omega), List.flatMap_nil, List.nil_append] at this
      exact this

end FF
