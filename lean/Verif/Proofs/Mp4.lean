import Verif.Spec.Mp4
import Verif.Proofs.Parse
/-!
# The MP4 reader on encoded files
-/

namespace FF
open Spec FileFormat

/-- The bytes of a box up to its first child. -/
def shallow : Mp4Box → Bytes
  | .container wide type children => mp4Header wide type (Mp4Box.encodeAll children).length
  | b => b.encode

mutual
theorem encode_visit : ∀ b : Mp4Box, b.encode = b.visit.flatMap shallow
  | .container wide type children => by
    rw [Mp4Box.encode, Mp4Box.visit, List.flatMap_cons, encodeAll_visitAll children]; simp [shallow, encodeAll_visitAll children]
  | .handler .. => by simp [Mp4Box.visit, shallow]
  | .other .. => by simp [Mp4Box.visit, shallow]
theorem encodeAll_visitAll : ∀ bs : List Mp4Box, Mp4Box.encodeAll bs = (Mp4Box.visitAll bs).flatMap shallow
  | [] => by simp [Mp4Box.encodeAll, Mp4Box.visitAll]
  | b :: bs => by
    rw [Mp4Box.encodeAll, Mp4Box.visitAll, List.flatMap_append, encode_visit b, encodeAll_visitAll bs]
end

/-- Effect of a box on the flags. -/
def mp4Step (t : Tracks) : Mp4Box → Tracks
  | .handler _ _ handlerType _ => mp4Handler handlerType t
  | _ => t

theorem beBytes_big {n v : Nat} (h : v < 256 ^ n) (hv : v ≠ 1) : beNat (beBytes n v) ≠ 1 := by
  rw [beNat_beBytes n v h]; exact hv

/-- The header of a box. -/
theorem mp4Header_run (d : Bytes) (m p : Nat) (wide : Bool) (type : Bytes) (n : Nat) (r : Bytes) (ht : type.length = 4)
    (hn : wide = false → 8 + n < 2 ^ 32) (hw : 16 + n < 2 ^ 64) (h : At d p (mp4Header wide type n ++ r)) {α : Type}
    (k : Bytes → Nat → Prog α) :
    run d m (do
      let size32 ← readU32be
      let boxType ← readBytes 4
      let size ← mp4Size size32
      k boxType size) p =
    run d m (k type (if wide = true then 16 + n else 8 + n)) (p + (mp4Header wide type n).length) := by
  cases wide with
  | false =>
    have h0 : At d p (beBytes 4 (8 + n) ++ (type ++ r)) := by
      simpa only [mp4Header, Bool.false_eq_true, if_false, List.append_assoc] using h
    have h1 := h0.skip' (length_beBytes 4 _)
    rw [run_bind, h0.readU32be (hn rfl), andThen_ok, run_bind, h1.readBytes ht, andThen_ok]
    rw [mp4Size, if_neg (by omega), run_bind, run_pure, andThen_ok]
    simp [mp4Header, ht, Nat.add_assoc]
  | true =>
    have h0 : At d p (beBytes 4 1 ++ (type ++ (beBytes 8 (16 + n) ++ r))) := by
      simpa only [mp4Header, if_true, List.append_assoc] using h
    have h1 := h0.skip' (length_beBytes 4 _)
    have h2 := h1.skip' ht
    rw [run_bind, h0.readU32be (by decide), andThen_ok, run_bind, h1.readBytes ht, andThen_ok]
    rw [mp4Size, if_pos rfl, run_bind, h2.readU64be hw, andThen_ok]
    simp [mp4Header, ht, Nat.add_assoc]

/-- The loop over complete boxes. -/
theorem mp4Loop_skip (cfg : Cfg) (d : Bytes) (hd : d.length < 2 ^ 63) (m : Nat) (hm : d.length ≤ m) (bs : List Mp4Box)
    (hb : ∀ b ∈ bs, b.WellFormed ∧ b.NarrowOrContainer) (rest : Bytes)
    (hs : ∀ w t c, Mp4Box.container w t c ∈ bs → (Mp4Box.encodeAll c).length < 2 ^ 63)
    (n p : Nat) (h : At d p (bs.flatMap shallow ++ rest)) (t : Tracks) :
    run d m (mp4Loop cfg d.length (bs.length + n) t) p =
      run d m (mp4Loop cfg d.length n (bs.foldl mp4Step t)) (p + (bs.flatMap shallow).length) := by
  induction bs generalizing p t with
  | nil => simp only [List.length_nil, Nat.zero_add, List.foldl_nil, List.flatMap_nil, Nat.add_zero]
  | cons b bs ih =>
    rw [List.length_cons, Nat.add_right_comm, List.flatMap_cons, List.length_append, ← Nat.add_assoc]
    obtain ⟨hwf, hnar⟩ := hb b (by simp)
    have hl := h.len
    rw [List.flatMap_cons, List.append_assoc] at h
    have hnext := ih (fun b hb' => hb b (by simp [hb'])) (fun w t c hc => hs w t c (by simp [hc])) _ h.skip
    have hlt : p < d.length := by
      rw [hl, List.flatMap_cons]
      have : 1 ≤ (shallow b).length := by
        cases b <;> simp only [shallow, Mp4Box.encode, mp4Header] <;> split <;> simp <;> omega
      simp only [List.length_append]
      omega
    have hpl := h.skip.le
    rw [mp4Loop, run_bind, run_pos, andThen_ok, if_pos hlt, List.foldl_cons]
    cases b with
    | container wide type children =>
      obtain ⟨htype, hsize⟩ := hwf
      have hlen : type.length = 4 := by
        simp only [mp4Containers, List.mem_cons, List.not_mem_nil, or_false] at htype
        rcases htype with rfl | rfl | rfl <;> rfl
      have hsz := hs wide type children (by simp)
      have hr := mp4Header_run (α := FileFormat) d m p wide type (Mp4Box.encodeAll children).length _ hlen hsize (by omega) h
      rw [hr, if_pos (by simpa [mp4Containers] using htype)]
      exact hnext _
    | handler wide fixed ht tail =>
      obtain ⟨hf, hht, hsize⟩ := hwf
      have hw : wide = false := hnar
      subst hw
      have hsize' := hsize rfl
      have h0 : At d p (mp4Header false b!"hdlr" (fixed ++ ht ++ tail).length ++ (fixed ++ (ht ++ (tail ++
          (bs.flatMap shallow ++ rest))))) := by
        simpa only [shallow, Mp4Box.encode, List.append_assoc] using h
      have hL : (fixed ++ ht ++ tail).length = 12 + tail.length := by simp [hf, hht]; omega
      have hr := mp4Header_run (α := FileFormat) d m p false b!"hdlr" _ _ rfl (by intro _; rw [hL]; omega) (by rw [hL]; omega) h0
      rw [hr]
      have hH : (mp4Header false b!"hdlr" (fixed ++ ht ++ tail).length).length = 8 := by
        simp [mp4Header]
      have h1 := h0.skip' hH
      have h2 := h1.skip' hf
      have h3 := h2.skip' hht
      have h4 := h3.skip
      have hl4 := h4.le
      rw [if_neg (by decide), if_pos rfl, hH, if_neg (by decide), hL]
      rw [run_bind, h1.sk (by rw [hf]; rfl) hm, andThen_ok, hf, run_bind, h2.readBytes hht, andThen_ok]
      rw [asI64_small (by omega), i64Sub_ok cfg (by omega) (by omega), run_bind, run_lift_ok, andThen_ok, run_bind,
        h3.sk (by omega) hm, andThen_ok]
      have hp : p + (shallow (.handler false fixed ht tail)).length = p + 8 + 8 + 4 + tail.length := by
        simp [shallow, Mp4Box.encode, mp4Header, hf, hht]; omega
      rw [← hp]
      exact hnext _
    | other wide type body =>
      obtain ⟨hlen, hc, hh, hsize⟩ := hwf
      have hw : wide = false := hnar
      subst hw
      have hsize' := hsize rfl
      have h0 : At d p (mp4Header false type body.length ++ (body ++ (bs.flatMap shallow ++ rest))) := by
        simpa only [shallow, Mp4Box.encode, List.append_assoc] using h
      have hr := mp4Header_run (α := FileFormat) d m p false type _ _ hlen hsize (by omega) h0
      rw [hr]
      have hH : (mp4Header false type body.length).length = 8 := by
        simp [mp4Header, hlen]
      have h1 := h0.skip' hH
      rw [if_neg (by simpa [mp4Containers] using hc), if_neg hh, hH, if_neg (by decide), asI64_small (by omega),
        i64Sub_ok cfg (by omega) (by omega), run_bind, run_lift_ok, andThen_ok, run_bind, h1.sk (by omega) hm, andThen_ok]
      have hp : p + (shallow (.other false type body)).length = p + 8 + body.length := by
        simp [shallow, Mp4Box.encode, mp4Header, hlen]; omega
      rw [← hp]
      exact hnext _

theorem mp4Loop_beyond (cfg : Cfg) (d : Bytes) (m n p : Nat) (hp : d.length ≤ p) (t : Tracks) :
    val (run d m (mp4Loop cfg d.length n t) p) = .ok (mp4Verdict t) := by
  cases n with
  | zero => rfl
  | succ n =>
    rw [mp4Loop, run_bind, run_pos, andThen_ok, if_neg (by omega)]
    rfl

/-- The loop at the last box. -/
theorem mp4Loop_tail (cfg : Cfg) (d : Bytes) (hd : d.length < 2 ^ 63) (rest : Bytes) (hr : Mp4Tail rest) (n p : Nat)
    (h : At d p rest) (t : Tracks) :
    val (run d (2 ^ 64 - 1) (mp4Loop cfg d.length n t) p) = .ok (mp4Verdict t) := by
  have hl := h.len
  cases hr with
  | nothing => exact mp4Loop_beyond cfg d _ n p (by simp at hl; omega) t
  | toEnd type body ht hc hh =>
    simp only [List.length_append, length_beBytes, ht] at hl
    have h1 := h.skip' (length_beBytes 4 _)
    induction n with
    | zero => rfl
    | succ n ih =>
      rw [mp4Loop, run_bind, run_pos, andThen_ok, if_pos (by omega), run_bind, h.readU32be (by decide), andThen_ok, run_bind,
        h1.readBytes ht, andThen_ok, mp4Size, if_neg (by decide), run_bind, run_pure, andThen_ok,
        if_neg (by simpa [mp4Containers] using hc), if_neg hh, asI64_small (by decide), i64Sub_ok cfg (by omega) (by omega),
        run_bind, run_lift_ok, andThen_ok, run_bind, run_sk_current _ _ p (by omega) (by omega), andThen_ok]
      exact ih
  | cut size type body ht hc hh hs hlen =>
    simp only [List.length_append, length_beBytes, ht] at hl
    have h1 := h.skip' (length_beBytes 4 _)
    cases n with
    | zero => rfl
    | succ n =>
      rw [mp4Loop, run_bind, run_pos, andThen_ok, if_pos (by omega), run_bind, h.readU32be hs, andThen_ok, run_bind,
        h1.readBytes ht, andThen_ok, mp4Size, if_neg (by omega), run_bind, run_pure, andThen_ok,
        if_neg (by simpa [mp4Containers] using hc), if_neg hh, asI64_small (by omega), i64Sub_ok cfg (by omega) (by omega),
        run_bind, run_lift_ok, andThen_ok, run_bind, run_sk_current _ _ (p + size) (by omega) (by omega), andThen_ok]
      exact mp4Loop_beyond cfg d _ n _ (by omega) t
  | cutWide size type body ht hc hh hs hlen =>
    simp only [List.length_append, length_beBytes, ht] at hl
    have h1 := h.skip' (length_beBytes 4 _)
    have h2 := h1.skip' ht
    cases n with
    | zero => rfl
    | succ n =>
      rw [mp4Loop, run_bind, run_pos, andThen_ok, if_pos (by omega), run_bind, h.readU32be (by decide), andThen_ok, run_bind,
        h1.readBytes ht, andThen_ok, mp4Size, if_pos rfl, run_bind, h2.readU64be (by omega), andThen_ok,
        if_neg (by simpa [mp4Containers] using hc), if_neg hh, asI64_small (by omega), i64Sub_ok cfg (by omega) (by omega),
        run_bind, run_lift_ok, andThen_ok, run_bind, run_sk_current _ _ (p + 8 + size) (by omega) (by omega), andThen_ok]
      exact mp4Loop_beyond cfg d _ n _ (by omega) t

mutual
theorem visit_length : ∀ (b : Mp4Box) (w : Bool) (t : Bytes) (c : List Mp4Box), Mp4Box.container w t c ∈ b.visit →
    (Mp4Box.encodeAll c).length ≤ b.encode.length
  | .container wide type children, w, t, c, h => by
    rw [Mp4Box.visit, List.mem_cons] at h
    rw [Mp4Box.encode, List.length_append]
    rcases h with h | h
    · cases h; omega
    · have := visitAll_length children w t c h; omega
  | .handler .., w, t, c, h => by simp [Mp4Box.visit] at h
  | .other .., w, t, c, h => by simp [Mp4Box.visit] at h
theorem visitAll_length : ∀ (bs : List Mp4Box) (w : Bool) (t : Bytes) (c : List Mp4Box),
    Mp4Box.container w t c ∈ Mp4Box.visitAll bs → (Mp4Box.encodeAll c).length ≤ (Mp4Box.encodeAll bs).length
  | [], w, t, c, h => by simp [Mp4Box.visitAll] at h
  | b :: bs, w, t, c, h => by
    rw [Mp4Box.visitAll, List.mem_append] at h
    rw [Mp4Box.encodeAll, List.length_append]
    rcases h with h | h
    · have := visit_length b w t c h; omega
    · have := visitAll_length bs w t c h; omega
end

theorem mp4Reader_run (cfg : Cfg) (bs : List Mp4Box) (rest : Bytes)
    (hb : ∀ b ∈ Mp4Box.visitAll bs, b.WellFormed ∧ b.NarrowOrContainer)
    (hd : (Mp4Box.encodeAll bs ++ rest).length < 2 ^ 63)
    (hr : 256 ≤ (Mp4Box.visitAll bs).length ∨ Mp4Tail rest) (q : Nat) :
    val (run (Mp4Box.encodeAll bs ++ rest) (2 ^ 64 - 1) (mp4Reader cfg) q) =
      .ok (mp4Verdict (((Mp4Box.visitAll bs).take 256).foldl mp4Step Tracks.none)) := by
  have hm : (Mp4Box.encodeAll bs ++ rest).length ≤ 2 ^ 64 - 1 := by omega
  have hsplit : Mp4Box.encodeAll bs ++ rest = ((Mp4Box.visitAll bs).take 256).flatMap shallow ++
      (((Mp4Box.visitAll bs).drop 256).flatMap shallow ++ rest) := by
    rw [← List.append_assoc, ← List.flatMap_append, List.take_append_drop, encodeAll_visitAll]
  have hmem : ∀ {b}, b ∈ (Mp4Box.visitAll bs).take 256 → b ∈ Mp4Box.visitAll bs := fun h => List.mem_of_mem_take h
  have hlen : ∀ w t c, Mp4Box.container w t c ∈ (Mp4Box.visitAll bs).take 256 →
      (Mp4Box.encodeAll c).length < 2 ^ 63 := by
    intro w t c h
    have := visitAll_length bs w t c (hmem h)
    rw [List.length_append] at hd
    omega
  have h0 : At (Mp4Box.encodeAll bs ++ rest) 0 (((Mp4Box.visitAll bs).take 256).flatMap shallow ++
      (((Mp4Box.visitAll bs).drop 256).flatMap shallow ++ rest)) := ⟨Nat.zero_le _, hsplit⟩
  have hskip := mp4Loop_skip cfg _ hd _ hm ((Mp4Box.visitAll bs).take 256) (fun b h => hb b (hmem h)) _ hlen
    (256 - ((Mp4Box.visitAll bs).take 256).length) 0 h0 Tracks.none
  have h256 : ((Mp4Box.visitAll bs).take 256).length + (256 - ((Mp4Box.visitAll bs).take 256).length) = 256 := by
    rw [List.length_take]; omega
  rw [h256] at hskip
  unfold mp4Reader
  rw [run_bind, run_sk_end _ hm, andThen_ok, run_bind, run_sk_start _ _ (Nat.zero_le _), andThen_ok,
    show mp4BoxLimit = 256 from rfl, hskip]
  by_cases h : 256 ≤ (Mp4Box.visitAll bs).length
  · rw [show 256 - ((Mp4Box.visitAll bs).take 256).length = 0 by rw [List.length_take]; omega]
    rfl
  · rcases hr with hr | hr
    · omega
    · refine mp4Loop_tail cfg _ hd rest hr _ _ ?_ _
      have := h0.skip
      rw [List.drop_eq_nil_of_le (by omega), List.flatMap_nil, List.nil_append] at this
      exact this

theorem mp4_flags (bs : List Mp4Box) (t : Tracks) :
    ((bs.foldl mp4Step t).video = true ↔ t.video = true ∨ ∃ b ∈ bs, b.HandlerOf [b!"vide"]) ∧
    ((bs.foldl mp4Step t).audio = true ↔ t.audio = true ∨ ∃ b ∈ bs, b.HandlerOf [b!"soun"]) ∧
    ((bs.foldl mp4Step t).subtitle = true ↔
      t.subtitle = true ∨ ∃ b ∈ bs, b.HandlerOf [b!"sbtl", b!"subt", b!"text"]) := by
  induction bs generalizing t with
  | nil => simp
  | cons b bs ih =>
    obtain ⟨h1, h2, h3⟩ := ih (mp4Step t b)
    rw [List.foldl_cons]
    simp only [List.mem_cons, exists_eq_or_imp, h1, h2, h3]
    cases b with
    | container => simp [mp4Step, Mp4Box.HandlerOf]
    | other => simp [mp4Step, Mp4Box.HandlerOf]
    | handler w f ht tl =>
      simp only [mp4Step, Mp4Box.HandlerOf, mp4Handler, List.mem_cons, List.not_mem_nil, or_false]
      by_cases c1 : ht = b!"vide"
      · subst c1; simp
      · by_cases c2 : ht = b!"soun"
        · subst c2; simp
        · by_cases c3 : ht = b!"sbtl" ∨ ht = b!"subt" ∨ ht = b!"text"
          · rw [if_neg c1, if_neg c2, if_pos c3]; simp [c1, c2, c3]
          · rw [if_neg c1, if_neg c2, if_neg c3]; simp only [c1, c2, c3, false_or]; simp

end FF
