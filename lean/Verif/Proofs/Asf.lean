import Verif.Spec.Asf
import Verif.Proofs.Guid
import Verif.Proofs.Ebml
/-!
# The ASF reader on encoded files
-/

namespace FF
open Spec FileFormat

theorem asfStreamPropsGuid_eq : asfStreamPropsGuid = guidStr asfStreamProperties.bytes := by decide +kernel
theorem asfExtContentGuid_eq : asfExtContentGuid = guidStr asfExtendedContent.bytes := by decide +kernel
theorem asfAudioGuid_eq : asfAudioGuid = guidStr asfAudioMedia.bytes := by decide +kernel
theorem asfVideoGuid_eq : asfVideoGuid = guidStr asfVideoMedia.bytes := by decide +kernel
theorem asfDvrName_eq : asfDvrName = utf16le b!"DVR File Version" := by decide

theorem guidStr_eq_iff {x : Bytes} (hx : x.length = 16) (g : Guid) : guidStr x = guidStr g.bytes ↔ x = g.bytes :=
  ⟨fun h => guidStr_inj hx (length_guid g) h, fun h => by rw [h]⟩

theorem asfDescriptors_run (d : Bytes) (m : Nat) (hm : d.length ≤ m) (ds : List AsfDescriptor)
    (hv : ∀ x ∈ ds, x.Valid) (rest : Bytes) (p : Nat) (h : At d p (ds.flatMap AsfDescriptor.encode ++ rest)) :
    ∃ b q, run d m (asfDescriptors ds.length) p = .ok (b, q) ∧ (b = true ↔ ∃ x ∈ ds, x.IsDvr) := by
  induction ds generalizing p with
  | nil => exact ⟨false, p, rfl, by simp⟩
  | cons x ds ih =>
    obtain ⟨hn, ht, hvl⟩ := hv x (by simp)
    have h0 : At d p (leBytes 2 x.name.length ++ (x.name ++ (x.type ++ (leBytes 2 x.value.length ++ (x.value ++
        (ds.flatMap AsfDescriptor.encode ++ rest)))))) := by
      simpa only [List.flatMap_cons, AsfDescriptor.encode, List.append_assoc] using h
    have h1 := h0.skip' (length_leBytes 2 _)
    have h1' : At d (p + 2) (x.name.take 64 ++ ((x.name.drop 64 ++ x.type) ++ (leBytes 2 x.value.length ++ (x.value ++
        (ds.flatMap AsfDescriptor.encode ++ rest))))) := by
      rw [List.append_assoc, ← List.append_assoc, List.take_append_drop]; exact h1
    have h2 := h1'.skip' (n := min 64 x.name.length) (by simp)
    have h3 := h2.skip
    have h4 := h3.skip' (length_leBytes 2 _)
    have h5 := h4.skip
    rw [List.length_cons, asfDescriptors, run_bind, h0.readU16le hn, andThen_ok, run_bind,
      show asfDescriptorNameLimit = 64 from rfl, h1'.readBytes (n := min 64 x.name.length) (by simp), andThen_ok,
      startsWith_take (by decide), asfDvrName_eq]
    by_cases hd : startsWith x.name (utf16le b!"DVR File Version") = true
    · rw [if_pos hd]
      exact ⟨true, _, rfl, by simp only [List.mem_cons, exists_eq_or_imp, true_iff]; exact .inl (startsWith_iff.mp hd)⟩
    · rw [if_neg hd]
      obtain ⟨b, q, hrun, hb⟩ := ih (fun y hy => hv y (by simp [hy])) _ h5
      refine ⟨b, q, ?_, ?_⟩
      · rw [run_bind, h2.sk _ hm, andThen_ok, run_bind, h3.readU16le hvl, andThen_ok, run_bind, h4.sk rfl hm, andThen_ok]
        · exact hrun
        · simp only [List.length_append, List.length_drop, ht]; omega
      · rw [hb]
        have hno : ¬ x.IsDvr := fun h => hd (startsWith_iff.mpr h)
        simp only [List.mem_cons, exists_eq_or_imp, hno, false_or]

/-- The verdict of the loop. -/
def asfVerdict (audio video : Bool) : FileFormat :=
  if video then WindowsMediaVideo else if audio then WindowsMediaAudio else AdvancedSystemsFormat

theorem asfObjects_run (cfg : Cfg) (d : Bytes) (hd : d.length < 2 ^ 63) (m : Nat) (hm : d.length ≤ m)
    (os : List AsfObject) (hv : ∀ o ∈ os, o.Valid) (rest : Bytes) (p : Nat)
    (h : At d p (os.flatMap AsfObject.encode ++ rest)) (audio video : Bool) :
    ((∃ o ∈ os, o.Dvr) → val (run d m (asfObjects cfg os.length audio video) p) = .ok MicrosoftDigitalVideoRecording) ∧
    ((∀ o ∈ os, ¬ o.Dvr) → ∃ a v, val (run d m (asfObjects cfg os.length audio video) p) = .ok (asfVerdict a v) ∧
      (a = true ↔ audio = true ∨ ∃ o ∈ os, o.StreamOf asfAudioMedia) ∧
      (v = true ↔ video = true ∨ ∃ o ∈ os, o.StreamOf asfVideoMedia)) := by
  induction os generalizing p audio video with
  | nil => exact ⟨by simp, fun _ => ⟨audio, video, rfl, by simp, by simp⟩⟩
  | cons o os ih =>
    have hvo := hv o (by simp)
    have hg : o.guid.length = 16 := by
      cases o with
      | stream => exact length_guid _
      | content => exact length_guid _
      | other => exact hvo.1
    have h0 : At d p (o.guid ++ (leBytes 8 (24 + o.body.length) ++ (o.body ++ (os.flatMap AsfObject.encode ++ rest)))) := by
      simpa only [List.flatMap_cons, AsfObject.encode, List.append_assoc] using h
    have h1 := h0.skip' hg
    have h2 := h1.skip' (length_leBytes 8 _)
    have h3 := h2.skip
    have hlen := h3.len
    have hnext := ih (fun o ho => hv o (by simp [ho])) _ h3
    have hsz : (24 + o.body.length) < 2 ^ 63 := by omega
    rw [List.length_cons, asfObjects, run_bind, h0.readGuid hg, andThen_ok, run_bind, h1.readU64le (by omega), andThen_ok]
    simp only [List.mem_cons, exists_eq_or_imp, forall_eq_or_imp]
    cases o with
    | stream type data =>
      have ht : type.length = 16 := hvo
      have g0 : At d (p + 16 + 8) (type ++ (data ++ (os.flatMap AsfObject.encode ++ rest))) := by
        simpa only [AsfObject.body, List.append_assoc] using h2
      have g1 := g0.skip' ht
      rw [if_pos (show guidStr (AsfObject.stream type data).guid = asfStreamPropsGuid from asfStreamPropsGuid_eq.symm)]
      have hb : (AsfObject.stream type data).body.length = 16 + data.length := by
        simp only [AsfObject.body, List.length_append, ht]
      rw [run_bind, g0.readGuid ht, andThen_ok, asI64_small hsz, i64Sub_ok cfg (by omega) (by omega), run_bind, run_lift_ok,
        andThen_ok, run_bind, g1.sk (by rw [hb]; omega) hm, andThen_ok]
      have hp : p + 16 + 8 + (AsfObject.stream type data).body.length = p + 16 + 8 + 16 + data.length := by rw [hb]; omega
      rw [hp] at hnext
      have hnext := hnext (if guidStr type = asfAudioGuid then true else audio)
        (if guidStr type = asfAudioGuid then video else if guidStr type = asfVideoGuid then true else video)
      refine ⟨fun hx => hnext.1 (hx.resolve_left id), fun hx => ?_⟩
      obtain ⟨a, v, hrun, ha, hv'⟩ := hnext.2 hx.2
      refine ⟨a, v, hrun, ?_, ?_⟩
      · rw [ha, asfAudioGuid_eq]
        simp only [guidStr_eq_iff ht, AsfObject.StreamOf]
        split <;> simp [*]
      · rw [hv', asfAudioGuid_eq, asfVideoGuid_eq]
        simp only [guidStr_eq_iff ht, AsfObject.StreamOf]
        by_cases hta : type = asfAudioMedia.bytes
        · have hna : ¬ type = asfVideoMedia.bytes := by rw [hta]; decide
          rw [if_pos hta]; simp [hna]
        · rw [if_neg hta]
          split <;> simp [*]
    | content ds tail =>
      obtain ⟨hdl, hds⟩ := hvo
      have g0 : At d (p + 16 + 8) (leBytes 2 ds.length ++ ((ds.take 32).flatMap AsfDescriptor.encode ++
          ((ds.drop 32).flatMap AsfDescriptor.encode ++ (tail ++ (os.flatMap AsfObject.encode ++ rest))))) := by
        rw [← List.append_assoc ((ds.take 32).flatMap _), ← List.flatMap_append, List.take_append_drop]
        simpa only [AsfObject.body, List.append_assoc] using h2
      have g1 := g0.skip' (length_leBytes 2 _)
      obtain ⟨b, q, hrun, hb⟩ := asfDescriptors_run d m hm (ds.take 32) (fun x hx => hds x (List.mem_of_mem_take hx)) _ _ g1
      rw [List.length_take] at hrun
      have hne : ¬ guidStr (AsfObject.content ds tail).guid = asfStreamPropsGuid := by
        rw [asfStreamPropsGuid_eq]; show ¬ guidStr asfExtendedContent.bytes = _; decide +kernel
      rw [if_neg hne, if_pos (show guidStr (AsfObject.content ds tail).guid = asfExtContentGuid from asfExtContentGuid_eq.symm),
        run_bind, g0.readU16le hdl, andThen_ok, run_bind, run_pos, andThen_ok, run_bind, show asfDescriptorLimit = 32 from rfl,
        hrun, andThen_ok]
      cases b with
      | true =>
        rw [if_pos rfl]
        have hd' : (AsfObject.content ds tail).Dvr := hb.mp rfl
        exact ⟨fun _ => rfl, fun hx => absurd hd' hx.1⟩
      | false =>
        have hd' : ¬ (AsfObject.content ds tail).Dvr := fun h => by cases hb.mpr h
        have hnext := hnext audio video
        have hb2 : 2 ≤ (AsfObject.content ds tail).body.length := by
          simp only [AsfObject.body, List.length_append, length_leBytes]; omega
        rw [if_neg (by decide), run_bind, u64Add_ok cfg (by omega), run_lift_ok, andThen_ok, run_bind]
        rw [show u64Sub cfg (p + 16 + 8 + 2 + (24 + (AsfObject.content ds tail).body.length)) 26 =
          .ok (p + 16 + 8 + (AsfObject.content ds tail).body.length) from by
            unfold u64Sub; rw [if_pos (by omega)]; congr 1; omega, run_lift_ok, andThen_ok, run_bind,
            run_sk_start _ _ (by omega), andThen_ok]
        refine ⟨fun hx => hnext.1 (hx.resolve_left hd'), fun hx => ?_⟩
        simpa only [AsfObject.StreamOf, false_or] using hnext.2 hx.2
    | other guid data =>
      obtain ⟨_, hn1, hn2⟩ := hvo
      have hnext := hnext audio video
      rw [if_neg (show ¬ guidStr (AsfObject.other guid data).guid = asfStreamPropsGuid from by
          rw [asfStreamPropsGuid_eq, guidStr_eq_iff hg]; exact hn1),
        if_neg (show ¬ guidStr (AsfObject.other guid data).guid = asfExtContentGuid from by
          rw [asfExtContentGuid_eq, guidStr_eq_iff hg]; exact hn2),
        asI64_small hsz, i64Sub_ok cfg (by omega) (by omega), run_bind, run_lift_ok, andThen_ok, run_bind,
        h2.sk (by omega) hm, andThen_ok]
      refine ⟨fun hx => hnext.1 (hx.resolve_left id), fun hx => ?_⟩
      simpa only [AsfObject.StreamOf, false_or] using hnext.2 hx.2

theorem asfReader_run (cfg : Cfg) (m : Nat) (head : Bytes) (n : Nat) (reserved : Bytes) (os : List AsfObject) (rest : Bytes)
    (hh : head.length = 24) (hn : n < 2 ^ 32) (hres : reserved.length = 2) (hk : os.length = min 256 n)
    (hv : ∀ o ∈ os, o.Valid) (hd : (asfFile head n reserved os rest).length < 2 ^ 63)
    (hm : (asfFile head n reserved os rest).length ≤ m) (q : Nat) :
    ((∃ o ∈ os, o.Dvr) → val (run (asfFile head n reserved os rest) m (asfReader cfg) q) = .ok MicrosoftDigitalVideoRecording) ∧
    ((∀ o ∈ os, ¬ o.Dvr) → ∃ a v, val (run (asfFile head n reserved os rest) m (asfReader cfg) q) = .ok (asfVerdict a v) ∧
      (a = true ↔ ∃ o ∈ os, o.StreamOf asfAudioMedia) ∧
      (v = true ↔ ∃ o ∈ os, o.StreamOf asfVideoMedia)) := by
  have h0 : At (asfFile head n reserved os rest) 24 (leBytes 4 n ++ (reserved ++ (os.flatMap AsfObject.encode ++ rest))) :=
    At.of_append' hh.symm
  have hl := h0.len
  have h1 := h0.skip' (length_leBytes 4 n)
  have h2 := h1.skip' hres
  have := asfObjects_run cfg _ hd m hm os hv rest _ h2 false false
  unfold asfReader
  rw [run_bind, run_sk_start _ _ (by omega), andThen_ok, run_bind, h0.readU32le hn, andThen_ok, run_bind,
    h1.sk (by rw [hres]; rfl) hm, andThen_ok, hres, show asfObjectLimit = 256 from rfl]
  rw [hk] at this
  simpa only [Bool.false_eq_true, false_or] using this

end FF
