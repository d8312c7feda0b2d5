import Verif.Props.FirstRead
import Verif.Spec.Calls
/-!
# C51: the stream after a detection
-/

namespace FF.Props
open FF FileFormat Spec

/-- What `from_reader` returns on an undisturbed stream with content `d` once the first read has
delivered `buf`. -/
def settled (cfg : Cfg) (ft : Features) (buf d : Bytes) (m : Nat) : Except Fail FileFormat :=
  if buf.length = 0 then .ok FileFormat.Empty
  else
    match fromSignature buf with
    | none => idealGeneric ft d m
    | some fmt =>
      match fmtReader cfg ft fmt with
      | none => .ok fmt
      | some (_, p) => orDefault (val (run d m p 0)) (idealGeneric ft d m)

theorem afterRead_settled (cfg : Cfg) (ft : Features) (buf : Bytes) (src : Src) (h : src.WF) (hc : src.Calm) :
    (afterRead cfg ft buf src).1 = settled cfg ft buf src.data src.maxPos := by
  have hb := hc.benign
  unfold afterRead settled
  by_cases hl : buf.length = 0
  · rw [if_pos hl, if_pos hl]
  · rw [if_neg hl, if_neg hl]
    cases hs : fromSignature buf with
    | none => exact fromGenericReader_ideal ft src h hb
    | some fmt =>
      simp only
      rcases fmtReader_cases cfg ft fmt with hn | ⟨f, hf, he, hfmt, hr⟩
      · simp only [fromFmtReader, hn]
      · simp only [fromFmtReader, hr]
        have hex : (execOn (readerOf cfg f).1 (readerOf cfg f).2 src).1 =
            val (run src.data src.maxPos (readerOf cfg f).2 0) := by
          cases hbr : f.bareRead with
          | false =>
            rcases execOn_exact _ _ src h (reader_exact cfg f hbr) (reader_abs cfg f) with h1 | ⟨h1, _⟩
            · exact h1
            · exact absurd hb h1
          | true =>
            have hfalse : (readerOf cfg f).1 = false := by cases f <;> first | rfl | cases hbr
            obtain ⟨k, hk⟩ := reader_all cfg f
            have hu := hk.untilBuffered (fun _ => id)
            rw [hfalse] at hu ⊢
            exact execOn_calm _ src h hc hu (reader_abs cfg f)
        obtain ⟨k, hk⟩ := reader_all cfg f
        obtain ⟨hle, hwf, _⟩ := execOn_le _ _ src h (hk.untilBuffered (fun _ => id))
        rw [← hex]
        generalize execOn (readerOf cfg f).1 (readerOf cfg f).2 src = r at hle hwf
        obtain ⟨r, s⟩ := r
        rcases r with (e | _ | _) | f'
        · simp only [orDefault]
          have hd : s.data = src.data := hle.data
          have hm : s.maxPos = src.maxPos := hle.maxPos
          rw [← hd, ← hm]
          exact fromGenericReader_ideal ft s hwf (hb.mono hle)
        · rfl
        · rfl
        · rfl

theorem fromGenericReader_le (ft : Features) (s : Src) (hs : s.WF) :
    s.Le (fromGenericReader ft s).2 ∧ (fromGenericReader ft s).2.WF := by
  unfold fromGenericReader
  split
  · obtain ⟨k, hk⟩ := reader_all ⟨true⟩ .txt
    obtain ⟨h1, h2, _⟩ := execOn_le true txtReader s hs (hk.untilBuffered (fun _ => id))
    generalize execOn true txtReader s = r at h1 h2
    obtain ⟨(e | _ | _) | f, s'⟩ := r <;> exact ⟨h1, h2⟩
  · exact ⟨Src.Le.refl s, hs⟩

/-- Detection only consumes the stream's schedule: content and seek range stay. -/
theorem fromReader_le (cfg : Cfg) (ft : Features) (s : Src) (hs : s.WF) :
    s.Le (fromReader cfg ft s).2 ∧ (fromReader cfg ft s).2.WF := by
  obtain ⟨hle, hwf, _⟩ := Src.read_spec s bufferSize hs
  rw [fromReader_eq]
  generalize s.read bufferSize = rs at *
  obtain ⟨r, s1⟩ := rs
  simp only at hle hwf
  cases r with
  | error e => exact ⟨hle, hwf⟩
  | ok buf =>
    simp only
    unfold afterRead
    split
    · exact ⟨hle, hwf⟩
    · split
      · rename_i fmt _
        unfold fromFmtReader
        rcases fmtReader_cases cfg ft fmt with h | ⟨f, hf, hen, _, h⟩
        · rw [h]; exact ⟨hle, hwf⟩
        · rw [h]
          simp only
          obtain ⟨k, hall⟩ := reader_all cfg f
          obtain ⟨hle2, hwf2, _⟩ := execOn_le (readerOf cfg f).1 (readerOf cfg f).2 s1 hwf
            (hall.untilBuffered (fun _ => id))
          generalize execOn (readerOf cfg f).1 (readerOf cfg f).2 s1 = r at hle2 hwf2
          obtain ⟨(e | _ | _) | g, s2⟩ := r
          · obtain ⟨h3, h4⟩ := fromGenericReader_le ft s2 hwf2
            exact ⟨(hle.trans hle2).trans h3, h4⟩
          · exact ⟨hle.trans hle2, hwf2⟩
          · exact ⟨hle.trans hle2, hwf2⟩
          · exact ⟨hle.trans hle2, hwf2⟩
      · obtain ⟨h3, h4⟩ := fromGenericReader_le ft s1 hwf
        exact ⟨hle.trans h3, h4⟩

theorem fromReader_settled (cfg : Cfg) (ft : Features) (s : Src) (hs : s.WF) (hc : s.Calm) :
    (fromReader cfg ft s).1 = settled cfg ft (slice s.data s.pos 36870) s.data s.maxPos := by
  rw [fromReader_eq2]
  have hr := (Src.read_calm s 36870 hc).1
  obtain ⟨hle, hwf, _⟩ := Src.read_spec s 36870 hs
  generalize s.read 36870 = rs at *
  obtain ⟨r, s'⟩ := rs
  simp only at hr hle hwf
  subst hr
  simp only
  rw [afterRead_settled cfg ft _ s' hwf (hc.mono hle), hle.data, hle.maxPos]

/-- C51. Detection can be repeated: if the caller moves the stream back to where it was (on a stream
that serves every call in full), a second detection returns what the first one returned, whatever
the first one did to the position. This holds at every starting position and for every content. -/
theorem C51_repeat (cfg : Cfg) (ft : Features) (s : Src) (hs : s.WF) (hc : s.Calm) :
    (fromReader cfg ft { (fromReader cfg ft s).2 with pos := s.pos }).1 = (fromReader cfg ft s).1 := by
  obtain ⟨hle, hwf⟩ := fromReader_le cfg ft s hs
  have hc' := hc.mono hle
  rw [fromReader_settled cfg ft s hs hc,
    fromReader_settled cfg ft { (fromReader cfg ft s).2 with pos := s.pos }
      ⟨hwf.len, by show s.pos ≤ (fromReader cfg ft s).2.maxPos; rw [hle.maxPos]; exact hs.pos⟩
      ⟨hc'.reads, hc'.seeks⟩]
  show settled cfg ft (slice (fromReader cfg ft s).2.data s.pos 36870) (fromReader cfg ft s).2.data
    (fromReader cfg ft s).2.maxPos = _
  rw [hle.data, hle.maxPos]

/-- C51. Two streams over the same content at the same position give the same outcome, whatever was
done with them before. -/
theorem C51_no_history (cfg : Cfg) (ft : Features) (s s' : Src) (hs : s.WF) (hs' : s'.WF) (hc : s.Calm)
    (hc' : s'.Calm) (hd : s.data = s'.data) (hp : s.pos = s'.pos) (hm : s.maxPos = s'.maxPos) :
    (fromReader cfg ft s).1 = (fromReader cfg ft s').1 := by
  rw [fromReader_settled cfg ft s hs hc, fromReader_settled cfg ft s' hs' hc', hd, hp, hm]

theorem read_log (s : Src) (n : Nat) : CallsBetween s (s.read n).2 [.read n] := by
  unfold CallsBetween Src.read
  cases s.revs with
  | nil => rfl
  | cons ev es => cases ev <;> rfl

/-- C51. If no reader is enabled for what the first read delivers, that read is the only call made
on the stream, and the stream is left right behind the bytes it delivered. For every stream, every
schedule and every position. -/
theorem C51_single_read (cfg : Cfg) (ft : Features) (s : Src) (hs : s.WF) (hl : IsSlice s.data)
    (buf : Bytes) (hr : (s.read 36870).1 = .ok buf) (f : FileFormat) (hf : Recognised buf f)
    (hno : ∀ g ∈ Feature.structured, g.enabled ft = true → f ≠ g.base)
    (ht : ft.txt = true → f ≠ ArbitraryBinaryData) :
    CallsBetween s (fromReader cfg ft s).2 [.read 36870] ∧
    (fromReader cfg ft s).2.pos = s.pos + buf.length := by
  have hlen := read_length hs hl hr
  have hlog := read_log s 36870
  obtain ⟨_, _, hcase⟩ := Src.read_spec s 36870 hs
  have hpos : (s.read 36870).2.pos = s.pos + buf.length := by
    rcases hcase with ⟨k, _, _, h2, h3⟩ | ⟨e, h2, _⟩
    · rw [h2] at hr; cases hr; exact h3
    · rw [h2] at hr; cases hr
  suffices h : (fromReader cfg ft s).2 = (s.read 36870).2 by rw [h]; exact ⟨hlog, hpos⟩
  have hf2 := hf
  unfold Recognised at hf2
  rw [fromBytes_none _ _ hlen] at hf2
  rw [fromReader_eq2]
  generalize s.read 36870 = rs at *
  obtain ⟨r, s'⟩ := rs
  simp only at hr
  subst hr
  simp only [afterRead]
  by_cases h0 : buf.length = 0
  · rw [if_pos h0]
  · rw [if_neg h0] at hf2 ⊢
    cases hsig : fromSignature buf with
    | none =>
      rw [hsig] at hf2
      simp only [Option.getD_none] at hf2
      cases hf2
      simp only [fromGenericReader]
      cases htx : ft.txt with
      | true => exact absurd rfl (ht htx)
      | false => rfl
    | some fmt =>
      rw [hsig] at hf2
      simp only [Option.getD_some] at hf2
      cases hf2
      simp only [fromFmtReader]
      rcases fmtReader_cases cfg ft f with h | ⟨g, hg, he, hgb, h⟩
      · rw [h]
      · exact absurd hgb (hno g hg he)

/-- C51. With no reader feature enabled (the default), detection makes one `read` call and nothing
else, on every stream, also when that call fails; it never seeks. -/
theorem C51_default_one_read (cfg : Cfg) (s : Src) :
    CallsBetween s (fromReader cfg Features.none s).2 [.read 36870] := by
  have hlog := read_log s 36870
  suffices h : (fromReader cfg Features.none s).2 = (s.read 36870).2 by rw [h]; exact hlog
  rw [fromReader_eq2]
  generalize s.read 36870 = rs
  obtain ⟨r, s'⟩ := rs
  cases r with
  | error e => rfl
  | ok buf =>
    simp only [afterRead]
    split
    · rfl
    · cases fromSignature buf with
      | none => rfl
      | some fmt =>
        simp only [fromFmtReader]
        rcases fmtReader_cases cfg Features.none fmt with h | ⟨g, hg, he, _, _⟩
        · rw [h]
        · exact absurd he (by revert hg; cases g <;> decide)

/-- C51, what callers must not expect: the position is not restored. Without readers the stream is
left behind the bytes read, and a reader can leave it anywhere, even behind the end; a second call
without rewinding gives another verdict. -/
theorem C51_not_restored :
    (fromReader Cfg.release Features.none (cursor (b!"\x89PNG\r\n\x1a\n"))).2.pos = 8 ∧
    (fromReader Cfg.release Features.none
      (fromReader Cfg.release Features.none (cursor (b!"\x89PNG\r\n\x1a\n"))).2).1 = .ok FileFormat.Empty ∧
    (fromReader Cfg.release { id3v2 := true } (cursor (b!"ID3\x04\x00\x00\x00\x00\x10\x00"))).2.pos = 2058 := by
  decide +kernel

-- Non-vacuity: a repeated detection on a stream positioned behind the start.
example : Src.Calm { cursor (b!"..\x89PNG\r\n\x1a\n") with pos := 2 } :=
  ⟨(fun _ h => nomatch h), (fun _ h => nomatch h)⟩
example : (fromReader Cfg.release Features.all { cursor (b!"..\x89PNG\r\n\x1a\n") with pos := 2 }).1 =
    .ok PortableNetworkGraphics := by decide +kernel

end FF.Props
