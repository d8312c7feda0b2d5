import Verif.Spec.Lefi
import Verif.Spec.Basic
import Verif.Props.Meta
/-!
# C44: the example program
-/

namespace FF.Props
open FF Spec FileFormat

theorem foldl_max (l : List Nat) (a : Nat) :
    (∀ x ∈ a :: l, x ≤ l.foldl (fun m x => if x < m then m else x) a) ∧
      l.foldl (fun m x => if x < m then m else x) a ∈ a :: l := by
  induction l generalizing a with
  | nil => simp
  | cons b t ih =>
    simp only [List.foldl_cons]
    obtain ⟨h1, h2⟩ := ih (if b < a then a else b)
    have h3 := h1 _ List.mem_cons_self
    constructor
    · intro x hx
      rcases List.mem_cons.mp hx with rfl | hx
      · split at h3 <;> split <;> first | omega | (rename_i h; simp only [h, if_true, if_false] at *; omega)
      · rcases List.mem_cons.mp hx with rfl | hx
        · by_cases h : x < a
          · rw [if_pos h] at *; omega
          · rw [if_neg h] at *; exact h3
        · exact h1 x (List.mem_cons_of_mem _ hx)
    · rcases List.mem_cons.mp h2 with h2 | h2
      · rw [h2]; split <;> simp
      · exact List.mem_cons_of_mem _ (List.mem_cons_of_mem _ h2)

theorem lefiWidth_longest (args : List (List Char)) : ∃ n, lefiWidth args = n + 1 ∧ IsLongest args n := by
  unfold lefiWidth
  cases args with
  | nil => exact ⟨0, rfl, by simp, Or.inl rfl⟩
  | cons a t =>
    refine ⟨_, rfl, ?_⟩
    simp only [maxByKey, List.map_cons, Option.getD_some]
    obtain ⟨h1, h2⟩ := foldl_max (t.map List.length) a.length
    refine ⟨fun x hx => h1 _ ?_, Or.inr ?_⟩
    · exact List.mem_map.mpr ⟨x, hx, rfl⟩ |> fun h => by simpa using h
    · rw [← List.map_cons] at h2
      obtain ⟨x, hx, hl⟩ := List.mem_map.mp h2
      exact ⟨x, hx, hl⟩

theorem padTo_ok {limit : Option Nat} {width : Nat} {arg : List Char} (hlim : ∀ l, limit = some l → width ≤ l)
    (h : arg.length + 1 ≤ width) :
    padTo limit width (arg ++ [':']) =
      .ok (arg ++ ':' :: List.replicate (width - (arg.length + 1)) ' ') := by
  unfold padTo
  have : limit.any (· < width) = false := by
    cases limit with
    | none => rfl
    | some l => have := hlim l rfl; simp; omega
  rw [this, if_neg (by decide)]
  have hlen : (arg ++ [':']).length = arg.length + 1 := by simp
  rw [hlen]
  by_cases hw : width ≤ arg.length + 1
  · rw [if_pos hw, Nat.sub_eq_zero_of_le hw]; simp
  · rw [if_neg hw]; simp

theorem lefiStep_spec (cfg : Cfg) (ft : Features) {limit : Option Nat} {width : Nat} {arg : List Char} (s : Seen)
    (hlim : ∀ l, limit = some l → width ≤ l) (h : arg.length + 1 ≤ width) :
    (∃ text line, lefiStep cfg ft limit width arg s = .ok line ∧ Describes cfg ft s text ∧ IsLine width arg text line) ∨
    (∃ e, lefiStep cfg ft limit width arg s = .error e ∧ s.isSymlink = false ∧ s.isDir = false ∧
      fromFile cfg ft (fun _ => s.opened) () = .error e) := by
  have hp := padTo_ok hlim h
  unfold lefiStep
  simp only [hp]
  cases h1 : s.isSymlink with
  | true =>
    refine Or.inl ⟨_, _, rfl, .symlink h1, width - (arg.length + 1), ?_, by omega⟩
    simp
  | false =>
    cases h2 : s.isDir with
    | true =>
      refine Or.inl ⟨_, _, rfl, .directory h1 h2, width - (arg.length + 1), ?_, by omega⟩
      simp
    | false =>
      simp only [Bool.false_eq_true, if_false]
      cases h3 : fromFile cfg ft (fun _ => s.opened) () with
      | error e => exact Or.inr ⟨e, rfl, trivial, trivial, rfl⟩
      | ok f =>
        refine Or.inl ⟨readmeEntry f.name f.shortName,
          arg ++ ':' :: List.replicate (width - (arg.length + 1)) ' ' ++ ' ' :: (readmeEntry f.name f.shortName).toList ++ ['\n'],
          ?_, .file h1 h2 f h3, _, rfl, by omega⟩
        show (match f.shortName with | some short => _ | none => _) = _
        cases h4 : f.shortName with
        | none =>
          show Except.ok _ = _
          congr 1
          simp [readmeEntry]
        | some short =>
          show Except.ok _ = _
          congr 1
          simp [readmeEntry]

theorem lefiLoop_spec (cfg : Cfg) (ft : Features) {limit : Option Nat} {width : Nat} (w : World)
    (hlim : ∀ l, limit = some l → width ≤ l) (i : Nat) (args : List (List Char))
    (h : ∀ a ∈ args, a.length + 1 ≤ width) :
    ∃ k lines, IsOutput cfg ft w width i (args.take k) lines ∧ (lefiLoop cfg ft limit width w i args).2 = lines.flatten ∧
      ((k = args.length ∧ (lefiLoop cfg ft limit width w i args).1 = .ok ()) ∨
       (∃ arg e, args[k]? = some arg ∧ (w (i + k) arg).isSymlink = false ∧ (w (i + k) arg).isDir = false ∧
          fromFile cfg ft (fun _ => (w (i + k) arg).opened) () = .error e ∧
          (lefiLoop cfg ft limit width w i args).1 = .error e)) := by
  induction args generalizing i with
  | nil => exact ⟨0, [], .nil i, rfl, Or.inl ⟨rfl, rfl⟩⟩
  | cons arg t ih =>
    unfold lefiLoop
    rcases lefiStep_spec cfg ft (w i arg) hlim (h arg List.mem_cons_self) with
      ⟨text, line, h1, hd, hl⟩ | ⟨e, h1, hs, hdir, hf⟩
    · obtain ⟨k, lines, ho, hout, hend⟩ := ih (i + 1) (fun a ha => h a (List.mem_cons_of_mem _ ha))
      rw [h1]
      refine ⟨k + 1, line :: lines, .cons i arg text line _ _ hd hl ho, by simp [hout], ?_⟩
      rcases hend with ⟨hk, hr⟩ | ⟨a, e, hk, h2⟩
      · exact Or.inl ⟨by simp [hk], hr⟩
      · refine Or.inr ⟨a, e, by simpa using hk, ?_⟩
        rw [show i + (k + 1) = i + 1 + k by omega]
        exact h2
    · rw [h1]
      exact ⟨0, [], .nil i, rfl, Or.inr ⟨arg, e, rfl, hs, hdir, hf, rfl⟩⟩

theorem decodeArgs_unicode (args : List (List Char)) : decodeArgs (args.map .unicode) = some args := by
  induction args with
  | nil => rfl
  | cons a t ih => simp [decodeArgs, ih]

/-- C44. Given arguments that are valid Unicode and not longer than the formatting machinery takes, the program
prints one line per argument, up to the end or to the first argument which is neither a symbolic link nor a
directory and for which `from_file` fails; in that case the program fails the same way. In every line the
description starts in the column behind the longest argument and its colon. -/
theorem C44_output (cfg : Cfg) (ft : Features) (limit : Option Nat) (w : World) (prog : List Char)
    (args : List (List Char)) (hlim : ∀ l, limit = some l → ∀ a ∈ args, a.length < l) (hpos : limit ≠ some 0) :
    ∃ n k lines, IsLongest args n ∧ IsOutput cfg ft w (n + 1) 0 (args.take k) lines ∧
      (lefi cfg ft limit w ((prog :: args).map .unicode)).2 = lines.flatten ∧
      ((k = args.length ∧ (lefi cfg ft limit w ((prog :: args).map .unicode)).1 = .ok ()) ∨
       (∃ arg e, args[k]? = some arg ∧ (w k arg).isSymlink = false ∧ (w k arg).isDir = false ∧
          fromFile cfg ft (fun _ => (w k arg).opened) () = .error e ∧
          (lefi cfg ft limit w ((prog :: args).map .unicode)).1 = .error e)) := by
  obtain ⟨n, hw, hn⟩ := lefiWidth_longest args
  have hl : lefi cfg ft limit w ((prog :: args).map .unicode) = lefiLoop cfg ft limit (n + 1) w 0 args := by
    unfold lefi
    rw [decodeArgs_unicode]
    simp only [List.drop_succ_cons, List.drop_zero, hw]
  obtain ⟨k, lines, h1, h2, h3⟩ := lefiLoop_spec cfg ft (limit := limit) (width := n + 1) w (by
    intro l h
    rcases hn.2 with rfl | ⟨a, ha, rfl⟩
    · have : l ≠ 0 := by rintro rfl; exact hpos h
      omega
    · exact hlim l h a ha) 0 args (fun a ha => Nat.succ_le_succ (hn.1 a ha))
  rw [hl]
  refine ⟨n, k, lines, hn, h1, h2, ?_⟩
  simpa using h3

/-- C44. An argument that is not valid Unicode makes the program panic before it prints anything. -/
theorem C44_not_unicode (cfg : Cfg) (ft : Features) (limit : Option Nat) (w : World) (argv : List OsArg)
    (h : .invalid ∈ argv) : lefi cfg ft limit w argv = (.error .panic, []) := by
  have : decodeArgs argv = none := by
    induction argv with
    | nil => cases h
    | cons a t ih =>
      cases a with
      | invalid => rfl
      | unicode c =>
        have ht := ih (by simpa using h)
        simp [decodeArgs, ht]
  simp [lefi, this]

/-- C44. If the formatting machinery has a limit and an argument reaches it, the program prints nothing and fails,
whatever the other arguments. -/
theorem C44_too_long (cfg : Cfg) (ft : Features) (l : Nat) (w : World) (prog : List Char) (args : List (List Char))
    (a : List Char) (ha : a ∈ args) (hl : l ≤ a.length) :
    (lefi cfg ft (some l) w ((prog :: args).map .unicode)).2 = [] ∧
      ∃ e, (lefi cfg ft (some l) w ((prog :: args).map .unicode)).1 = .error e := by
  obtain ⟨n, hw, hn⟩ := lefiWidth_longest args
  have hle := hn.1 a ha
  unfold lefi
  rw [decodeArgs_unicode]
  simp only [List.drop_succ_cons, List.drop_zero, hw]
  have hp : ∀ i, padTo (some l) (n + 1) i = .error .panic := by
    intro i
    have : (some l).any (· < n + 1) = true := by simp; omega
    unfold padTo
    rw [this]; rfl
  cases args with
  | nil => cases ha
  | cons b t =>
    have hs : ∃ e, lefiStep cfg ft (some l) (n + 1) b (w 0 b) = .error e := by
      unfold lefiStep
      simp only [hp]
      cases (w 0 b).isSymlink with
      | true => exact ⟨_, rfl⟩
      | false =>
        cases (w 0 b).isDir with
        | true => exact ⟨_, rfl⟩
        | false =>
          cases fromFile cfg ft (fun _ => (w 0 b).opened) () with
          | error e => exact ⟨e, rfl⟩
          | ok f =>
            refine ⟨.panic, ?_⟩
            show (match f.shortName with | some short => _ | none => _) = _
            cases f.shortName <;> rfl
    obtain ⟨e, he⟩ := hs
    unfold lefiLoop
    rw [he]
    exact ⟨rfl, e, rfl⟩

theorem mem_bytes {c : Char} {s : String} (h : c ∈ s.toList) :
    ∀ b ∈ String.utf8EncodeChar c, b ∈ s.toByteArray.data.toList := by
  intro b hb
  rw [← String.utf8Encode_toList, List.utf8Encode]
  simp
  exact ⟨c, h, hb⟩

/-- No byte is a line feed. -/
def noFeed (s : String) : Bool := s.toByteArray.data.toList.all fun b => !(b.toNat == 10)

theorem noFeed_sound {s : String} (h : noFeed s = true) : '\n' ∉ s.toList := by
  intro hm
  have := List.all_eq_true.mp h 10 (mem_bytes hm 10 (by decide))
  revert this
  decide

theorem names_ok : FileFormat.all.all (fun f => noFeed f.name && noFeed (f.shortName.getD "")) = true := by
  decide +kernel

theorem entry_ok (f : FileFormat) : '\n' ∉ (readmeEntry f.name f.shortName).toList := by
  have h := List.all_eq_true.mp names_ok f (mem_all f)
  rw [Bool.and_eq_true] at h
  have h1 := noFeed_sound h.1
  have h2 := noFeed_sound h.2
  cases hs : f.shortName with
  | none => exact h1
  | some s =>
    rw [hs] at h2
    simp only [readmeEntry, String.toList_append, List.mem_append, not_or]
    exact ⟨⟨⟨h1, by decide⟩, h2⟩, by decide⟩

/-- C44. What is printed for an argument without line feed is one line: a line feed at its end and no other. -/
theorem C44_one_line (cfg : Cfg) (ft : Features) (s : Seen) (width : Nat) (arg : List Char) (text : String)
    (line : List Char) (ha : '\n' ∉ arg) (hd : Describes cfg ft s text) (hl : IsLine width arg text line) :
    ∃ l, line = l ++ ['\n'] ∧ '\n' ∉ l := by
  obtain ⟨pad, rfl, _⟩ := hl
  refine ⟨_, rfl, ?_⟩
  have ht : '\n' ∉ text.toList := by
    cases hd with
    | symlink _ => decide
    | directory _ _ => decide
    | file _ _ f _ => exact entry_ok f
  simp only [List.mem_append, List.mem_cons, List.mem_replicate, not_or, not_and]
  exact ⟨⟨ha, by decide, fun _ => by decide⟩, by decide, ht⟩

/-- A link, a directory and a PDF document; then a missing file. -/
def sampleWorld : World := fun i _ => match i with
  | 0 => ⟨true, false, .error (.other 2)⟩
  | 1 => ⟨false, true, .ok (cursor b!"%PDF-1.4")⟩
  | 2 => ⟨false, false, .ok (cursor b!"%PDF-1.4")⟩
  | _ => ⟨false, false, .error (.other 2)⟩

-- The third name has two bytes but one character.
example : lefi Cfg.release Features.none (some 65535) sampleWorld
      (["lefi".toList, "link".toList, "directory".toList, "é".toList, "missing".toList, "link".toList].map .unicode) =
    (.error (.err (.other 2)),
      "link:      Symbolic Link\ndirectory: Directory\né:         Portable Document Format (PDF)\n".toList) := by
  decide +kernel
example : ∀ l, some 65535 = some l → ∀ a ∈ ["link".toList, "directory".toList], a.length < l := by
  rintro l h; cases h; decide

end FF.Props
