import Verif.Proofs.Exec
import Verif.Model.Readers
/-!
# A syntactic logic for programs

`All O F Q p k`: on every path of `p` at most `k` calls are made, each satisfying `O`; failure
leaves satisfy `F`, value leaves satisfy `Q`. (Read results range over byte strings of the lengths
the call can return.)
-/

namespace FF

/-- A call on the stream. -/
inductive Op where
  | readExact (n : Nat)
  | read (n : Nat)
  | seek (s : SeekFrom)
  | tell
  | readUntil (n : Nat)

def All {α : Type} (O : Op → Prop) (F : Fail → Prop) (Q : α → Prop) : Prog α → Nat → Prop
  | .pure a, _ => Q a
  | .fail f, _ => F f
  | .readExact n c, k => O (.readExact n) ∧ 1 ≤ k ∧ ∀ x : Bytes, x.length = n → All O F Q (c x) (k - 1)
  | .read n c, k => O (.read n) ∧ 1 ≤ k ∧ ∀ x : Bytes, x.length ≤ n → All O F Q (c x) (k - 1)
  | .seek s c, k => O (.seek s) ∧ 1 ≤ k ∧ ∀ q : Nat, All O F Q (c q) (k - 1)
  | .tell c, k => O .tell ∧ 1 ≤ k ∧ ∀ q : Nat, All O F Q (c q) (k - 1)
  | .readUntil n c, k => O (.readUntil n) ∧ 1 ≤ k ∧ ∀ x : Bytes, x.length ≤ n → All O F Q (c x) (k - 1)

variable {α β : Type} {O O' : Op → Prop} {F F' : Fail → Prop} {Q Q' : α → Prop} {R : β → Prop}

theorem All.mono {p : Prog α} {k k' : Nat} (h : All O F Q p k) (hO : ∀ o, O o → O' o)
    (hF : ∀ f, F f → F' f) (hQ : ∀ a, Q a → Q' a) (hk : k ≤ k') : All O' F' Q' p k' := by
  induction p generalizing k k' with
  | pure a => exact hQ _ h
  | fail f => exact hF _ h
  | readExact n c ih => exact ⟨hO _ h.1, by have := h.2.1; omega, fun x hx => ih x (h.2.2 x hx) (by omega)⟩
  | read n c ih => exact ⟨hO _ h.1, by have := h.2.1; omega, fun x hx => ih x (h.2.2 x hx) (by omega)⟩
  | seek n c ih => exact ⟨hO _ h.1, by have := h.2.1; omega, fun x => ih x (h.2.2 x) (by omega)⟩
  | tell c ih => exact ⟨hO _ h.1, by have := h.2.1; omega, fun x => ih x (h.2.2 x) (by omega)⟩
  | readUntil n c ih => exact ⟨hO _ h.1, by have := h.2.1; omega, fun x hx => ih x (h.2.2 x hx) (by omega)⟩

theorem All.bind' {p : Prog α} {f : α → Prog β} {k k' : Nat} (h : All O F Q p k)
    (hf : ∀ a, Q a → All O F R (f a) k') : All O F R (p.bind f) (k + k') := by
  induction p generalizing k with
  | pure a => exact (hf a h).mono (fun _ => id) (fun _ => id) (fun _ => id) (by omega)
  | fail e => exact h
  | readExact n c ih =>
    refine ⟨h.1, by have := h.2.1; omega, fun x hx => (ih x (h.2.2 x hx)).mono (fun _ => id) (fun _ => id) (fun _ => id) ?_⟩
    have := h.2.1; omega
  | read n c ih =>
    refine ⟨h.1, by have := h.2.1; omega, fun x hx => (ih x (h.2.2 x hx)).mono (fun _ => id) (fun _ => id) (fun _ => id) ?_⟩
    have := h.2.1; omega
  | seek n c ih =>
    refine ⟨h.1, by have := h.2.1; omega, fun x => (ih x (h.2.2 x)).mono (fun _ => id) (fun _ => id) (fun _ => id) ?_⟩
    have := h.2.1; omega
  | tell c ih =>
    refine ⟨h.1, by have := h.2.1; omega, fun x => (ih x (h.2.2 x)).mono (fun _ => id) (fun _ => id) (fun _ => id) ?_⟩
    have := h.2.1; omega
  | readUntil n c ih =>
    refine ⟨h.1, by have := h.2.1; omega, fun x hx => (ih x (h.2.2 x hx)).mono (fun _ => id) (fun _ => id) (fun _ => id) ?_⟩
    have := h.2.1; omega

theorem All.bind {p : Prog α} {f : α → Prog β} {k k' k'' : Nat} (h : All O F Q p k)
    (hk : k + k' ≤ k'') (hf : ∀ a, Q a → All O F R (f a) k') : All O F R (p >>= f) k'' :=
  (All.bind' h hf).mono (fun _ => id) (fun _ => id) (fun _ => id) hk

@[simp] theorem all_pure (a : α) (k : Nat) : All O F Q (Pure.pure a : Prog α) k ↔ Q a := Iff.rfl
@[simp] theorem all_pure' (a : α) (k : Nat) : All O F Q (Prog.pure a : Prog α) k ↔ Q a := Iff.rfl
@[simp] theorem all_fail (f : Fail) (k : Nat) : All O F Q (Prog.fail f : Prog α) k ↔ F f := Iff.rfl
@[simp] theorem all_throwErr (e : ErrKind) (k : Nat) :
    All O F Q (Prog.throwErr e : Prog α) k ↔ F (.err e) := Iff.rfl
@[simp] theorem all_rdExact_bind (n k : Nat) (f : Bytes → Prog α) :
    All O F Q (Prog.rdExact n >>= f) k ↔
      O (.readExact n) ∧ 1 ≤ k ∧ ∀ x : Bytes, x.length = n → All O F Q (f x) (k - 1) := Iff.rfl
@[simp] theorem all_readBytes_bind (n k : Nat) (f : Bytes → Prog α) :
    All O F Q (readBytes n >>= f) k ↔
      O (.readExact n) ∧ 1 ≤ k ∧ ∀ x : Bytes, x.length = n → All O F Q (f x) (k - 1) := Iff.rfl
@[simp] theorem all_rd_bind (n k : Nat) (f : Bytes → Prog α) :
    All O F Q (Prog.rd n >>= f) k ↔
      O (.read n) ∧ 1 ≤ k ∧ ∀ x : Bytes, x.length ≤ n → All O F Q (f x) (k - 1) := Iff.rfl
@[simp] theorem all_rdUntil_bind (n k : Nat) (f : Bytes → Prog α) :
    All O F Q (Prog.rdUntil n >>= f) k ↔
      O (.readUntil n) ∧ 1 ≤ k ∧ ∀ x : Bytes, x.length ≤ n → All O F Q (f x) (k - 1) := Iff.rfl
@[simp] theorem all_sk_bind (s : SeekFrom) (k : Nat) (f : Nat → Prog α) :
    All O F Q (Prog.sk s >>= f) k ↔ O (.seek s) ∧ 1 ≤ k ∧ ∀ q, All O F Q (f q) (k - 1) := Iff.rfl
@[simp] theorem all_pos_bind (k : Nat) (f : Nat → Prog α) :
    All O F Q (Prog.pos >>= f) k ↔ O .tell ∧ 1 ≤ k ∧ ∀ q, All O F Q (f q) (k - 1) := Iff.rfl
@[simp] theorem all_readU16le_bind (k : Nat) (f : Nat → Prog α) :
    All O F Q (readU16le >>= f) k ↔
      O (.readExact 2) ∧ 1 ≤ k ∧ ∀ x : Bytes, x.length = 2 → All O F Q (f (leNat x)) (k - 1) := Iff.rfl
@[simp] theorem all_readU32le_bind (k : Nat) (f : Nat → Prog α) :
    All O F Q (readU32le >>= f) k ↔
      O (.readExact 4) ∧ 1 ≤ k ∧ ∀ x : Bytes, x.length = 4 → All O F Q (f (leNat x)) (k - 1) := Iff.rfl
@[simp] theorem all_readU64le_bind (k : Nat) (f : Nat → Prog α) :
    All O F Q (readU64le >>= f) k ↔
      O (.readExact 8) ∧ 1 ≤ k ∧ ∀ x : Bytes, x.length = 8 → All O F Q (f (leNat x)) (k - 1) := Iff.rfl
@[simp] theorem all_readU32be_bind (k : Nat) (f : Nat → Prog α) :
    All O F Q (readU32be >>= f) k ↔
      O (.readExact 4) ∧ 1 ≤ k ∧ ∀ x : Bytes, x.length = 4 → All O F Q (f (beNat x)) (k - 1) := Iff.rfl
@[simp] theorem all_readU64be_bind (k : Nat) (f : Nat → Prog α) :
    All O F Q (readU64be >>= f) k ↔
      O (.readExact 8) ∧ 1 ≤ k ∧ ∀ x : Bytes, x.length = 8 → All O F Q (f (beNat x)) (k - 1) := Iff.rfl

@[simp] theorem all_lift_ok_bind (a : α) (k : Nat) (f : α → Prog β) :
    All O F R (Prog.lift (.ok a) >>= f) k ↔ All O F R (f a) k := Iff.rfl
@[simp] theorem all_lift_error_bind (e : Fail) (k : Nat) (f : α → Prog β) :
    All O F R (Prog.lift (.error e) >>= f) k ↔ F e := Iff.rfl
@[simp] theorem all_pure_bind (a : α) (k : Nat) (f : α → Prog β) :
    All O F R ((Pure.pure a : Prog α) >>= f) k ↔ All O F R (f a) k := Iff.rfl

@[simp] theorem index_cons_zero (a : UInt8) (l : Bytes) : index (a :: l) 0 = .ok a := rfl

theorem all_readU8_bind (k : Nat) (f : UInt8 → Prog α) :
    All O F Q (readU8 >>= f) k ↔
      O (.readExact 1) ∧ 1 ≤ k ∧ ∀ b : UInt8, All O F Q (f b) (k - 1) := by
  show (O (.readExact 1) ∧ 1 ≤ k ∧ ∀ x : Bytes, x.length = 1 →
    All O F Q (Prog.lift (index x 0) >>= f) (k - 1)) ↔ _
  constructor
  · rintro ⟨h1, h2, h3⟩
    exact ⟨h1, h2, fun b => h3 [b] rfl⟩
  · rintro ⟨h1, h2, h3⟩
    refine ⟨h1, h2, fun x hx => ?_⟩
    match x, hx with
    | [b], _ => exact h3 b

attribute [simp] all_readU8_bind

/-- The GUID text of 16 bytes. -/
def guidStr (x : Bytes) : Str :=
  match guidText x with
  | .ok s => s
  | .error _ => []

theorem guidText_ok (x : Bytes) (hx : x.length = 16) : guidText x = .ok (guidStr x) := by
  match x, hx with
  | [a0, a1, a2, a3, a4, a5, a6, a7, a8, a9, a10, a11, a12, a13, a14, a15], _ => rfl

theorem all_readGuid_bind (k : Nat) (f : Str → Prog α) :
    All O F Q (readGuid >>= f) k ↔
      O (.readExact 16) ∧ 1 ≤ k ∧ ∀ x : Bytes, x.length = 16 → All O F Q (f (guidStr x)) (k - 1) := by
  show (O (.readExact 16) ∧ 1 ≤ k ∧ ∀ x : Bytes, x.length = 16 →
    All O F Q (Prog.lift (guidText x) >>= f) (k - 1)) ↔ _
  constructor
  · rintro ⟨h1, h2, h3⟩
    refine ⟨h1, h2, fun x hx => ?_⟩
    have := h3 x hx
    rwa [guidText_ok x hx, all_lift_ok_bind] at this
  · rintro ⟨h1, h2, h3⟩
    refine ⟨h1, h2, fun x hx => ?_⟩
    rw [guidText_ok x hx, all_lift_ok_bind]
    exact h3 x hx

attribute [simp] all_readGuid_bind

@[simp] theorem all_readString_bind (n k : Nat) (f : Str → Prog α) :
    All O F Q (readString n >>= f) k ↔
      O (.readExact n) ∧ 1 ≤ k ∧ ∀ x : Bytes, x.length = n → All O F Q (f (decodeLossy x)) (k - 1) :=
  Iff.rfl

/-- No bare `read`; `read_until` only when buffered. -/
def Op.exact (buffered : Bool) : Op → Prop
  | .read _ => False
  | .readUntil _ => buffered = true
  | _ => True

/-- No request for more than `n` bytes. -/
def Op.size (n : Nat) : Op → Prop
  | .readExact k => k ≤ n
  | .read k => k ≤ n
  | .readUntil k => k ≤ n
  | _ => True

theorem All.exact {b : Bool} {p : Prog α} {k : Nat} (h : All O F Q p k)
    (hO : ∀ o, O o → Op.exact b o) : Exact b p := by
  induction p generalizing k with
  | pure a => trivial
  | fail f => trivial
  | readExact n c ih => exact fun x hx => ih x (h.2.2 x hx)
  | read n c ih => exact hO _ h.1
  | seek n c ih => exact fun x => ih x (h.2.2 x)
  | tell c ih => exact fun x => ih x (h.2.2 x)
  | readUntil n c ih => exact ⟨hO _ h.1, fun x hx => ih x (h.2.2 x hx)⟩

/-- `read_until` only when buffered. -/
def Op.untilBuffered (buffered : Bool) : Op → Prop
  | .readUntil _ => buffered = true
  | _ => True

theorem All.untilBuffered {b : Bool} {p : Prog α} {k : Nat} (h : All O F Q p k)
    (hO : ∀ o, O o → Op.untilBuffered b o) : UntilBuffered b p := by
  induction p generalizing k with
  | pure a => trivial
  | fail f => trivial
  | readExact n c ih => exact fun x hx => ih x (h.2.2 x hx)
  | read n c ih => exact fun x hx => ih x (h.2.2 x hx)
  | seek n c ih => exact fun x => ih x (h.2.2 x)
  | tell c ih => exact fun x => ih x (h.2.2 x)
  | readUntil n c ih => exact ⟨hO _ h.1, fun x hx => ih x (h.2.2 x hx)⟩

theorem All.noCrash {p : Prog α} {k : Nat} (h : All O F Q p k)
    (hF : ∀ f, F f → ∃ e, f = .err e) : NoCrash p := by
  induction p generalizing k with
  | pure a => trivial
  | fail f => exact hF _ h
  | readExact n c ih => exact fun x hx => ih x (h.2.2 x hx)
  | read n c ih => exact fun x hx => ih x (h.2.2 x hx)
  | seek n c ih => exact fun x => ih x (h.2.2 x)
  | tell c ih => exact fun x => ih x (h.2.2 x)
  | readUntil n c ih => exact fun x hx => ih x (h.2.2 x hx)

/-- Every value the program returns on a stream satisfies `Q`. -/
theorem All.exec_value {p : Prog α} {k : Nat} (h : All O F Q p k) (s : Rd) (hs : s.Ok)
    (hO : ∀ o, O o → Op.untilBuffered s.buffered o) (a : α) (ha : (exec p s).1 = .ok a) : Q a := by
  induction p generalizing k s with
  | pure b => cases ha; exact h
  | fail f => cases ha
  | readExact n c ih =>
    obtain ⟨hle, hbf, hok, hr⟩ := Rd.readExact_spec s n hs
    cases hx : s.readExact n with
    | mk r s' =>
      rw [hx] at hle hbf hok hr
      simp only [exec, hx] at hle hbf hok hr ha
      rcases hr with ⟨h1, h2, h3⟩ | ⟨h1, h2⟩ | ⟨h1, e, h2⟩
      · subst h2
        exact ih _ (h.2.2 _ (by rw [length_slice]; omega)) s' hok (by rw [hbf]; exact hO) ha
      · subst h2; cases ha
      · subst h2; cases ha
  | read n c ih =>
    obtain ⟨hle, hbf, hok, hr⟩ := Rd.read_spec s n hs
    cases hx : s.read n with
    | mk r s' =>
      rw [hx] at hle hbf hok hr
      simp only [exec, hx] at hle hbf hok hr ha
      rcases hr with ⟨k, h1, h2, h3, h4, h5, h6⟩ | ⟨e, h2, _⟩
      · subst h4
        exact ih _ (h.2.2 _ (by omega)) s' hok (by rw [hbf]; exact hO) ha
      · subst h2; cases ha
  | seek p c ih =>
    obtain ⟨hle, hbf, hok, hr⟩ := Rd.seek_spec s p hs
    cases hx : s.seek p with
    | mk r s' =>
      rw [hx] at hle hbf hok hr
      simp only [exec, hx] at hle hbf hok hr ha
      cases r with
      | ok q => exact ih _ (h.2.2 _) s' hok (by rw [hbf]; exact hO) ha
      | error e => cases ha
  | tell c ih =>
    obtain ⟨hle, hbf, hok, hr⟩ := Rd.tell_spec s hs
    cases hx : s.tell with
    | mk r s' =>
      rw [hx] at hle hbf hok hr
      simp only [exec, hx] at hle hbf hok hr ha
      cases r with
      | ok q => exact ih _ (h.2.2 _) s' hok (by rw [hbf]; exact hO) ha
      | error e => cases ha
  | readUntil n c ih =>
    obtain ⟨hle, hbf, hok, hr⟩ := Rd.readUntil_spec s n hs (hO _ h.1)
    cases hx : s.readUntil n with
    | mk r s' =>
      rw [hx] at hle hbf hok hr
      simp only [exec, hx] at hle hbf hok hr ha
      rcases hr with ⟨h2, h3⟩ | ⟨h1, e, h2⟩
      · subst h2
        exact ih _ (h.2.2 _ (length_uptoNewline_slice _ _ _)) s' hok (by rw [hbf]; exact hO) ha
      · subst h2; cases ha

end FF
