import Verif.Peg.Sound
import Verif.Spec.LineEnds
/-!
# Line ends do not matter

`like_eval`: on a text in which every carriage return stands in front of a line feed, an expression that
passes the static check `even` does the same as on the text without the carriage returns.  Tokens that
may contain line ends (`Big`) have other texts, all other tokens are the same.
-/

namespace Verif.Peg
variable {R : Type}

/-- The text without carriage returns. -/
def unix (s : Str) : Str := s.filter (· != '\r')

/-- Every carriage return stands in front of a line feed. -/
def Paired : Str → Prop
  | [] => True
  | c :: s => (c = '\r' → s.head? = some '\n') ∧ Paired s

/-- The text does not end between the two characters of a line end. -/
def Whole (s : Str) : Prop := s.getLast? ≠ some '\r'

@[simp] theorem unix_nil : unix [] = [] := rfl
theorem unix_append (s t : Str) : unix (s ++ t) = unix s ++ unix t := List.filter_append ..
theorem unix_cons_cr (s : Str) : unix ('\r' :: s) = unix s := rfl
theorem unix_cons {c : Char} (h : c ≠ '\r') (s : Str) : unix (c :: s) = c :: unix s := by
  simp [unix, h]

theorem unix_eq {s : Str} (h : '\r' ∉ s) : unix s = s := by
  rw [unix, List.filter_eq_self]
  intro c hc
  simp only [bne_iff_ne, ne_eq]
  rintro rfl
  exact h hc

theorem Paired.right {s t : Str} (h : Paired (s ++ t)) : Paired t := by
  induction s with
  | nil => exact h
  | cons c s ih => exact ih h.2

theorem whole_nil : Whole [] := by simp [Whole]

theorem whole_append {s t : Str} (hs : Whole s) (ht : Whole t) : Whole (s ++ t) := by
  unfold Whole at *
  rw [List.getLast?_append]
  cases h : t.getLast? with
  | none => simpa using hs
  | some c => rw [h] at ht; simpa using ht

theorem whole_of_not_mem {s : Str} (h : '\r' ∉ s) : Whole s := fun e => h (List.mem_of_getLast? e)

theorem unix_length_pos {s : Str} (hw : Whole s) (hs : s ≠ []) : 0 < (unix s).length := by
  rcases List.eq_nil_or_concat s with rfl | ⟨u, c, rfl⟩
  · exact absurd rfl hs
  · have hc : c ≠ '\r' := by
      rintro rfl
      exact hw (by simp)
    rw [List.concat_eq_append, unix_append, unix_cons hc]
    simp

theorem unix_unix (s : Str) : unix (unix s) = unix s := by simp [unix]

theorem unix_length_le (s : Str) : (unix s).length ≤ s.length := List.length_filter_le _ _

/-- The second state is the first one without carriage returns. -/
structure Sim (st st' : St) : Prop where
  rest : st'.rest = unix st.rest
  paired : Paired st.rest
  pos : st.pos = 0 ↔ st'.pos = 0

/-- Which tokens may contain line ends: those with parts that do not (`line`) and others (`box`).  `head`:
the first part does not.  `tail`: the other parts do not.  `part r`: what the
parts of a box `r` can be. -/
structure Big (R : Type) where
  line : R → Bool
  box : R → Bool
  head : R → Bool
  tail : R → Bool
  part : R → R → Bool

mutual
/-- The same tokens, except that the texts of `Big` tokens may differ. -/
inductive Alike (b : Big R) : Tree R → Tree R → Prop where
  | same (t : Tree R) : Alike b t t
  | line {r : R} (s s' : Str) (k : List (Tree R)) (h : b.line r = true) (hs : s' = unix s) :
      Alike b (.node r s k) (.node r s' k)
  | box {r : R} (s s' : Str) {k k' : List (Tree R)} (h : b.box r = true) (hk : Alikes b k k')
      (hh : b.head r = true → k.head? = k'.head?)
      (hl : b.tail r = true → k.tail = k'.tail) (hs : s' = unix s)
      (hp : ∀ t ∈ k, b.part r t.asRule = true) : Alike b (.node r s k) (.node r s' k')
/-- `Alike` for lists. -/
inductive Alikes (b : Big R) : List (Tree R) → List (Tree R) → Prop where
  | nil : Alikes b [] []
  | cons {t t' : Tree R} {k k' : List (Tree R)} (h : Alike b t t') (hk : Alikes b k k') :
      Alikes b (t :: k) (t' :: k')
end

theorem Alikes.refl (b : Big R) (k : List (Tree R)) : Alikes b k k := by
  induction k with
  | nil => exact .nil
  | cons t k ih => exact .cons (.same t) ih

theorem Alikes.append {b : Big R} {k k' l l' : List (Tree R)} (h : Alikes b k k') (hl : Alikes b l l') :
    Alikes b (k ++ l) (k' ++ l') := by
  induction k generalizing k' with
  | nil => cases h; exact hl
  | cons t k ih => cases h with | cons h hk => exact .cons h (ih hk)

/-- Two results that agree; `ol`: no line end was consumed, `fl`: the tokens are the same. -/
inductive Both (b : Big R) (ol fl : Bool) (st : St) : Res R → Res R → Prop where
  | fail : Both b ol fl st .fail .fail
  | diverge : Both b ol fl st .diverge .diverge
  | ok {st1 st1' : St} {ts ts' : List (Tree R)} (w : Str) (h : st.rest = w ++ st1.rest) (hw : Whole w)
      (hp : st1.pos = st.pos + w.length) (ho : ol = true → '\r' ∉ w ∧ '\n' ∉ w) (hs : Sim st1 st1') (ht : Alikes b ts ts')
      (hf : fl = true → ts = ts') : Both b ol fl st (.ok st1 ts) (.ok st1' ts')

theorem Both.weaken {b : Big R} {ol fl ol' fl' : Bool} {st : St} {r r' : Res R} (h : Both b ol fl st r r')
    (h1 : ol' = true → ol = true) (h2 : fl' = true → fl = true) : Both b ol' fl' st r r' := by
  cases h with
  | fail => exact .fail
  | diverge => exact .diverge
  | ok w h hw hp ho hs ht hf => exact .ok w h hw hp (fun e => ho (h1 e)) hs ht (fun e => hf (h2 e))

theorem Both.here {b : Big R} {ol fl : Bool} {st st' : St} (h : Sim st st') :
    Both b ol fl st (.ok st []) (.ok st' [] : Res R) :=
  .ok [] rfl whole_nil rfl (by simp) h .nil (by simp)

theorem Both.bind {b : Big R} {ol fl : Bool} {st : St} {r r' : Res R} {f g : St → List (Tree R) → Res R}
    (h : Both b ol fl st r r')
    (hf : ∀ st1 st1' ts ts', r = .ok st1 ts → r' = .ok st1' ts' → Sim st1 st1' → Alikes b ts ts' →
      (fl = true → ts = ts') → Both b ol fl st1 (f st1 ts) (g st1' ts')) :
    Both b ol fl st (r.bind f) (r'.bind g) := by
  cases h with
  | fail => exact .fail
  | diverge => exact .diverge
  | @ok st1 st1' ts ts' w h hw hp ho hs ht hfl =>
    have := hf st1 st1' ts ts' rfl rfl hs ht hfl
    simp only [Res.ok_bind]
    generalize f st1 ts = q at this
    generalize g st1' ts' = q' at this
    cases this with
    | fail => exact .fail
    | diverge => exact .diverge
    | ok w2 h2 hw2 hp2 ho2 hs2 ht2 hf2 =>
      exact .ok (w ++ w2) (by rw [h, h2]; simp) (whole_append hw hw2) (by rw [hp2, hp]; simp; omega)
        (fun e => by have h1 := ho e; have h2 := ho2 e; simp [h1, h2]) hs2 ht2 hf2

/-- The length shrinks on both sides or on neither. -/
theorem shrinks {st st1 st' st1' : St} {w : Str} (h : st.rest = w ++ st1.rest) (hw : Whole w)
    (hs : Sim st st') (hs1 : Sim st1 st1') :
    st1.rest.length < st.rest.length ↔ st1'.rest.length < st'.rest.length := by
  rw [hs.rest, hs1.rest, h, unix_append]
  simp only [List.length_append]
  by_cases hn : w = []
  · subst hn; simp
  · have := unix_length_pos hw hn
    have : 0 < w.length := List.length_pos_iff.2 hn
    omega

/-- Repetition keeps agreement. -/
theorem like_many {b : Big R} {ol fl : Bool} {f g : St → Res R}
    (hf : ∀ st st', Sim st st' → Both b ol fl st (f st) (g st')) :
    ∀ n n' st st', Sim st st' → st.rest.length < n → st'.rest.length < n' →
      Both b ol fl st (many f n st) (many g n' st') := by
  intro n
  induction n with
  | zero => intro n' st st' _ h; omega
  | succ n ih =>
    intro n' st st' hs hn hn'
    cases n' with
    | zero => omega
    | succ n' =>
      have hb := hf st st' hs
      simp only [many]
      generalize hr : f st = r at hb
      generalize hr' : g st' = r' at hb
      cases hb with
      | fail => exact Both.here hs
      | diverge => exact .diverge
      | @ok st1 st1' ts ts' w h hw hp ho hs1 ht hfl =>
        have he := shrinks h hw hs hs1
        by_cases hl : st1.rest.length < st.rest.length
        · have hl' := he.1 hl
          simp only [hl, hl', if_true]
          have := ih n' st1 st1' hs1 (by omega) (by omega)
          have hb2 : Both b ol fl st (.ok st1 ts) (.ok st1' ts') := .ok w h hw hp ho hs1 ht hfl
          have := hb2.bind (f := fun s t => (many f n s).bind fun st'' ts'' => .ok st'' (t ++ ts''))
            (g := fun s t => (many g n' s).bind fun st'' ts'' => .ok st'' (t ++ ts'')) (by
              intro a a' c c' e e' _ hc hcf
              cases e; cases e'
              refine this.bind ?_
              intro a2 a2' c2 c2' e2 e2' hs2 hc2 hcf2
              refine .ok [] rfl whole_nil rfl (by simp) hs2 (hc.append hc2) (fun e => ?_)
              rw [hcf e, hcf2 e])
          simpa using this
        · have hl' : ¬ st1'.rest.length < st'.rest.length := fun x => hl (he.2 x)
          simp only [hl, hl', if_false]
          exact .diverge

/-! ## The static check -/

/-- Neither character of a line end occurs. -/
def noEnds (w : Str) : Bool := !w.contains '\r' && !w.contains '\n'

/-- The class contains neither character of a line end. -/
def noEnd (p : Char → Bool) : Bool := !p '\r' && !p '\n'

/-- `NEWLINE` -/
def isNewline : Expr R → Bool
  | .alt (.str a) (.alt (.str b) (.str c)) => a == ['\n'] && b == ['\r', '\n'] && c == ['\r']
  | _ => false

/-- The expression fails at a line end. -/
def misses : Expr R → Bool
  | .str (c :: _) => c != '\n' && c != '\r'
  | .cls p => noEnd p
  | .eoi _ => true
  | .seq x y => misses x || ((match x with | .opt z => misses z | .star z => misses z | _ => false) && misses y)
  | .dup x _ => misses x
  | .alt x y => misses x && misses y
  | .rule _ _ x => misses x
  | .quiet x => misses x
  | _ => false

/-- At a line end, the expression succeeds and does not move. -/
def stays : Expr R → Bool
  | .opt x => misses x
  | .star x => misses x
  | _ => false

/-- The expression does not fail. -/
def passes : Expr R → Bool
  | .opt _ => true
  | .star _ => true
  | _ => false

/-- The expression does not fail at a line end. -/
def holds : Expr R → Bool
  | .alt x y => isNewline (.alt x y) || holds x || holds y
  | .seq x y => (holds x && passes y) || (stays x && holds y)
  | .rule _ _ x => holds x
  | _ => false

/-- `!g` where `g` does not fail at a line end. -/
def guards : Expr R → Bool
  | .not g => holds g
  | _ => false

/-- A character class. -/
def isCls : Expr R → Bool
  | .cls _ => true
  | _ => false

/-- Nothing that contains line ends is skipped. -/
def noGap (skl : Bool) (a : Atom) : Bool := a != .nonAtomic || skl

/-- The expression consumes no line ends; `skl`: nor does the implicit skip. -/
def oneLine (skl : Bool) : Expr R → Atom → Bool
  | .str w, _ => noEnds w
  | .cls p, _ => noEnd p
  | .soi, _ => true
  | .eoi _, _ => true
  | .not _, _ => true
  | .seq x y, a => noGap skl a && oneLine skl x a && (oneLine skl y a || (guards x && isCls y))
  | .alt x y, a => oneLine skl x a && oneLine skl y a
  | .opt x, a => oneLine skl x a
  | .star x, a => noGap skl a && oneLine skl x a
  | .rule _ ty x, a => oneLine skl x (inside ty a)
  | .quiet x, _ => oneLine skl x .atomic
  | .dup x y, a => oneLine skl x a && oneLine skl y a
  | .push _, _ => false
  | .pop, _ => false

/-- The expression emits no `Big` tokens. -/
def flat (b : Big R) : Expr R → Bool
  | .seq x y => flat b x && flat b y
  | .alt x y => flat b x && flat b y
  | .dup x y => flat b x && flat b y
  | .opt x => flat b x
  | .star x => flat b x
  | .rule r _ x => !b.line r && !b.box r && flat b x
  | .quiet x => flat b x
  | .push x => flat b x
  | _ => true

/-- The expression emits no tokens. -/
def silent : Expr R → Bool
  | .seq x y => silent x && silent y
  | .alt x y => silent x && silent y
  | .dup x y => silent x && silent y
  | .opt x => silent x
  | .star x => silent x
  | .rule _ _ _ => false
  | .quiet x => silent x
  | .push x => silent x
  | .eoi _ => false
  | _ => true

/-- The first token of the expression is not `Big`. -/
def headed (b : Big R) : Expr R → Atom → Bool
  | .seq x y, a => headed b x a || (silent x && headed b y a)
  | .alt x y, a => headed b x a && headed b y a
  | .rule r ty x, a => emits ty a && !b.line r && !b.box r
  | _, _ => false

/-- All tokens of the expression satisfy `q`. -/
def only (q : R → Bool) : Expr R → Atom → Bool
  | .seq x y, a => only q x a && only q y a
  | .alt x y, a => only q x a && only q y a
  | .dup x y, a => only q x a && only q y a
  | .opt x, a => only q x a
  | .star x, a => only q x a
  | .rule r ty x, a => if emits ty a then q r else only q x (inside ty a)
  | .quiet x, _ => only q x .atomic
  | .push x, a => only q x a
  | .eoi r, _ => q r
  | _, _ => true

/-- Not `Big`. -/
def small (b : Big R) (r : R) : Bool := !b.line r && !b.box r

/-- There is a token, and all others behind it are not `Big`. -/
def tailed (b : Big R) : Expr R → Atom → Bool
  | .seq x y, a => (tailed b x a && only (small b) y a) || (silent x && tailed b y a)
  | .alt x y, a => tailed b x a && tailed b y a
  | .rule _ ty x, a => emits ty a || tailed b x (inside ty a)
  | _, _ => false

/-- A repetition that takes a line feed. -/
def loops : Expr R → Bool
  | .star (.seq (.not g) (.cls p)) => misses g && p '\n'
  | _ => false

/-- The expression does the same whatever the line ends are.  `k`: the implicit skip has just been
done. -/
def even (b : Big R) (skl : Bool) : Expr R → Atom → Bool → Bool
  | .str w, _, _ => noEnds w
  | .cls p, _, _ => noEnd p
  | .soi, _, _ => true
  | .eoi _, _, _ => true
  | .not x, a, k => even b skl x a k
  | .seq x y, a, k =>
    (even b skl x a k && (even b skl y a true || (guards x && isCls y && (a != .nonAtomic || k)))) ||
      (a != .nonAtomic && loops y && even b skl y a true && match x with
        | .seq (.not g) (.cls p) => misses g && p '\r' && p '\n' && even b skl g a true
        | _ => false)
  | .alt x y, a, k => isNewline (.alt x y) || (even b skl x a k && even b skl y a k)
  | .opt x, a, k => even b skl x a k
  | .star x, a, k =>
    (even b skl x a k && even b skl x a true) ||
      (a != .nonAtomic && match x with
        | .seq (.not g) (.cls p) => misses g && p '\r' && p '\n' && even b skl g a true
        | _ => false)
  | .rule r ty x, a, k =>
    even b skl x (inside ty a) k &&
      ((b.box r && (!b.head r || headed b x (inside ty a)) && (!b.tail r || tailed b x (inside ty a)) &&
        only (b.part r) x (inside ty a)) || ((b.line r || oneLine skl x (inside ty a)) && flat b x))
  | .quiet x, _, _ => even b skl x .atomic false
  | .dup x y, a, k => even b skl x a k && oneLine skl x a && even b skl y a false
  | .push _, _, _ => false
  | .pop, _, _ => false

/-- What the implicit skip must satisfy. -/
structure EvenSkip (b : Big R) (skl : Bool) (sk : St → Res R) : Prop where
  like : ∀ st st', Sim st st' → Both b skl true st (sk st) (sk st')
  still : ∀ st, (st.rest.head? = some '\n' ∨ st.rest.head? = some '\r') → sk st = .ok st []
  idem : ∀ st st1 ts, sk st = .ok st1 ts → sk st1 = .ok st1 []
  nofail : ∀ st, sk st ≠ .fail

/-- The state is at a line end. -/
def AtEnd (st : St) : Prop := st.rest.head? = some '\n' ∨ st.rest.head? = some '\r'

theorem noEnds_iff {w : Str} : noEnds w = true ↔ '\r' ∉ w ∧ '\n' ∉ w := by
  simp [noEnds]

theorem noEnd_iff {p : Char → Bool} : noEnd p = true ↔ p '\r' = false ∧ p '\n' = false := by
  simp [noEnd]

/-- The implicit skip does nothing at a line end. -/
def Still (sk : St → Res R) : Prop := ∀ st, AtEnd st → sk st = .ok st []

theorem Still.skipIf {sk : St → Res R} (hs : Still sk) (a : Atom) {st : St} (h : AtEnd st) :
    skipIf sk a st = .ok st [] := by
  cases a
  · exact hs st h
  · rfl
  · rfl

theorem misses_evals {sk : St → Res R} (hsk : Still sk) (e : Expr R) :
    (misses e = true → ∀ a st, AtEnd st → eval sk e a st = .fail) ∧
      ((match e with | .opt z => misses z | .star z => misses z | _ => false) = true →
        ∀ a st, AtEnd st → eval sk e a st = .ok st []) := by
  induction e with
  | str w =>
    refine ⟨fun he => ?_, nofun⟩
    intro a st h
    cases w with
    | nil => simp [misses] at he
    | cons c w =>
      simp only [misses, Bool.and_eq_true, bne_iff_ne, ne_eq] at he
      have : (c :: w).isPrefixOf st.rest = false := by
        cases hr : st.rest with
        | nil => rfl
        | cons d r =>
          rcases h with h | h <;> rw [hr] at h <;> simp only [List.head?_cons, Option.some.injEq] at h <;>
            subst h <;> simp [List.isPrefixOf, he]
      simp [eval, this]
  | cls p =>
    refine ⟨fun he => ?_, nofun⟩
    intro a st h
    have he := noEnd_iff.1 he
    simp only [eval]
    cases hr : st.rest with
    | nil => rfl
    | cons d r =>
      rcases h with h | h <;> rw [hr] at h <;> simp only [List.head?_cons, Option.some.injEq] at h <;>
        subst h <;> simp [he]
  | eoi r =>
    refine ⟨fun _ => ?_, nofun⟩
    intro a st h
    have : st.rest ≠ [] := by rcases h with h | h <;> intro e <;> simp [e] at h
    simp [eval, this]
  | seq x y ihx ihy =>
    refine ⟨fun he => ?_, nofun⟩
    intro a st h
    unfold misses at he
    simp only [Bool.or_eq_true, Bool.and_eq_true] at he
    rcases he with he | ⟨h1, h2⟩
    · simp [eval, ihx.1 he a st h]
    · simp [eval, ihx.2 h1 a st h, hsk.skipIf a h, ihy.1 h2 a st h]
  | dup x y ihx ihy =>
    refine ⟨fun he => ?_, nofun⟩
    intro a st h
    simp [eval, ihx.1 he a st h]
  | alt x y ihx ihy =>
    refine ⟨fun he => ?_, nofun⟩
    intro a st h
    simp only [misses, Bool.and_eq_true] at he
    simp [eval, ihx.1 he.1 a st h, ihy.1 he.2 a st h]
  | rule r ty x ih =>
    refine ⟨fun he => ?_, nofun⟩
    intro a st h
    simp [eval, ih.1 he _ st h]
  | quiet x ih =>
    refine ⟨fun he => ?_, nofun⟩
    intro a st h
    simp [eval, ih.1 he _ st h]
  | opt x ih =>
    refine ⟨nofun, fun he => ?_⟩
    intro a st h
    simp [eval, ih.1 he a st h]
  | star x ih =>
    refine ⟨nofun, fun he => ?_⟩
    intro a st h
    simp [eval, ih.1 he a st h]
  | _ => exact ⟨nofun, nofun⟩

theorem misses_eval {sk : St → Res R} (hsk : Still sk) (e : Expr R) (he : misses e = true) :
    ∀ a st, AtEnd st → eval sk e a st = .fail := (misses_evals hsk e).1 he

theorem stays_eval {sk : St → Res R} (hsk : Still sk) (e : Expr R) (he : stays e = true) (a : Atom) {st : St} (h : AtEnd st) :
    eval sk e a st = .ok st [] := by
  cases e with
  | opt x => simp [eval, misses_eval hsk x he a st h]
  | star x => simp [eval, misses_eval hsk x he a st h]
  | _ => cases he

theorem passes_eval {sk : St → Res R} (e : Expr R) (he : passes e = true) (a : Atom) (st : St) :
    eval sk e a st ≠ .fail := by
  cases e with
  | opt x =>
    simp only [eval]
    split
    · simp
    · next h => exact h
  | star x =>
    simp only [eval]
    split
    · simp
    · simp
    · intro h
      revert h
      generalize hm : many _ _ _ = r
      cases r with
      | fail => exact absurd hm (many_ne_fail _ _ _)
      | ok _ _ => simp
      | diverge => simp
  | _ => cases he

theorem isNewline_eq {e : Expr R} (h : isNewline e = true) : e = Expr.newline := by
  unfold isNewline at h
  split at h
  · simp only [Bool.and_eq_true, beq_iff_eq] at h
    obtain ⟨⟨rfl, rfl⟩, rfl⟩ := h
    rfl
  · cases h

theorem newline_atEnd {sk : St → Res R} {a : Atom} {st : St} (h : AtEnd st) :
    eval sk Expr.newline a st ≠ .fail := by
  simp only [Expr.newline, eval]
  cases hr : st.rest with
  | nil => rcases h with h | h <;> simp [hr] at h
  | cons d r =>
    rcases h with h | h <;> rw [hr] at h <;> simp only [List.head?_cons, Option.some.injEq] at h <;>
      subst h
    · simp [List.isPrefixOf]
    · simp only [List.isPrefixOf]
      by_cases h2 : ['\n'].isPrefixOf r <;> simp [h2, List.isPrefixOf]

theorem skipIf_still {b : Big R} {skl : Bool} {sk : St → Res R} (hs : EvenSkip b skl sk) (a : Atom) {st : St}
    (h : AtEnd st) : skipIf sk a st = .ok st [] := by
  cases a
  · exact hs.still st h
  · rfl
  · rfl

theorem skipIf_nofail {b : Big R} {skl : Bool} {sk : St → Res R} (hs : EvenSkip b skl sk) (a : Atom) (st : St) :
    skipIf sk a st ≠ .fail := by
  cases a
  · exact hs.nofail st
  · simp [skipIf]
  · simp [skipIf]

theorem bind_ne_fail {r : Res R} {f : St → List (Tree R) → Res R} (h : r ≠ .fail) (hf : ∀ s t, f s t ≠ .fail) :
    r.bind f ≠ .fail := by
  cases r with
  | fail => exact absurd rfl h
  | ok s t => exact hf s t
  | diverge => simp

theorem holds_eval {b : Big R} {skl : Bool} {sk : St → Res R} (hs : EvenSkip b skl sk) (e : Expr R)
    (he : holds e = true) : ∀ a st, AtEnd st → eval sk e a st ≠ .fail := by
  induction e with
  | alt x y ihx ihy =>
    intro a st h
    simp only [holds, Bool.or_eq_true] at he
    rcases he with (he | he) | he
    · rw [isNewline_eq he]; exact newline_atEnd h
    · simp only [eval]
      split
      · next hx => exact absurd hx (ihx he a st h)
      · exact ihx he a st h
    · simp only [eval]
      split
      · exact ihy he a st h
      · next hx => exact hx
  | seq x y ihx ihy =>
    intro a st h
    simp only [holds, Bool.or_eq_true, Bool.and_eq_true] at he
    simp only [eval]
    rcases he with ⟨h1, h2⟩ | ⟨h1, h2⟩
    · exact bind_ne_fail (ihx h1 a st h) fun s t => bind_ne_fail (skipIf_nofail hs a s) fun s' _ =>
        bind_ne_fail (passes_eval y h2 a s') fun _ _ => by simp
    · simp only [stays_eval hs.still x h1 a h, Res.ok_bind, skipIf_still hs a h]
      exact bind_ne_fail (ihy h2 a st h) fun _ _ => by simp
  | rule r ty x ih =>
    intro a st h
    simp only [eval]
    exact bind_ne_fail (ih he _ st h) fun _ _ => by simp
  | _ => cases he

theorem prefix_unix {w r : Str} (hw : noEnds w = true) (hr : Paired r) :
    w.isPrefixOf (unix r) = w.isPrefixOf r := by
  replace hw := noEnds_iff.1 hw
  induction w generalizing r with
  | nil => simp
  | cons d w ih =>
    cases r with
    | nil => rfl
    | cons c r =>
      by_cases hc : c = '\r'
      · subst hc
        have h1 : d ≠ '\r' := fun e => hw.1 (by simp [e])
        have h2 : d ≠ '\n' := fun e => hw.2 (by simp [e])
        have h3 := hr.1 rfl
        cases r with
        | nil => simp at h3
        | cons c' r =>
          simp only [List.head?_cons, Option.some.injEq] at h3
          subst h3
          rw [unix_cons_cr, unix_cons (by decide)]
          simp only [List.isPrefixOf, beq_eq_false_iff_ne.2 h1, beq_eq_false_iff_ne.2 h2, Bool.false_and]
      · rw [unix_cons hc]
        simp only [List.isPrefixOf]
        rw [ih (r := r) hr.2 ⟨fun h => hw.1 (by simp [h]), fun h => hw.2 (by simp [h])⟩]

/-- Both states move past a text without line ends. -/
theorem both_advance {b : Big R} {fl : Bool} {st st' : St} (hs : Sim st st') {w : Str}
    (hw : noEnds w = true) (h : w.isPrefixOf st.rest = true) :
    Both b true fl st (.ok (st.advance w.length) []) (.ok (st'.advance w.length) [] : Res R) := by
  have hw2 := noEnds_iff.1 hw
  obtain ⟨t, ht⟩ := List.isPrefixOf_iff_prefix.1 h
  have h' : st'.rest = w ++ unix t := by rw [hs.rest, ← ht, unix_append, unix_eq hw2.1]
  refine .ok w ?_ (whole_of_not_mem hw2.1) rfl (fun _ => hw2) ?_ .nil (by simp)
  · simp [St.advance, ← ht]
  · refine ⟨?_, ?_, ?_⟩
    · simp [St.advance, h', ← ht]
    · have := hs.paired
      rw [← ht] at this
      simpa [St.advance, ← ht] using this.right
    · have := hs.pos
      simp only [St.advance]
      omega

theorem like_str {b : Big R} {sk : St → Res R} {fl : Bool} {w : Str} (hw : noEnds w = true) {a : Atom}
    {st st' : St} (hs : Sim st st') : Both b true fl st (eval sk (.str w) a st) (eval sk (.str w) a st') := by
  have hp : w.isPrefixOf st'.rest = w.isPrefixOf st.rest := by rw [hs.rest, prefix_unix hw hs.paired]
  simp only [eval, hp]
  by_cases h : w.isPrefixOf st.rest = true
  · simp only [h, if_true]
    exact both_advance hs hw h
  · simp only [h, if_false]
    exact .fail

/-- One character that is not part of a line end. -/
theorem like_cls_char {b : Big R} {sk : St → Res R} {fl : Bool} {p : Char → Bool} {a : Atom}
    {st st' : St} (hs : Sim st st') (hn : ¬ AtEnd st) :
    Both b true fl st (eval sk (.cls p) a st) (eval sk (.cls p) a st') := by
  simp only [eval]
  have hr := hs.rest
  cases he : st.rest with
  | nil => rw [he] at hr; simp only [unix_nil] at hr; simp only [hr]; exact .fail
  | cons c r =>
    have h1 : c ≠ '\r' := fun e => hn (Or.inr (by simp [he, e]))
    have h2 : c ≠ '\n' := fun e => hn (Or.inl (by simp [he, e]))
    rw [he, unix_cons h1] at hr
    simp only [hr]
    by_cases hp : p c = true
    · simp only [hp, if_true]
      exact both_advance hs (w := [c]) (noEnds_iff.2 ⟨by simpa using fun e => h1 e.symm, by simpa using fun e => h2 e.symm⟩)
        (by simp [he])
    · simp only [hp]
      exact .fail

theorem Sim.atEnd {st st' : St} (hs : Sim st st') : AtEnd st → AtEnd st' := by
  intro h
  have hr := hs.rest
  have hp := hs.paired
  cases he : st.rest with
  | nil => rcases h with h | h <;> simp [he] at h
  | cons c r =>
    rcases h with h | h <;> rw [he] at h <;> simp only [List.head?_cons, Option.some.injEq] at h <;> subst h
    · rw [he, unix_cons (by decide)] at hr
      exact Or.inl (by simp [hr])
    · rw [he] at hp hr
      have := hp.1 rfl
      cases r with
      | nil => simp at this
      | cons d r =>
        simp only [List.head?_cons, Option.some.injEq] at this
        subst this
        rw [unix_cons_cr, unix_cons (by decide)] at hr
        exact Or.inl (by simp [hr])

theorem like_cls {b : Big R} {sk : St → Res R} (hsk : Still sk) {fl : Bool} {p : Char → Bool} (hp : noEnd p = true) {a : Atom}
    {st st' : St} (hs : Sim st st') :
    Both b true fl st (eval sk (.cls p) a st) (eval sk (.cls p) a st') := by
  by_cases hn : AtEnd st
  · rw [misses_eval hsk (.cls p) hp a st hn, misses_eval hsk (.cls p) hp a st' (hs.atEnd hn)]
    exact .fail
  · exact like_cls_char hs hn

/-- `NEWLINE` consumes a whole line end. -/
theorem like_newline {b : Big R} {sk : St → Res R} {fl : Bool} {a : Atom} {st st' : St} (hs : Sim st st') :
    Both b false fl st (eval sk .newline a st) (eval sk .newline a st') := by
  have hr := hs.rest
  have hp := hs.paired
  have hpos := hs.pos
  simp only [Expr.newline, eval]
  cases he : st.rest with
  | nil =>
    rw [he] at hr
    simp only [unix_nil] at hr
    simp only [hr]
    exact .fail
  | cons c r =>
    rw [he] at hr hp
    by_cases h1 : c = '\r'
    · subst h1
      have := hp.1 rfl
      cases r with
      | nil => simp at this
      | cons d r =>
        simp only [List.head?_cons, Option.some.injEq] at this
        subst this
        rw [unix_cons_cr, unix_cons (by decide)] at hr
        simp only [hr, List.isPrefixOf]
        simp only [beq_self_eq_true, Bool.and_true, if_true, show ('\n' == '\r') = false from rfl, Bool.false_and, if_false, Bool.false_eq_true]
        refine .ok ['\r', '\n'] (by simp [St.advance, he]) (by simp [Whole]) rfl (by simp) ⟨?_, ?_, ?_⟩ .nil (by simp)
        · simp [St.advance, hr, he]
        · simpa [St.advance, he] using hp.2.2
        · simp only [St.advance, List.length_cons, List.length_nil]; omega
    · rw [unix_cons h1] at hr
      by_cases h2 : c = '\n'
      · subst h2
        simp only [hr, List.isPrefixOf]
        simp only [beq_self_eq_true, Bool.and_true, if_true]
        refine .ok ['\n'] (by simp [St.advance, he]) (by simp [Whole]) rfl (by simp) ⟨?_, ?_, ?_⟩ .nil (by simp)
        · simp [St.advance, hr, he]
        · simpa [St.advance, he] using hp.2
        · simp only [St.advance, List.length_cons, List.length_nil]; omega
      · have h1' : ('\r' == c) = false := by simpa using fun e => h1 e.symm
        have h2' : ('\n' == c) = false := by simpa using fun e => h2 e.symm
        simp only [hr, List.isPrefixOf, h1', h2', Bool.false_and]
        exact .fail

theorem like_skipIf {b : Big R} {skl : Bool} {sk : St → Res R} (hs : EvenSkip b skl sk) (a : Atom) {fl : Bool}
    {st st' : St} (h : Sim st st') : Both b (noGap skl a) fl st (skipIf sk a st) (skipIf sk a st') := by
  cases a
  · exact (hs.like st st' h).weaken (by simp [noGap]) (by simp)
  · exact Both.here h
  · exact Both.here h

/-- The two sides of `!g ~ ANY` at a position where `g` does not hold for sure. -/
theorem eval_guard {sk : St → Res R} {g : Expr R} {p : Char → Bool} {a : Atom} (ha : a ≠ .nonAtomic) (st : St) :
    eval sk (.seq (.not g) (.cls p)) a st =
      match eval sk g a st with
      | .fail => eval sk (.cls p) a st
      | .ok _ _ => .fail
      | .diverge => .diverge := by
  have hk : ∀ s, skipIf sk a s = .ok s [] := by intro s; cases a <;> first | exact absurd rfl ha | rfl
  simp only [eval]
  generalize eval sk g a st = r
  cases r with
  | fail =>
    simp only [Res.ok_bind, hk]
    cases st.rest with
    | nil => rfl
    | cons c r => by_cases h : p c = true <;> simp [h]
  | ok _ _ => rfl
  | diverge => rfl

/-- A repetition of `!g ~ ANY` that may run over line ends. -/
theorem like_loop {b : Big R} {sk : St → Res R} (hsk : Still sk) {fl : Bool} {g : Expr R} {p : Char → Bool} {a : Atom} (ha : a ≠ .nonAtomic)
    (hg : misses g = true) (hp1 : p '\r' = true) (hp2 : p '\n' = true)
    (ih : ∀ st st', Sim st st' → ∃ ol fl, Both b ol fl st (eval sk g a st) (eval sk g a st')) :
    ∀ n m n' st st', st.rest.length ≤ m → Sim st st' → st.rest.length < n → st'.rest.length < n' →
      Both b false fl st (many (eval sk (.seq (.not g) (.cls p)) a) n st)
        (many (eval sk (.seq (.not g) (.cls p)) a) n' st') := by
  intro n
  induction n using Nat.strongRecOn with
  | ind n IH =>
  intro m n' st st' hm hs hn hn'
  match n, n' with
  | 0, _ => omega
  | _, 0 => omega
  | n + 1, n' + 1 =>
  obtain ⟨o, f, hb⟩ := ih st st' hs
  rcases Classical.em (AtEnd st) with he | he
  · have e1 := misses_eval hsk g hg a st he
    have e2 := misses_eval hsk g hg a st' (hs.atEnd he)
    cases hr : st.rest with
    | nil => rcases he with h | h <;> simp [hr] at h
    | cons c r =>
      have hrest := hs.rest
      have hpair := hs.paired
      have hpos := hs.pos
      rw [hr] at hrest hpair
      rcases he with h | h <;> rw [hr] at h <;> simp only [List.head?_cons, Option.some.injEq] at h <;> subst h
      · rw [unix_cons (by decide)] at hrest
        have hs1 : Sim (st.advance 1) (st'.advance 1) := ⟨by simp [St.advance, hr, hrest],
          by simpa [St.advance, hr] using hpair.2, by simp only [St.advance]; omega⟩
        have h1 : many (eval sk (.seq (.not g) (.cls p)) a) (n + 1) st =
            (many (eval sk (.seq (.not g) (.cls p)) a) n (st.advance 1)).bind fun s t => .ok s t := by
          simp only [many, eval_guard ha, e1]
          simp [eval, hr, hp2, St.advance]
        have h2 : many (eval sk (.seq (.not g) (.cls p)) a) (n' + 1) st' =
            (many (eval sk (.seq (.not g) (.cls p)) a) n' (st'.advance 1)).bind fun s t => .ok s t := by
          simp only [many, eval_guard ha, e2]
          simp [eval, hrest, hp2, St.advance]
        have l1 : (st.advance 1).rest.length < n := by simp [St.advance, hr]; rw [hr] at hn; simp at hn; omega
        have l2 : (st'.advance 1).rest.length < n' := by simp [St.advance, hrest]; rw [hrest] at hn'; simp at hn'; omega
        have := IH n (by omega) _ n' (st.advance 1) (st'.advance 1) (Nat.le_refl _) hs1 l1 l2
        rw [h1, h2]
        have hb2 : Both b false fl st (.ok (st.advance 1) []) (.ok (st'.advance 1) [] : Res R) :=
          .ok ['\n'] (by simp [St.advance, hr]) (by simp [Whole]) rfl (by simp) hs1 .nil (by simp)
        have := hb2.bind (f := fun s _ => (many (eval sk (.seq (.not g) (.cls p)) a) n s).bind fun s t => .ok s t)
          (g := fun s _ => (many (eval sk (.seq (.not g) (.cls p)) a) n' s).bind fun s t => .ok s t) (by
            intro a1 a1' c1 c1' e e' _ _ _
            cases e; cases e'
            refine this.bind ?_
            intro a2 a2' c2 c2' _ _ h3 h4 h5
            exact .ok [] rfl whole_nil rfl (by simp) h3 h4 h5)
        simpa using this
      · have := hpair.1 rfl
        cases r with
        | nil => simp at this
        | cons d r =>
        simp only [List.head?_cons, Option.some.injEq] at this
        subst this
        rw [unix_cons_cr, unix_cons (by decide)] at hrest
        have hs1 : Sim (st.advance 2) (st'.advance 1) := ⟨by simp [St.advance, hr, hrest],
          by simpa [St.advance, hr] using hpair.2.2, by simp only [St.advance]; omega⟩
        cases n with
        | zero => rw [hr] at hn; simp at hn
        | succ n =>
        have e3 := misses_eval hsk g hg a (st.advance 1) (Or.inl (by simp [St.advance, hr]))
        have ha2 : (st.advance 1).advance 1 = st.advance 2 := by simp [St.advance, Nat.add_assoc]
        have h1 : many (eval sk (.seq (.not g) (.cls p)) a) (n + 1 + 1) st =
            (many (eval sk (.seq (.not g) (.cls p)) a) n (st.advance 2)).bind fun s t => .ok s t := by
          have i1 : eval sk (.seq (.not g) (.cls p)) a st = .ok (st.advance 1) [] := by
            rw [eval_guard ha, e1]; simp [eval, hr, hp1]
          have i2 : eval sk (.seq (.not g) (.cls p)) a (st.advance 1) = .ok (st.advance 2) [] := by
            rw [eval_guard ha, e3, ← ha2]; simp [eval, hr, hp2, St.advance]
          have l1 : (st.advance 1).rest.length < st.rest.length := by simp [St.advance, hr]
          have l2 : (st.advance 2).rest.length < (st.advance 1).rest.length := by simp [St.advance, hr]
          rw [many, i1]
          simp only [l1, if_true]
          rw [many, i2]
          simp only [l2, if_true]
          generalize many _ n _ = q
          cases q <;> rfl
        have h2 : many (eval sk (.seq (.not g) (.cls p)) a) (n' + 1) st' =
            (many (eval sk (.seq (.not g) (.cls p)) a) n' (st'.advance 1)).bind fun s t => .ok s t := by
          simp only [many, eval_guard ha, e2]
          simp [eval, hrest, hp2, St.advance]
        have l1 : (st.advance 2).rest.length < n := by simp [St.advance, hr]; rw [hr] at hn; simp at hn; omega
        have l2 : (st'.advance 1).rest.length < n' := by simp [St.advance, hrest]; rw [hrest] at hn'; simp at hn'; omega
        have := IH n (by omega) _ n' (st.advance 2) (st'.advance 1) (Nat.le_refl _) hs1 l1 l2
        rw [h1, h2]
        have hb2 : Both b false fl st (.ok (st.advance 2) []) (.ok (st'.advance 1) [] : Res R) :=
          .ok ['\r', '\n'] (by simp [St.advance, hr]) (by simp [Whole]) rfl (by simp) hs1 .nil (by simp)
        have := hb2.bind (f := fun s _ => (many (eval sk (.seq (.not g) (.cls p)) a) n s).bind fun s t => .ok s t)
          (g := fun s _ => (many (eval sk (.seq (.not g) (.cls p)) a) n' s).bind fun s t => .ok s t) (by
            intro a1 a1' c1 c1' e e' _ _ _
            cases e; cases e'
            refine this.bind ?_
            intro a2 a2' c2 c2' _ _ h3 h4 h5
            exact .ok [] rfl whole_nil rfl (by simp) h3 h4 h5)
        simpa using this
  · have hx : Both b false fl st (eval sk (.seq (.not g) (.cls p)) a st) (eval sk (.seq (.not g) (.cls p)) a st') := by
      rw [eval_guard ha, eval_guard ha]
      generalize eval sk g a st = q at hb
      generalize eval sk g a st' = q' at hb
      cases hb with
      | fail => exact (like_cls_char hs he).weaken (by simp) (fun h => h)
      | diverge => exact .diverge
      | ok => exact .fail
    simp only [many]
    generalize eval sk (.seq (.not g) (.cls p)) a st = q at hx
    generalize eval sk (.seq (.not g) (.cls p)) a st' = q' at hx
    cases hx with
    | fail => exact Both.here hs
    | diverge => exact .diverge
    | @ok st1 st1' ts ts' w h hw hp ho hs1 ht hfl =>
      have hsh := shrinks h hw hs hs1
      by_cases hl : st1.rest.length < st.rest.length
      · have hl' := hsh.1 hl
        simp only [hl, hl', if_true]
        have := IH n (by omega) _ n' st1 st1' (Nat.le_refl _) hs1 (by omega) (by omega)
        have hb2 : Both b false fl st (.ok st1 ts) (.ok st1' ts') := .ok w h hw hp ho hs1 ht hfl
        have := hb2.bind (f := fun s t => (many (eval sk (.seq (.not g) (.cls p)) a) n s).bind fun st'' ts'' => .ok st'' (t ++ ts''))
          (g := fun s t => (many (eval sk (.seq (.not g) (.cls p)) a) n' s).bind fun st'' ts'' => .ok st'' (t ++ ts'')) (by
            intro a a' c c' e e' _ hc hcf
            cases e; cases e'
            refine this.bind ?_
            intro a2 a2' c2 c2' e2 e2' hs2 hc2 hcf2
            refine .ok [] rfl whole_nil rfl (by simp) hs2 (hc.append hc2) (fun e => ?_)
            rw [hcf e, hcf2 e])
        simpa using this
      · have hl' : ¬ st1'.rest.length < st'.rest.length := fun x => hl (hsh.2 x)
        simp only [hl, hl', if_false]
        exact .diverge

/-- A repetition of `!g ~ ANY` in an atomic rule. -/
theorem star_many {sk : St → Res R} {g : Expr R} {p : Char → Bool} {a : Atom} (ha : a ≠ .nonAtomic) (s : St) :
    eval sk (.star (.seq (.not g) (.cls p))) a s = many (eval sk (.seq (.not g) (.cls p)) a) (s.rest.length + 1) s := by
  have hk : ∀ s : St, (skipIf sk a s : Res R) = .ok s [] := by
    intro s; cases a <;> first | exact absurd rfl ha | rfl
  rw [eval]
  simp only [hk, Res.ok_bind]
  rw [many]
  cases he : eval sk (.seq (.not g) (.cls p)) a s with
  | fail => rfl
  | diverge => rfl
  | ok s1 t1 =>
    have hl : s1.rest.length + 1 = s.rest.length := by
      rw [eval_guard ha] at he
      split at he
      · simp only [eval] at he
        split at he
        · cases he
        · next c r hr =>
          split at he
          · simp only [Res.ok.injEq] at he
            rw [← he.1]
            simp [St.advance, hr]
          · cases he
      · cases he
      · cases he
    have : s1.rest.length < s.rest.length := by omega
    simp only [this, if_true]
    rw [hl]

/-- What the check guarantees. -/
def Good (b : Big R) (skl : Bool) (sk : St → Res R) (e : Expr R) : Prop :=
  ∀ a k, even b skl e a k = true → ∀ st st', Sim st st' →
    (k = true → a = .nonAtomic → sk st = .ok st [] ∧ sk st' = .ok st' []) →
    Both b (oneLine skl e a) (flat b e) st (eval sk e a st) (eval sk e a st')

/-- After the implicit skip, another one does nothing. -/
theorem skipped {b : Big R} {skl : Bool} {sk : St → Res R} (hs : EvenSkip b skl sk) {a : Atom} {st st1 : St}
    {ts : List (Tree R)} (h : skipIf sk a st = .ok st1 ts) (ha : a = .nonAtomic) : sk st1 = .ok st1 [] := by
  subst ha
  exact hs.idem _ _ _ h

/-- `(!g ~ ANY) ~ (!h ~ ANY)*` where `g` and `h` fail at line ends. -/
theorem good_plus {b : Big R} {skl : Bool} {sk : St → Res R} (hs : EvenSkip b skl sk) {g y : Expr R} {p : Char → Bool}
    {a : Atom} (ha : ¬ a = .nonAtomic) (hg : misses g = true) (hp1 : p '\r' = true) (hp2 : p '\n' = true)
    (hgg : Good b skl sk g) (hev : even b skl g a true = true) (hl : loops y = true) (hy : Good b skl sk y)
    (hy2 : even b skl y a true = true) {st st' : St} (h : Sim st st') :
    Both b (oneLine skl (.seq (.seq (.not g) (.cls p)) y) a) (flat b (.seq (.seq (.not g) (.cls p)) y)) st
      (eval sk (.seq (.seq (.not g) (.cls p)) y) a st) (eval sk (.seq (.seq (.not g) (.cls p)) y) a st') := by
  have hng : guards (.not g) = false := by
    cases hgd : guards (.not g) with
    | false => rfl
    | true =>
      exfalso
      have hst : AtEnd ⟨0, ['\n'], []⟩ := Or.inl rfl
      exact holds_eval hs g hgd a _ hst (misses_eval hs.still g hg a _ hst)
  have hol : oneLine skl (.seq (.seq (.not g) (.cls p)) y) a = false := by
    simp [oneLine, hng, noEnd, hp1]
  rw [hol]
  have hfl : flat b (.seq (.seq (.not g) (.cls p)) y) = true → flat b y = true := by simp [flat]
  have hk : ∀ s : St, (skipIf sk a s : Res R) = .ok s [] := by
    intro s; cases a <;> first | exact absurd rfl ha | rfl
  have hk2 : ∀ s s' : St, true = true → a = .nonAtomic → sk s = .ok s [] ∧ sk s' = .ok s' [] := fun _ _ _ e => absurd e ha
  have hone : ∀ s, eval sk (.seq (.seq (.not g) (.cls p)) y) a s =
      (eval sk (.seq (.not g) (.cls p)) a s).bind fun s1 t1 => (eval sk y a s1).bind fun s3 t3 => .ok s3 (t1 ++ t3) := by
    intro s
    rw [eval]
    simp only [hk, Res.ok_bind]
  have hstep : ∀ (s : St) (c : Char) (r : Str), AtEnd s → s.rest = c :: r → p c = true →
      eval sk (.seq (.seq (.not g) (.cls p)) y) a s =
        (eval sk y a (s.advance 1)).bind fun s3 t3 => .ok s3 t3 := by
    intro s c r hend hr hc
    rw [hone, eval_guard ha, misses_eval hs.still g hg a s hend]
    simp [eval, hr, hc]
  by_cases hend : AtEnd st
  · cases hr : st.rest with
    | nil => rcases hend with h | h <;> simp [hr] at h
    | cons c r =>
      have hrest := h.rest
      have hpair := h.paired
      have hpos := h.pos
      have hend' := h.atEnd hend
      rw [hr] at hrest hpair
      have finish : ∀ (w : Str) (s1 : St), st.rest = w ++ s1.rest → Whole w → s1.pos = st.pos + w.length →
          Sim s1 (st'.advance 1) →
          Both b false (flat b (.seq (.seq (.not g) (.cls p)) y)) st ((eval sk y a s1).bind fun s3 t3 => .ok s3 t3)
            ((eval sk y a (st'.advance 1)).bind fun s3 t3 => .ok s3 t3) := by
        intro w s1 e1 e2 e3 hs1
        have hb2 : Both b false (flat b (.seq (.seq (.not g) (.cls p)) y)) st (.ok s1 []) (.ok (st'.advance 1) [] : Res R) :=
          .ok w e1 e2 e3 (by simp) hs1 .nil (by simp)
        exact hb2.bind (f := fun s _ => (eval sk y a s).bind fun s3 t3 => .ok s3 t3)
          (g := fun s _ => (eval sk y a s).bind fun s3 t3 => .ok s3 t3) (by
          intro a1 a1' c1 c1' e e' hss _ _
          refine ((hy a true hy2 a1 a1' hss (hk2 _ _)).weaken (by simp) hfl).bind ?_
          intro a2 a2' c2 c2' _ _ h3 h4 h5
          exact .ok [] rfl whole_nil rfl (by simp) h3 h4 h5)
      rcases hend with h | h <;> rw [hr] at h <;> simp only [List.head?_cons, Option.some.injEq] at h <;> subst h
      · rw [unix_cons (by decide)] at hrest
        rw [hstep st _ _ (Or.inl (by simp [hr])) hr hp2, hstep st' _ _ hend' hrest hp2]
        exact finish ['\n'] (st.advance 1) (by simp [St.advance, hr]) (by simp [Whole]) rfl
          ⟨by simp [St.advance, hr, hrest], by simpa [St.advance, hr] using hpair.2, by simp only [St.advance]; omega⟩
      · have := hpair.1 rfl
        cases r with
        | nil => simp at this
        | cons d r =>
        simp only [List.head?_cons, Option.some.injEq] at this
        subst this
        rw [unix_cons_cr, unix_cons (by decide)] at hrest
        rw [hstep st _ _ (Or.inr (by simp [hr])) hr hp1, hstep st' _ _ hend' hrest hp2]
        have hskip : eval sk y a (st.advance 1) = eval sk y a (st.advance 2) := by
          unfold loops at hl
          split at hl
          · next g2 p2 =>
            simp only [Bool.and_eq_true] at hl
            have ha2 : (st.advance 1).advance 1 = st.advance 2 := by simp [St.advance, Nat.add_assoc]
            have hx : eval sk (.seq (.not g2) (.cls p2)) a (st.advance 1) = .ok (st.advance 2) [] := by
              rw [eval_guard ha, misses_eval hs.still g2 hl.1 a (st.advance 1) (Or.inl (by simp [St.advance, hr])), ← ha2]
              simp [eval, hr, hl.2, St.advance]
            rw [star_many ha (st.advance 1), star_many ha (st.advance 2)]
            have hlen : (st.advance 1).rest.length = (st.advance 2).rest.length + 1 := by simp [St.advance, hr]
            rw [hlen, many, hx]
            simp only [hlen, Nat.lt_succ_self, if_true, List.nil_append]
            generalize many _ _ _ = q
            cases q <;> rfl
          · cases hl
        rw [hskip]
        exact finish ['\r', '\n'] (st.advance 2) (by simp [St.advance, hr]) (by simp [Whole]) rfl
          ⟨by simp [St.advance, hr, hrest], by simpa [St.advance, hr] using hpair.2.2, by simp only [St.advance]; omega⟩
  · rw [hone, hone]
    have hx : Both b false (flat b (.seq (.seq (.not g) (.cls p)) y)) st (eval sk (.seq (.not g) (.cls p)) a st)
        (eval sk (.seq (.not g) (.cls p)) a st') := by
      have hb := hgg a true hev st st' h (hk2 _ _)
      rw [eval_guard ha, eval_guard ha]
      generalize eval sk g a st = q at hb
      generalize eval sk g a st' = q' at hb
      cases hb with
      | fail => exact (like_cls_char h hend).weaken (by simp) (fun h => h)
      | diverge => exact .diverge
      | ok => exact .fail
    refine hx.bind ?_
    intro s1 s1' t1 t1' _ _ hs1 ht1 hf1
    refine ((hy a true hy2 s1 s1' hs1 (hk2 _ _)).weaken (by simp) hfl).bind ?_
    intro a2 a2' c2 c2' _ _ h3 h4 h5
    exact .ok [] rfl whole_nil rfl (by simp) h3 (ht1.append h4) fun e => by rw [hf1 e, h5 e]

/-- Sequences. -/
theorem good_seq {b : Big R} {skl : Bool} {sk : St → Res R} (hs : EvenSkip b skl sk) {x y : Expr R}
    (hx : Good b skl sk x) (hxg : ∀ g z, x = .seq (.not g) z → Good b skl sk g) (hy : Good b skl sk y) :
    Good b skl sk (.seq x y) := by
  intro a k he st st' h hk
  unfold even at he
  simp only [Bool.and_eq_true, Bool.or_eq_true, bne_iff_ne, ne_eq] at he
  rcases Classical.em (¬ (even b skl x a k = true ∧
    (even b skl y a true = true ∨ ((guards x = true ∧ isCls y = true) ∧ (¬ a = .nonAtomic ∨ k = true))))) with hcase | hcase
  · obtain ⟨⟨⟨ha, hl⟩, hy2⟩, hm⟩ := he.resolve_left hcase
    split at hm
    · next g p =>
      simp only [Bool.and_eq_true] at hm
      obtain ⟨⟨⟨h1, h2⟩, h3⟩, h4⟩ := hm
      exact good_plus hs ha h1 h2 h3 (hxg g _ rfl) h4 hl hy hy2 h
    · cases hm
  obtain ⟨h1, h2⟩ := Classical.not_not.1 hcase
  have bx := hx a k h1 st st' h hk
  simp only [eval]
  by_cases hg : even b skl y a true = true
  · by_cases hgc : guards x = true ∧ isCls y = true ∧ oneLine skl y a = false
    · obtain ⟨_, hc, ho⟩ := hgc
      cases y with
      | cls p => simp only [even] at hg; simp only [oneLine, hg] at ho; cases ho
      | _ => cases hc
    · have hol : oneLine skl (x ⬝ y) a = true → noGap skl a = true ∧ oneLine skl x a = true ∧ oneLine skl y a = true := by
        intro e
        simp only [oneLine, Bool.and_eq_true, Bool.or_eq_true] at e
        refine ⟨e.1.1, e.1.2, ?_⟩
        rcases e.2 with e | e
        · exact e
        · cases ho : oneLine skl y a with
          | true => rfl
          | false => exact absurd ⟨e.1, e.2, ho⟩ hgc
      have hfl : flat b (x ⬝ y) = true → flat b x = true ∧ flat b y = true := by simp [flat]
      refine (bx.weaken (fun e => (hol e).2.1) (fun e => (hfl e).1)).bind ?_
      intro s1 s1' t1 t1' _ _ hs1 ht1 hf1
      refine ((like_skipIf hs a hs1).weaken (fun e => (hol e).1) (fun e => e)).bind ?_
      intro s2 s2' _ _ e2 e2' hs2 _ _
      refine ((hy a true hg s2 s2' hs2 fun _ ha => ⟨skipped hs e2 ha, skipped hs e2' ha⟩).weaken
        (fun e => (hol e).2.2) (fun e => (hfl e).2)).bind ?_
      intro s3 s3' t3 t3' _ _ hs3 ht3 hf3
      exact .ok [] rfl whole_nil rfl (by simp) hs3 (ht1.append ht3) fun e => by rw [hf1 e, hf3 e]
  · rcases h2 with h2 | ⟨⟨hgd, hcl⟩, hak⟩
    · exact absurd h2 hg
    · cases x with
      | not g =>
        cases y with
        | cls p =>
          have hsk : skipIf sk a st = .ok st [] ∧ skipIf sk a st' = .ok st' [] := by
            cases ha : a with
            | nonAtomic =>
              rcases hak with hak | hak
              · exact absurd ha hak
              · exact hk hak ha
            | compound => exact ⟨rfl, rfl⟩
            | atomic => exact ⟨rfl, rfl⟩
          by_cases hend : AtEnd st
          · have h1 : eval sk (.not g) a st ≠ .fail → eval sk (.not g) a st = .diverge := by
              have := holds_eval hs g hgd a st hend
              simp only [eval]
              generalize eval sk g a st = q at this
              cases q with
              | fail => exact absurd rfl this
              | ok => simp
              | diverge => simp
            generalize eval sk (.not g) a st = q at bx h1
            generalize eval sk (.not g) a st' = q' at bx
            cases bx with
            | fail => exact .fail
            | diverge => exact .diverge
            | ok => cases h1 (by simp)
          · have hol : oneLine skl (Expr.not g ⬝ Expr.cls p) a = true → true = true := fun _ => rfl
            refine (bx.weaken (by simp [oneLine]) (by simp [flat])).bind ?_
            intro s1 s1' t1 t1' q1 q1' hs1 ht1 hf1
            have e1 : s1 = st ∧ t1 = [] := by
              simp only [eval] at q1
              split at q1 <;> simp at q1
              exact ⟨q1.1.symm, q1.2⟩
            have e1' : s1' = st' ∧ t1' = [] := by
              simp only [eval] at q1'
              split at q1' <;> simp at q1'
              exact ⟨q1'.1.symm, q1'.2⟩
            obtain ⟨rfl, rfl⟩ := e1
            obtain ⟨rfl, rfl⟩ := e1'
            simp only [hsk.1, hsk.2, Res.ok_bind, List.nil_append]
            refine ((like_cls_char h hend).weaken hol (fun e => e)).bind ?_
            intro s3 s3' t3 t3' _ _ hs3 ht3 hf3
            exact .ok [] rfl whole_nil rfl (by simp) hs3 ht3 hf3
        | _ => cases hcl
      | _ => cases hgd

/-- Repetitions of an expression that does the same. -/
theorem good_star {b : Big R} {skl : Bool} {sk : St → Res R} (hs : EvenSkip b skl sk) {x : Expr R}
    (hx : Good b skl sk x) {a : Atom} {k : Bool} (h1 : even b skl x a k = true) (h2 : even b skl x a true = true)
    {st st' : St} (h : Sim st st') (hk : k = true → a = .nonAtomic → sk st = .ok st [] ∧ sk st' = .ok st' []) :
    Both b (oneLine skl (.star x) a) (flat b (.star x)) st (eval sk (.star x) a st) (eval sk (.star x) a st') := by
  have hol : oneLine skl (.star x) a = true → noGap skl a = true ∧ oneLine skl x a = true := by
    simp [oneLine]
  have bx := (hx a k h1 st st' h hk).weaken (fun e => (hol e).2) (fun e => (e : flat b x = true))
  simp only [eval]
  generalize hr : eval sk x a st = r at bx
  generalize hr' : eval sk x a st' = r' at bx
  have hm : ∀ s s', Sim s s' → Both b (oneLine skl (.star x) a) (flat b (.star x)) s
      (many (fun s => (skipIf sk a s).bind fun s1 _ => eval sk x a s1) (s.rest.length + 1) s)
      (many (fun s => (skipIf sk a s).bind fun s1 _ => eval sk x a s1) (s'.rest.length + 1) s') := by
    intro s s' hss
    refine like_many ?_ _ _ s s' hss (by omega) (by omega)
    intro s s' hss
    refine ((like_skipIf hs a hss).weaken (fun e => (hol e).1) (fun e => e)).bind ?_
    intro s2 s2' _ _ e2 e2' hs2 _ _
    exact (hx a true h2 s2 s2' hs2 fun _ ha => ⟨skipped hs e2 ha, skipped hs e2' ha⟩).weaken
      (fun e => (hol e).2) (fun e => e)
  cases bx with
  | fail => exact Both.here h
  | diverge => exact .diverge
  | @ok st1 st1' ts ts' w hw1 hw hp ho hs1 ht hfl =>
    have hb : Both b (oneLine skl (.star x) a) (flat b (.star x)) st (.ok st1 ts) (.ok st1' ts') :=
      .ok w hw1 hw hp ho hs1 ht hfl
    have := hb.bind
      (f := fun s t => (many (fun s => (skipIf sk a s).bind fun s1 _ => eval sk x a s1) (s.rest.length + 1) s).bind
        fun st2 ts2 => .ok st2 (t ++ ts2))
      (g := fun s t => (many (fun s => (skipIf sk a s).bind fun s1 _ => eval sk x a s1) (s.rest.length + 1) s).bind
        fun st2 ts2 => .ok st2 (t ++ ts2)) (by
        intro a1 a1' c c' e e' hsa hc hcf
        refine (hm a1 a1' hsa).bind ?_
        intro a2 a2' c2 c2' _ _ hs2 hc2 hcf2
        refine .ok [] rfl whole_nil rfl (by simp) hs2 (hc.append hc2) (fun e => ?_)
        rw [hcf e, hcf2 e])
    simpa using this

/-- Repetitions of `!g ~ ANY` where `g` fails at line ends. -/
theorem good_loop {b : Big R} {skl : Bool} {sk : St → Res R} (hs : EvenSkip b skl sk) {g : Expr R} {p : Char → Bool} {a : Atom}
    (ha : a ≠ .nonAtomic) (hg : misses g = true) (hp1 : p '\r' = true) (hp2 : p '\n' = true)
    (hgg : Good b skl sk g) (hev : even b skl g a true = true) (hng : guards (.not g) = false)
    {st st' : St} (h : Sim st st') :
    Both b (oneLine skl (.star (.seq (.not g) (.cls p))) a) (flat b (.star (.seq (.not g) (.cls p)))) st
      (eval sk (.star (.seq (.not g) (.cls p))) a st) (eval sk (.star (.seq (.not g) (.cls p))) a st') := by
  have hol : oneLine skl (.star (.seq (.not g) (.cls p))) a = false := by
    simp [oneLine, hng, noEnd, hp1]
  rw [hol]
  have hk : ∀ s : St, (skipIf sk a s : Res R) = .ok s [] := by
    intro s; cases a <;> first | exact absurd rfl ha | rfl
  have key := star_many (sk := sk) (g := g) (p := p) ha
  rw [key, key]
  exact like_loop hs.still ha hg hp1 hp2 (fun s s' hss => ⟨_, _, hgg a true hev s s' hss fun _ e => absurd e ha⟩) _ _ _ st st'
    (Nat.le_refl _) h (by omega) (by omega)

theorem Both.notEval {b : Big R} {ol fl : Bool} {sk : St → Res R} {e : Expr R} {a : Atom} {st st' : St}
    (hs : Sim st st') (h : Both b ol fl st (eval sk e a st) (eval sk e a st')) :
    Both b true true st (eval sk (.not e) a st) (eval sk (.not e) a st') := by
  simp only [eval]
  generalize eval sk e a st = q at h
  generalize eval sk e a st' = q' at h
  cases h with
  | fail => exact Both.here hs
  | diverge => exact .diverge
  | ok => exact .fail

theorem many_tokens {f : St → Res R} (hf : ∀ st st1 ts, f st = .ok st1 ts → ts = []) :
    ∀ n st st1 ts, many f n st = .ok st1 ts → ts = [] := by
  intro n
  induction n with
  | zero => intro st st1 ts h; simp [many] at h
  | succ n ih =>
    intro st st1 ts h
    simp only [many] at h
    split at h
    · cases h; rfl
    · cases h
    · next s2 t2 h2 =>
      split at h
      · cases hm : many f n s2 with
        | fail => simp [hm] at h
        | diverge => simp [hm] at h
        | ok s3 t3 =>
          simp only [hm, Res.ok_bind, Res.ok.injEq] at h
          rw [← h.2, hf _ _ _ h2, ih _ _ _ hm]
          rfl
      · cases h

theorem bind_ok {r : Res R} {f : St → List (Tree R) → Res R} {st : St} {ts : List (Tree R)}
    (h : r.bind f = .ok st ts) : ∃ s1 t1, r = .ok s1 t1 ∧ f s1 t1 = .ok st ts := by
  cases r with
  | ok s1 t1 => exact ⟨s1, t1, rfl, h⟩
  | fail => cases h
  | diverge => cases h

theorem silent_eval {sk : St → Res R} (e : Expr R) (he : silent e = true) :
    ∀ a st st1 ts, eval sk e a st = .ok st1 ts → ts = [] := by
  induction e with
  | str w => intro a st st1 ts h; simp only [eval] at h; split at h <;> cases h; rfl
  | cls p =>
    intro a st st1 ts h
    simp only [eval] at h
    split at h
    · cases h
    · split at h <;> cases h; rfl
  | soi => intro a st st1 ts h; simp only [eval] at h; split at h <;> cases h; rfl
  | eoi r => cases he
  | seq x y ihx ihy =>
    intro a st st1 ts h
    simp only [silent, Bool.and_eq_true] at he
    obtain ⟨s1, t1, h1, h⟩ := bind_ok h
    obtain ⟨s2, t2, h2, h⟩ := bind_ok h
    obtain ⟨s3, t3, h3, h⟩ := bind_ok h
    cases h
    rw [ihx he.1 _ _ _ _ h1, ihy he.2 _ _ _ _ h3]
    rfl
  | alt x y ihx ihy =>
    intro a st st1 ts h
    simp only [silent, Bool.and_eq_true] at he
    simp only [eval] at h
    split at h
    · exact ihy he.2 _ _ _ _ h
    · exact ihx he.1 _ _ _ _ h
  | opt x ih =>
    intro a st st1 ts h
    simp only [eval] at h
    split at h
    · cases h; rfl
    · exact ih he _ _ _ _ h
  | star x ih =>
    intro a st st1 ts h
    simp only [eval] at h
    split at h
    · cases h; rfl
    · cases h
    · next s1 t1 h1 =>
      obtain ⟨s2, t2, h2, h⟩ := bind_ok h
      cases h
      rw [ih he _ _ _ _ h1]
      refine many_tokens ?_ _ _ _ _ h2
      intro s s' t hb
      obtain ⟨s3, t3, _, hb⟩ := bind_ok hb
      exact ih he _ _ _ _ hb
  | not x ih =>
    intro a st st1 ts h
    simp only [eval] at h
    split at h <;> cases h
    rfl
  | rule r ty x ih => cases he
  | quiet x ih => intro a st st1 ts h; exact ih he _ _ _ _ h
  | push x ih =>
    intro a st st1 ts h
    obtain ⟨s1, t1, h1, h⟩ := bind_ok h
    cases h
    exact ih he _ _ _ _ h1
  | pop =>
    intro a st st1 ts h
    simp only [eval] at h
    split at h
    · cases h
    · split at h <;> cases h; rfl
  | dup x y ihx ihy =>
    intro a st st1 ts h
    simp only [silent, Bool.and_eq_true] at he
    obtain ⟨s1, t1, h1, h⟩ := bind_ok h
    obtain ⟨s2, t2, h2, h⟩ := bind_ok h
    split at h <;> cases h
    rw [ihx he.1 _ _ _ _ h1, ihy he.2 _ _ _ _ h2]
    rfl

theorem headed_eval {b : Big R} {sk : St → Res R} (e : Expr R) :
    ∀ a, headed b e a = true → ∀ st st1 ts, eval sk e a st = .ok st1 ts →
      ∃ r s k l, ts = .node r s k :: l ∧ b.line r = false ∧ b.box r = false := by
  induction e with
  | seq x y ihx ihy =>
    intro a he st st1 ts h
    simp only [headed, Bool.or_eq_true, Bool.and_eq_true] at he
    obtain ⟨s1, t1, h1, h⟩ := bind_ok h
    obtain ⟨s2, t2, h2, h⟩ := bind_ok h
    obtain ⟨s3, t3, h3, h⟩ := bind_ok h
    cases h
    rcases he with he | ⟨hq, he⟩
    · obtain ⟨r, s, k, l, rfl, hr⟩ := ihx a he _ _ _ h1
      exact ⟨r, s, k, _, rfl, hr⟩
    · obtain ⟨r, s, k, l, rfl, hr⟩ := ihy a he _ _ _ h3
      rw [silent_eval x hq _ _ _ _ h1]
      exact ⟨r, s, k, l, rfl, hr⟩
  | alt x y ihx ihy =>
    intro a he st st1 ts h
    simp only [headed, Bool.and_eq_true] at he
    simp only [eval] at h
    split at h
    · exact ihy a he.2 _ _ _ h
    · exact ihx a he.1 _ _ _ h
  | rule r ty x ih =>
    intro a he st st1 ts h
    simp only [headed, Bool.and_eq_true, Bool.not_eq_true'] at he
    obtain ⟨s1, t1, h1, h⟩ := bind_ok h
    simp only [he.1.1, if_true] at h
    cases h
    exact ⟨r, _, _, [], rfl, he.1.2, he.2⟩
  | _ => intro a he; cases he

theorem Alikes.head {b : Big R} {r : R} {s : Str} {k l ts' : List (Tree R)} (h : Alikes b (.node r s k :: l) ts')
    (h1 : b.line r = false) (h2 : b.box r = false) : (Tree.node r s k :: l).head? = ts'.head? := by
  cases h with
  | cons h _ =>
    cases h with
    | same => rfl
    | line _ _ _ h => rw [h1] at h; cases h
    | box _ _ h => rw [h2] at h; cases h

/-- Tokens that are not `Big` are the same. -/
theorem Alikes.plain {b : Big R} {k k' : List (Tree R)} (h : Alikes b k k')
    (hp : ∀ t ∈ k, small b t.asRule = true) : k = k' := by
  induction k generalizing k' with
  | nil => cases h; rfl
  | cons t k ih =>
    cases h with
    | cons h hk =>
      rw [ih hk fun u hu => hp u (List.mem_cons_of_mem _ hu)]
      have := hp t List.mem_cons_self
      cases h with
      | same => rfl
      | line _ _ _ h => simp [small, h] at this
      | box _ _ h => simp [small, h] at this

theorem many_all {P : Tree R → Prop} {f : St → Res R} (hf : ∀ st st1 ts, f st = .ok st1 ts → ∀ t ∈ ts, P t) :
    ∀ n st st1 ts, many f n st = .ok st1 ts → ∀ t ∈ ts, P t := by
  intro n
  induction n with
  | zero => intro st st1 ts h; simp [many] at h
  | succ n ih =>
    intro st st1 ts h
    simp only [many] at h
    split at h
    · cases h; simp
    · cases h
    · next s2 t2 h2 =>
      split at h
      · obtain ⟨s3, t3, h3, h⟩ := bind_ok h
        cases h
        intro t ht
        rcases List.mem_append.1 ht with ht | ht
        · exact hf _ _ _ h2 t ht
        · exact ih _ _ _ h3 t ht
      · cases h

theorem only_eval {q : R → Bool} {sk : St → Res R} (e : Expr R) :
    ∀ a, only q e a = true → ∀ st st1 ts, eval sk e a st = .ok st1 ts →
      ∀ t ∈ ts, q t.asRule = true := by
  induction e with
  | str w => intro a _ st st1 ts h; simp only [eval] at h; split at h <;> cases h; simp
  | cls p =>
    intro a _ st st1 ts h
    simp only [eval] at h
    split at h
    · cases h
    · split at h <;> cases h; simp
  | soi => intro a _ st st1 ts h; simp only [eval] at h; split at h <;> cases h; simp
  | eoi r =>
    intro a he st st1 ts h
    simp only [only] at he
    simp only [eval] at h
    split at h <;> cases h
    split
    · simp
    · simpa using he
  | seq x y ihx ihy =>
    intro a he st st1 ts h
    simp only [only, Bool.and_eq_true] at he
    obtain ⟨s1, t1, h1, h⟩ := bind_ok h
    obtain ⟨s2, t2, h2, h⟩ := bind_ok h
    obtain ⟨s3, t3, h3, h⟩ := bind_ok h
    cases h
    intro t ht
    rcases List.mem_append.1 ht with ht | ht
    · exact ihx a he.1 _ _ _ h1 t ht
    · exact ihy a he.2 _ _ _ h3 t ht
  | alt x y ihx ihy =>
    intro a he st st1 ts h
    simp only [only, Bool.and_eq_true] at he
    simp only [eval] at h
    split at h
    · exact ihy a he.2 _ _ _ h
    · exact ihx a he.1 _ _ _ h
  | opt x ih =>
    intro a he st st1 ts h
    simp only [eval] at h
    split at h
    · cases h; simp
    · exact ih a he _ _ _ h
  | star x ih =>
    intro a he st st1 ts h
    simp only [eval] at h
    split at h
    · cases h; simp
    · cases h
    · next s1 t1 h1 =>
      obtain ⟨s2, t2, h2, h⟩ := bind_ok h
      cases h
      intro t ht
      rcases List.mem_append.1 ht with ht | ht
      · exact ih a he _ _ _ h1 t ht
      · refine many_all (P := fun t => q t.asRule = true) ?_ _ _ _ _ h2 t ht
        intro st st1 ts h
        obtain ⟨s3, t3, h3, h⟩ := bind_ok h
        exact ih a he _ _ _ h
  | not x ih =>
    intro a _ st st1 ts h
    simp only [eval] at h
    split at h <;> cases h; simp
  | rule r ty x ih =>
    intro a he st st1 ts h
    obtain ⟨s1, t1, h1, h⟩ := bind_ok h
    simp only [only] at he
    split at he
    · next hem =>
      simp only [hem, if_true] at h
      cases h
      simpa using he
    · next hem =>
      simp only [hem] at h
      cases h
      exact ih _ he _ _ _ h1
  | quiet x ih => intro a he st st1 ts h; exact ih .atomic he _ _ _ h
  | push x ih =>
    intro a he st st1 ts h
    obtain ⟨s1, t1, h1, h⟩ := bind_ok h
    cases h
    exact ih a he _ _ _ h1
  | pop =>
    intro a _ st st1 ts h
    simp only [eval] at h
    split at h
    · cases h
    · split at h <;> cases h; simp
  | dup x y ihx ihy =>
    intro a he st st1 ts h
    simp only [only, Bool.and_eq_true] at he
    obtain ⟨s1, t1, h1, h⟩ := bind_ok h
    obtain ⟨s2, t2, h2, h⟩ := bind_ok h
    split at h <;> cases h
    intro t ht
    rcases List.mem_append.1 ht with ht | ht
    · exact ihx a he.1 _ _ _ h1 t ht
    · exact ihy a he.2 _ _ _ h2 t ht

theorem tailed_eval {b : Big R} {sk : St → Res R} (e : Expr R) :
    ∀ a, tailed b e a = true → ∀ st st1 ts, eval sk e a st = .ok st1 ts →
      ts ≠ [] ∧ ∀ t ∈ ts.tail, small b t.asRule = true := by
  induction e with
  | seq x y ihx ihy =>
    intro a he st st1 ts h
    simp only [tailed, Bool.or_eq_true, Bool.and_eq_true] at he
    obtain ⟨s1, t1, h1, h⟩ := bind_ok h
    obtain ⟨s2, t2, h2, h⟩ := bind_ok h
    obtain ⟨s3, t3, h3, h⟩ := bind_ok h
    cases h
    rcases he with ⟨he, hp⟩ | ⟨hq, he⟩
    · obtain ⟨hne, hx⟩ := ihx a he _ _ _ h1
      cases t1 with
      | nil => exact absurd rfl hne
      | cons t t1 =>
        refine ⟨by simp, ?_⟩
        intro u hu
        rcases List.mem_append.1 (by simpa using hu) with hu | hu
        · exact hx u (by simpa using hu)
        · exact only_eval y a hp _ _ _ h3 u hu
    · rw [silent_eval x hq _ _ _ _ h1]
      exact ihy a he _ _ _ h3
  | alt x y ihx ihy =>
    intro a he st st1 ts h
    simp only [tailed, Bool.and_eq_true] at he
    simp only [eval] at h
    split at h
    · exact ihy a he.2 _ _ _ h
    · exact ihx a he.1 _ _ _ h
  | rule r ty x ih =>
    intro a he st st1 ts h
    simp only [tailed, Bool.or_eq_true] at he
    obtain ⟨s1, t1, h1, h⟩ := bind_ok h
    by_cases hem : emits ty a = true
    · simp only [hem, if_true] at h
      cases h
      simp
    · simp only [hem] at h
      cases h
      exact ih _ (he.resolve_left hem) _ _ _ h1
  | _ => intro a he; cases he

theorem Alikes.behind {b : Big R} {k k' : List (Tree R)} (h : Alikes b k k')
    (hp : ∀ t ∈ k.tail, small b t.asRule = true) : k.tail = k'.tail := by
  cases h with
  | nil => rfl
  | cons _ hk => exact hk.plain hp

/-- The check is sound. -/
theorem good {b : Big R} {skl : Bool} {sk : St → Res R} (hs : EvenSkip b skl sk) (e : Expr R) :
    Good b skl sk e ∧ (∀ g, e = .not g → Good b skl sk g) ∧ ∀ g y, e = .seq (.not g) y → Good b skl sk g := by
  induction e with
  | str w =>
    refine ⟨?_, nofun, nofun⟩
    intro a k he st st' h _
    exact (like_str he h).weaken (fun _ => rfl) (fun e => e)
  | cls p =>
    refine ⟨?_, nofun, nofun⟩
    intro a k he st st' h _
    exact (like_cls hs.still he h).weaken (fun _ => rfl) (fun e => e)
  | soi =>
    refine ⟨?_, nofun, nofun⟩
    intro a k he st st' h _
    simp only [eval]
    by_cases hp : st.pos = 0
    · simp only [hp, h.pos.1 hp, if_true]; exact Both.here h
    · rw [if_neg hp, if_neg fun e => hp (h.pos.2 e)]; exact .fail
  | eoi r =>
    refine ⟨?_, nofun, nofun⟩
    intro a k he st st' h _
    have hiff : st.rest = [] ↔ st'.rest = [] := by
      rw [h.rest]
      constructor
      · intro e; rw [e]; rfl
      · intro e
        cases hr : st.rest with
        | nil => rfl
        | cons c s =>
          have hp := h.paired
          rw [hr] at e hp
          by_cases hc : c = '\r'
          · subst hc
            have := hp.1 rfl
            cases s with
            | nil => simp at this
            | cons d s =>
              simp only [List.head?_cons, Option.some.injEq] at this
              subst this
              rw [unix_cons_cr, unix_cons (by decide)] at e
              cases e
          · rw [unix_cons hc] at e; cases e
    simp only [eval]
    by_cases hp : st.rest = []
    · simp only [hp, hiff.1 hp, if_true]
      exact .ok [] rfl whole_nil rfl (by simp) h (Alikes.refl b _) (fun _ => rfl)
    · rw [if_neg hp, if_neg fun e => hp (hiff.2 e)]; exact .fail
  | seq x y ihx ihy =>
    refine ⟨good_seq hs ihx.1 ihx.2.2 ihy.1, nofun, ?_⟩
    intro g z e
    cases e
    exact ihx.2.1 g rfl
  | alt x y ihx ihy =>
    refine ⟨?_, nofun, nofun⟩
    intro a k he st st' h hk
    simp only [even, Bool.or_eq_true, Bool.and_eq_true] at he
    by_cases hn : isNewline (.alt x y) = true
    · rw [isNewline_eq hn]
      exact (like_newline h).weaken (fun e => by cases e) (fun e => e)
    · obtain ⟨h1, h2⟩ := he.resolve_left hn
      have bx := ihx.1 a k h1 st st' h hk
      have by' := ihy.1 a k h2 st st' h hk
      have hol : oneLine skl (x ∥ y) a = true → oneLine skl x a = true ∧ oneLine skl y a = true := by simp [oneLine]
      have hfl : flat b (x ∥ y) = true → flat b x = true ∧ flat b y = true := by simp [flat]
      replace bx := bx.weaken (fun e => (hol e).1) (fun e => (hfl e).1)
      replace by' := by'.weaken (fun e => (hol e).2) (fun e => (hfl e).2)
      simp only [eval]
      generalize eval sk x a st = q at bx
      generalize eval sk x a st' = q' at bx
      cases bx with
      | fail => exact by'
      | diverge => exact .diverge
      | ok w h hw hp ho hs ht hf => exact .ok w h hw hp ho hs ht hf
  | opt x ih =>
    refine ⟨?_, nofun, nofun⟩
    intro a k he st st' h hk
    have bx : Both b (oneLine skl (.opt x) a) (flat b (.opt x)) st (eval sk x a st) (eval sk x a st') :=
      ih.1 a k he st st' h hk
    simp only [eval]
    generalize eval sk x a st = q at bx
    generalize eval sk x a st' = q' at bx
    cases bx with
    | fail => exact Both.here h
    | diverge => exact .diverge
    | ok w h hw hp ho hs ht hf => exact .ok w h hw hp ho hs ht hf
  | star x ih =>
    refine ⟨?_, nofun, nofun⟩
    intro a k he st st' h hk
    by_cases hn : even b skl x a k = true ∧ even b skl x a true = true
    · exact good_star hs ih.1 hn.1 hn.2 h hk
    · unfold even at he
      simp only [Bool.or_eq_true, Bool.and_eq_true, bne_iff_ne, ne_eq] at he
      obtain ⟨ha, hm⟩ := he.resolve_left hn
      split at hm
      · next g p =>
        simp only [Bool.and_eq_true] at hm
        obtain ⟨⟨⟨h1, h2⟩, h3⟩, h4⟩ := hm
        have hgg := ih.2.2 g (.cls p) rfl
        refine good_loop hs ha h1 h2 h3 hgg h4 ?_ h
        cases hgd : guards (.not g) with
        | false => rfl
        | true =>
          exfalso
          -- `g` cannot both fail and not fail at a line end
          have hst : AtEnd ⟨0, ['\n'], []⟩ := Or.inl rfl
          exact holds_eval hs g hgd a _ hst (misses_eval hs.still g h1 a _ hst)
      · cases hm
  | not x ih =>
    refine ⟨?_, ?_, nofun⟩
    · intro a k he st st' h hk
      exact (Both.notEval h (ih.1 a k he st st' h hk)).weaken (fun _ => rfl) (fun _ => rfl)
    · intro g e
      cases e
      exact ih.1
  | rule r ty x ih =>
    refine ⟨?_, nofun, nofun⟩
    intro a k he st st' h hk
    simp only [even, Bool.and_eq_true, Bool.or_eq_true] at he
    obtain ⟨h1, h2⟩ := he
    have hin : inside ty a = .nonAtomic → a = .nonAtomic := by cases ty <;> simp [inside]
    have bx := ih.1 (inside ty a) k h1 st st' h fun e ha => hk e (hin ha)
    simp only [eval]
    generalize hq : eval sk x (inside ty a) st = q at bx
    generalize eval sk x (inside ty a) st' = q' at bx
    cases bx with
    | fail => exact .fail
    | diverge => exact .diverge
    | @ok st1 st1' ts ts' w hw1 hw hp ho hs1 ht hfl =>
      simp only [Res.ok_bind]
      have hb1 : st.between st1 = w := between_eq hw1
      have hb2 : st'.between st1' = unix w := between_eq (by rw [h.rest, hs1.rest, hw1, unix_append])
      by_cases hem : emits ty a = true
      · simp only [hem, if_true, hb1, hb2]
        refine .ok w hw1 hw hp ho hs1 ?_ ?_
        · refine .cons ?_ .nil
          by_cases hbx : ((b.box r = true ∧ (b.head r = false ∨ headed b x (inside ty a) = true)) ∧
              (b.tail r = false ∨ tailed b x (inside ty a) = true)) ∧ only (b.part r) x (inside ty a) = true
          · refine .box _ _ hbx.1.1.1 ht (fun hh => ?_) (fun hh => ?_) rfl (only_eval x _ hbx.2 _ _ _ hq)
            · obtain ⟨r2, s2, k2, l2, rfl, hr1, hr2⟩ := headed_eval x _ (hbx.1.1.2.resolve_left (by simp [hh])) _ _ _ hq
              exact ht.head hr1 hr2
            · exact ht.behind (tailed_eval x _ (hbx.1.2.resolve_left (by simp [hh])) _ _ _ hq).2
          · obtain ⟨h3, h4⟩ := h2.resolve_left (by simpa using hbx)
            rw [← hfl h4]
            by_cases hln : b.line r = true
            · exact .line _ _ _ hln rfl
            · rw [unix_eq (ho (h3.resolve_left hln)).1]
              exact .same _
        · intro e
          simp only [flat, Bool.and_eq_true, Bool.not_eq_true'] at e
          obtain ⟨⟨e1, e2⟩, e3⟩ := e
          rw [← hfl e3]
          obtain ⟨h3, _⟩ := h2.resolve_left (by simp [e2])
          rw [unix_eq (ho (h3.resolve_left (by simp [e1]))).1]
      · simp only [hem, if_false]
        refine .ok w hw1 hw hp ho hs1 ht fun e => ?_
        simp only [flat, Bool.and_eq_true] at e
        exact hfl e.2
  | quiet x ih =>
    refine ⟨?_, nofun, nofun⟩
    intro a k he st st' h hk
    exact ih.1 .atomic false he st st' h (fun e => by cases e)
  | push x ih => exact ⟨fun a k he => by simp [even] at he, nofun, nofun⟩
  | pop => exact ⟨fun a k he => by simp [even] at he, nofun, nofun⟩
  | dup x y ihx ihy =>
    refine ⟨?_, nofun, nofun⟩
    intro a k he st st' h hk
    simp only [even, Bool.and_eq_true] at he
    obtain ⟨⟨h1, h2⟩, h3⟩ := he
    have hol : oneLine skl (.dup x y) a = true → oneLine skl x a = true ∧ oneLine skl y a = true := by simp [oneLine]
    have hfl : flat b (.dup x y) = true → flat b x = true ∧ flat b y = true := by simp [flat]
    have bx := ihx.1 a k h1 st st' h hk
    simp only [eval]
    generalize eval sk x a st = q at bx
    generalize eval sk x a st' = q' at bx
    cases bx with
    | fail => exact .fail
    | diverge => exact .diverge
    | @ok st1 st1' ts ts' w hw1 hw hp ho hs1 ht hfx =>
      have hw2 := ho h2
      have hb1 : st.between st1 = w := between_eq hw1
      have hb2 : st'.between st1' = w := between_eq (by rw [h.rest, hs1.rest, hw1, unix_append, unix_eq hw2.1])
      have hb : Both b (oneLine skl (.dup x y) a) (flat b (.dup x y)) st (.ok st1 ts) (.ok st1' ts') :=
        .ok w hw1 hw hp (fun _ => hw2) hs1 ht (fun e => hfx (hfl e).1)
      have hne : noEnds w = true := noEnds_iff.2 hw2
      have := hb.bind
        (f := fun s t => (eval sk y a s).bind fun st2 ts2 =>
          if w.isPrefixOf st2.rest then .ok (st2.advance w.length) (t ++ ts2) else .fail)
        (g := fun s t => (eval sk y a s).bind fun st2 ts2 =>
          if w.isPrefixOf st2.rest then .ok (st2.advance w.length) (t ++ ts2) else .fail) (by
          intro a1 a1' c c' e e' hsa hc hcf
          refine ((ihy.1 a false h3 a1 a1' hsa (fun e => by cases e)).weaken (fun e => (hol e).2)
            (fun e => (hfl e).2)).bind ?_
          intro a2 a2' c2 c2' _ _ hs2 hc2 hcf2
          have hpre : w.isPrefixOf a2'.rest = w.isPrefixOf a2.rest := by rw [hs2.rest, prefix_unix hne hs2.paired]
          rw [hpre]
          by_cases hpf : w.isPrefixOf a2.rest = true
          · simp only [hpf, if_true]
            have := both_advance (b := b) (fl := flat b (.dup x y)) hs2 hne hpf
            cases this with
            | ok w' q1 q2 q3 q4 q5 q6 q7 =>
              refine .ok w' q1 q2 q3 (fun _ => q4 rfl) q5 (hc.append hc2) (fun e => ?_)
              rw [hcf e, hcf2 e]
          · simp only [hpf, if_false]
            exact .fail)
      simpa [hb1, hb2] using this

/-! ## The implicit skip -/

theorem still_noSkip : Still (noSkip : St → Res R) := fun _ _ => rfl

theorem evenSkip_noSkip (b : Big R) : EvenSkip b true (noSkip : St → Res R) where
  like _ _ h := Both.here h
  still _ _ := rfl
  idem := by intro st st1 ts h; cases h; rfl
  nofail _ := by simp [noSkip]

/-- A repetition ends where the repeated thing fails. -/
theorem many_end {f : St → Res R} : ∀ n st st1 ts, many f n st = .ok st1 ts → f st1 = .fail := by
  intro n
  induction n with
  | zero => intro st st1 ts h; simp [many] at h
  | succ n ih =>
    intro st st1 ts h
    simp only [many] at h
    split at h
    · next hf => cases h; exact hf
    · cases h
    · next s2 t2 _ =>
      split at h
      · cases hm : many f n s2 with
        | fail => simp [hm] at h
        | diverge => simp [hm] at h
        | ok st2 ts2 =>
          simp only [hm, Res.ok_bind, Res.ok.injEq] at h
          obtain ⟨rfl, _⟩ := h
          exact ih _ _ _ hm
      · cases h

theorem many_fail {f : St → Res R} {st : St} (h : f st = .fail) (n : Nat) : many f (n + 1) st = .ok st [] := by
  simp [many, h]

theorem manyQuiet_stop {x : Expr R} {st : St} (h : eval noSkip x .atomic st = .fail) : manyQuiet x st = .ok st [] :=
  many_fail h _

theorem like_manyQuiet {b : Big R} {ol : Bool} {x : Expr R} (hx : even b true x .atomic false = true) (hf : flat b x = true)
    (ho : ol = true → oneLine true x .atomic = true) {st st' : St} (h : Sim st st') :
    Both b ol true st (manyQuiet x st) (manyQuiet x st') :=
  like_many (fun s s' hs => ((good (evenSkip_noSkip b) x).1 .atomic false hx s s' hs (fun e => by cases e)).weaken ho
    (fun _ => hf)) _ _ st st' h (by omega) (by omega)

theorem manyQuiet_nofail (x : Expr R) (st : St) : manyQuiet x st ≠ .fail := many_ne_fail _ _ _

theorem evenSkip_one {b : Big R} {skl : Bool} {x : Expr R} (hx : even b true x .atomic false = true) (hf : flat b x = true)
    (hm : misses x = true) (ho : skl = true → oneLine true x .atomic = true) : EvenSkip b skl (skipOne x) where
  like := by
    intro st st' h
    simp only [skipOne]
    exact (like_manyQuiet hx hf ho h).bind fun s s' _ _ _ _ hs _ _ => Both.here hs
  still := by
    intro st h
    simp [skipOne, manyQuiet, many_fail (misses_eval still_noSkip x hm .atomic st h)]
  idem := by
    intro st st1 ts h
    simp only [skipOne] at h ⊢
    cases hq : manyQuiet x st with
    | fail => simp [hq] at h
    | diverge => simp [hq] at h
    | ok s t =>
      simp only [hq, Res.ok_bind, Res.ok.injEq] at h
      obtain ⟨rfl, rfl⟩ := h
      have := many_end _ _ _ _ hq
      simp [manyQuiet, many_fail this]
  nofail st := bind_ne_fail (manyQuiet_nofail x st) fun _ _ => by simp

/-- Where a repetition of a thing followed by blanks ends, no blanks follow. -/
theorem many_ws_end {ws : Expr R} {f : St → Res R} : ∀ n st st1 ts,
    many (fun s => (f s).bind fun s' _ => manyQuiet ws s') n st = .ok st1 ts →
    eval noSkip ws .atomic st = .fail → eval noSkip ws .atomic st1 = .fail := by
  intro n
  induction n with
  | zero => intro st st1 ts h; simp [many] at h
  | succ n ih =>
    intro st st1 ts h hw
    simp only [many] at h
    split at h
    · cases h; exact hw
    · cases h
    · next s2 t2 hb =>
      split at h
      · cases hm : many (fun s => (f s).bind fun s' _ => manyQuiet ws s') n s2 with
        | fail => simp [hm] at h
        | diverge => simp [hm] at h
        | ok s3 t3 =>
          simp only [hm, Res.ok_bind, Res.ok.injEq] at h
          obtain ⟨rfl, _⟩ := h
          refine ih _ _ _ hm ?_
          cases hf : f st with
          | fail => simp [hf] at hb
          | diverge => simp [hf] at hb
          | ok s4 t4 =>
            simp only [hf, Res.ok_bind] at hb
            exact many_end _ _ _ _ hb
      · cases h

theorem evenSkip_both {b : Big R} {skl : Bool} {ws cm : Expr R}
    (hx : even b true ws .atomic false = true) (hf : flat b ws = true) (hm : misses ws = true)
    (ho : oneLine true ws .atomic = true) (hx2 : even b true cm .atomic false = true) (hf2 : flat b cm = true)
    (hm2 : misses cm = true) (ho2 : skl = true → oneLine true cm .atomic = true) :
    EvenSkip b skl (skipBoth ws cm) where
  like := by
    intro st st' h
    simp only [skipBoth]
    refine (like_manyQuiet hx hf (fun _ => ho) h).bind fun s s' _ _ _ _ hs _ _ => ?_
    refine Both.bind (like_many (fl := true) ?_ _ _ s s' hs (by omega) (by omega)) fun s s' _ _ _ _ hs _ _ => Both.here hs
    intro s s' hs
    refine (((good (evenSkip_noSkip b) cm).1 .atomic false hx2 s s' hs (fun e => by cases e)).weaken ho2
      (fun _ => hf2)).bind fun s s' _ _ _ _ hs _ _ => ?_
    exact like_manyQuiet hx hf (fun _ => ho) hs
  still := by
    intro st h
    simp only [skipBoth, manyQuiet_stop (misses_eval still_noSkip ws hm .atomic st h), Res.ok_bind]
    rw [many_fail]
    · rfl
    · simp [misses_eval still_noSkip cm hm2 .atomic st h]
  idem := by
    intro st st1 ts h
    simp only [skipBoth] at h ⊢
    cases hq : manyQuiet ws st with
    | fail => simp [hq] at h
    | diverge => simp [hq] at h
    | ok s t =>
      simp only [hq, Res.ok_bind] at h
      cases hr : many (fun s => (eval noSkip cm .atomic s).bind fun s' _ => manyQuiet ws s') (s.rest.length + 1) s with
      | fail => simp [hr] at h
      | diverge => simp [hr] at h
      | ok s2 t2 =>
        simp only [hr, Res.ok_bind, Res.ok.injEq] at h
        obtain ⟨rfl, rfl⟩ := h
        have e1 := many_ws_end _ _ _ _ hr (many_end _ _ _ _ hq)
        have e2 := many_end _ _ _ _ hr
        simp only [manyQuiet_stop e1, Res.ok_bind]
        rw [many_fail e2]
        rfl
  nofail st := bind_ne_fail (manyQuiet_nofail ws st) fun s _ => bind_ne_fail (many_ne_fail _ _ _) fun _ _ => by simp

/-! ## Whole texts -/

open Spec (SameLines IsLineEnd)

theorem paired_of_sameLines {s t : Str} (h : SameLines s t) : Paired s ∧ Paired t ∧ unix s = unix t := by
  induction h with
  | nil => exact ⟨trivial, trivial, rfl⟩
  | char c h1 h2 _ ih =>
    exact ⟨⟨fun e => absurd e h1, ih.1⟩, ⟨fun e => absurd e h1, ih.2.1⟩, by rw [unix_cons h1, unix_cons h1, ih.2.2]⟩
  | @lineEnd s t e f he hf _ ih =>
    have key : ∀ {e s : Str}, IsLineEnd e → Paired s → Paired (e ++ s) ∧ unix (e ++ s) = '\n' :: unix s := by
      intro e s he hs
      rcases he with rfl | rfl
      · exact ⟨⟨by simp, hs⟩, by rw [List.cons_append, unix_cons (by decide)]; rfl⟩
      · exact ⟨⟨by simp, by simp, hs⟩, by
          rw [List.cons_append, unix_cons_cr, List.cons_append, unix_cons (by decide)]; rfl⟩
    have h1 := key he ih.1
    have h2 := key hf ih.2.1
    exact ⟨h1.1, h2.1, by rw [h1.2, h2.2, ih.2.2]⟩

/-- Two runs on a text and on the same text without carriage returns. -/
inductive SameRun (b : Big R) : Run (List (Tree R)) → Run (List (Tree R)) → Prop where
  | error (e : Fault) : SameRun b (.error e) (.error e)
  | ok {ts ts' : List (Tree R)} (h : Alikes b ts ts') : SameRun b (.ok ts) (.ok ts')

theorem sameRun_unix {b : Big R} {skl : Bool} {sk : St → Res R} (hs : EvenSkip b skl sk) {e : Expr R}
    (he : even b skl e .nonAtomic false = true) {s : Str} (h : Paired s) :
    SameRun b (run sk e s) (run sk e (unix s)) := by
  have := (good hs e).1 .nonAtomic false he ⟨0, s, []⟩ ⟨0, unix s, []⟩ ⟨rfl, h, by simp⟩ (fun e => by cases e)
  simp only [run]
  generalize eval sk e .nonAtomic ⟨0, s, []⟩ = q at this
  generalize eval sk e .nonAtomic ⟨0, unix s, []⟩ = q' at this
  cases this with
  | fail => exact .error _
  | diverge => exact .error _
  | ok w h hw hp ho hs ht hf => exact .ok ht

/-- A function of the tokens that does not look at the texts of `Big` tokens. -/
theorem run_sameLines {b : Big R} {skl : Bool} {sk : St → Res R} (hs : EvenSkip b skl sk) {e : Expr R}
    (he : even b skl e .nonAtomic false = true) {A : Type} {f : List (Tree R) → Run A}
    (hf : ∀ ts ts', Alikes b ts ts' → f ts = f ts') {s t : Str} (h : SameLines s t) :
    (run sk e s).bind f = (run sk e t).bind f := by
  have key : ∀ {s}, Paired s → (run sk e s).bind f = (run sk e (unix s)).bind f := by
    intro s hp
    have := sameRun_unix hs he hp
    generalize run sk e s = q at this
    generalize run sk e (unix s) = q' at this
    cases this with
    | error e => rfl
    | ok h => exact hf _ _ h
  obtain ⟨h1, h2, h3⟩ := paired_of_sameLines h
  rw [key h1, key h2, h3]

end Verif.Peg
