import Verif.Peg.NewLines
import Verif.Peg.Infix
/-!
# Where panics come from

`Safe H T m`: the computation `m` has a value, or the text `T` contains a part satisfying `H`.
-/

namespace Verif.Peg

/-- See above. -/
def Safe (H : Str → Prop) (T : Str) {A : Type} (m : Run A) : Prop := (∃ v, m = .ok v) ∨ ∃ s, s <:+: T ∧ H s

variable {H : Str → Prop} {T T' : Str} {A B : Type}

theorem safe_ok (v : A) : Safe H T (.ok v : Run A) := Or.inl ⟨v, rfl⟩

theorem safe_bad {m : Run A} {s : Str} (h : s <:+: T) (hs : H s) : Safe H T m := Or.inr ⟨s, h, hs⟩

theorem Safe.mono {m : Run A} (h : Safe H T m) (ht : T <:+: T') : Safe H T' m := by
  rcases h with h | ⟨s, hs, hh⟩
  · exact Or.inl h
  · exact Or.inr ⟨s, hs.trans ht, hh⟩

theorem Safe.bind {m : Run A} {f : A → Run B} (h : Safe H T m) (hf : ∀ v, m = .ok v → Safe H T (f v)) :
    Safe H T (m >>= f) := by
  rcases h with ⟨v, rfl⟩ | h
  · exact hf v rfl
  · exact Or.inr h

theorem safe_mapM {f : A → Run B} : ∀ {l : List A}, (∀ a ∈ l, Safe H T (f a)) → Safe H T (l.mapM f)
  | [], _ => safe_ok []
  | a :: l, h => by
    rw [List.mapM_cons]
    refine (h a List.mem_cons_self).bind fun v _ => ?_
    refine (safe_mapM fun b hb => h b (List.mem_cons_of_mem _ hb)).bind fun w _ => safe_ok _

theorem safe_foldlM {C : Type} {f : C → A → Run C} : ∀ {l : List A} {c : C}, (∀ a ∈ l, ∀ c, Safe H T (f c a)) → Safe H T (l.foldlM f c)
  | [], c, _ => safe_ok c
  | a :: l, c, h => by
    rw [List.foldlM_cons]
    refine (h a List.mem_cons_self c).bind fun v _ => ?_
    exact safe_foldlM fun b hb => h b (List.mem_cons_of_mem _ hb)

/-! ## Texts without line ends -/

variable {R : Type} {sk : St → Res R} {K : Str → Str → Prop} {pw : Char → Bool} {marks : List Str}

/-- No line end in the text. -/
def NoNl (s : Str) : Prop := ∀ c ∈ s, isNewlineChar c = false

theorem noNl_append {s t : Str} : NoNl (s ++ t) ↔ NoNl s ∧ NoNl t := by simp [NoNl, or_imp, forall_and]

theorem noNl_nil : NoNl [] := by simp [NoNl]

/-- What `x` matches has no line end. -/
def OneLine (sk : St → Res R) (K : Str → Str → Prop) (x : Expr R) (a : Atom) : Prop :=
  ∀ s r ts, Out sk K x a s r ts → NoNl s

theorem oneLine_str {w : Str} {a : Atom} (h : NoNl w) : OneLine sk K (.str w) a := by
  rintro s r ts ⟨rfl, _⟩; exact h

theorem oneLine_cls {p : Char → Bool} {a : Atom} (h : ∀ c, p c = true → isNewlineChar c = false) : OneLine sk K (.cls p) a := by
  rintro s r ts ⟨c, rfl, hc, _⟩ d hd
  rw [List.mem_singleton.1 hd]
  exact h c hc

theorem oneLine_alt {x y : Expr R} {a : Atom} (h1 : OneLine sk K x a) (h2 : OneLine sk K y a) : OneLine sk K (x ∥ y) a := by
  rintro s r ts (h | ⟨h, _⟩)
  · exact h1 _ _ _ h
  · exact h2 _ _ _ h

theorem oneLine_opt {x : Expr R} {a : Atom} (h : OneLine sk K x a) : OneLine sk K (.opt x) a := by
  rintro s r ts (h' | ⟨rfl, _⟩)
  · exact h _ _ _ h'
  · exact noNl_nil

theorem oneLine_rule {q : R} {ty : Ty} {x : Expr R} {a : Atom} (h : OneLine sk K x (inside ty a)) : OneLine sk K (.rule q ty x) a := by
  rintro s r ts ⟨kids, ho, _⟩
  exact h _ _ _ ho

theorem LineSkip.noNl (h : LineSkip sk K pw marks) (hm : ∀ w ∈ marks, NoNl w) {m r : Str} (hk : K m r) : NoNl m := by
  obtain ⟨sp, cm, rfl, h1, h2⟩ := (h.iff _ _).1 hk
  refine noNl_append.2 ⟨fun c hc => ?_, ?_⟩
  · cases hn : isNewlineChar c with
    | false => rfl
    | true => exact absurd (h1 c hc) (by rw [h.apart.1 c hn]; simp)
  · rcases h2 with ⟨rfl, _⟩ | ⟨⟨w, hw, body, rfl, hb⟩, _⟩
    · exact noNl_nil
    · exact noNl_append.2 ⟨hm w hw, hb⟩

/-- Only blanks are skipped in the middle of a line. -/
theorem LineSkip.blanks (h : LineSkip sk K pw marks) {m r : Str} (hk : K m r) (hr : ¬ AtLineEnd r) : ∀ c ∈ m, pw c = true := by
  obtain ⟨sp, cm, rfl, h1, ⟨rfl, _⟩ | ⟨_, h2⟩⟩ := (h.iff _ _).1 hk
  · simpa using h1
  · exact absurd h2 hr

/-- `(!(NL | ":") ~ ANY)*` has no line end. -/
theorem oneLine_until (h : LineSkip sk K pw marks) {y : Expr R} {a : Atom} (ha : a = .atomic) :
    OneLine sk K (.star ((.not (Base.NL ∥ y)) ⬝ .any)) a := by
  subst ha
  intro s r ts ho
  refine out_until_not (p := fun c => isNewlineChar c) (by decide) (fun c r pos stk hc he => ?_) ho
  obtain ⟨p', k', st, ts, e2⟩ := nl_ok h (t := r) hc
  have hf : Fails sk (Base.NL : Expr R) .atomic (c :: r) := (fails_alt ⟨pos, stk, he⟩).1
  have := (uniform_eval h.uniform (Base.NL : Expr R) rfl .atomic).fail_of hf ⟨p', c :: r, k'⟩ rfl
  rw [e2] at this
  cases this

theorem oneLine_plus_cls {x : Expr R} {p : Char → Bool} (hx : LikeCls sk K x .atomic p) (hp : ∀ c, p c = true → isNewlineChar c = false) :
    OneLine sk K (.plus x) .atomic := by
  intro s r ts ho c hc
  exact hp c (((hx.plus (by decide)).1 ho).2.1 c hc)

end Verif.Peg
