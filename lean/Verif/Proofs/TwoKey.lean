import Verif.Props.Constraints
import Verif.Props.Prf
import Verif.Proofs.AsrPanic
import Verif.Proofs.SymbologyPanic
import Verif.Proofs.AdaptationKeys
/-!
# The first keys of the two-key maps that the parsers make have no colon
-/

namespace Verif.Proofs.TwoKey
open Verif.Peg Verif.Parse Verif.Proofs

/-- The keys are distinct and the first ones have no colon. -/
def Good {V : Type} (m : Map (Str × Str) V) : Prop := m.keys.Nodup ∧ ∀ k ∈ m.keys, ':' ∉ k.1

theorem good_nil {V : Type} : Good ([] : Map (Str × Str) V) := ⟨by simp [Map.keys], by simp [Map.keys]⟩

theorem good_insert {V : Type} {m : Map (Str × Str) V} (h : Good m) {k : Str × Str} (hk : ':' ∉ k.1) (v : V) : Good (m.insert k v) := by
  refine ⟨Map.nodup_insert h.1 k v, fun k' hk' => ?_⟩
  rcases Map.mem_keys_insert.1 hk' with rfl | hk'
  · exact hk
  · exact h.2 k' hk'

theorem good_ofList {V : Type} (l : List ((Str × Str) × V)) (h : ∀ e ∈ l, ':' ∉ e.1.1) : Good (Map.ofList l) := by
  have : ∀ (l : List ((Str × Str) × V)) (m : Map (Str × Str) V), (∀ e ∈ l, ':' ∉ e.1.1) → Good m →
      Good (l.foldl (fun m e => Map.insert m e.1 e.2) m) := by
    intro l
    induction l with
    | nil => intro m _ hm; exact hm
    | cons e l ih =>
      intro m hl hm
      exact ih _ (fun e he => hl e (List.mem_cons_of_mem _ he)) (good_insert hm (hl e List.mem_cons_self) _)
  exact this l [] h good_nil

/-- Profiles -/
theorem prf_good [UnicodeTables] {content : Str} {m : Prf.Settings} (h : Prf.parsePrf content = .ok m) : Good m := by
  rcases Prf.parse_cases content with h' | ⟨ws, _, hf, h'⟩
  · rw [h'] at h; cases h
  · rw [h'] at h
    cases h
    have letters : ∀ {ws}, Spec.Prf.IsFile content ws → ∀ w ∈ ws, ∀ c ∈ w.category, UnicodeTables.letter c = true := by
      clear hf h'
      intro ws hf
      induction hf with
      | last => simp
      | lastLine w t hl =>
        obtain ⟨_, _, _, _, _, _, _, _, h, _⟩ := hl
        intro w' hw'
        rw [List.mem_singleton.1 hw']; exact h
      | blank _ _ _ _ _ ih => exact ih
      | line w t rest ws hl _ ih =>
        obtain ⟨_, _, _, _, _, _, _, _, h, _⟩ := hl
        intro w' hw'
        rcases List.mem_cons.1 hw' with rfl | hw'
        · exact h
        · exact ih w' hw'
    refine good_ofList _ fun e he => ?_
    obtain ⟨w, hw, rfl⟩ := List.mem_map.1 he
    intro hc
    have := letters hf w hw ':' hc
    rw [Prf.letter_false (by decide) (by decide)] at this
    cases this

/-- A choice with a character does not fail in front of this character. -/
theorem alt_char {R : Type} {sk : St → Res R} {x : Expr R} {a : Atom} {c : Char} {r : Str} {pos : Nat} {stk : List Str} :
    eval sk (x ∥ .str [c]) a ⟨pos, c :: r, stk⟩ ≠ .fail := by
  have e : eval sk (x ∥ .str [c]) a ⟨pos, c :: r, stk⟩ = match eval sk x a ⟨pos, c :: r, stk⟩ with
    | .fail => eval sk (.str [c]) a ⟨pos, c :: r, stk⟩
    | r => r := rfl
  rw [e]
  cases eval sk x a ⟨pos, c :: r, stk⟩ with
  | fail => simp [eval]
  | diverge => simp
  | ok _ _ => simp

theorem until_colon {R : Type} {sk : St → Res R} {K : Str → Str → Prop} {x : Expr R} {a : Atom} (ha : a ≠ .nonAtomic) {s r : Str} {ts : List (Tree R)}
    (h : Out sk K (.star ((.not (x ∥ (.str c!":"))) ⬝ .any)) a s r ts) : ':' ∉ s := by
  intro hc
  have := out_until_not (p := fun c => c == ':') ha (by
    intro c r pos stk hp
    have : c = ':' := by simpa using hp
    subst this
    exact alt_char) h ':' hc
  simp at this

section
open Verif.Peg.Symbology
variable {K : Str → Str → Prop}

theorem symbology_text {t : Tree Rule} (h : Tok skip K colon_delimited_text .nonAtomic t) : ':' ∉ t.asStr := by
  obtain ⟨s, r, kids, rfl, ho⟩ := tok_rule rfl h
  exact until_colon (by decide) ho

variable {F : Type} [F64 F] [SymbolRule.Close F] {G : Type} [F64 G]

theorem item_good {t : Tree Rule} (h : Tok skip K item .nonAtomic t) :
    Post (fun o => ∀ i : Parse.Symbology.Item G, o = some i → ':' ∉ i.folder) (Parse.Symbology.parseItem t) := by
  obtain ⟨s, kids, rfl, hk⟩ := tok_kids rfl h
  obtain ⟨k1, ⟨x, hx, rfl⟩, k2, hk2, rfl⟩ := hk
  unfold Parse.Symbology.parseItem
  simp only [Tree.inner_node, List.cons_append, next_cons, run_ok_bind]
  refine Post.bind Post.any fun _ _ => Post.bind Post.any fun _ _ => Post.bind Post.any fun _ _ => Post.bind Post.any fun _ _ =>
    Post.bind Post.any fun _ _ => Post.bind Post.any fun _ _ => Post.bind Post.any fun _ _ => Post.bind Post.any fun _ _ =>
    Post.bind Post.any fun _ _ => Post.bind Post.any fun _ _ => Post.bind Post.any fun _ _ => Post.pure ?_
  intro i hi
  obtain ⟨c, _, rfl⟩ := Option.map_eq_some_iff.1 hi
  exact symbology_text hx

/-- Symbology files -/
theorem symbology_good {content : Str} {s : Parse.Symbology.Symbology F G} (h : Parse.Symbology.parse content = .ok s) : Good s.items := by
  rcases run_tok Peg.Symbology.symbology rfl Proofs.Symbology.lineSkip.ok rfl rfl content with h' | ⟨kids, h', ho⟩
  · simp only [Parse.Symbology.parse] at h
    rw [h'] at h; cases h
  · have e : Parse.Symbology.parse (F := F) (G := G) content = kids.foldlM Parse.Symbology.step ⟨[], []⟩ := by
      simp only [Parse.Symbology.parse]
      rw [h']; rfl
    rw [e] at h
    have ht := Proofs.Symbology.file_tokens ho
    have : ∀ (l : List (Tree Rule)) (acc : Parse.Symbology.Symbology F G), (∀ t ∈ l, t ∈ kids) → Good acc.items →
        Post (fun s => Good s.items) (l.foldlM Parse.Symbology.step acc) := by
      intro l
      induction l with
      | nil => intro acc _ ha; exact Post.pure ha
      | cons t l ih =>
        intro acc hl ha
        rw [List.foldlM_cons]
        refine Post.bind (P := fun s => Good s.items) ?_ fun b hb => ih b (fun t ht => hl t (List.mem_cons_of_mem _ ht)) hb
        unfold Parse.Symbology.step
        have hc := (ht t (hl t List.mem_cons_self)).2
        split
        · next hr =>
          have hi : Tok skip Proofs.Symbology.K item .nonAtomic t := by
            rcases hc with hc | hc | hc | hc | hc
            · rw [hc] at hr; cases hr
            · rw [hc] at hr; cases hr
            · rw [hc] at hr; cases hr
            · exact hc
            · obtain ⟨_, _, _, rfl, _⟩ := tok_rule rfl hc
              cases hr
          refine Post.bind (item_good hi) fun o ho => Post.pure ?_
          cases o with
          | none => exact ha
          | some i => exact good_insert ha (ho i rfl) _
        · refine Post.bind Post.any fun o _ => Post.pure ?_
          cases o <;> exact ha
        · exact Post.pure ha
        · exact Post.pure ha
        · exact Post.pure ha
        · exact Post.error
    exact this kids ⟨[], []⟩ (fun _ h => h) good_nil s h
end

section
open Verif.Peg.Asr
variable {F : Type} [F64 F]

theorem asr_text {t : Tree Rule} {K : Str → Str → Prop} (h : Tok skip K multivalue .nonAtomic t) : ':' ∉ t.asStr := by
  obtain ⟨s, r, kids, rfl, ho⟩ := tok_rule rfl h
  exact until_colon (by decide) ho

/-- The name of the plugin in a plugin setting has no colon. -/
def PluginGood (o : Option (Parse.Asr.AsrData F)) : Prop := ∀ p k v, o = some (.pluginSetting (p, k, v)) → ':' ∉ p

theorem not_plugin {t : Tree Rule} (ht : t.asRule ≠ .plugin) : Post (PluginGood (F := F)) (Parse.Asr.parseSetting t) := by
  unfold Parse.Asr.parseSetting
  dsimp only
  split
  all_goals
    repeat' first
      | exact Post.error
      | (next h => exact absurd h ht)
      | exact Post.pure (by intro p k v hh; cases hh)
      | exact Post.pure (by intro p k v hh; obtain ⟨_, _, hh⟩ := Option.map_eq_some_iff.1 hh; cases hh)
      | exact Post.pure (by intro p k v hh; split at hh <;> simp at hh)
      | refine Post.bind Post.any fun _ _ => ?_
      | split

theorem plugin_good {K : Str → Str → Prop} {t : Tree Rule} (h : Tok skip K plugin .nonAtomic t) :
    Post (PluginGood (F := F)) (Parse.Asr.parseSetting t) := by
  obtain ⟨s, kids, rfl, hk⟩ := tok_kids rfl h
  simp only [kids_simp] at hk
  obtain ⟨x, hx, y, hy, z, hz, rfl⟩ := hk
  refine Post.pure ?_
  intro p k v hh
  cases hh
  exact asr_text hx

theorem setting_good {K : Str → Str → Prop} {k : List (Tree Rule)} (hk : Kids skip K setting .nonAtomic k) :
    ∃ t, k = [t] ∧ Post (PluginGood (F := F)) (Parse.Asr.parseSetting t) := by
  unfold setting at hk
  simp only [kids_simp] at hk
  obtain ⟨t, ht, rfl⟩ := hk
  refine ⟨t, rfl, ?_⟩
  rcases ht with h | h | h | h | h | h | h | h | h | h | h | h | h | h | h | h | h | h | h | h | h | h | h | h | h | h |
    h | h | h | h | h | h | h | h | h | h
  all_goals first
    | exact plugin_good h
    | (obtain ⟨_, _, rfl, _⟩ := tok_kids rfl h
       exact not_plugin (by intro hn; cases hn))

theorem collect_good : ∀ ts : List (Tree Rule), (∀ t ∈ ts, Post (PluginGood (F := F)) (Parse.Asr.parseSetting t)) →
    Post (fun ds => ∀ d ∈ ds, PluginGood (some d)) (Parse.Asr.collect (F := F) ts)
  | [], _ => Post.pure (by simp)
  | t :: ts, h => by
    unfold Parse.Asr.collect
    refine Post.bind (h t List.mem_cons_self) fun d hd => Post.bind (collect_good ts fun u hu => h u (List.mem_cons_of_mem _ hu)) fun ds hds => ?_
    refine Post.pure fun e he => ?_
    rcases List.mem_append.1 he with he | he
    · cases d with
      | none => cases he
      | some d' =>
        rw [List.mem_singleton.1 he]
        exact hd
    · exact hds e he

/-- ASR files -/
theorem asr_good {content : Str} {a : Parse.Asr.Asr F} (h : Parse.Asr.parse content = .ok a) : Good a.pluginSettings := by
  rcases run_tok asr rfl (sk := skip) (skipOne_ok rfl) rfl rfl content with h' | ⟨kids, h', ho⟩
  · simp only [Parse.Asr.parse, h', run_error_bind] at h
    cases h
  · have hk := out_kids _ _ _ _ _ ho
    simp only [kids_simp] at hk
    obtain ⟨t1, h1, l, h2, rfl⟩ := hk
    have hc := collect_good (F := F) (t1 ++ l.flatten ++ [.node .EOI [] []]) (by
      intro t ht
      rcases List.mem_append.1 ht with ht | ht
      · rcases List.mem_append.1 ht with ht | ht
        · obtain ⟨t', rfl, hs⟩ := setting_good (F := F) h1
          rw [List.mem_singleton.1 ht]
          exact hs
        · obtain ⟨k, hk, ht⟩ := List.mem_flatten.1 ht
          obtain ⟨t', rfl, hs⟩ := setting_good (F := F) (h2 k hk)
          rw [List.mem_singleton.1 ht]
          exact hs
      · rw [List.mem_singleton.1 ht]
        exact not_plugin (by intro hn; cases hn))
    simp only [Parse.Asr.parse, h', run_ok_bind, next_cons, Tree.inner_node] at h
    obtain ⟨ds, hd, he⟩ := run_bind_ok_iff.1 h
    cases he
    refine good_ofList _ fun e he => ?_
    obtain ⟨d, hd', he⟩ := List.mem_filterMap.1 he
    have hg := hc ds hd d hd'
    split at he
    · cases he
      exact hg _ _ _ rfl
    · cases he

end
end Verif.Proofs.TwoKey
