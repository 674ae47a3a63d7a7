import Verif.Spec.Tree

/-! Every node of a derived tree is derived. -/

set_option linter.unusedSectionVars false
set_option linter.unusedVariables false

namespace Esprit

open Lex ReaderSpec Grammar

namespace Grammar

theorem Term.suffix {o : Bool} {i r : List Token} {semi : Semi} (h : Term o i r semi) :
    r <:+ i := by
  cases h
  · exact List.suffix_cons _ _
  · exact List.suffix_refl _

/-- Goals `a <:+ b`. -/
syntax "sfx" : tactic
macro_rules
  | `(tactic| sfx) => `(tactic|
      first
      | exact List.suffix_refl _
      | assumption
      | (refine List.IsSuffix.trans ?_ (List.suffix_cons _ _); sfx)
      | (refine List.IsSuffix.trans ?_ ‹_ <:+ _›; sfx)
      | (refine List.IsSuffix.trans ?_ (Term.suffix ‹Term _ _ _ _›); sfx))

theorem Derives.suffix [Env] {L : LocSpec} {c : Cat} {env : Scope} {nt : NT c} {inp rest : List Token}
    {x : Ast c} (h : Derives L env nt inp rest x) : rest <:+ inp := by
  induction h <;> sfx

end Grammar

/-- `Φ` holds everywhere in the tree. -/
def All (w : Place) (x : Node) (Φ : Place → Node → Prop) : Prop := ∀ v y, Occurs w x v y → Φ v y

section All

variable {w : Place} {x : Node} {Φ Ψ : Place → Node → Prop}

theorem All.mk (h : Φ w x) (hk : ∀ k ∈ x.2.kids w, All k.1 k.2 Φ) : All w x Φ := by
  intro v y ho
  cases ho with
  | here => exact h
  | under hm ho => exact hk _ hm _ _ ho

theorem All.root (h : All w x Φ) : Φ w x := h _ _ .here

theorem All.kids (h : All w x Φ) : ∀ k ∈ x.2.kids w, All k.1 k.2 Φ :=
  fun k hk v y ho => h v y (.under hk ho)

theorem All.imp (h : All w x Φ) (hi : ∀ v y, Φ v y → Ψ v y) : All w x Ψ :=
  fun v y ho => hi v y (h v y ho)

end All

/-- The surroundings of a construct in the tree. -/
def Scope.place (env : Scope) : Place := ⟨env.function, env.iteration, env.switch, env.labels⟩

/-- The categories of the nodes that are derived by a nonterminal. -/
def derivedCats : List Cat :=
  [.expr, .item, .prop, .id, .params, .body .sitem, .body .modItem, .sitem, .decl, .dtor, .constDtor,
   .block, .stmt, .opt .forHead, .forInHead, .forOfHead, .opt .«catch», .case]

/-- What holds for every node: it is derived from a section of the tokens, in
surroundings that match its place; and its identifiers are allowed. -/
structure NodeOk [Env] (S : Str) (st mo : Bool) (inp : List Token) (v : Place) (y : Node) : Prop where
  derived : y.1 ∈ derivedCats → ∃ env nt i r, i <:+ inp ∧ env.place = v ∧ env.strict = st ∧
    env.module = mo ∧ Derives (Located S) env nt i r y.2
  ids : ∀ b i, (b, i) ∈ y.2.ownIds → (Scope.mk st mo false false false false [] false).IdOk b i.name

section Covered

variable [Env] {S : Str} {st mo : Bool} {c : Cat} {env env' : Scope} {nt : NT c}
  {inp inp' rest : List Token} {x : Ast c} {w : Place}

theorem NodeOk.mono {v : Place} {y : Node} (h : NodeOk S st mo inp v y) (hs : inp <:+ inp') :
    NodeOk S st mo inp' v y := by
  refine ⟨fun hd => ?_, h.ids⟩
  obtain ⟨e, nt, i, r, a, b⟩ := h.derived hd
  exact ⟨e, nt, i, r, a.trans hs, b⟩

/-- The claim about what is derived. -/
def Covered (S : Str) (env : Scope) (inp : List Token) {c : Cat} (x : Ast c) : Prop :=
  All env.place ⟨c, x⟩ (NodeOk S env.strict env.module inp)

theorem Covered.mk (h : Derives (Located S) env nt inp rest x)
    (hid : ∀ b i, (b, i) ∈ x.ownIds → env.IdOk b i.name)
    (hk : ∀ k ∈ x.kids env.place, All k.1 k.2 (NodeOk S env.strict env.module inp)) :
    Covered S env inp x :=
  All.mk ⟨fun _ => ⟨env, nt, inp, rest, List.suffix_refl _, rfl, rfl, rfl, h⟩, hid⟩ hk

theorem Covered.use (hg : Covered S env' inp' x) (hs : inp' <:+ inp)
    (hw : env'.place = w) (hst : env'.strict = env.strict) (hmo : env'.module = env.module) :
    All w ⟨c, x⟩ (NodeOk S env.strict env.module inp) := by
  subst hw
  refine All.imp hg fun v y hn => ?_
  rw [← hst, ← hmo]
  exact hn.mono hs

/-- A node of another category. -/
theorem All.skip {d : Cat} {y : Ast d} (hc : d ∉ derivedCats) (hid : y.ownIds = [])
    (hk : ∀ k ∈ y.kids w, All k.1 k.2 (NodeOk S st mo inp)) :
    All w ⟨d, y⟩ (NodeOk S st mo inp) :=
  All.mk ⟨fun h => absurd h hc, by rw [hid]; simp⟩ hk

/-! ### Patterns -/

/-- The categories of nodes without contents of their own. -/
def wrapCats : List Cat :=
  [.patt .target, .list (.opt (.patt .target)), .opt (.patt .target), .opt (.rest .target),
   .list (.propPatt .target)]

/-- A property of nodes that a pattern inherits from the expression it was
written as. -/
structure PattStable (Φ : Place → Node → Prop) : Prop where
  wrap : ∀ {w : Place} {d : Cat} {y : Ast d}, d ∈ wrapCats → Φ w ⟨d, y⟩
  target : ∀ {w : Place} {x : AssignTarget}, Φ w ⟨.expr, Patt.sourceTarget x⟩ → Φ w ⟨.target, x⟩
  arr : ∀ {w : Place} {l : Loc} {es : Ast (.list (.opt (.patt .target)))}
    {r : Ast (.opt (.rest .target))} {es' : Ast (.list (.opt .item))},
    Φ w ⟨.expr, .eArr l es'⟩ → Φ w ⟨.comp .target, .cArr l es r⟩
  obj : ∀ {w : Place} {l : Loc} {ps : Ast (.list (.propPatt .target))} {ps' : Ast (.list .prop)},
    Φ w ⟨.expr, .eObj l ps'⟩ → Φ w ⟨.comp .target, .cObj l ps⟩
  rest : ∀ {w : Place} {l : Loc} {p : PattTarget} {e : Expr},
    Φ w ⟨.item, .iSpread l e⟩ → Φ w ⟨.rest .target, .restPatt l p⟩
  prop : ∀ {w : Place} {l : Loc} {k : PropKey} {p : PattTarget} {v : Ast .propVal},
    Φ w ⟨.prop, .prRegular l k v⟩ → Φ w ⟨.propPatt .target, .ppRegular l k p⟩
  shorthand : ∀ {w : Place} {i : Id},
    Φ w ⟨.prop, .prShorthand i⟩ → Φ w ⟨.propPatt .target, .ppShorthand i⟩

section Patterns

variable {Φ : Place → Node → Prop}

theorem All.ofList {d : Cat} {xs : List (Ast d)} (h : All w ⟨_, Ast.ofList xs⟩ Φ) :
    ∀ y ∈ xs, All w ⟨d, y⟩ Φ := by
  induction xs with
  | nil => simp
  | cons z zs ih =>
    have := h.kids
    simp only [Ast.ofList, Ast.kids, List.mem_cons, List.not_mem_nil, or_false, forall_eq_or_imp,
      forall_eq] at this
    intro y hy
    rcases List.mem_cons.1 hy with rfl | hy
    · exact this.1
    · exact ih this.2 y hy

theorem All.kid1 {d e : Cat} {y : Ast d} {z : Ast e} {w' : Place}
    (h : All w ⟨d, y⟩ Φ) (hk : y.kids w = [(w', ⟨e, z⟩)]) :
    All w' ⟨e, z⟩ Φ := h.kids (w', ⟨e, z⟩) (by simp only [hk, List.mem_singleton])

theorem All.wrap {d : Cat} {y : Ast d} (hΦ : PattStable Φ) (hd : d ∈ wrapCats)
    (hk : ∀ k ∈ y.kids w, All k.1 k.2 Φ) : All w ⟨d, y⟩ Φ := All.mk (hΦ.wrap hd) hk

theorem target_all (hΦ : PattStable Φ) (x : AssignTarget)
    (h : All w ⟨.expr, Patt.sourceTarget x⟩ Φ) : All w ⟨.target, x⟩ Φ := by
  refine All.mk (hΦ.target h.root) ?_
  have := h.kids
  cases x <;> exact this

/-- The source of array elements. -/
def srcElems (x : Ast (.list (.opt (.patt .target)))) : List (Option Expr) := Patt.source x

/-- The source of properties. -/
def srcProps (x : Ast (.list (.propPatt .target))) : List (Ast .prop) := Patt.source x

mutual

theorem patt_all (hΦ : PattStable Φ) : (x : PattTarget) → All w ⟨.expr, Patt.sourceExpr x⟩ Φ →
    All w ⟨_, x⟩ Φ
  | .pSimple t, h => by
    refine All.wrap hΦ (by decide) ?_
    simp only [Ast.kids, List.mem_singleton, forall_eq]
    exact target_all hΦ t h
  | .pCompound p, h => by
    refine All.wrap hΦ (by decide) ?_
    simp only [Ast.kids, List.mem_singleton, forall_eq]
    exact comp_all hΦ p h
termination_by x => sizeOf x

theorem comp_all (hΦ : PattStable Φ) : (x : Ast (.comp .target)) →
    All w ⟨.expr, Patt.source x⟩ Φ → All w ⟨_, x⟩ Φ
  | .cArr l es r, h => by
    have h1 := (h.kid1 rfl).ofList
    refine All.mk (hΦ.arr h.root) ?_
    simp only [Ast.kids, List.mem_cons, List.not_mem_nil, or_false, forall_eq_or_imp, forall_eq]
    refine ⟨elems_all hΦ es fun e he => ?_, rest_all hΦ r fun e he => ?_⟩
    · have := h1 (.some (.iExpr e)) (List.mem_append_left _ (List.mem_map.2 ⟨some e, he, rfl⟩))
      exact (this.kid1 rfl).kid1 rfl
    · have := h1 (.some e) (List.mem_append_right _ (List.mem_map.2 ⟨_, by
        rw [he]; exact List.mem_singleton.2 rfl, rfl⟩))
      exact this.kid1 rfl
  | .cObj l ps, h => by
    have h1 := (h.kid1 rfl).ofList
    refine All.mk (hΦ.obj h.root) ?_
    simp only [Ast.kids, List.mem_singleton, forall_eq]
    exact props_all hΦ ps h1
termination_by x => sizeOf x

theorem elems_all (hΦ : PattStable Φ) : (x : Ast (.list (.opt (.patt .target)))) →
    (∀ e : Expr, some e ∈ srcElems x → All w ⟨.expr, e⟩ Φ) →
    All w ⟨_, x⟩ Φ
  | .nil, h => All.wrap hΦ (by decide) (by simp [Ast.kids])
  | .cons .none xs, h => by
    refine All.wrap hΦ (by decide) ?_
    simp only [Ast.kids, List.mem_cons, List.not_mem_nil, or_false, forall_eq_or_imp, forall_eq]
    refine ⟨All.wrap hΦ (by decide) (by simp [Ast.kids]), elems_all hΦ xs fun e he => ?_⟩
    exact h e (List.mem_cons_of_mem _ he)
  | .cons (.some p) xs, h => by
    refine All.wrap hΦ (by decide) ?_
    simp only [Ast.kids, List.mem_cons, List.not_mem_nil, or_false, forall_eq_or_imp, forall_eq]
    refine ⟨All.wrap hΦ (by decide) ?_, elems_all hΦ xs fun e he => ?_⟩
    · simp only [Ast.kids, List.mem_singleton, forall_eq]
      exact patt_all hΦ p (h _ (List.mem_cons_self ..))
    · exact h e (List.mem_cons_of_mem _ he)
termination_by x => sizeOf x

theorem rest_all (hΦ : PattStable Φ) : (x : Ast (.opt (.rest .target))) →
    (∀ e : Ast .item, (Patt.source x : Option (Ast .item)) = some e → All w ⟨.item, e⟩ Φ) →
    All w ⟨_, x⟩ Φ
  | .none, h => All.wrap hΦ (by decide) (by simp [Ast.kids])
  | .some (.restPatt l p), h => by
    refine All.wrap hΦ (by decide) ?_
    simp only [Ast.kids, List.mem_singleton, forall_eq]
    refine All.mk (hΦ.rest (h _ rfl).root) ?_
    simp only [Ast.kids, List.mem_singleton, forall_eq]
    exact patt_all hΦ p ((h _ rfl).kid1 rfl)
termination_by x => sizeOf x

theorem props_all (hΦ : PattStable Φ) : (x : Ast (.list (.propPatt .target))) →
    (∀ e : Ast .prop, e ∈ srcProps x → All w ⟨.prop, e⟩ Φ) →
    All w ⟨_, x⟩ Φ
  | .nil, h => All.wrap hΦ (by decide) (by simp [Ast.kids])
  | .cons (.ppRegular l k p) xs, h => by
    refine All.wrap hΦ (by decide) ?_
    simp only [Ast.kids, List.mem_cons, List.not_mem_nil, or_false, forall_eq_or_imp, forall_eq]
    have := h (.prRegular l k (.vInit (Patt.sourceExpr p))) (List.mem_cons_self ..)
    refine ⟨All.mk (hΦ.prop this.root) ?_, props_all hΦ xs fun e he => ?_⟩
    · simp only [Ast.kids, List.mem_singleton, forall_eq]
      exact patt_all hΦ p ((this.kid1 rfl).kid1 rfl)
    · exact h e (List.mem_cons_of_mem _ he)
  | .cons (.ppShorthand i) xs, h => by
    refine All.wrap hΦ (by decide) ?_
    simp only [Ast.kids, List.mem_cons, List.not_mem_nil, or_false, forall_eq_or_imp, forall_eq]
    exact ⟨All.mk (hΦ.shorthand (h (.prShorthand i) (List.mem_cons_self ..)).root) (by simp [Ast.kids]),
      props_all hΦ xs fun e he => h e (List.mem_cons_of_mem _ he)⟩
termination_by x => sizeOf x

end

end Patterns

theorem NodeOk.other {d : Cat} {y : Ast d} (hd : d ∉ derivedCats)
    (h : ∀ b i, (b, i) ∈ y.ownIds → (Scope.mk st mo false false false false [] false).IdOk b i.name) :
    NodeOk S st mo inp w ⟨d, y⟩ := ⟨fun h => absurd h hd, h⟩

theorem nodeOk_stable : PattStable (NodeOk S st mo inp) where
  wrap := by
    intro w d y hd
    refine .other ?_ ?_
    · simp only [wrapCats, List.mem_cons, List.not_mem_nil, or_false] at hd
      rcases hd with rfl | rfl | rfl | rfl | rfl <;> decide
    · intro b i hi
      cases y <;> first | (simp [wrapCats] at hd; done) | cases hi
  target := by
    intro w x h
    refine .other (by decide) ?_
    have := h.ids
    cases x <;> exact this
  arr := fun h => .other (by decide) h.ids
  obj := fun h => .other (by decide) h.ids
  rest := fun h => .other (by decide) h.ids
  prop := fun h => .other (by decide) h.ids
  shorthand := fun h => .other (by decide) h.ids

/-- Goals `a <:+ b`, from derivations. -/
syntax "sfx'" : tactic
macro_rules
  | `(tactic| sfx') => `(tactic|
      first
      | exact List.suffix_refl _
      | assumption
      | (refine List.IsSuffix.trans ?_ (List.suffix_cons _ _); sfx')
      | (refine List.IsSuffix.trans ?_ (Derives.suffix ‹Derives _ _ _ _ _ _›); sfx')
      | (refine List.IsSuffix.trans ?_ (Term.suffix ‹Term _ _ _ _›); sfx'))

theorem kids0 {P : Place × Node → Prop} : ∀ k ∈ ([] : List (Place × Node)), P k := by simp

theorem kids1 {P : Place × Node → Prop} {a : Place × Node} (ha : P a) : ∀ k ∈ [a], P k := by
  simpa using ha

theorem kids2 {P : Place × Node → Prop} {a b : Place × Node} (ha : P a) (hb : P b) :
    ∀ k ∈ [a, b], P k := by
  simp only [List.mem_cons, List.not_mem_nil, or_false, forall_eq_or_imp, forall_eq]
  exact ⟨ha, hb⟩

theorem kids3 {P : Place × Node → Prop} {a b d : Place × Node} (ha : P a) (hb : P b) (hd : P d) :
    ∀ k ∈ [a, b, d], P k := by
  simp only [List.mem_cons, List.not_mem_nil, or_false, forall_eq_or_imp, forall_eq]
  exact ⟨ha, hb, hd⟩

theorem kids4 {P : Place × Node → Prop} {a b d e : Place × Node} (ha : P a) (hb : P b) (hd : P d)
    (he : P e) : ∀ k ∈ [a, b, d, e], P k := by
  simp only [List.mem_cons, List.not_mem_nil, or_false, forall_eq_or_imp, forall_eq]
  exact ⟨ha, hb, hd, he⟩

/-- The subtrees of a node. -/
macro "subtrees" : tactic => `(tactic|
  first
  | exact kids0
  | refine kids1 ?_
  | refine kids2 ?_ ?_
  | refine kids3 ?_ ?_ ?_
  | refine kids4 ?_ ?_ ?_ ?_)

/-- A subtree. -/
syntax "kid" : tactic
macro_rules
  | `(tactic| kid) => `(tactic|
      first
      | (apply Covered.use
         focus assumption
         focus (sfx')
         all_goals rfl)
      | exact patt_all nodeOk_stable _ (Covered.use ‹Covered _ _ _ _› (by sfx') rfl rfl rfl)
      | exact target_all nodeOk_stable _ (Covered.use ‹Covered _ _ _ _› (by sfx') rfl rfl rfl)
      | (refine All.skip (by decide) rfl ?_
         subtrees
         all_goals kid))

theorem noIds {P : Bool → Id → Prop} {l : List (Bool × Id)} (h : l = []) :
    ∀ b i, (b, i) ∈ l → P b i := by simp [h]

/-- The identifiers of a node. -/
syntax "ids" : tactic
macro_rules
  | `(tactic| ids) => `(tactic|
      first
      | exact noIds rfl
      | (intro b i hi
         cases List.mem_singleton.1 hi
         first
         | assumption
         | (cases ‹Ident _ _ _ _›; assumption)))

/-- The claim, for a derivation. -/
def Claim (h : Derives (Located S) env nt inp rest x) : Prop := Covered S env inp x

theorem Claim.mk (h : Derives (Located S) env nt inp rest x)
    (hid : ∀ b i, (b, i) ∈ x.ownIds → env.IdOk b i.name)
    (hk : ∀ k ∈ x.kids env.place, All k.1 k.2 (NodeOk S env.strict env.module inp)) : Claim h :=
  Covered.mk h hid hk

theorem Grammar.Derives.covered (h : Derives (Located S) env nt inp rest x) : Covered S env inp x := by
  suffices hc : Claim h from hc
  induction h
  all_goals
    first
    | (unfold Claim at *; unfold Covered; exact Covered.use ‹Covered _ _ _ _› (by sfx') rfl rfl rfl)
    | (refine Claim.mk _ (by ids) ?_
       try unfold Claim at *
       subtrees
       all_goals try kid)
  case pattern hi => exact Covered.mk (.name hi) (by ids) kids0
  case paramsCons.refine_1 ih2 =>
    refine All.skip (by decide) rfl (kids2 (by kid) ?_)
    exact (Covered.use ih2 (by sfx') rfl rfl rfl).kids _ (.head _)
  case paramsCons.refine_2 ih2 =>
    exact (Covered.use ih2 (by sfx') rfl rfl rfl).kids _ (.tail _ (.head _))
  case params.refine_1 ih2 =>
    exact (Covered.use ih2 (by sfx') rfl rfl rfl).kids _ (.head _)
  case params.refine_2 ih2 =>
    exact (Covered.use ih2 (by sfx') rfl rfl rfl).kids _ (.tail _ (.head _))
  case directive ih => exact All.kid1 (Covered.use ih (by sfx') rfl rfl rfl) rfl
  case body ih => exact All.kid1 (Covered.use ih (by sfx') rfl rfl rfl) rfl
  case declFun ih => exact All.skip (by decide) rfl ((Covered.use ih (by sfx') rfl rfl rfl).kids)

end Covered

end Esprit
