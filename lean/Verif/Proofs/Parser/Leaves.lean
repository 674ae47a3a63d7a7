import Verif.Spec.Leaves
import Verif.Proofs.Parser.Nodes
import Verif.Props.Words

/-! The leaves of a derived tree are those of the tokens. -/

set_option linter.unusedSectionVars false
set_option linter.unusedVariables false

namespace Esprit

open Lex ReaderSpec Grammar

/-- Silent tokens. -/
def silentB : TokenData → Bool
  | .number _ | .string _ | .regExp _ => false
  | .identifier (.atom a) => decide (a ∈ keywordAtoms)
  | .identifier _ => false
  | .reserved w => decide (w ∉ valueWords)
  | _ => true

theorem Token.Silent.of {t : Token} {d : TokenData} (h : t.value = d) (hd : silentB d = true) : t.Silent := by
  subst h
  unfold Token.Silent
  revert hd
  cases t.value <;> simp [silentB]
  rename_i n
  cases n <;> simp

/-- The leaves of the tokens up to `rest`. -/
def Lv (inp rest : List Token) (k : List Leaf) : Prop := ∃ m, inp = m ++ rest ∧ Yields m k

section

variable {i i1 i2 rest : List Token} {t : Token} {k : List Leaf}

theorem Lv.refl : Lv i i [] := ⟨[], rfl, .nil⟩

theorem Lv.silent (ht : t.Silent) (h : Lv i rest k) : Lv (t :: i) rest k := by
  obtain ⟨m, rfl, hm⟩ := h
  exact ⟨t :: m, rfl, .silent ht hm⟩

theorem Lv.leaf {l : Leaf} (ht : t.IsLeaf l) (h : Lv i rest k) : Lv (t :: i) rest (l :: k) := by
  obtain ⟨m, rfl, hm⟩ := h
  exact ⟨t :: m, rfl, .leaf ht hm⟩

end

section

variable [Env] {S : Str} {L : LocSpec} {c : Cat} {env : Scope} {nt : NT c} {inp rest : List Token} {x : Ast c}
  {t : Token}

/-- The claim: the leaves of the tree, before those of what follows. -/
def Leafy (inp rest : List Token) {c : Cat} (x : Ast c) : Prop :=
  ∀ r k, Lv rest r k → Lv inp r (x.leaves k)

theorem Ident.leaf {b : Bool} {i : Id} (h : Ident env b t i) : t.IsLeaf (.word i.name.intoString) := by
  cases h with | mk h _ => exact .inl ⟨_, h, rfl⟩

theorem PropName.leaf {p : PropKey} (h : PropName t p) : t.IsLeaf p.leaf := by
  cases h with
  | id h => exact .inl ⟨_, h, rfl⟩
  | word h => exact .inr ⟨_, h, rfl⟩
  | string h => exact h
  | number h => exact h

theorem MemberName.leaf {p : DotKey} (h : MemberName t p) : t.IsLeaf (.word p.value) := by
  cases h with
  | id h => exact .inl ⟨_, h, rfl⟩
  | word h => exact .inr ⟨_, h, rfl⟩

theorem Term.lv {o : Bool} {i r r' : List Token} {semi : Semi} {k : List Leaf}
    (h : Term o i r semi) (hr : Lv r r' k) : Lv i r' k := by
  cases h with
  | explicit h => exact .silent (.of h rfl) hr
  | inserted _ _ => exact hr

/-- The spelling of the words that are values. -/
def valueSpellings : List Str := [c!"this", c!"null", c!"true", c!"false"]

theorem symbols_silent : ∀ p ∈ punctuators ++ reservedWords.map fun p => (p.1, TokenData.reserved p.2),
    silentB p.2 = false → p.1 ∈ valueSpellings := by decide

theorem spelled_silent {x : Str} (hs : IsSymbol x t.value) (hx : x ∉ valueSpellings) : t.Silent := by
  refine .of (d := t.value) rfl ?_
  cases hb : silentB t.value with
  | true => rfl
  | false => exact absurd (symbols_silent _ hs hb) hx

theorem IsUnop.silent {op : Op UnopTag} (h : IsUnop t op) : t.Silent := by
  obtain ⟨-, x, hx, hs⟩ := h
  refine spelled_silent hs fun hm => ?_
  have : ∀ x ∈ valueSpellings, UnopTag.fromStr x = none := by decide
  rw [this x hm] at hx
  cases hx

theorem IsBinop.silent {op : Op BinopTag} (h : IsBinop env t op) : t.Silent := by
  obtain ⟨-, hs, -⟩ := h
  refine spelled_silent hs ?_
  cases op.tag <;> decide

theorem IsLogop.silent {op : Op LogopTag} (h : IsLogop t op) : t.Silent := by
  obtain ⟨-, hs⟩ := h
  refine spelled_silent hs ?_
  cases op.tag <;> decide

theorem IsAssop.silent {op : Op AssopTag} (h : IsAssop t op) : t.Silent := by
  obtain ⟨-, hs⟩ := h
  refine spelled_silent hs ?_
  cases op.tag <;> decide

/-! ### Patterns -/

theorem leaves_target (x : AssignTarget) (k : List Leaf) :
    (Patt.sourceTarget x).leaves k = x.leaves k := by
  cases x <;> rfl

/-- The leaves of a list of trees. -/
def leavesList {c : Cat} (xs : List (Ast c)) (k : List Leaf) : List Leaf := xs.foldr (·.leaves) k

theorem leaves_ofList {c : Cat} (xs : List (Ast c)) (k : List Leaf) :
    (Ast.ofList xs).leaves k = leavesList xs k := by
  induction xs with
  | nil => rfl
  | cons x xs ih =>
    show x.leaves ((Ast.ofList xs).leaves k) = _
    rw [ih]
    rfl

mutual

theorem leaves_patt : (x : PattTarget) → (k : List Leaf) →
    (Patt.sourceExpr x).leaves k = x.leaves k
  | .pSimple t, k => leaves_target t k
  | .pCompound p, k => leaves_comp p k
termination_by x => sizeOf x

theorem leaves_comp : (x : Ast (.comp .target)) → (k : List Leaf) →
    Ast.leaves (c := .expr) (Patt.source x) k = x.leaves k
  | .cArr l es r, k => by
    show (Ast.ofList ((Patt.source es).map Patt.arrayItem ++
      ((Patt.source r : Option (Ast .item)).toList.map Ast.some))).leaves k = es.leaves (r.leaves k)
    rw [leaves_ofList, leavesList, List.foldr_append]
    refine (leaves_elems es _).trans (congrArg es.leaves ?_)
    match r with
    | .none => rfl
    | .some (.restPatt l p) => exact leaves_patt p k
  | .cObj l ps, k => (leaves_ofList _ _).trans (leaves_props ps k)
termination_by x => sizeOf x

theorem leaves_elems : (x : Ast (.list (.opt (.patt .target)))) → (k : List Leaf) →
    leavesList ((Patt.source x : List (Option Expr)).map Patt.arrayItem) k = x.leaves k
  | .nil, k => rfl
  | .cons .none xs, k => leaves_elems xs k
  | .cons (.some p) xs, k =>
    (leaves_patt p _).trans (congrArg p.leaves (leaves_elems xs k))
termination_by x => sizeOf x

theorem leaves_props : (x : Ast (.list (.propPatt .target))) → (k : List Leaf) →
    leavesList (Patt.source x : List (Ast .prop)) k = x.leaves k
  | .nil, k => rfl
  | .cons (.ppRegular l q p) xs, k =>
    congrArg (q.leaf :: ·) ((leaves_patt p _).trans (congrArg p.leaves (leaves_props xs k)))
  | .cons (.ppShorthand i) xs, k => congrArg (Leaf.word i.name.intoString :: ·) (leaves_props xs k)
termination_by x => sizeOf x

end

theorem Leafy.patt {p : PattTarget} (h : Leafy inp rest (Patt.sourceExpr p)) : Leafy inp rest p := by
  intro r k hk
  rw [← leaves_patt]
  exact h r k hk

theorem Leafy.target {p : AssignTarget} (h : Leafy inp rest (Patt.sourceTarget p)) :
    Leafy inp rest p := by
  intro r k hk
  rw [← leaves_target]
  exact h r k hk

theorem Leafy.go {r : List Token} {k k' : List Leaf} (h : Leafy inp rest x) (he : x.leaves k = k')
    (hk : Lv rest r k) : Lv inp r k' := he ▸ h r k hk

theorem Leafy.goP {p : PattTarget} {r : List Token} {k k' : List Leaf}
    (h : Leafy inp rest (Patt.sourceExpr p)) (he : p.leaves k = k') (hk : Lv rest r k) :
    Lv inp r k' := he ▸ h.patt r k hk

theorem Leafy.goT {p : AssignTarget} {r : List Token} {k k' : List Leaf}
    (h : Leafy inp rest (Patt.sourceTarget p)) (he : p.leaves k = k') (hk : Lv rest r k) :
    Lv inp r k' := he ▸ h.target r k hk

theorem leaf_from {n : Name} (h : t.value = .identifier n) :
    t.IsLeaf (.word (Name.from n.intoString).intoString) :=
  .inl ⟨n, h, (C11_string_roundtrip _).symm⟩

/-- A token that is a leaf. -/
macro "isLeaf" : tactic => `(tactic| first
  | exact leaf_from ‹_›
  | exact Ident.leaf ‹Ident _ _ _ _›
  | exact PropName.leaf ‹_›
  | exact MemberName.leaf ‹_›
  | exact (show Token.IsLeaf _ (.number _) from by assumption)
  | exact (show Token.IsLeaf _ (.string _) from by assumption)
  | exact (show Token.IsLeaf _ (.regExp _) from by assumption)
  | exact .inr ⟨_, by assumption, rfl⟩)

/-- A silent token. -/
macro "isSilent" : tactic => `(tactic| first
  | (apply Token.Silent.of; assumption; rfl)
  | exact IsUnop.silent ‹_›
  | exact IsBinop.silent ‹_›
  | exact IsLogop.silent ‹_›
  | exact IsAssop.silent ‹_›)

/-- Goals `Lv i r k`. -/
syntax "lv" : tactic
macro_rules
  | `(tactic| lv) => `(tactic| first
      | assumption
      | (apply Leafy.goP; (focus assumption); (focus rfl); lv)
      | (apply Leafy.goT; (focus assumption); (focus rfl); lv)
      | (apply Leafy.go; (focus assumption); (focus rfl); lv)
      | (refine Term.lv (by assumption) ?_; lv)
      | (refine Lv.leaf (by isLeaf) ?_; lv)
      | (refine Lv.silent (by isSilent) ?_; lv))

theorem Grammar.Derives.leafy (h : Derives L env nt inp rest x) : Leafy inp rest x := by
  induction h
  all_goals
    intro r k hk
    try lv

end

end Esprit
