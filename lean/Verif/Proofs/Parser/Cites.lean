import Verif.Spec.Cites
import Verif.Proofs.Parser.Locations

/-! The parts of derived trees that quote tokens. -/

set_option linter.unusedSectionVars false
set_option linter.unusedVariables false

namespace Esprit

open Lex ReaderSpec Grammar

/-- The part is the token. -/
def Cite.By (t : Token) : Cite → Prop
  | .ident i => i.location = some t.location ∧
      ∃ n, t.value = .identifier n ∧ (i.name = n ∨ i.name = Name.from n.intoString)
  | .word l s => l = some t.location ∧
      ((∃ n : Name, t.value = .identifier n ∧ n.intoString = s) ∨
        ∃ w : Reserved, t.value = .reserved w ∧ w.name = s)
  | .number l n => l = some t.location ∧ t.value = .number n
  | .string l s => l = some t.location ∧ t.value = .string s
  | .regExp l r => l = some t.location ∧ t.value = .regExp r

section Everywhere

variable [Env] {S : Str} {c : Cat} {env : Scope} {nt : NT c} {i i0 i1 i2 inp rest T : List Token}
  {x : Ast c} {t t2 : Token} {l a b : Loc} {w w' : Place}

/-- The part is one of the tokens. -/
def CiteIn (T : List Token) (x : Cite) : Prop := ∃ t ∈ T, x.By t

/-- The directive is one of the tokens. -/
def DirIn (T : List Token) (d : Dir) : Prop := ∃ t ∈ T, t.value = .string d.string

/-- The parts of the node are tokens. -/
def CitesOk (T : List Token) (_ : Place) (y : Node) : Prop :=
  (∀ x ∈ y.2.cites, CiteIn T x) ∧ ∀ d ∈ y.2.ownDirs, DirIn T d

theorem cites0 {P : Cite → Prop} {Q : Dir → Prop} :
    (∀ k ∈ ([] : List Cite), P k) ∧ ∀ d ∈ ([] : List Dir), Q d := by simp

theorem cites1 {P : Cite → Prop} {Q : Dir → Prop} {a : Cite} (h : P a) :
    (∀ k ∈ [a], P k) ∧ ∀ d ∈ ([] : List Dir), Q d := by simpa using h

theorem citesOk_stable : PattStable (CitesOk T) where
  wrap := by
    intro w d y hd
    cases y <;> first | (simp [wrapCats] at hd; done) | exact cites0
  target := by
    intro w y h
    cases y <;> exact h
  arr := fun h => h
  obj := fun h => h
  rest := fun h => cites0
  prop := fun h => h
  shorthand := fun h => h

theorem Grammar.Ident.cite {b : Bool} {j : Id} (h : Ident env b t j) : Cite.By t (.ident j) := by
  cases h with
  | mk h _ => exact ⟨rfl, _, h, .inl rfl⟩

theorem Grammar.PropName.cite {k : PropKey} (h : PropName t k) : k.cite.By t := by
  cases h with
  | id h => exact ⟨rfl, .inl ⟨_, h, rfl⟩⟩
  | word h => exact ⟨rfl, .inr ⟨_, h, rfl⟩⟩
  | string h => exact ⟨rfl, h⟩
  | number h => exact ⟨rfl, h⟩

theorem Grammar.MemberName.cite {k : DotKey} (h : MemberName t k) :
    Cite.By t (.word k.location k.value) := by
  cases h with
  | id h => exact ⟨rfl, .inl ⟨_, h, rfl⟩⟩
  | word h => exact ⟨rfl, .inr ⟨_, h, rfl⟩⟩

/-- The claim about all nodes. -/
structure CitesAll (T : List Token) (nt : NT c) (x : Ast c) : Prop where
  final : nt.final = true → ∀ w, All w ⟨c, x⟩ (CitesOk T)
  part : nt.part = true → (∀ w, ∀ k ∈ x.kids w, All k.1 k.2 (CitesOk T)) ∧
    ∀ d ∈ x.ownDirs, DirIn T d

/-- The claim, for a derivation. -/
def CClaim (T : List Token) (h : Derives (Located S) env nt inp rest x) : Prop :=
  inp <:+ T → CitesAll T nt x

theorem CClaim.mk (h : Derives (Located S) env nt inp rest x) (hp : nt.part = false)
    (H : nt.final = true → inp <:+ T → ∀ w,
      CitesOk T w ⟨c, x⟩ ∧ ∀ k ∈ x.kids w, All k.1 k.2 (CitesOk T)) : CClaim T h :=
  fun ho => ⟨fun hf w => All.mk (H hf ho w).1 (H hf ho w).2, fun h => by rw [hp] at h; cases h⟩

theorem CiteIn.at {x : Cite} (ho : inp <:+ T) (h : (t :: i) <:+ inp) (hx : x.By t) : CiteIn T x :=
  ⟨t, (h.trans ho).subset (List.mem_cons_self ..), hx⟩

/-- Goals `i <:+ T`. -/
macro "inT" : tactic => `(tactic| (refine List.IsSuffix.trans ?_ (by assumption); sfx'))

/-- The quoting parts of a node. -/
macro "cites" : tactic => `(tactic| first
  | exact cites0
  | (have hx := Grammar.Ident.cite ‹Ident _ _ _ _›; exact cites1 (CiteIn.at (by assumption) (by sfx') hx))
  | (have hx := Grammar.PropName.cite ‹PropName _ _›; exact cites1 (CiteIn.at (by assumption) (by sfx') hx))
  | (have hx := Grammar.MemberName.cite ‹MemberName _ _›; exact cites1 (CiteIn.at (by assumption) (by sfx') hx))
  | exact cites1 (CiteIn.at (hx := ⟨rfl, ‹Token.value _ = _›⟩) (by assumption) (by sfx'))
  | exact cites1 (CiteIn.at (hx := ⟨rfl, .inr ⟨_, ‹Token.value _ = _›, rfl⟩⟩) (by assumption) (by sfx'))
  | exact cites1 (CiteIn.at (hx := ⟨rfl, .inl ⟨_, ‹Token.value _ = _›, rfl⟩⟩) (by assumption) (by sfx'))
  | exact cites1 (CiteIn.at (hx := ⟨rfl, _, ‹Token.value _ = _›, .inr rfl⟩) (by assumption) (by sfx')))

/-- A subtree. -/
syntax "ckid" : tactic
macro_rules
  | `(tactic| ckid) => `(tactic|
      first
      | (apply CitesAll.final; (focus apply_assumption; inT); (first | rfl | assumption))
      | (refine patt_all citesOk_stable _ ?_; apply CitesAll.final; (focus apply_assumption; inT); rfl)
      | (refine target_all citesOk_stable _ ?_; apply CitesAll.final; (focus apply_assumption; inT); rfl)
      | (refine All.mk ?_ ?_; (focus (cites)); subtrees; all_goals ckid))

theorem Grammar.Derives.cclaim (h : Derives (Located S) env nt inp rest x) : CClaim T h := by
  induction h
  case paramsNil =>
    refine fun ho => ⟨fun h => (by cases h), fun _ => ⟨fun w => ?_, by simp [Ast.ownDirs]⟩⟩
    subtrees; all_goals ckid
  case paramsRest hp hl ih =>
    refine fun ho => ⟨fun h => (by cases h), fun _ => ⟨fun w => ?_, by simp [Ast.ownDirs]⟩⟩
    unfold CClaim at *; subtrees; all_goals ckid
  case paramsLast ih =>
    refine fun ho => ⟨fun h => (by cases h), fun _ => ⟨fun w => ?_, by simp [Ast.ownDirs]⟩⟩
    unfold CClaim at *; subtrees; all_goals ckid
  case paramsCons ih1 ih2 =>
    refine fun ho => ⟨fun h => (by cases h), fun _ => ⟨fun w => ?_, by simp [Ast.ownDirs]⟩⟩
    have h2 := (ih2 (by inT)).part rfl
    refine kids2 (All.mk cites0 (kids2 ((ih1 ho).final rfl w) ?_)) ?_
    · exact h2.1 w _ (.head _)
    · exact h2.1 w _ (.tail _ (.head _))
  case params hl ih =>
    refine CClaim.mk _ rfl fun hf ho w => ⟨cites0, ?_⟩
    have h2 := (ih (by inT)).part rfl
    refine kids2 ?_ ?_
    · exact h2.1 w _ (.head _)
    · exact h2.1 w _ (.tail _ (.head _))
  case directive hs _ _ hl hd ih =>
    refine fun ho => ⟨fun h => (by cases h), fun hp => ?_⟩
    obtain ⟨h1, h2⟩ := (ih (by inT)).part hp
    exact ⟨fun w => h1 w, List.forall_mem_cons.2 ⟨⟨_, ho.subset (List.mem_cons_self ..), hs⟩, h2⟩⟩
  case prologueEnd ih =>
    refine fun ho => ⟨fun h => (by cases h), fun hp => ⟨fun w => ?_, by simp [Ast.ownDirs]⟩⟩
    exact kids1 ((ih ho).final hp w)
  case body hl ih =>
    refine CClaim.mk _ rfl fun hf ho w => ?_
    obtain ⟨h1, h2⟩ := (ih ho).part hf
    exact ⟨⟨by simp [Ast.cites], h2⟩, h1 w⟩
  case declFun hl ih =>
    refine CClaim.mk _ rfl fun hf ho w => ⟨cites0, kids1 (All.mk cites0 ?_)⟩
    exact ((ih ho).final rfl w).kids
  case breakLabel hi _ _ hl =>
    refine CClaim.mk _ rfl fun hf ho w => ⟨cites1 ?_, kids0⟩
    exact CiteIn.at ho (List.suffix_cons _ _) hi.cite
  case continueLabel hi _ _ hl =>
    refine CClaim.mk _ rfl fun hf ho w => ⟨cites1 ?_, kids0⟩
    exact CiteIn.at ho (List.suffix_cons _ _) hi.cite
  all_goals
    first
    | (refine CClaim.mk _ rfl fun hf ho w => ⟨?_, ?_⟩
       focus (cites)
       focus
         (unfold CClaim at *
          subtrees
          all_goals ckid))
    | (rename_i ih
       exact fun ho => ⟨fun hf w => (ih (by inT)).final rfl w, fun h => by cases h⟩)

theorem Grammar.Derives.cited (h : Derives (Located S) env nt inp rest x)
    (hf : nt.final = true) (w : Place) : All w ⟨c, x⟩ (CitesOk inp) :=
  (h.cclaim List.suffix_rfl).final hf w

end Everywhere

end Esprit
