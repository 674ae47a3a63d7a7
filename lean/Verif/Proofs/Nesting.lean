import Verif.Spec.Nesting
import Verif.Spec.Grammar
import Verif.Proofs.RenameCover

/-! Brackets and semicolons of derivations. -/

set_option linter.unusedSectionVars false
set_option linter.unusedVariables false

namespace Esprit

open Lex ReaderSpec Grammar

namespace Nesting

variable {t : Token} {i j rest : List Token} {v : TokenData} {st st' st2 : List Bracket} {env : Scope} {b : Bracket}

/-- The token is neither a bracket nor a semicolon. -/
def plain : TokenData → Bool
  | .lParen | .rParen | .lBrack | .rBrack | .lBrace | .rBrace | .semi => false
  | _ => true

/-! ### Brackets -/

/-- Reading the tokens of `i` before `rest` leads from the open brackets `st` to `st'`. -/
def Run (st : List Bracket) (i : List Token) (st' : List Bracket) (rest : List Token) : Prop :=
  ∃ u, i = u ++ rest ∧ openAfter st u = some st'

theorem Run.refl : Run st i st i := ⟨[], rfl, rfl⟩

theorem brackets_append : (st : List Bracket) → (i j : List Token) →
    openAfter st (i ++ j) = (openAfter st i).bind fun st => openAfter st j
  | st, [], j => rfl
  | st, t :: i, j => by
    rw [List.cons_append, openAfter, openAfter]
    cases openStep st t.value with
    | none => rfl
    | some st => exact brackets_append st i j

theorem Run.trans (h1 : Run st i st' j) (h2 : Run st' j st2 rest) : Run st i st2 rest := by
  obtain ⟨u, rfl, h1⟩ := h1
  obtain ⟨w, rfl, h2⟩ := h2
  refine ⟨u ++ w, (List.append_assoc ..).symm, ?_⟩
  rw [brackets_append, h1]
  exact h2

theorem Run.step (h : openStep st t.value = some st') (h2 : Run st' i st2 rest) : Run st (t :: i) st2 rest :=
  Run.trans ⟨[t], rfl, by rw [openAfter, h]; rfl⟩ h2

theorem Run.tok (h : t.value = v) (hv : plain v = true) (h2 : Run st i st' rest) : Run st (t :: i) st' rest := by
  refine .step (st' := st) ?_ h2
  rw [h]
  cases v <;> first | rfl | cases hv

theorem Run.plain (h : plain t.value = true) (h2 : Run st i st' rest) : Run st (t :: i) st' rest := .tok rfl h h2

theorem Run.semi (h : t.value = .semi) (h2 : Run st i st' rest) : Run st (t :: i) st' rest := by
  refine .step (st' := st) ?_ h2
  rw [h]
  rfl

theorem Run.open (h : t.value = v) (hv : opens v = some b) (h2 : Run (b :: st) i st' rest) :
    Run st (t :: i) st' rest := by
  refine .step (st' := b :: st) ?_ h2
  rw [openStep, h, hv]

theorem Run.close (h : t.value = v) (hv : closes v = some b) (h2 : Run st i st' rest) :
    Run (b :: st) (t :: i) st' rest := by
  refine .step (st' := st) ?_ h2
  have ho : opens v = none := by cases v <;> first | rfl | cases hv
  rw [openStep, h, ho, hv]
  simp

theorem Run.term {o : Bool} {semi : Semi} (h : Term o i rest semi) (st : List Bracket) : Run st i st rest := by
  cases h with
  | explicit h => exact .semi h .refl
  | inserted => exact .refl

theorem plain_ident {i : Id} {bind : Bool} (h : Ident env bind t i) : plain t.value = true := by
  cases h with | mk h => rw [h]; rfl

theorem plain_prop {k : PropKey} (h : PropName t k) : plain t.value = true := by
  cases h with | _ h => rw [h]; rfl

theorem plain_member {k : DotKey} (h : MemberName t k) : plain t.value = true := by
  cases h with | _ h => rw [h]; rfl

/-- The spellings of the other tokens. -/
def marks : List Str := [c!"(", c!")", c!"[", c!"]", c!"{", c!"}", c!";"]

theorem symbol {x : Str} (h : IsSymbol x v) (hx : x ∉ marks) : plain v = true := by
  have key : ∀ p ∈ punctuators ++ reservedWords.map fun p => (p.1, TokenData.reserved p.2),
      p.1 ∉ marks → plain p.2 = true := by decide +kernel
  exact key _ h hx

theorem plain_unop {op : Op UnopTag} (h : IsUnop t op) : plain t.value = true := by
  obtain ⟨_, x, hx, h⟩ := h
  refine symbol h fun hm => ?_
  have : ∀ x ∈ marks, UnopTag.fromStr x = none := by decide +kernel
  rw [this x hm] at hx
  cases hx

theorem plain_binop {op : Op BinopTag} (h : IsBinop env t op) : plain t.value = true :=
  symbol h.2.1 (by cases op.tag <;> decide)

theorem plain_logop {op : Op LogopTag} (h : IsLogop t op) : plain t.value = true :=
  symbol h.2 (by cases op.tag <;> decide)

theorem plain_assop {op : Op AssopTag} (h : IsAssop t op) : plain t.value = true :=
  symbol h.2 (by cases op.tag <;> decide)

local macro "plain" : tactic => `(tactic| first
  | exact plain_ident (by assumption) | exact plain_prop (by assumption) | exact plain_member (by assumption)
  | exact plain_unop (by assumption) | exact plain_binop (by assumption) | exact plain_logop (by assumption)
  | exact plain_assop (by assumption))

theorem Run.ih (h : ∀ st, Run st i st j) (h2 : Run st j st' rest) : Run st i st' rest := (h st).trans h2

local macro "run" : tactic => `(tactic| repeat first
  | exact Run.refl
  | refine Run.tok (by assumption) (by rfl) ?_
  | refine Run.open (by assumption) (by rfl) ?_
  | refine Run.close (by assumption) (by rfl) ?_
  | refine Run.semi (by assumption) ?_
  | refine Run.plain (by plain) ?_
  | refine Run.ih (Run.term (by assumption)) ?_
  | refine Run.ih (by assumption) ?_)

/-- The brackets of a derivation are balanced. -/
theorem run {L : LocSpec} {c : Cat} {nt : NT c} {inp : List Token} {x : Ast c}
    (h : Derives L env nt inp rest x) : ∀ st, Run st inp st rest := by
  induction h <;> intro st
  all_goals run

/-! ### Semicolons -/

/-- Patterns and their source have the same semicolons. -/
def Counts : {c : Cat} → Ast c → Prop
  | .target, t => (Patt.source t : Expr).semicolons = t.semicolons
  | .patt .target, p => (Patt.source p : Expr).semicolons = p.semicolons
  | .comp .target, p => (Patt.source p : Expr).semicolons = p.semicolons
  | .rest .target, p => (Patt.source p : Ast .item).semicolons = p.semicolons
  | .propPatt .target, p => (Patt.source p : Ast .prop).semicolons = p.semicolons
  | .list (.propPatt .target), ps => (Ast.ofList (Patt.source ps : List (Ast .prop))).semicolons = ps.semicolons
  | .opt (.patt .target), x => (Patt.arrayItem (Patt.source x : Option Expr)).semicolons = x.semicolons
  | .list (.opt (.patt .target)), xs =>
    (Ast.ofList ((Patt.source xs : List (Option Expr)).map Patt.arrayItem)).semicolons = xs.semicolons
  | .opt (.rest .target), r =>
    (Ast.ofList ((Patt.source r : Option (Ast .item)).toList.map Ast.some)).semicolons = r.semicolons
  | _, _ => True

theorem semicolons_append {c : Cat} : (xs ys : List (Ast c)) →
    (Ast.ofList (xs ++ ys)).semicolons = (Ast.ofList xs).semicolons + (Ast.ofList ys).semicolons
  | [], ys => by simp [Ast.ofList, Ast.semicolons]
  | x :: xs, ys => by
    simp only [List.cons_append, Ast.ofList, Ast.semicolons, semicolons_append xs ys]; omega

theorem counts {c : Cat} (x : Ast c) : Counts x := by
  induction x
  case pSimple c t ih =>
    cases c <;> first | trivial | exact ih
  case pCompound c p ih =>
    cases c <;> first | trivial | exact ih
  case cArr c l es r ih1 ih2 =>
    cases c <;> first | trivial | skip
    show (Ast.eArr l (.ofList ((Patt.source es : List (Option Expr)).map Patt.arrayItem ++
      ((Patt.source r : Option (Ast .item)).toList.map Ast.some))) : Expr).semicolons = _
    simp only [Ast.semicolons, semicolons_append]
    exact congr (congrArg _ ih1) ih2
  case cObj c l ps ih =>
    cases c <;> first | trivial | exact ih
  case restPatt c l p ih =>
    cases c <;> first | trivial | exact ih
  case ppRegular c l k p ih =>
    cases c <;> first | trivial | exact ih
  case ppShorthand c i =>
    cases c <;> first | trivial | rfl
  case cons c h t ih1 ih2 =>
    cases c <;> first | trivial | skip
    case propPatt c =>
      cases c <;> first | trivial | skip
      show (Ast.cons (Patt.source h : Ast .prop) (Ast.ofList (Patt.source t : List (Ast .prop)))).semicolons = _
      simp only [Ast.semicolons]
      exact congr (congrArg _ ih1) ih2
    case opt c =>
      cases c <;> first | trivial | skip
      case patt c =>
        cases c <;> first | trivial | skip
        show (Ast.cons (Patt.arrayItem (Patt.source h : Option Expr))
          (Ast.ofList ((Patt.source t : List (Option Expr)).map Patt.arrayItem))).semicolons = _
        simp only [Ast.semicolons]
        exact congr (congrArg _ ih1) ih2
  case nil c =>
    cases c <;> first | trivial | skip
    case propPatt c => cases c <;> first | trivial | rfl
    case opt c =>
      cases c <;> first | trivial | skip
      case patt c => cases c <;> first | trivial | rfl
  case some c x ih =>
    cases c <;> first | trivial | skip
    case patt c =>
      cases c <;> first | trivial | exact ih
    case rest c =>
      cases c <;> trivial
  case none c =>
    cases c <;> first | trivial | skip
    case patt c => cases c <;> first | trivial | rfl
    case rest c => cases c <;> first | trivial | rfl
  all_goals first | trivial | rfl

theorem semicolons_target (t : AssignTarget) : (Patt.sourceTarget t).semicolons = t.semicolons := counts t

theorem semicolons_pattern (p : PattTarget) : (Patt.sourceExpr p).semicolons = p.semicolons := counts p


theorem semicolons_cons : semicolons (t :: i) = (if t.value = .semi then 1 else 0) + semicolons i := by
  rw [semicolons, semicolons, List.filter_cons]
  by_cases h : t.value = .semi
  · simp [h, Nat.add_comm]
  · simp [h]

/-- The token is a semicolon. -/
def isSemi : TokenData → Bool
  | .semi => true
  | _ => false

theorem count_tok (h : t.value = v) (hv : v ≠ .semi) : semicolons (t :: i) = semicolons i := by
  rw [semicolons_cons, h, if_neg hv, Nat.zero_add]

theorem count_plain (h : plain t.value = true) : semicolons (t :: i) = semicolons i := by
  have hn : t.value ≠ .semi := fun e => by rw [e] at h; cases h
  rw [semicolons_cons, if_neg hn, Nat.zero_add]

theorem count_semi (h : t.value = .semi) : semicolons (t :: i) = semicolons i + 1 := by
  rw [semicolons_cons, if_pos h, Nat.add_comm]

theorem count_term {o : Bool} {semi : Semi} (h : Term o i rest semi) :
    semicolons i = semicolons rest + semi.written := by
  cases h with
  | explicit h => exact count_semi h
  | inserted => rfl

/-- With `k` more, there are `n` semicolons among the tokens of `i` before `rest`. -/
def Cnt (k : Nat) (i rest : List Token) (n : Nat) : Prop := semicolons i + k = semicolons rest + n

variable {k m n : Nat}

theorem Cnt.done (h : k = n) : Cnt k i i n := h ▸ rfl

theorem Cnt.tok (h : t.value = v) (hv : isSemi v = false) (h2 : Cnt k i rest n) : Cnt k (t :: i) rest n := by
  rw [Cnt, count_tok h (by rintro rfl; cases hv), h2]

theorem Cnt.plain (h : plain t.value = true) (h2 : Cnt k i rest n) : Cnt k (t :: i) rest n := by
  rw [Cnt, count_plain h, h2]

theorem Cnt.semi (h : t.value = .semi) (h2 : Cnt (k + 1) i rest n) : Cnt k (t :: i) rest n := by
  rw [Cnt, count_semi h]
  rw [Cnt] at h2
  omega

theorem Cnt.ih (h : semicolons i = semicolons j + m) (h2 : Cnt (k + m) j rest n) : Cnt k i rest n := by
  rw [Cnt] at *
  omega

/-- The semicolon after the head of a `for` loop belongs to the head. -/
def heads : {c : Cat} → NT c → Nat
  | _, .forHead => 1
  | _, .func nt | _, .prologue nt | _, .body nt => heads nt
  | _, _ => 0

local macro "count" : tactic => `(tactic| (
  refine (?_ : Cnt 0 _ _ _)
  repeat first
  | apply Cnt.done
  | refine Cnt.semi (by assumption) ?_
  | refine Cnt.tok (by assumption) (by rfl) ?_
  | refine Cnt.plain (by plain) ?_
  | refine Cnt.ih (count_term (by assumption)) ?_
  | refine Cnt.ih (by assumption) ?_
  (try simp only [heads, Ast.semicolons, semicolons_target, semicolons_pattern, List.map_cons, List.map_nil,
    List.sum_cons, List.sum_nil])
  try omega))

set_option maxHeartbeats 2000000 in
/-- The semicolons of a derivation are those of the tree. -/
theorem count {L : LocSpec} {c : Cat} {nt : NT c} {inp : List Token} {x : Ast c}
    (h : Derives L env nt inp rest x) : semicolons inp = semicolons rest + (x.semicolons + heads nt) := by
  induction h
  all_goals count

end Nesting

end Esprit
