import Verif.Spec.Semis
import Verif.Proofs.RenameCover

/-! The inserted semicolons of patterns. -/

namespace Esprit

namespace Semis

/-- Patterns and their source have the same semicolons. -/
def Counts : {c : Cat} → Ast c → Prop
  | .target, t => (Patt.source t : Expr).missing = t.missing
  | .patt .target, p => (Patt.source p : Expr).missing = p.missing
  | .comp .target, p => (Patt.source p : Expr).missing = p.missing
  | .rest .target, p => (Patt.source p : Ast .item).missing = p.missing
  | .propPatt .target, p => (Patt.source p : Ast .prop).missing = p.missing
  | .list (.propPatt .target), ps => (Ast.ofList (Patt.source ps : List (Ast .prop))).missing = ps.missing
  | .opt (.patt .target), x => (Patt.arrayItem (Patt.source x : Option Expr)).missing = x.missing
  | .list (.opt (.patt .target)), xs =>
    (Ast.ofList ((Patt.source xs : List (Option Expr)).map Patt.arrayItem)).missing = xs.missing
  | .opt (.rest .target), r =>
    (Ast.ofList ((Patt.source r : Option (Ast .item)).toList.map Ast.some)).missing = r.missing
  | _, _ => True

theorem missing_append {c : Cat} : (xs ys : List (Ast c)) →
    (Ast.ofList (xs ++ ys)).missing = (Ast.ofList xs).missing + (Ast.ofList ys).missing
  | [], ys => by simp [Ast.ofList, Ast.missing]
  | x :: xs, ys => by
    simp only [List.cons_append, Ast.ofList, Ast.missing, missing_append xs ys]; omega

theorem counts {c : Cat} (x : Ast c) : Counts x := by
  induction x
  case pSimple c t ih =>
    cases c <;> first | trivial | exact ih
  case pCompound c p ih =>
    cases c <;> first | trivial | exact ih
  case cArr c l es r ih1 ih2 =>
    cases c <;> first | trivial | skip
    show (Ast.eArr l (.ofList ((Patt.source es : List (Option Expr)).map Patt.arrayItem ++
      ((Patt.source r : Option (Ast .item)).toList.map Ast.some))) : Expr).missing = _
    simp only [Ast.missing, missing_append]
    exact congr (congrArg _ ih1) ih2
  case cObj c l ps ih =>
    cases c <;> first | trivial | exact ih
  case restPatt c l p ih =>
    cases c <;> first | trivial | exact ih
  case ppRegular c l k p ih =>
    cases c <;> first | trivial | exact ih
  case ppShorthand c i =>
    cases c <;> first | trivial | rfl
  case cons c h t ih1 ih2 =>
    cases c <;> first | trivial | skip
    case propPatt c =>
      cases c <;> first | trivial | skip
      show (Ast.cons (Patt.source h : Ast .prop) (Ast.ofList (Patt.source t : List (Ast .prop)))).missing = _
      simp only [Ast.missing]
      exact congr (congrArg _ ih1) ih2
    case opt c =>
      cases c <;> first | trivial | skip
      case patt c =>
        cases c <;> first | trivial | skip
        show (Ast.cons (Patt.arrayItem (Patt.source h : Option Expr))
          (Ast.ofList ((Patt.source t : List (Option Expr)).map Patt.arrayItem))).missing = _
        simp only [Ast.missing]
        exact congr (congrArg _ ih1) ih2
  case nil c =>
    cases c <;> first | trivial | skip
    case propPatt c => cases c <;> first | trivial | rfl
    case opt c =>
      cases c <;> first | trivial | skip
      case patt c => cases c <;> first | trivial | rfl
  case some c x ih =>
    cases c <;> first | trivial | skip
    case patt c =>
      cases c <;> first | trivial | exact ih
    case rest c =>
      cases c <;> trivial
  case none c =>
    cases c <;> first | trivial | skip
    case patt c => cases c <;> first | trivial | rfl
    case rest c => cases c <;> first | trivial | rfl
  all_goals first | trivial | rfl

theorem missing_target (t : AssignTarget) : (Patt.sourceTarget t).missing = t.missing := counts t

theorem missing_pattern (p : PattTarget) : (Patt.sourceExpr p).missing = p.missing := counts p

end Semis

end Esprit
