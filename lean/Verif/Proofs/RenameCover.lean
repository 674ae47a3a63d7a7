import Verif.Spec.Rename
import Verif.Proofs.CoverInj
import Verif.Proofs.CoverUntrack

/-! The conversion of expressions to patterns commutes with renaming. -/

namespace Esprit

variable {g : Renaming}

theorem Ast.loc_rename {c : Cat} (x : Ast c) : (x.rename g).loc = x.loc := by
  induction x <;> first
    | rfl
    | assumption
    | (rename_i k; cases k <;> rfl)

namespace Cover

/-- The result of a conversion with identifiers renamed. -/
def renX (g : Renaming) {c : Cat} : Except CoverError (Ast c) → Except CoverError (Ast c)
  | .ok t => .ok (t.rename g)
  | .error e => .error e

/-- The conversion of an array element with identifiers renamed. -/
def ItemResult.rename (g : Renaming) : ItemResult → ItemResult
  | .expr r => .expr (renX g r)
  | .spread l r => .spread l (renX g r)

/-- What the conversion produces with identifiers renamed. -/
def renRes (g : Renaming) : (c : Cat) → Result c → Result c
  | .expr, r => renX g r
  | .prop, r => renX g r
  | .propVal, r => Option.map (renX g) r
  | .item, r => ItemResult.rename g r
  | .list c, rs => List.map (renRes g c) rs
  | .opt c, r => Option.map (renRes g c) r
  | .id, r | .propKey, r | .target, r | .patt _, r | .comp _, r
  | .rest _, r | .propPatt _, r | .func _, r | .params, r | .body _, r
  | .sitem, r | .modItem, r | .«import», r | .«export», r | .decl, r | .dtor, r | .constDtor, r
  | .block, r | .stmt, r | .forHead, r | .forInHead, r | .forOfHead, r | .«catch», r | .case, r => r

theorem intoAssignTarget_rename (e : Expr) :
    intoAssignTarget (e.rename g) = renX g (intoAssignTarget e) := by
  cases e <;> first
    | rfl
    | (show Except.error (CoverError.invalidAssignTarget _) = Except.error (CoverError.invalidAssignTarget _)
       rw [Ast.loc_rename])

theorem props_rename (rs : List (Except CoverError (Ast (.propPatt .target)))) :
    props (rs.map (renX g)) = renX g (props rs) := by
  induction rs with
  | nil => rfl
  | cons r rs ih =>
    cases r with
    | error e => rfl
    | ok t =>
      simp only [List.map, renX, props, ih]
      cases props rs <;> rfl

theorem elements_rename (rs : List (Option ItemResult)) :
    elements (rs.map (Option.map (ItemResult.rename g))) = renX g (elements rs) := by
  induction rs with
  | nil => rfl
  | cons r rs ih =>
    cases r with
    | none =>
      simp only [List.map, Option.map, elements, ih]
      cases elements rs <;> rfl
    | some r =>
      cases r with
      | spread l r => rfl
      | expr r =>
        cases r with
        | error e => rfl
        | ok t =>
          simp only [List.map, Option.map, ItemResult.rename, renX, elements, ih]
          cases elements rs <;> rfl

theorem splitRest_rename (rs : List (Option ItemResult)) :
    splitRest (rs.map (Option.map (ItemResult.rename g))) =
      ((splitRest rs).1.map (Option.map (ItemResult.rename g)), (splitRest rs).2.map (renX g)) := by
  unfold splitRest
  rw [List.getLast?_map]
  cases rs.getLast? with
  | none => rfl
  | some r =>
    cases r with
    | none => rfl
    | some r =>
      cases r with
      | expr r => rfl
      | spread l r =>
        cases l with
        | none => simp [ItemResult.rename, List.map_dropLast]
        | some l => rfl

theorem array_rename (l : Loc) (rs : List (Option ItemResult)) :
    array l (rs.map (Option.map (ItemResult.rename g))) = renX g (array l rs) := by
  unfold array
  rw [splitRest_rename]
  cases hs : splitRest rs with
  | mk es r =>
    cases r with
    | none =>
      simp only [Option.map, elements_rename]
      cases elements es <;> rfl
    | some r =>
      cases r with
      | error e => rfl
      | ok t =>
        simp only [Option.map, elements_rename, renX]
        cases h : elements es <;> rfl

theorem convert_rename {c : Cat} (x : Ast c) : convert (x.rename g) = renRes g c (convert x) := by
  induction x
  case eArr l es ih =>
    show array l (convert (es.rename g)) = _
    rw [ih]
    exact array_rename l (convert es)
  case eObj l ps ih =>
    show (do return .pCompound (.cObj l (← props (convert (ps.rename g)))) :
      Except CoverError PattTarget) = _
    rw [ih]
    refine (congrArg (fun q => (do return .pCompound (.cObj l (← q)) :
      Except CoverError PattTarget)) (props_rename (convert ps))).trans ?_
    show _ = renX g (do return .pCompound (.cObj l (← props (convert ps))) : Except CoverError PattTarget)
    generalize props (convert ps) = q
    cases q <;> rfl
  case prRegular l k v ih =>
    show (match (convert (v.rename g) : Option (Except CoverError PattTarget)) with
      | Option.some r => (do return .ppRegular l (k.rename g) (← r) : Except CoverError (Ast (.propPatt .target)))
      | Option.none => (.error (.invalidPropPatt l) : Except CoverError (Ast (.propPatt .target)))) =
      renX g (match (convert v : Option (Except CoverError PattTarget)) with
      | Option.some r => (do return .ppRegular l k (← r) : Except CoverError (Ast (.propPatt .target)))
      | Option.none => (.error (.invalidPropPatt l) : Except CoverError (Ast (.propPatt .target))))
    rw [ih]
    show (match Option.map (renX g) (convert v : Option (Except CoverError PattTarget)) with
      | Option.some r => (do return .ppRegular l (k.rename g) (← r) : Except CoverError (Ast (.propPatt .target)))
      | Option.none => (.error (.invalidPropPatt l) : Except CoverError (Ast (.propPatt .target)))) = _
    generalize (convert v : Option (Except CoverError PattTarget)) = q
    cases q with
    | none => rfl
    | some r => cases r <;> rfl
  case prMethod f ih =>
    show Except.error (CoverError.invalidPropPatt _) = Except.error (CoverError.invalidPropPatt _)
    rw [Ast.loc_rename]
  case vInit e ih => exact congrArg Option.some ih
  case iExpr e ih => exact congrArg ItemResult.expr ih
  case iSpread l e ih => exact congrArg (ItemResult.spread l) ih
  case cons ih1 ih2 => exact congr (congrArg List.cons ih1) ih2
  case some ih => exact congrArg Option.some ih
  case eFun f ih =>
    show (Except.error (CoverError.invalidAssignTarget _) : Except CoverError PattTarget) =
      Except.error (CoverError.invalidAssignTarget _)
    rw [Ast.loc_rename]
  all_goals rfl

theorem intoAssignPatt_rename (e : Expr) :
    intoAssignPatt (e.rename g) = renX g (intoAssignPatt e) := convert_rename e

end Cover

namespace Patt

theorem sourceExpr_rename {p : PattTarget} (h : Assignable (sourceExpr p)) :
    (sourceExpr p).rename g = sourceExpr (p.rename g) := by
  have h1 := Cover.intoAssignPatt_rename (g := g) (sourceExpr p)
  rw [ofSource h] at h1
  exact (C19_pattern_roundtrip _ _ h1).symm

theorem sourceTarget_rename (t : AssignTarget) :
    (sourceTarget t).rename g = sourceTarget (t.rename g) := by cases t <;> rfl

theorem restFree_rename {c : Cat} (p : Ast c) : restFree p → restFree (p.rename g) := by
  induction p
  case pCompound ih => exact ih
  case cArr l es r ih1 ih2 =>
    cases r with
    | none => exact ih1
    | some r => exact False.elim
  case cObj ih => exact ih
  case ppRegular ih => exact ih
  case cons ih1 ih2 => exact fun h => ⟨ih1 h.1, ih2 h.2⟩
  case some ih => exact ih
  all_goals exact fun _ => trivial

end Patt

end Esprit
