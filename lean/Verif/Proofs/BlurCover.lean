import Verif.Proofs.Blur

/-! The conversion of expressions to patterns commutes with moving to the origin. -/

namespace Esprit

namespace Cover

/-- The result of a conversion, moved to the origin. -/
def blurX {c : Cat} : Except CoverError (Ast c) → Except CoverError (Ast c)
  | .ok t => .ok t.blur
  | .error e => .error e.blur

/-- The conversion of an array element, moved to the origin. -/
def ItemResult.blur : ItemResult → ItemResult
  | .expr r => .expr (blurX r)
  | .spread l r => .spread (blurLoc l) (blurX r)

/-- What the conversion produces, moved to the origin. -/
def blurRes : (c : Cat) → Result c → Result c
  | .expr, r => blurX r
  | .prop, r => blurX r
  | .propVal, r => Option.map blurX r
  | .item, r => ItemResult.blur r
  | .list c, rs => List.map (blurRes c) rs
  | .opt c, r => Option.map (blurRes c) r
  | .id, r | .propKey, r | .target, r | .patt _, r | .comp _, r
  | .rest _, r | .propPatt _, r | .func _, r | .params, r | .body _, r
  | .sitem, r | .modItem, r | .«import», r | .«export», r | .decl, r | .dtor, r | .constDtor, r
  | .block, r | .stmt, r | .forHead, r | .forInHead, r | .forOfHead, r | .«catch», r | .case, r => r

theorem intoAssignTarget_blur (e : Expr) :
    intoAssignTarget e.blur = blurX (intoAssignTarget e) := by
  cases e <;> first
    | rfl
    | (show Except.error (CoverError.invalidAssignTarget _) = Except.error (CoverError.invalidAssignTarget _)
       rw [Ast.loc_blur])

theorem props_blur (rs : List (Except CoverError (Ast (.propPatt .target)))) :
    props (rs.map blurX) = blurX (props rs) := by
  induction rs with
  | nil => rfl
  | cons r rs ih =>
    cases r with
    | error e => rfl
    | ok t =>
      simp only [List.map, blurX, props, ih]
      cases props rs <;> rfl

theorem elements_blur (rs : List (Option ItemResult)) :
    elements (rs.map (Option.map ItemResult.blur)) = blurX (elements rs) := by
  induction rs with
  | nil => rfl
  | cons r rs ih =>
    cases r with
    | none =>
      simp only [List.map, Option.map, elements, ih]
      cases elements rs <;> rfl
    | some r =>
      cases r with
      | spread l r => rfl
      | expr r =>
        cases r with
        | error e => rfl
        | ok t =>
          simp only [List.map, Option.map, ItemResult.blur, blurX, elements, ih]
          cases elements rs <;> rfl

theorem splitRest_blur (rs : List (Option ItemResult)) :
    splitRest (rs.map (Option.map ItemResult.blur)) =
      ((splitRest rs).1.map (Option.map ItemResult.blur), (splitRest rs).2.map blurX) := by
  unfold splitRest
  rw [List.getLast?_map]
  cases rs.getLast? with
  | none => rfl
  | some r =>
    cases r with
    | none => rfl
    | some r =>
      cases r with
      | expr r => rfl
      | spread l r =>
        cases l with
        | none => simp [ItemResult.blur, List.map_dropLast]
        | some l => rfl

theorem array_blur (l : Loc) (rs : List (Option ItemResult)) :
    array (blurLoc l) (rs.map (Option.map ItemResult.blur)) = blurX (array l rs) := by
  unfold array
  rw [splitRest_blur]
  cases hs : splitRest rs with
  | mk es r =>
    cases r with
    | none =>
      simp only [Option.map, elements_blur]
      cases elements es <;> rfl
    | some r =>
      cases r with
      | error e => rfl
      | ok t =>
        simp only [Option.map, elements_blur, blurX]
        cases h : elements es <;> rfl

theorem convert_blur {c : Cat} (x : Ast c) : convert x.blur = blurRes c (convert x) := by
  induction x
  case eArr l es ih =>
    show array (blurLoc l) (convert es.blur) = _
    rw [ih]
    exact array_blur l (convert es)
  case eObj l ps ih =>
    show (do return .pCompound (.cObj (blurLoc l) (← props (convert ps.blur))) :
      Except CoverError PattTarget) = _
    rw [ih]
    refine (congrArg (fun q => (do return .pCompound (.cObj (blurLoc l) (← q)) :
      Except CoverError PattTarget)) (props_blur (convert ps))).trans ?_
    show _ = blurX (do return .pCompound (.cObj l (← props (convert ps))) : Except CoverError PattTarget)
    generalize props (convert ps) = q
    cases q <;> rfl
  case prRegular l k v ih =>
    show (match (convert v.blur : Option (Except CoverError PattTarget)) with
      | Option.some r => (do return .ppRegular (blurLoc l) k.blur (← r) : Except CoverError (Ast (.propPatt .target)))
      | Option.none => (.error (.invalidPropPatt (blurLoc l)) : Except CoverError (Ast (.propPatt .target)))) =
      blurX (match (convert v : Option (Except CoverError PattTarget)) with
      | Option.some r => (do return .ppRegular l k (← r) : Except CoverError (Ast (.propPatt .target)))
      | Option.none => (.error (.invalidPropPatt l) : Except CoverError (Ast (.propPatt .target))))
    rw [ih]
    show (match Option.map blurX (convert v : Option (Except CoverError PattTarget)) with
      | Option.some r => (do return .ppRegular (blurLoc l) k.blur (← r) : Except CoverError (Ast (.propPatt .target)))
      | Option.none => (.error (.invalidPropPatt (blurLoc l)) : Except CoverError (Ast (.propPatt .target)))) = _
    generalize (convert v : Option (Except CoverError PattTarget)) = q
    cases q with
    | none => rfl
    | some r => cases r <;> rfl
  case prMethod f ih =>
    show Except.error (CoverError.invalidPropPatt _) = Except.error (CoverError.invalidPropPatt _)
    rw [Ast.loc_blur]
  case vInit e ih => exact congrArg Option.some ih
  case iExpr e ih => exact congrArg ItemResult.expr ih
  case iSpread l e ih => exact congrArg (ItemResult.spread (blurLoc l)) ih
  case cons ih1 ih2 => exact congr (congrArg List.cons ih1) ih2
  case some ih => exact congrArg Option.some ih
  case eFun f ih =>
    show (Except.error (CoverError.invalidAssignTarget _) : Except CoverError PattTarget) =
      Except.error (CoverError.invalidAssignTarget _)
    rw [Ast.loc_blur]
  all_goals rfl

theorem intoAssignPatt_blur (e : Expr) :
    intoAssignPatt e.blur = blurX (intoAssignPatt e) := convert_blur e

end Cover

end Esprit
