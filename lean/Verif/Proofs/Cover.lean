import Verif.Spec.Cover

/-! The cover grammar conversion against its specification. -/

namespace Esprit

namespace Ast

@[simp] theorem toList_ofList {c : Cat} (xs : List (Ast c)) : (ofList xs).toList = xs := by
  induction xs with
  | nil => rfl
  | cons x xs ih => simp [ofList, ih]

theorem ofList_toList {c : Cat} : (xs : Ast (.list c)) → ofList xs.toList = xs
  | .nil => rfl
  | .cons h t => by simp [ofList, ofList_toList t]

theorem ofList_inj {c : Cat} {xs ys : List (Ast c)} (h : ofList xs = ofList ys) : xs = ys := by
  have := congrArg toList h
  simpa using this

theorem sizeOf_mem_toList {c : Cat} : (xs : Ast (.list c)) → ∀ x ∈ xs.toList, sizeOf x < sizeOf xs
  | .nil => by simp
  | .cons h t => by
    intro x hx
    rcases List.mem_cons.1 hx with rfl | hx
    · simp
      omega
    · have := sizeOf_mem_toList t x hx
      simp
      omega

end Ast

namespace Cover

open Patt

/-- `convert` for array elements. -/
def convItem (x : Ast (.opt .item)) : Option ItemResult := convert x
/-- `convert` for properties. -/
def convProp (x : Ast .prop) : Except CoverError (Ast (.propPatt .target)) := convert x
/-- `source` for array elements. -/
def srcElems (x : Ast (.list (.opt (.patt .target)))) : List (Option Expr) := source x
/-- `source` for properties. -/
def srcProps (x : Ast (.list (.propPatt .target))) : List (Ast .prop) := source x

theorem convert_list {c : Cat} : (xs : Ast (.list c)) →
    (convert xs : List (Result c)) = xs.toList.map convert
  | .nil => rfl
  | .cons h t => by
    show (convert h :: convert t : List (Result c)) = _
    rw [convert_list t]
    rfl

theorem source_list {c : Cat} : (xs : Ast (.list c)) →
    (source xs : List (Source c)) = xs.toList.map source
  | .nil => rfl
  | .cons h t => by
    show (source h :: source t : List (Source c)) = _
    rw [source_list t]
    rfl

/-- What the theorem says about one expression. -/
structure Ok (e : Expr) : Prop where
  back : ∀ p, intoAssignPatt e = .ok p → sourceExpr p = e
  sound : ∀ p, intoAssignPatt e = .ok p → Assignable e
  complete : Assignable e → ∃ p, intoAssignPatt e = .ok p

theorem elements_ok : (xs : List (Ast (.opt .item))) →
    (∀ e, .some (.iExpr e) ∈ xs → Ok e) → ∀ es, elements (xs.map convItem) = .ok es →
      ((srcElems es).map arrayItem) = xs ∧
      ∃ ys : List (Option Expr), xs = ys.map arrayItem ∧ ∀ e, some e ∈ ys → Assignable e
  | [], _, es, h => by
    cases h
    exact ⟨rfl, [], rfl, by simp⟩
  | .none :: xs, hx, es, h => by
    simp only [List.map_cons] at h
    have : elements (Option.none :: xs.map convItem) = .ok es := h
    rw [elements] at this
    cases he : elements (xs.map convItem) with
    | error err => rw [he] at this; cases this
    | ok es' =>
      rw [he] at this
      cases this
      obtain ⟨h1, ys, h2, h3⟩ := elements_ok xs (fun e he => hx e (List.mem_cons_of_mem _ he)) es' he
      refine ⟨?_, none :: ys, ?_, ?_⟩
      · show arrayItem Option.none :: (srcElems es').map arrayItem = _
        rw [h1]; rfl
      · simp only [List.map_cons, h2]; rfl
      · intro e he
        exact h3 e (by simpa using he)
  | .some (.iExpr e) :: xs, hx, es, h => by
    simp only [List.map_cons] at h
    have : elements (Option.some (.expr (intoAssignPatt e)) :: xs.map convItem) = .ok es := h
    rw [elements] at this
    cases hp : intoAssignPatt e with
    | error err => rw [hp] at this; cases this
    | ok p =>
      rw [hp] at this
      cases he : elements (xs.map convItem) with
      | error err => rw [he] at this; cases this
      | ok es' =>
        rw [he] at this
        cases this
        obtain ⟨h1, ys, h2, h3⟩ :=
          elements_ok xs (fun e he => hx e (List.mem_cons_of_mem _ he)) es' he
        have ho := hx e (by simp)
        refine ⟨?_, some e :: ys, ?_, ?_⟩
        · show arrayItem (Option.some (sourceExpr p)) :: (srcElems es').map arrayItem = _
          rw [h1, ho.back p hp]; rfl
        · simp only [List.map_cons, h2]; rfl
        · intro e' he'
          rcases List.mem_cons.1 he' with h | h
          · cases h; exact ho.sound p hp
          · exact h3 e' h
  | .some (.iSpread l e) :: xs, hx, es, h => by
    simp only [List.map_cons] at h
    have : elements (Option.some (.spread l (intoAssignPatt e)) :: xs.map convItem) = .ok es := h
    rw [elements] at this
    cases this

theorem elements_complete (ys : List (Option Expr))
    (h : ∀ e, some e ∈ ys → ∃ p, intoAssignPatt e = .ok p) :
    ∃ es, elements ((ys.map arrayItem).map convItem) = .ok es := by
  induction ys with
  | nil => exact ⟨_, rfl⟩
  | cons y ys ih =>
    obtain ⟨es, he⟩ := ih (fun e he => h e (List.mem_cons_of_mem _ he))
    cases y with
    | none =>
      refine ⟨.cons .none es, ?_⟩
      show elements (Option.none :: (ys.map arrayItem).map convItem) = _
      rw [elements, he]
      rfl
    | some e =>
      obtain ⟨p, hp⟩ := h e (by simp)
      refine ⟨.cons (.some p) es, ?_⟩
      show elements (Option.some (.expr (intoAssignPatt e)) :: (ys.map arrayItem).map convItem) = _
      rw [elements, hp, he]
      rfl

/-- The property that a shorthand or an initialised property stands for. -/
abbrev mkProp : Id ⊕ (Loc × PropKey × Expr) → Ast .prop := fun
  | .inl i => .prShorthand i
  | .inr (l, k, e) => .prRegular l k (.vInit e)

theorem props_ok : (xs : List (Ast .prop)) →
    (∀ l k e, .prRegular l k (.vInit e) ∈ xs → Ok e) → ∀ ps, props (xs.map convProp) = .ok ps →
      (srcProps ps) = xs ∧
      ∃ ys : List (Id ⊕ (Loc × PropKey × Expr)), xs = ys.map mkProp ∧ ∀ l k e, Sum.inr (l, k, e) ∈ ys → Assignable e
  | [], _, ps, h => by
    cases h
    exact ⟨rfl, [], rfl, by simp⟩
  | .prShorthand i :: xs, hx, ps, h => by
    simp only [List.map_cons] at h
    have : props (.ok (.ppShorthand i) :: xs.map convProp) = .ok ps := h
    rw [props] at this
    cases he : props (xs.map convProp) with
    | error err => rw [he] at this; cases this
    | ok ps' =>
      rw [he] at this
      cases this
      obtain ⟨h1, ys, h2, h3⟩ :=
        props_ok xs (fun l k e he => hx l k e (List.mem_cons_of_mem _ he)) ps' he
      refine ⟨?_, .inl i :: ys, ?_, ?_⟩
      · show Ast.prShorthand i :: (srcProps ps') = _
        rw [h1]
      · simp only [List.map_cons, h2]
      · intro l k e he
        exact h3 l k e (by simpa using he)
  | .prMethod f :: xs, hx, ps, h => by
    simp only [List.map_cons] at h
    have : props (.error (.invalidPropPatt f.loc) :: xs.map convProp) = .ok ps := h
    rw [props] at this
    cases this
  | .prRegular l k (.vGet l' b) :: xs, hx, ps, h => by
    have : props (.error (.invalidPropPatt l) :: xs.map convProp) = .ok ps := h
    rw [props] at this
    cases this
  | .prRegular l k (.vSet l' p b) :: xs, hx, ps, h => by
    have : props (.error (.invalidPropPatt l) :: xs.map convProp) = .ok ps := h
    rw [props] at this
    cases this
  | .prRegular l k (.vInit e) :: xs, hx, ps, h => by
    have : props ((do return .ppRegular l k (← intoAssignPatt e)) :: xs.map convProp) = .ok ps := h
    rw [props] at this
    cases hp : intoAssignPatt e with
    | error err => rw [hp] at this; cases this
    | ok p =>
      rw [hp] at this
      cases he : props (xs.map convProp) with
      | error err => rw [he] at this; cases this
      | ok ps' =>
        rw [he] at this
        cases this
        obtain ⟨h1, ys, h2, h3⟩ :=
          props_ok xs (fun l k e he => hx l k e (List.mem_cons_of_mem _ he)) ps' he
        have ho := hx l k e (by simp)
        refine ⟨?_, .inr (l, k, e) :: ys, ?_, ?_⟩
        · show Ast.prRegular l k (.vInit (sourceExpr p)) :: (srcProps ps') = _
          rw [h1, ho.back p hp]
        · simp only [List.map_cons, h2]
        · intro l' k' e' he'
          rcases List.mem_cons.1 he' with h | h
          · cases h; exact ho.sound p hp
          · exact h3 l' k' e' h

theorem props_complete (ys : List (Id ⊕ (Loc × PropKey × Expr)))
    (h : ∀ l k e, Sum.inr (l, k, e) ∈ ys → ∃ p, intoAssignPatt e = .ok p) :
    ∃ ps, props ((ys.map mkProp).map convProp) = .ok ps := by
  induction ys with
  | nil => exact ⟨_, rfl⟩
  | cons y ys ih =>
    obtain ⟨ps, he⟩ := ih (fun l k e he => h l k e (List.mem_cons_of_mem _ he))
    cases y with
    | inl i =>
      refine ⟨.cons (.ppShorthand i) ps, ?_⟩
      show props (.ok (.ppShorthand i) :: (ys.map mkProp).map convProp) = _
      rw [props, he]
      rfl
    | inr x =>
      obtain ⟨l, k, e⟩ := x
      obtain ⟨p, hp⟩ := h l k e (by simp)
      refine ⟨.cons (.ppRegular l k p) ps, ?_⟩
      show props ((do return .ppRegular l k (← intoAssignPatt e)) :: (ys.map mkProp).map convProp) = _
      rw [props, hp, he]
      rfl

/-- The array has no trailing spread without a location. -/
theorem splitRest_none {xs : List (Ast (.opt .item))}
    (h : ∀ e, xs.getLast? ≠ some (.some (.iSpread none e))) :
    splitRest (xs.map convItem) = (xs.map convItem, none) := by
  unfold splitRest
  rw [List.getLast?_map]
  cases hl : xs.getLast? with
  | none => rfl
  | some x =>
    cases x with
    | none => rfl
    | some i =>
      cases i with
      | iExpr e => rfl
      | iSpread l e =>
        cases l with
        | none => exact absurd hl (h e)
        | some l => rfl

theorem splitRest_some (xs : List (Ast (.opt .item))) (e : Expr) :
    splitRest ((xs ++ [Ast.some (.iSpread none e)]).map convItem) =
      (xs.map convItem, some (intoAssignPatt e)) := by
  unfold splitRest
  rw [List.getLast?_map]
  simp only [List.getLast?_append, List.getLast?_singleton, List.map_append]
  show (((xs.map convItem) ++ [_]).dropLast, _) = _
  rw [List.dropLast_concat]
  rfl

private theorem getLast_item (ys : List (Option Expr)) (e : Expr) :
    (ys.map arrayItem).getLast? ≠ some (.some (.iSpread none e)) := by
  rw [List.getLast?_map]
  cases ys.getLast? with
  | none => simp
  | some y => cases y <;> simp [arrayItem]

theorem target_ok {e : Expr} {t : AssignTarget} (h : intoAssignTarget e = .ok t) :
    sourceTarget t = e ∧ Assignable e := by
  unfold intoAssignTarget at h
  split at h
  · cases h; exact ⟨rfl, .id⟩
  · cases h; exact ⟨rfl, .dot⟩
  · cases h; exact ⟨rfl, .brack⟩
  · cases h

private theorem simple_ok {e : Expr}
    (h : intoAssignPatt e = (do return .pSimple (← intoAssignTarget e)))
    (hn : ∀ l es, e ≠ .eArr l es) (hn' : ∀ l ps, e ≠ .eObj l ps) : Ok e := by
  have key : ∀ p, intoAssignPatt e = .ok p → ∃ t, p = .pSimple t ∧ intoAssignTarget e = .ok t := by
    intro p hp
    rw [h] at hp
    cases ht : intoAssignTarget e with
    | error err => rw [ht] at hp; cases hp
    | ok t => rw [ht] at hp; cases hp; exact ⟨t, rfl, rfl⟩
  refine ⟨?_, ?_, ?_⟩
  · intro p hp
    obtain ⟨t, rfl, ht⟩ := key p hp
    exact (target_ok ht).1
  · intro p hp
    obtain ⟨t, rfl, ht⟩ := key p hp
    exact (target_ok ht).2
  · intro ha
    rw [h]
    cases ha with
    | id => exact ⟨_, rfl⟩
    | dot => exact ⟨_, rfl⟩
    | brack => exact ⟨_, rfl⟩
    | arr _ => exact absurd rfl (hn _ _)
    | arrRest _ _ => exact absurd rfl (hn _ _)
    | obj _ => exact absurd rfl (hn' _ _)

theorem arr_ok {l : Loc} {es : Ast (.list (.opt .item))}
    (ih : ∀ e, (.some (.iExpr e) ∈ es.toList ∨ ∃ l, .some (.iSpread l e) ∈ es.toList) → Ok e) :
    Ok (.eArr l es) := by
  have hconv : intoAssignPatt (.eArr l es) = array l (es.toList.map convItem) := by
    show array l (convert es) = _
    exact congrArg (array l) (convert_list es)
  have hes := Ast.ofList_toList es
  generalize hx : es.toList = xs at *
  -- the two forms of an array
  by_cases hlast : ∃ e, xs.getLast? = some (.some (.iSpread none e))
  · obtain ⟨r, hr⟩ := hlast
    obtain ⟨init, rfl⟩ : ∃ init, xs = init ++ [.some (.iSpread none r)] := by
      exact List.getLast?_eq_some_iff.1 hr
    have hr := ih r (.inr ⟨none, by simp⟩)
    have harr : intoAssignPatt (.eArr l es) = (do
        let rest ← intoAssignPatt r
        return .pCompound (.cArr l (← elements (init.map convItem)) (.some (.restPatt none rest)))) := by
      rw [hconv]
      unfold array
      rw [splitRest_some]
    have hinit : ∀ e, .some (.iExpr e) ∈ init → Ok e := fun e he => ih e (.inl (by simp [he]))
    have key : ∀ p, intoAssignPatt (.eArr l es) = .ok p → ∃ q es', p =
        .pCompound (.cArr l es' (.some (.restPatt none q))) ∧ intoAssignPatt r = .ok q ∧
        elements (init.map convItem) = .ok es' := by
      intro p hp
      rw [harr] at hp
      cases hq : intoAssignPatt r with
      | error err => rw [hq] at hp; cases hp
      | ok q =>
        rw [hq] at hp
        cases he : elements (init.map convItem) with
        | error err => rw [he] at hp; cases hp
        | ok es' => rw [he] at hp; cases hp; exact ⟨q, es', rfl, rfl, rfl⟩
    refine ⟨?_, ?_, ?_⟩
    · intro p hp
      obtain ⟨q, es', rfl, hq, he⟩ := key p hp
      show Ast.eArr l (.ofList ((srcElems es').map arrayItem ++ [.some (.iSpread none (sourceExpr q))])) = _
      rw [hr.back q hq, (elements_ok init hinit es' he).1, hes]
    · intro p hp
      obtain ⟨q, es', rfl, hq, he⟩ := key p hp
      obtain ⟨-, ys, h2, h3⟩ := elements_ok init hinit es' he
      rw [← hes, h2]
      exact .arrRest h3 (hr.sound q hq)
    · intro ha
      rw [← hes] at ha
      rw [harr]
      generalize hz : (Ast.eArr l (.ofList (init ++ [.some (.iSpread none r)])) : Expr) = z at ha
      cases ha with
      | @arr l' ys hys =>
        exfalso
        injection hz with _ hz
        have hz := Ast.ofList_inj hz
        have := getLast_item ys r
        rw [← hz] at this
        simp at this
      | @arrRest l' ys r' hys hr' =>
        injection hz with _ hz
        have hz := Ast.ofList_inj hz
        obtain ⟨h1, h2⟩ := List.append_inj' hz rfl
        simp only [List.cons.injEq, Ast.some.injEq, Ast.iSpread.injEq, true_and, and_true] at h2
        subst h2
        obtain ⟨q, hq⟩ := hr.complete hr'
        subst h1
        obtain ⟨es', he⟩ := elements_complete ys (fun e he => (hinit e
          (List.mem_map.2 ⟨some e, he, rfl⟩)).complete (hys e he))
        rw [hq, he]
        exact ⟨_, rfl⟩
      | id => cases hz
      | dot => cases hz
      | brack => cases hz
      | obj _ => cases hz
  · have hlast : ∀ e, xs.getLast? ≠ some (.some (.iSpread none e)) :=
      fun e he => hlast ⟨e, he⟩
    have harr : intoAssignPatt (.eArr l es) = (do
        return .pCompound (.cArr l (← elements (xs.map convItem)) .none)) := by
      rw [hconv]
      unfold array
      rw [splitRest_none hlast]
    have hinit : ∀ e, .some (.iExpr e) ∈ xs → Ok e := fun e he => ih e (.inl he)
    have key : ∀ p, intoAssignPatt (.eArr l es) = .ok p → ∃ es', p =
        .pCompound (.cArr l es' .none) ∧ elements (xs.map convItem) = .ok es' := by
      intro p hp
      rw [harr] at hp
      cases he : elements (xs.map convItem) with
      | error err => rw [he] at hp; cases hp
      | ok es' => rw [he] at hp; cases hp; exact ⟨es', rfl, rfl⟩
    refine ⟨?_, ?_, ?_⟩
    · intro p hp
      obtain ⟨es', rfl, he⟩ := key p hp
      show Ast.eArr l (.ofList ((srcElems es').map arrayItem ++ [])) = _
      rw [(elements_ok xs hinit es' he).1, List.append_nil, hes]
    · intro p hp
      obtain ⟨es', rfl, he⟩ := key p hp
      obtain ⟨-, ys, h2, h3⟩ := elements_ok xs hinit es' he
      rw [← hes, h2]
      exact .arr h3
    · intro ha
      rw [← hes] at ha
      rw [harr]
      generalize hz : (Ast.eArr l (.ofList xs) : Expr) = z at ha
      cases ha with
      | @arr l' ys hys =>
        injection hz with _ hz
        have hz := Ast.ofList_inj hz
        subst hz
        obtain ⟨es', he⟩ := elements_complete ys (fun e he => (hinit e
          (List.mem_map.2 ⟨some e, he, rfl⟩)).complete (hys e he))
        rw [he]
        exact ⟨_, rfl⟩
      | @arrRest l' ys r' hys hr' =>
        exfalso
        injection hz with _ hz
        have hz := Ast.ofList_inj hz
        exact hlast r' (by rw [hz]; simp)
      | id => cases hz
      | dot => cases hz
      | brack => cases hz
      | obj _ => cases hz

theorem obj_ok {l : Loc} {ps : Ast (.list .prop)}
    (ih : ∀ l k e, .prRegular l k (.vInit e) ∈ ps.toList → Ok e) : Ok (.eObj l ps) := by
  have hobj : intoAssignPatt (.eObj l ps) = (do
      return .pCompound (.cObj l (← props (ps.toList.map convProp)))) := by
    show (do return .pCompound (.cObj l (← props (convert ps))) : Except CoverError PattTarget) = _
    exact congrArg (fun x => (do return .pCompound (.cObj l (← props x)) : Except CoverError PattTarget)) (convert_list ps)
  have hes := Ast.ofList_toList ps
  generalize hx : ps.toList = xs at *
  have key : ∀ p, intoAssignPatt (.eObj l ps) = .ok p → ∃ ps', p =
      .pCompound (.cObj l ps') ∧ props (xs.map convProp) = .ok ps' := by
    intro p hp
    rw [hobj] at hp
    cases he : props (xs.map convProp) with
    | error err => rw [he] at hp; cases hp
    | ok es' => rw [he] at hp; cases hp; exact ⟨es', rfl, rfl⟩
  refine ⟨?_, ?_, ?_⟩
  · intro p hp
    obtain ⟨ps', rfl, he⟩ := key p hp
    show Ast.eObj l (.ofList (srcProps ps')) = _
    rw [(props_ok xs ih ps' he).1, hes]
  · intro p hp
    obtain ⟨es', rfl, he⟩ := key p hp
    obtain ⟨-, ys, h2, h3⟩ := props_ok xs ih es' he
    rw [← hes, h2]
    exact .obj h3
  · intro ha
    rw [← hes] at ha
    rw [hobj]
    generalize hz : (Ast.eObj l (.ofList xs) : Expr) = z at ha
    cases ha with
    | @obj l' ys hys =>
      injection hz with _ hz
      have hz := Ast.ofList_inj hz
      subst hz
      obtain ⟨es', he⟩ := props_complete ys (fun l k e he => (ih l k e
        (List.mem_map.2 ⟨.inr (l, k, e), he, rfl⟩)).complete (hys l k e he))
      have he' : props ((ys.map mkProp).map convProp) = .ok es' := he
      refine ⟨.pCompound (.cObj l es'), ?_⟩
      show (do return .pCompound (.cObj l (← props ((ys.map mkProp).map convProp))) :
        Except CoverError PattTarget) = _
      rw [he']
      rfl
    | id => cases hz
    | dot => cases hz
    | brack => cases hz
    | arr _ => cases hz
    | arrRest _ _ => cases hz

theorem cover_ok : (e : Expr) → Ok e
  | .eArr l es => arr_ok fun e he =>
    have : sizeOf e < sizeOf (Ast.eArr l es) := by
      rcases he with he | ⟨l, he⟩
      · have := Ast.sizeOf_mem_toList es _ he
        simp at this ⊢
        omega
      · have := Ast.sizeOf_mem_toList es _ he
        simp at this ⊢
        omega
    cover_ok e
  | .eObj l ps => obj_ok fun l' k e he =>
    have : sizeOf e < sizeOf (Ast.eObj l ps) := by
      have := Ast.sizeOf_mem_toList ps _ he
      simp at this ⊢
      omega
    cover_ok e
  | .eThis _ | .eId _ | .eFun _ | .eSeq _ _ | .eUnop _ _ _ | .eBinop _ _ _ _ | .eLogop _ _ _ _
  | .ePreInc _ _ | .ePostInc _ _ | .ePreDec _ _ | .ePostDec _ _ | .eAssign _ _ _
  | .eBinAssign _ _ _ _ | .eCond _ _ _ _ | .eCall _ _ _ | .eNew _ _ _ | .eDot _ _ _
  | .eBrack _ _ _ | .eNewTarget _ | .eTrue _ | .eFalse _ | .eNull _ | .eNumber _ _
  | .eRegExp _ _ | .eString _ _ => simple_ok rfl (by intros; simp) (by intros; simp)
termination_by e => sizeOf e

end Cover

end Esprit
