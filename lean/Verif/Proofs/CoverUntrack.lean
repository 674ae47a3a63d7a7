import Verif.Proofs.Untrack
import Verif.Proofs.Cover

/-!
Expressions that are, up to locations, the source of a pattern without rest
elements are converted to that pattern, up to locations.
-/

namespace Esprit

open Patt Cover

/-! ### Inversion -/

theorem untrack_eId {e : Expr} {i : Id} (h : e.untrack = (Ast.eId i).untrack) :
    ∃ j, e = .eId j ∧ j.untrack = i.untrack := by
  cases e
  case eId j =>
    have h : Ast.eId j.untrack = Ast.eId i.untrack := h
    exact ⟨j, rfl, by injection h⟩
  all_goals cases h

theorem untrack_eDot {e x : Expr} {l : Loc} {k : DotKey} (h : e.untrack = (Ast.eDot l x k).untrack) :
    ∃ l' e' k', e = .eDot l' e' k' ∧ e'.untrack = x.untrack ∧ k'.untrack = k.untrack := by
  cases e
  case eDot l' e' k' =>
    have h : Ast.eDot none e'.untrack k'.untrack = Ast.eDot none x.untrack k.untrack := h
    injection h with _ h1 h2
    exact ⟨_, _, _, rfl, h1, h2⟩
  all_goals cases h

theorem untrack_eBrack {e x y : Expr} {l : Loc} (h : e.untrack = (Ast.eBrack l x y).untrack) :
    ∃ l' e' y', e = .eBrack l' e' y' ∧ e'.untrack = x.untrack ∧ y'.untrack = y.untrack := by
  cases e
  case eBrack l' e' k' =>
    have h : Ast.eBrack none e'.untrack k'.untrack = Ast.eBrack none x.untrack y.untrack := h
    injection h with _ h1 h2
    exact ⟨_, _, _, rfl, h1, h2⟩
  all_goals cases h

theorem untrack_eArr {e : Expr} {x : Ast (.list (.opt .item))} {l : Loc}
    (h : e.untrack = (Ast.eArr l x).untrack) :
    ∃ l' e', e = .eArr l' e' ∧ e'.untrack = x.untrack := by
  cases e
  case eArr l' e' =>
    have h : Ast.eArr none e'.untrack = Ast.eArr none x.untrack := h
    injection h with _ h1
    exact ⟨_, _, rfl, h1⟩
  all_goals cases h

theorem untrack_eObj {e : Expr} {x : Ast (.list .prop)} {l : Loc}
    (h : e.untrack = (Ast.eObj l x).untrack) :
    ∃ l' e', e = .eObj l' e' ∧ e'.untrack = x.untrack := by
  cases e
  case eObj l' e' =>
    have h : Ast.eObj none e'.untrack = Ast.eObj none x.untrack := h
    injection h with _ h1
    exact ⟨_, _, rfl, h1⟩
  all_goals cases h

theorem untrack_prRegular {p : Ast .prop} {e : Expr} {l : Loc} {k : PropKey}
    (h : p.untrack = (Ast.prRegular l k (.vInit e)).untrack) :
    ∃ l' k' e', p = .prRegular l' k' (.vInit e') ∧ k'.untrack = k.untrack ∧
      e'.untrack = e.untrack := by
  cases p
  case prRegular l' k' v =>
    have h : Ast.prRegular none k'.untrack v.untrack =
      Ast.prRegular none k.untrack (.vInit e.untrack) := h
    injection h with _ h1 h2
    cases v
    case vInit e' =>
      have h2 : Ast.vInit e'.untrack = Ast.vInit e.untrack := h2
      injection h2 with h3
      exact ⟨_, _, _, rfl, h1, h3⟩
    all_goals cases h2
  all_goals cases h

theorem untrack_prShorthand {p : Ast .prop} {i : Id}
    (h : p.untrack = (Ast.prShorthand i).untrack) :
    ∃ j, p = .prShorthand j ∧ j.untrack = i.untrack := by
  cases p
  case prShorthand j =>
    have h : Ast.prShorthand j.untrack = Ast.prShorthand i.untrack := h
    injection h with h1
    exact ⟨_, rfl, h1⟩
  all_goals cases h

theorem untrack_cons {c : Cat} {xs : Ast (.list c)} {y : Ast c} {ys : Ast (.list c)}
    (h : xs.untrack = (Ast.cons y ys).untrack) :
    ∃ y' ys', xs = .cons y' ys' ∧ y'.untrack = y.untrack ∧ ys'.untrack = ys.untrack := by
  cases xs with
  | nil => cases h
  | cons y' ys' =>
    have h : Ast.cons y'.untrack ys'.untrack = Ast.cons y.untrack ys.untrack := h
    injection h with _ h1 h2
    exact ⟨_, _, rfl, h1, h2⟩

theorem untrack_nil {c : Cat} {xs : Ast (.list c)} (h : xs.untrack = (Ast.nil : Ast (.list c)).untrack) :
    xs = .nil := by
  cases xs with
  | nil => rfl
  | cons y' ys' => cases h

theorem untrack_none {c : Cat} {x : Ast (.opt c)} (h : x.untrack = (Ast.none : Ast (.opt c)).untrack) :
    x = .none := by
  cases x with
  | none => rfl
  | some y => cases h

theorem untrack_some {c : Cat} {x : Ast (.opt c)} {y : Ast c} (h : x.untrack = (Ast.some y).untrack) :
    ∃ y', x = .some y' ∧ y'.untrack = y.untrack := by
  cases x with
  | none => cases h
  | some y' =>
    have h : Ast.some y'.untrack = Ast.some y.untrack := h
    injection h with _ h1
    exact ⟨_, rfl, h1⟩

theorem untrack_iExpr {x : Ast .item} {y : Expr} (h : x.untrack = (Ast.iExpr y).untrack) :
    ∃ y', x = .iExpr y' ∧ y'.untrack = y.untrack := by
  cases x with
  | iExpr y' =>
    have h : Ast.iExpr y'.untrack = Ast.iExpr y.untrack := h
    injection h with h1
    exact ⟨_, rfl, h1⟩
  | iSpread _ _ => cases h

/-! ### The conversion -/

/-- The results for the elements of an array. -/
abbrev results (ys : Ast (.list (.opt .item))) : List (Option ItemResult) := convert ys

/-- What is shown about the parts of a pattern. -/
@[reducible] def Covers : {c : Cat} → Ast c → Prop
  | .target, t => ∀ e : Expr, e.untrack = (source t : Expr).untrack →
      ∃ t', intoAssignTarget e = .ok t' ∧ t'.untrack = t.untrack
  | .patt .target, p => ∀ e : Expr, e.untrack = (source p : Expr).untrack →
      ∃ p' : PattTarget, (convert e : Except CoverError PattTarget) = .ok p' ∧
        p'.untrack = p.untrack
  | .comp .target, p => ∀ e : Expr, e.untrack = (source p : Expr).untrack →
      ∃ p' : Ast (.comp .target), (convert e : Except CoverError PattTarget) = .ok (.pCompound p') ∧
        p'.untrack = p.untrack
  | .propPatt .target, p => ∀ e : Ast .prop, e.untrack = (source p : Ast .prop).untrack →
      ∃ p' : Ast (.propPatt .target),
        (convert e : Except CoverError (Ast (.propPatt .target))) = .ok p' ∧
        p'.untrack = p.untrack
  | .list (.propPatt .target), ps => ∀ es : Ast (.list .prop),
      es.untrack = (Ast.ofList (source ps : List (Ast .prop))).untrack →
      ∃ ps' : Ast (.list (.propPatt .target)), props (convert es) = .ok ps' ∧
        ps'.untrack = ps.untrack
  | .opt (.patt .target), x => ∀ y : Ast (.opt .item),
      y.untrack = (arrayItem (source x : Option Expr)).untrack →
      (x = .none ∧ y = .none) ∨ ∃ p e p', x = .some p ∧ y = .some (.iExpr e) ∧
        (convert e : Except CoverError PattTarget) = .ok p' ∧ p'.untrack = p.untrack
  | .list (.opt (.patt .target)), xs => ∀ ys : Ast (.list (.opt .item)),
      ys.untrack = (Ast.ofList ((source xs : List (Option Expr)).map arrayItem)).untrack →
      (∃ xs' : Ast (.list (.opt (.patt .target))), elements (convert ys) = .ok xs' ∧
        xs'.untrack = xs.untrack) ∧
      ∀ r ∈ results ys, ∀ l q, r ≠ Option.some (.spread l q)
  | _, _ => True

theorem splitRest_plain {es : List (Option ItemResult)}
    (h : ∀ r ∈ es, ∀ l q, r ≠ Option.some (.spread l q)) : splitRest es = (es, Option.none) := by
  unfold splitRest
  split
  · rename_i r heq
    exact (h _ (List.mem_of_getLast? heq) _ _ rfl).elim
  · rfl

theorem covers : {c : Cat} → (p : Ast c) → restFree p → Covers p
  | .target, .tId i, _ => by
    intro e he
    obtain ⟨j, rfl, hj⟩ := untrack_eId he
    refine ⟨_, rfl, ?_⟩
    show Ast.tId j.untrack = Ast.tId i.untrack
    rw [hj]
  | .target, .tDot l x k, _ => by
    intro e he
    obtain ⟨l', e', k', rfl, h1, h2⟩ := untrack_eDot he
    refine ⟨_, rfl, ?_⟩
    show Ast.tDot none e'.untrack k'.untrack = Ast.tDot none x.untrack k.untrack
    rw [h1, h2]
  | .target, .tBrack l x y, _ => by
    intro e he
    obtain ⟨l', e', y', rfl, h1, h2⟩ := untrack_eBrack he
    refine ⟨_, rfl, ?_⟩
    show Ast.tBrack none e'.untrack y'.untrack = Ast.tBrack none x.untrack y.untrack
    rw [h1, h2]
  | .patt .target, .pSimple t, h => by
    intro e he
    have h1 : Covers t := covers t (by cases t <;> trivial)
    obtain ⟨t', h2, h3⟩ := h1 e he
    refine ⟨.pSimple t', ?_, Ut.pSimple h3⟩
    have : (convert e : Except CoverError PattTarget) =
        (do return .pSimple (← intoAssignTarget e) : Except CoverError PattTarget) := by
      cases e <;> first | rfl | cases h2
    rw [this, h2]
    rfl
  | .patt .target, .pCompound p, h => by
    intro e he
    obtain ⟨p', h2, h3⟩ := covers p h e he
    refine ⟨.pCompound p', h2, ?_⟩
    show Ast.pCompound p'.untrack = Ast.pCompound p.untrack
    rw [h3]
  | .comp .target, .cArr l es .none, h => by
    intro e he
    have he : e.untrack = (Ast.eArr l (.ofList ((source es : List (Option Expr)).map arrayItem ++
      []))).untrack := he
    rw [List.append_nil] at he
    obtain ⟨l', es', rfl, h1⟩ := untrack_eArr he
    obtain ⟨⟨xs', h2, h3⟩, h4⟩ := covers es h es' h1
    refine ⟨.cArr l' xs' .none, ?_, ?_⟩
    · show array l' (convert es') = _
      unfold array
      rw [splitRest_plain h4]
      simp only [h2]
      rfl
    · show Ast.cArr none xs'.untrack Ast.none = Ast.cArr none es.untrack Ast.none
      rw [h3]
  | .comp .target, .cArr l es (.some r), h => h.elim
  | .comp .target, .cObj l ps, h => by
    intro e he
    obtain ⟨l', ps', rfl, h1⟩ := untrack_eObj he
    obtain ⟨xs', h2, h3⟩ := covers ps h ps' h1
    refine ⟨.cObj l' xs', ?_, ?_⟩
    · show (do return .pCompound (.cObj l' (← props (convert ps'))) : Except CoverError PattTarget) = _
      rw [h2]
      rfl
    · show Ast.cObj none xs'.untrack = Ast.cObj none ps.untrack
      rw [h3]
  | .propPatt .target, .ppRegular l k p, h => by
    intro e he
    obtain ⟨l', k', e', rfl, h1, h2⟩ := untrack_prRegular he
    obtain ⟨p', h3, h4⟩ := covers p h e' h2
    refine ⟨.ppRegular l' k' p', ?_, ?_⟩
    · show (do return .ppRegular l' k' (← (convert e' : Except CoverError PattTarget)) :
        Except CoverError (Ast (.propPatt .target))) = _
      rw [h3]
      rfl
    · show Ast.ppRegular none k'.untrack p'.untrack = Ast.ppRegular none k.untrack p.untrack
      rw [h1, h4]
  | .propPatt .target, .ppShorthand i, h => by
    intro e he
    obtain ⟨j, rfl, h1⟩ := untrack_prShorthand he
    refine ⟨_, rfl, ?_⟩
    show Ast.ppShorthand j.untrack = Ast.ppShorthand i.untrack
    rw [h1]
  | .list (.propPatt .target), .nil, _ => by
    intro es hes
    rw [untrack_nil hes]
    exact ⟨.nil, rfl, rfl⟩
  | .list (.propPatt .target), .cons p ps, h => by
    intro es hes
    obtain ⟨e', es', rfl, h1, h2⟩ := untrack_cons hes
    obtain ⟨p', a1, a2⟩ := covers p h.1 e' h1
    obtain ⟨ps', b1, b2⟩ := covers ps h.2 es' h2
    refine ⟨.cons p' ps', ?_, Ut.cons a2 b2⟩
    show (do
        let a ← (convert e' : Except CoverError (Ast (.propPatt .target)))
        let b ← props (convert es')
        return .cons a b : Except CoverError (Ast (.list (.propPatt .target)))) = _
    rw [a1, b1]
    rfl
  | .opt (.patt .target), .none, _ => by
    intro y hy
    exact .inl ⟨rfl, untrack_none hy⟩
  | .opt (.patt .target), .some p, h => by
    intro y hy
    obtain ⟨x, rfl, h1⟩ := untrack_some hy
    obtain ⟨e, rfl, h2⟩ := untrack_iExpr h1
    obtain ⟨p', a1, a2⟩ := covers p h e h2
    exact .inr ⟨p, e, p', rfl, rfl, a1, a2⟩
  | .list (.opt (.patt .target)), .nil, _ => by
    intro ys hys
    rw [untrack_nil hys]
    exact ⟨⟨.nil, rfl, rfl⟩, fun r hr => by cases hr⟩
  | .list (.opt (.patt .target)), .cons x xs, h => by
    intro ys hys
    obtain ⟨y', ys', rfl, h1, h2⟩ := untrack_cons hys
    obtain ⟨⟨xs', b1, b2⟩, b3⟩ := covers xs h.2 ys' h2
    rcases covers x h.1 y' h1 with ⟨rfl, rfl⟩ | ⟨p, e, p', rfl, rfl, a1, a2⟩
    · refine ⟨⟨.cons .none xs', ?_, Ut.cons rfl b2⟩, fun r hr => ?_⟩
      · show (do return .cons .none (← elements (convert ys')) :
          Except CoverError (Ast (.list (.opt (.patt .target))))) = _
        rw [b1]
        rfl
      · rcases List.mem_cons.1 hr with rfl | hr
        · intro l q hh; cases hh
        · exact b3 r hr
    · refine ⟨⟨.cons (.some p') xs', ?_, Ut.cons (Ut.some a2) b2⟩, fun r hr => ?_⟩
      · show (do
          let a ← (convert e : Except CoverError PattTarget)
          let b ← elements (convert ys')
          return .cons (.some a) b :
          Except CoverError (Ast (.list (.opt (.patt .target))))) = _
        rw [a1, b1]
        rfl
      · rcases List.mem_cons.1 hr with rfl | hr
        · intro l q hh; cases hh
        · exact b3 r hr
  | .id, _, _ | .propKey, _, _ | .expr, _, _ | .item, _, _ | .prop, _, _ | .propVal, _, _
  | .params, _, _ | .sitem, _, _ | .modItem, _, _ | .«import», _, _ | .«export», _, _
  | .decl, _, _ | .dtor, _, _ | .constDtor, _, _ | .block, _, _ | .stmt, _, _ | .forHead, _, _
  | .forInHead, _, _ | .forOfHead, _, _ | .«catch», _, _ | .case, _, _ | (.rest _), _, _
  | (.func _), _, _ | (.body _), _, _ | (.patt .id), _, _ | (.patt .propKey), _, _
  | (.patt .expr), _, _ | (.patt .item), _, _ | (.patt .prop), _, _ | (.patt .propVal), _, _
  | (.patt .params), _, _ | (.patt .sitem), _, _ | (.patt .modItem), _, _
  | (.patt .«import»), _, _ | (.patt .«export»), _, _ | (.patt .decl), _, _ | (.patt .dtor), _, _
  | (.patt .constDtor), _, _ | (.patt .block), _, _ | (.patt .stmt), _, _
  | (.patt .forHead), _, _ | (.patt .forInHead), _, _ | (.patt .forOfHead), _, _
  | (.patt .«catch»), _, _ | (.patt .case), _, _ | (.patt (.list _)), _, _
  | (.patt (.opt _)), _, _ | (.patt (.patt _)), _, _ | (.patt (.comp _)), _, _
  | (.patt (.rest _)), _, _ | (.patt (.propPatt _)), _, _ | (.patt (.func _)), _, _
  | (.patt (.body _)), _, _ | (.comp .id), _, _ | (.comp .propKey), _, _ | (.comp .expr), _, _
  | (.comp .item), _, _ | (.comp .prop), _, _ | (.comp .propVal), _, _ | (.comp .params), _, _
  | (.comp .sitem), _, _ | (.comp .modItem), _, _ | (.comp .«import»), _, _
  | (.comp .«export»), _, _ | (.comp .decl), _, _ | (.comp .dtor), _, _
  | (.comp .constDtor), _, _ | (.comp .block), _, _ | (.comp .stmt), _, _
  | (.comp .forHead), _, _ | (.comp .forInHead), _, _ | (.comp .forOfHead), _, _
  | (.comp .«catch»), _, _ | (.comp .case), _, _ | (.comp (.list _)), _, _
  | (.comp (.opt _)), _, _ | (.comp (.patt _)), _, _ | (.comp (.comp _)), _, _
  | (.comp (.rest _)), _, _ | (.comp (.propPatt _)), _, _ | (.comp (.func _)), _, _
  | (.comp (.body _)), _, _ | (.propPatt .id), _, _ | (.propPatt .propKey), _, _
  | (.propPatt .expr), _, _ | (.propPatt .item), _, _ | (.propPatt .prop), _, _
  | (.propPatt .propVal), _, _ | (.propPatt .params), _, _ | (.propPatt .sitem), _, _
  | (.propPatt .modItem), _, _ | (.propPatt .«import»), _, _ | (.propPatt .«export»), _, _
  | (.propPatt .decl), _, _ | (.propPatt .dtor), _, _ | (.propPatt .constDtor), _, _
  | (.propPatt .block), _, _ | (.propPatt .stmt), _, _ | (.propPatt .forHead), _, _
  | (.propPatt .forInHead), _, _ | (.propPatt .forOfHead), _, _ | (.propPatt .«catch»), _, _
  | (.propPatt .case), _, _ | (.propPatt (.list _)), _, _ | (.propPatt (.opt _)), _, _
  | (.propPatt (.patt _)), _, _ | (.propPatt (.comp _)), _, _ | (.propPatt (.rest _)), _, _
  | (.propPatt (.propPatt _)), _, _ | (.propPatt (.func _)), _, _ | (.propPatt (.body _)), _, _
  | (.opt .id), _, _ | (.opt .propKey), _, _ | (.opt .expr), _, _ | (.opt .item), _, _
  | (.opt .target), _, _ | (.opt .prop), _, _ | (.opt .propVal), _, _ | (.opt .params), _, _
  | (.opt .sitem), _, _ | (.opt .modItem), _, _ | (.opt .«import»), _, _ | (.opt .«export»), _, _
  | (.opt .decl), _, _ | (.opt .dtor), _, _ | (.opt .constDtor), _, _ | (.opt .block), _, _
  | (.opt .stmt), _, _ | (.opt .forHead), _, _ | (.opt .forInHead), _, _
  | (.opt .forOfHead), _, _ | (.opt .«catch»), _, _ | (.opt .case), _, _ | (.opt (.list _)), _, _
  | (.opt (.opt _)), _, _ | (.opt (.comp _)), _, _ | (.opt (.rest _)), _, _
  | (.opt (.propPatt _)), _, _ | (.opt (.func _)), _, _ | (.opt (.body _)), _, _
  | (.opt (.patt .id)), _, _ | (.opt (.patt .propKey)), _, _ | (.opt (.patt .expr)), _, _
  | (.opt (.patt .item)), _, _ | (.opt (.patt .prop)), _, _ | (.opt (.patt .propVal)), _, _
  | (.opt (.patt .params)), _, _ | (.opt (.patt .sitem)), _, _ | (.opt (.patt .modItem)), _, _
  | (.opt (.patt .«import»)), _, _ | (.opt (.patt .«export»)), _, _ | (.opt (.patt .decl)), _, _
  | (.opt (.patt .dtor)), _, _ | (.opt (.patt .constDtor)), _, _ | (.opt (.patt .block)), _, _
  | (.opt (.patt .stmt)), _, _ | (.opt (.patt .forHead)), _, _ | (.opt (.patt .forInHead)), _, _
  | (.opt (.patt .forOfHead)), _, _ | (.opt (.patt .«catch»)), _, _ | (.opt (.patt .case)), _, _
  | (.opt (.patt (.list _))), _, _ | (.opt (.patt (.opt _))), _, _
  | (.opt (.patt (.patt _))), _, _ | (.opt (.patt (.comp _))), _, _
  | (.opt (.patt (.rest _))), _, _ | (.opt (.patt (.propPatt _))), _, _
  | (.opt (.patt (.func _))), _, _ | (.opt (.patt (.body _))), _, _ | (.list .id), _, _
  | (.list .propKey), _, _ | (.list .expr), _, _ | (.list .item), _, _ | (.list .target), _, _
  | (.list .prop), _, _ | (.list .propVal), _, _ | (.list .params), _, _ | (.list .sitem), _, _
  | (.list .modItem), _, _ | (.list .«import»), _, _ | (.list .«export»), _, _
  | (.list .decl), _, _ | (.list .dtor), _, _ | (.list .constDtor), _, _ | (.list .block), _, _
  | (.list .stmt), _, _ | (.list .forHead), _, _ | (.list .forInHead), _, _
  | (.list .forOfHead), _, _ | (.list .«catch»), _, _ | (.list .case), _, _
  | (.list (.list _)), _, _ | (.list (.patt _)), _, _ | (.list (.comp _)), _, _
  | (.list (.rest _)), _, _ | (.list (.func _)), _, _ | (.list (.body _)), _, _
  | (.list (.propPatt .id)), _, _ | (.list (.propPatt .propKey)), _, _
  | (.list (.propPatt .expr)), _, _ | (.list (.propPatt .item)), _, _
  | (.list (.propPatt .prop)), _, _ | (.list (.propPatt .propVal)), _, _
  | (.list (.propPatt .params)), _, _ | (.list (.propPatt .sitem)), _, _
  | (.list (.propPatt .modItem)), _, _ | (.list (.propPatt .«import»)), _, _
  | (.list (.propPatt .«export»)), _, _ | (.list (.propPatt .decl)), _, _
  | (.list (.propPatt .dtor)), _, _ | (.list (.propPatt .constDtor)), _, _
  | (.list (.propPatt .block)), _, _ | (.list (.propPatt .stmt)), _, _
  | (.list (.propPatt .forHead)), _, _ | (.list (.propPatt .forInHead)), _, _
  | (.list (.propPatt .forOfHead)), _, _ | (.list (.propPatt .«catch»)), _, _
  | (.list (.propPatt .case)), _, _ | (.list (.propPatt (.list _))), _, _
  | (.list (.propPatt (.opt _))), _, _ | (.list (.propPatt (.patt _))), _, _
  | (.list (.propPatt (.comp _))), _, _ | (.list (.propPatt (.rest _))), _, _
  | (.list (.propPatt (.propPatt _))), _, _ | (.list (.propPatt (.func _))), _, _
  | (.list (.propPatt (.body _))), _, _ | (.list (.opt .id)), _, _
  | (.list (.opt .propKey)), _, _ | (.list (.opt .expr)), _, _ | (.list (.opt .item)), _, _
  | (.list (.opt .target)), _, _ | (.list (.opt .prop)), _, _ | (.list (.opt .propVal)), _, _
  | (.list (.opt .params)), _, _ | (.list (.opt .sitem)), _, _ | (.list (.opt .modItem)), _, _
  | (.list (.opt .«import»)), _, _ | (.list (.opt .«export»)), _, _ | (.list (.opt .decl)), _, _
  | (.list (.opt .dtor)), _, _ | (.list (.opt .constDtor)), _, _ | (.list (.opt .block)), _, _
  | (.list (.opt .stmt)), _, _ | (.list (.opt .forHead)), _, _ | (.list (.opt .forInHead)), _, _
  | (.list (.opt .forOfHead)), _, _ | (.list (.opt .«catch»)), _, _ | (.list (.opt .case)), _, _
  | (.list (.opt (.list _))), _, _ | (.list (.opt (.opt _))), _, _
  | (.list (.opt (.comp _))), _, _ | (.list (.opt (.rest _))), _, _
  | (.list (.opt (.propPatt _))), _, _ | (.list (.opt (.func _))), _, _
  | (.list (.opt (.body _))), _, _ | (.list (.opt (.patt .id))), _, _
  | (.list (.opt (.patt .propKey))), _, _ | (.list (.opt (.patt .expr))), _, _
  | (.list (.opt (.patt .item))), _, _ | (.list (.opt (.patt .prop))), _, _
  | (.list (.opt (.patt .propVal))), _, _ | (.list (.opt (.patt .params))), _, _
  | (.list (.opt (.patt .sitem))), _, _ | (.list (.opt (.patt .modItem))), _, _
  | (.list (.opt (.patt .«import»))), _, _ | (.list (.opt (.patt .«export»))), _, _
  | (.list (.opt (.patt .decl))), _, _ | (.list (.opt (.patt .dtor))), _, _
  | (.list (.opt (.patt .constDtor))), _, _ | (.list (.opt (.patt .block))), _, _
  | (.list (.opt (.patt .stmt))), _, _ | (.list (.opt (.patt .forHead))), _, _
  | (.list (.opt (.patt .forInHead))), _, _ | (.list (.opt (.patt .forOfHead))), _, _
  | (.list (.opt (.patt .«catch»))), _, _ | (.list (.opt (.patt .case))), _, _
  | (.list (.opt (.patt (.list _)))), _, _ | (.list (.opt (.patt (.opt _)))), _, _
  | (.list (.opt (.patt (.patt _)))), _, _ | (.list (.opt (.patt (.comp _)))), _, _
  | (.list (.opt (.patt (.rest _)))), _, _ | (.list (.opt (.patt (.propPatt _)))), _, _
  | (.list (.opt (.patt (.func _)))), _, _ | (.list (.opt (.patt (.body _)))), _, _ => trivial

theorem intoAssignPatt_covers {p : PattTarget} (hp : restFree p) {e : Expr}
    (h : e.untrack = (sourceExpr p).untrack) :
    ∃ p', intoAssignPatt e = .ok p' ∧ p'.untrack = p.untrack := covers p hp e h

theorem intoAssignTarget_covers {t : AssignTarget} {e : Expr}
    (h : e.untrack = (sourceTarget t).untrack) :
    ∃ t', intoAssignTarget e = .ok t' ∧ t'.untrack = t.untrack :=
  covers t (by cases t <;> trivial) e h

end Esprit
