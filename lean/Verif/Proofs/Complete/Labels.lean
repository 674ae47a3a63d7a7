import Verif.Proofs.Complete.Plain
import Verif.Spec.Ast
import Verif.Model.Untrack

/-! Distinct labels do not depend on locations. -/

namespace Esprit

open Lex ReaderSpec Grammar

/-- The tree without locations, as a node. -/
def Node.untrack (y : Node) : Node := ⟨y.1, y.2.untrack⟩

theorem isLoop_untrack : (s : Stmt) → isLoop s.untrack = isLoop s
  | .sLabel _ _ s => by
    show isLoop (.sLabel none _ s.untrack) = _
    unfold isLoop
    exact isLoop_untrack s
  | .sWhile .. | .sDoWhile .. | .sFor .. | .sForIn .. | .sForOf .. => by
    simp only [Ast.untrack]; unfold isLoop; rfl
  | .sEmpty .. | .sBlock .. | .sVar .. | .sExpr .. | .sIf .. | .sBreak .. | .sCont .. | .sWith ..
  | .sSwitch .. | .sReturn .. | .sThrow .. | .sTry .. | .sDebugger .. => by
    simp only [Ast.untrack]; unfold isLoop; rfl

theorem kids_untrack {c : Cat} (x : Ast c) (w : Place) :
    x.untrack.kids w = (x.kids w).map fun k => (k.1, k.2.untrack) := by
  cases x
  case sLabel l i s =>
    show [(w.inLabel _ (isLoop s.untrack), _)] = [_]
    rw [isLoop_untrack]; rfl
  all_goals rfl

theorem Occurs.untrack {w v : Place} {x y : Node} (h : Occurs w x v y) :
    Occurs w x.untrack v y.untrack := by
  induction h with
  | here => exact .here
  | under hm _ ih =>
    refine .under ?_ ih
    have h1 := List.mem_map (f := fun k : Place × Node => (k.1, k.2.untrack)).2 ⟨_, hm, rfl⟩
    rw [← kids_untrack] at h1
    exact h1

theorem Occurs.of_untrack {w v : Place} {x y : Node} (h : Occurs w x.untrack v y) :
    ∃ z, y = z.untrack ∧ Occurs w x v z := by
  generalize hx : x.untrack = x' at h
  induction h generalizing x with
  | here => exact ⟨x, hx.symm, .here⟩
  | under hm _ ih =>
    subst hx
    have hm := (kids_untrack x.2 _ ▸ hm : _ ∈ (x.2.kids _).map _)
    obtain ⟨k, h1, h2⟩ := List.mem_map.1 hm
    cases h2
    obtain ⟨z, h3, h4⟩ := ih rfl
    exact ⟨z, h3, .under h1 h4⟩

theorem labelOk_untrack {v : Place} {y : Node} : LabelOk v y.untrack ↔ LabelOk v y := by
  obtain ⟨c, y⟩ := y
  cases y <;> exact Iff.rfl

theorem distinctLabels_untrack {c : Cat} {x : Ast c} :
    DistinctLabels x.untrack ↔ DistinctLabels x := by
  constructor
  · intro h v y ho
    exact labelOk_untrack.1 (h v _ ho.untrack)
  · intro h v y ho
    obtain ⟨z, rfl, hz⟩ := Occurs.of_untrack (x := ⟨c, x⟩) ho
    exact labelOk_untrack.2 (h v z hz)

end Esprit
