import Verif.Props.Syntax

/-! An assignment pattern is determined by the expression it stands for. -/

namespace Esprit

namespace Patt

/-- The categories of assignment patterns. -/
def targetCat : Cat → Bool
  | .target => true
  | .patt c => c == .target
  | .comp c => c == .target
  | .rest c => c == .target
  | .propPatt c => c == .target
  | .list c => targetCat c
  | .opt c => targetCat c
  | _ => false

theorem arrayItem_inj {a b : Option Expr} (h : arrayItem a = arrayItem b) : a = b := by
  cases a <;> cases b <;> cases h <;> rfl

/-- The elements before a spread element. -/
theorem items_inj : {as bs : List (Option Expr)} → {a b : Option (Ast .item)} →
    (∀ x, a = some x → ∃ l e, x = .iSpread l e) → (∀ x, b = some x → ∃ l e, x = .iSpread l e) →
    as.map arrayItem ++ a.toList.map Ast.some = bs.map arrayItem ++ b.toList.map Ast.some →
    as = bs ∧ a = b
  | [], [], a, b, _, _, h => by
    refine ⟨rfl, ?_⟩
    cases a <;> cases b <;> first | rfl | (cases h; done) | (cases h; rfl)
  | x :: as, [], a, b, ha, hb, h => by
    cases b with
    | none => cases h
    | some y =>
      obtain ⟨l, e, rfl⟩ := hb y rfl
      cases x with
      | none => injection h with h1 h2; cases h1
      | some e => injection h with h1 h2; cases h1
  | [], x :: as, a, b, ha, hb, h => by
    cases a with
    | none => cases h
    | some y =>
      obtain ⟨l, e, rfl⟩ := ha y rfl
      cases x with
      | none => injection h with h1 h2; cases h1
      | some e => injection h with h1 h2; cases h1
  | x :: as, y :: bs, a, b, ha, hb, h => by
    injection h with h1 h2
    obtain ⟨h3, h4⟩ := items_inj ha hb h2
    exact ⟨by rw [arrayItem_inj h1, h3], h4⟩

theorem ofList_inj {c : Cat} {xs ys : List (Ast c)} (h : Ast.ofList xs = Ast.ofList ys) : xs = ys := by
  rw [← Ast.toList_ofList xs, h, Ast.toList_ofList]

theorem rest_spread (r : Ast (.opt (.rest .target))) :
    ∀ x, (source r : Option (Ast .item)) = some x → ∃ l e, x = .iSpread l e := by
  intro x h
  cases r with
  | none => cases h
  | some r =>
    cases r with
    | restPatt l p => cases h; exact ⟨_, _, rfl⟩

/-- A pattern is determined by its expression. -/
theorem source_inj : {c : Cat} → (p q : Ast c) → targetCat c = true → source p = source q → p = q
  | .target, p, q, _, h => by
    cases p <;> cases q <;> first | (cases h; done) | (cases h; rfl)
  | .patt .target, .pSimple p, .pSimple q, _, h => by rw [source_inj p q rfl h]
  | .patt .target, .pSimple p, .pCompound q, _, h => by
    cases p <;> cases q <;> cases h
  | .patt .target, .pCompound p, .pSimple q, _, h => by
    cases p <;> cases q <;> cases h
  | .patt .target, .pCompound p, .pCompound q, _, h => by rw [source_inj p q rfl h]
  | .comp .target, .cArr l es r, .cArr l' es' r', _, h => by
    injection h with h1 h2
    obtain ⟨h3, h4⟩ := items_inj (rest_spread r) (rest_spread r') (ofList_inj h2)
    rw [h1, source_inj es es' rfl h3, source_inj r r' rfl h4]
  | .comp .target, .cArr .., .cObj .., _, h => by cases h
  | .comp .target, .cObj .., .cArr .., _, h => by cases h
  | .comp .target, .cObj l ps, .cObj l' ps', _, h => by
    injection h with h1 h2
    rw [h1, source_inj ps ps' rfl (ofList_inj h2)]
  | .rest .target, .restPatt l p, .restPatt l' q, _, h => by
    injection h with h1 h2
    rw [h1, source_inj p q rfl h2]
  | .propPatt .target, .ppRegular l k p, .ppRegular l' k' q, _, h => by
    injection h with h1 h2 h3
    injection h3 with h3
    rw [h1, h2, source_inj p q rfl h3]
  | .propPatt .target, .ppRegular .., .ppShorthand .., _, h => by cases h
  | .propPatt .target, .ppShorthand .., .ppRegular .., _, h => by cases h
  | .propPatt .target, .ppShorthand i, .ppShorthand j, _, h => by cases h; rfl
  | .list c, .cons p ps, .cons q qs, hc, h => by
    injection h with h1 h2
    rw [source_inj p q hc h1, source_inj ps qs hc h2]
  | .list _, .cons .., .nil, _, h => by cases h
  | .list _, .nil, .cons .., _, h => by cases h
  | .list _, .nil, .nil, _, h => rfl
  | .opt c, .some p, .some q, hc, h => by
    injection h with h
    rw [source_inj p q hc h]
  | .opt _, .some .., .none, _, h => by cases h
  | .opt _, .none, .some .., _, h => by cases h
  | .opt _, .none, .none, _, h => rfl



/-- The pattern of the expression of a pattern. -/
theorem ofSource {p : PattTarget} (h : Assignable (sourceExpr p)) :
    Cover.intoAssignPatt (sourceExpr p) = .ok p := by
  obtain ⟨q, hq⟩ := (C19_pattern_exact _).mpr h
  rw [hq, source_inj q p rfl (C19_pattern_roundtrip _ _ hq)]

end Patt

end Esprit
