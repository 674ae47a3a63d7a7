import Verif.Proofs.DebugAst

/-! Equal syntax trees have equal texts; derived `Debug`. -/

set_option linter.unusedSimpArgs false

namespace Esprit

open Dbg

/-- Equal numbers that are not negative zeros have the same text. -/
theorem num_of_same [L : LawfulDebugStd] {x y : F64} (hx : x ≠ .num true 0) (hy : y ≠ .num true 0)
    (h : SameNumber x y) : DebugStd.num x = DebugStd.num y := by
  by_cases h0 : x.toRat? = some 0
  · have zero {z : F64} (hz : z ≠ .num true 0) (h : z.toRat? = some 0) : z = .num false 0 := by
      cases z with
      | num neg m =>
        cases neg with
        | false => simp only [F64.toRat?, Bool.false_eq_true, if_false, Option.some.injEq] at h; rw [h]
        | true =>
          simp only [F64.toRat?, if_true, Option.some.injEq] at h
          have : m = 0 := by rw [← Rat.neg_neg (a := m), h]; rfl
          exact absurd (by rw [this]) hz
      | _ => cases h
    cases h with
    | inf => cases h0
    | num h1 h2 =>
      rw [h1] at h0
      rw [zero hx (by rw [h1, h0]), zero hy (by rw [h2, h0])]
  · exact L.num_equal h h0

theorem NumberLiteral.dbg_of_same [LawfulDebugStd] {m n : NumberLiteral} (hm : m.value ≠ .num true 0)
    (hn : n.value ≠ .num true 0) (h : SameNumber m.value n.value) : m.dbg = n.dbg := by
  rw [NumberLiteral.dbg, NumberLiteral.dbg, num_of_same hm hn h]

theorem PropKey.dbg_of_agree [LawfulDebugStd] {k k' : PropKey} (h : k.Agree k')
    (hk : ∀ n ∈ k.numbers, n.value ≠ .num true 0) (hk' : ∀ n ∈ k'.numbers, n.value ≠ .num true 0) :
    k.dbg = k'.dbg := by
  cases h with
  | id => rfl
  | string h => simp only [PropKey.dbg, StringLiteral.dbg, h]
  | number h =>
    rw [PropKey.dbg, PropKey.dbg, NumberLiteral.dbg_of_same (hk _ (List.mem_singleton_self _))
      (hk' _ (List.mem_singleton_self _)) h]

theorem dirs_dbg_of_agree {ds ds' : List Dir} (h : DirsAgree ds ds') :
    ds.map Dir.dbg = ds'.map Dir.dbg := by
  induction h with
  | nil => rfl
  | cons h1 h2 h3 _ ih =>
    simp only [List.map_cons, ih, Dir.dbg, StringLiteral.dbg, h1, h2, h3]

namespace Ast

theorem entries_of_agree [LawfulDebugStd] {c : Cat} {x y : Ast c} (h : Agree x y)
    (hx : ∀ n ∈ x.numbers, n.value ≠ .num true 0) (hy : ∀ n ∈ y.numbers, n.value ≠ .num true 0) :
    x.entries = y.entries := by
  induction h with
  | nil => rfl
  | key h => exact PropKey.dbg_of_agree h hx hy
  | eNumber h =>
    exact congrArg (fun d => Dbg.tup c!"Number" [d]) (NumberLiteral.dbg_of_same
      (hx _ (List.mem_singleton_self _)) (hy _ (List.mem_singleton_self _)) h)
  | eRegExp h1 h2 =>
    simp only [entries, RegExpLiteral.dbg, h1, (alphabetize_eq_iff _ _).2 h2]
  | ppRegular h h' ih =>
    simp only [numbers, List.mem_append, or_imp, forall_and] at hx hy
    simp only [entries, PropKey.dbg_of_agree h hx.1 hy.1, ih hx.2 hy.2]
  | prRegular h h' ih =>
    simp only [numbers, List.mem_append, or_imp, forall_and] at hx hy
    simp only [entries, PropKey.dbg_of_agree h hx.1 hy.1, ih hx.2 hy.2]
  | body h h' ih =>
    simp only [numbers] at hx hy
    simp only [entries, dirs_dbg_of_agree h, ih hx hy]
  | eNew h h' ih ih' =>
    simp only [numbers, List.mem_append, or_imp, forall_and] at hx hy
    have h1 := ih hx.1 hy.1
    have h2 := ih' hx.2 hy.2
    cases h' with
    | none => simp only [entries, h1]
    | some h' =>
      simp only [entries, tup, wrap, List.foldr_cons, List.foldr_nil, Dbg.tuple.injEq, true_and,
        Dbg.cons.injEq, Dbg.list.injEq, and_true] at h2
      simp only [entries, h1, h2]
  | _ =>
    simp only [numbers, List.mem_append, or_imp, forall_and] at hx hy
    simp_all [entries, StringLiteral.dbg]

theorem debug_of_agree [LawfulDebugStd] {c : Cat} {x y : Ast c} (h : Agree x y)
    (hx : ∀ n ∈ x.numbers, n.value ≠ .num true 0) (hy : ∀ n ∈ y.numbers, n.value ≠ .num true 0) :
    x.debug = y.debug := by
  rw [debug, debug, dbg, dbg, entries_of_agree h hx hy]

end Ast

/-! ### Derived implementations -/

theorem derived_dbg [DebugStd] {c : Cat} (x : Ast c) (hc : c ≠ .expr) {v : Derive.Value Derive.Part}
    (h : Derive.view x = some v) : x.dbg = v.dbg := by
  cases x <;> first | exact absurd rfl hc | (cases h; rfl) | cases h

theorem expr_dbg [DebugStd] (x : Expr) (hn : ∀ l callee args, x ≠ .eNew l callee args)
    {v : Derive.Value Derive.Part} (h : Derive.view x = some v) : x.dbg = v.dropLocs.dbg := by
  cases x <;> first | (cases h; rfl) | exact absurd rfl (hn _ _ _)

end Esprit
