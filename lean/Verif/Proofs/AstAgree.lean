import Verif.Proofs.AstSame

/-! Agreement of syntax trees is symmetric, transitive, and reflexive without NaN. -/

namespace Esprit

theorem F64.toRat?_none {x : F64} (h : x.toRat? = none) : x = .nan ∨ ∃ n, x = .inf n := by
  cases x <;> simp_all [F64.toRat?]

theorem SameNumber.symm {x y : F64} (h : SameNumber x y) : SameNumber y x := by
  cases h with
  | inf => exact .inf
  | num h h' => exact .num h' h

theorem SameNumber.trans {x y z : F64} (h : SameNumber x y) (h' : SameNumber y z) :
    SameNumber x z := by
  cases h with
  | inf => exact h'
  | num h1 h2 =>
    cases h' with
    | inf => cases h2
    | num h3 h4 =>
      rw [h2] at h3
      cases h3
      exact .num h1 h4

theorem SameNumber.refl {x : F64} (h : x ≠ .nan) : SameNumber x x := by
  cases hx : x.toRat? with
  | some q => exact .num hx hx
  | none =>
    rcases F64.toRat?_none hx with rfl | ⟨n, rfl⟩
    · exact absurd rfl h
    · exact .inf

theorem PropKey.Agree.symm {k k' : PropKey} (h : k.Agree k') : k'.Agree k := by
  cases h with
  | id => exact .id
  | string h => exact .string h.symm
  | number h => exact .number h.symm

theorem PropKey.Agree.trans {k k' k'' : PropKey} (h : k.Agree k') (h' : k'.Agree k'') :
    k.Agree k'' := by
  cases h with
  | id => exact h'
  | string h => cases h' with | string h' => exact .string (h.trans h')
  | number h => cases h' with | number h' => exact .number (h.trans h')

theorem PropKey.Agree.refl {k : PropKey} (h : ∀ n ∈ k.numbers, n.value ≠ .nan) : k.Agree k := by
  cases k with
  | id => exact .id
  | string => exact .string rfl
  | number => exact .number (.refl (h _ (by simp [PropKey.numbers])))

theorem DirsAgree.symm {ds ds' : List Dir} (h : DirsAgree ds ds') : DirsAgree ds' ds := by
  induction h with
  | nil => exact .nil
  | cons h1 h2 h3 _ ih => exact .cons h1.symm h2.symm h3.symm ih

theorem DirsAgree.trans {ds ds' ds'' : List Dir} (h : DirsAgree ds ds') (h' : DirsAgree ds' ds'') :
    DirsAgree ds ds'' := by
  induction h generalizing ds'' with
  | nil => exact h'
  | cons h1 h2 h3 _ ih =>
    cases h' with
    | cons g1 g2 g3 g4 => exact .cons (h1.trans g1) (h2.trans g2) (h3.trans g3) (ih g4)

theorem DirsAgree.refl (ds : List Dir) : DirsAgree ds ds := by
  induction ds with
  | nil => exact .nil
  | cons d ds ih => exact .cons rfl rfl rfl ih

namespace Ast

theorem Agree.symm {c : Cat} {a b : Ast c} (h : Agree a b) : Agree b a := by
  induction h with
  | key h => exact .key h.symm
  | ppRegular h _ ih => exact .ppRegular h.symm ih
  | prRegular h _ ih => exact .prRegular h.symm ih
  | eNumber h => exact .eNumber h.symm
  | eRegExp h h' => exact .eRegExp h.symm h'.symm
  | eString h => exact .eString h.symm
  | body h _ ih => exact .body h.symm ih
  | eNew _ _ ih ih' => exact .eNew ih ih'
  | newNoArgs _ ih => exact .newEmptyArgs ih
  | newEmptyArgs _ ih => exact .newNoArgs ih
  | importForEffect h => exact .importForEffect h.symm
  | _ => constructor <;> assumption

theorem Agree.trans {c : Cat} {a b d : Ast c} (h : Agree a b) (h' : Agree b d) : Agree a d := by
  induction h with
  | key h => cases h' with | key h' => exact .key (h.trans h')
  | ppRegular h _ ih => cases h' with | ppRegular h' h1 => exact .ppRegular (h.trans h') (ih h1)
  | prRegular h _ ih => cases h' with | prRegular h' h1 => exact .prRegular (h.trans h') (ih h1)
  | eNumber h => cases h' with | eNumber h' => exact .eNumber (h.trans h')
  | eRegExp h g => cases h' with | eRegExp h' g' => exact .eRegExp (h.trans h') (g.trans g')
  | eString h => cases h' with | eString h' => exact .eString (h.trans h')
  | body h _ ih => cases h' with | body h' h1 => exact .body (h.trans h') (ih h1)
  | eNew hc ha ih ih' =>
    cases h' with
    | eNew h1 h2 => exact .eNew (ih h1) (ih' h2)
    | newNoArgs h1 => cases ha; exact .newNoArgs (ih h1)
    | newEmptyArgs h1 =>
      cases ha with
      | some ha => cases ha; exact .newEmptyArgs (ih h1)
  | newNoArgs _ ih =>
    cases h' with
    | eNew h1 h2 =>
      cases h2 with
      | some h2 => cases h2; exact .newNoArgs (ih h1)
    | newEmptyArgs h1 => exact .eNew (ih h1) .none
  | newEmptyArgs _ ih =>
    cases h' with
    | eNew h1 h2 => cases h2; exact .newEmptyArgs (ih h1)
    | newNoArgs h1 => exact .eNew (ih h1) (.some .nil)
  | importForEffect h => cases h' with | importForEffect h' => exact .importForEffect (h.trans h')
  | _ =>
    cases h'
    constructor <;> (apply_assumption; assumption)

theorem Agree.refl {c : Cat} {a : Ast c} (h : ∀ n ∈ a.numbers, n.value ≠ .nan) : Agree a a := by
  induction a with
  | key k => exact .key (.refl h)
  | ppRegular l k p ih =>
    simp only [numbers, List.mem_append, or_imp, forall_and] at h
    exact .ppRegular (.refl h.1) (ih h.2)
  | prRegular l k p ih =>
    simp only [numbers, List.mem_append, or_imp, forall_and] at h
    exact .prRegular (.refl h.1) (ih h.2)
  | eNumber l n => exact .eNumber (.refl (h n (by simp [numbers])))
  | eRegExp => exact .eRegExp rfl (.refl _)
  | eString => exact .eString rfl
  | body l dirs items ih => exact .body (.refl _) (ih h)
  | eNew l callee args ih ih' =>
    simp only [numbers, List.mem_append, or_imp, forall_and] at h
    exact .eNew (ih h.1) (ih' h.2)
  | importForEffect => exact .importForEffect rfl
  | _ =>
    constructor <;>
      (apply_assumption; intro n hn
       exact h n (by simp only [numbers, List.mem_append, hn, true_or, or_true]))

end Ast

end Esprit
