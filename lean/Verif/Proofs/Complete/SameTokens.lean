import Verif.Proofs.Complete.Rename
import Verif.Proofs.LexSep

/-! Derivations depend only on the values of the tokens and the line terminators before them. -/

namespace Esprit

open Lex ReaderSpec Grammar

namespace Rename

/-- Nothing is renamed. -/
def noRenaming : Renaming := ⟨id, id, id, id⟩

theorem noRenaming_ok : IsRenaming noRenaming where
  inj _ _ h := h
  reserved _ _ _ := rfl
  contextual _ _ _ := rfl

theorem token_rename (v : TokenData) : v.rename noRenaming = v := by
  cases v <;> try rfl
  rename_i n
  cases n <;> rfl

theorem name_rename (n : Name) : n.rename noRenaming = n := by cases n <;> rfl
theorem id_rename (i : Id) : i.rename noRenaming = i := by
  cases i; simp [Id.rename, name_rename]
theorem dotKey_rename (k : DotKey) : k.rename noRenaming = k := rfl
theorem propKey_rename (k : PropKey) : k.rename noRenaming = k := by cases k <;> rfl
theorem dir_rename : Dir.rename noRenaming = id := rfl
theorem ids_rename : Id.rename noRenaming = id := funext id_rename
theorem ast_rename {c : Cat} (x : Ast c) : x.rename noRenaming = x := by
  have h1 : ∀ l, noRenaming.string l = l := fun _ => rfl
  have h2 : ∀ l, noRenaming.number l = l := fun _ => rfl
  have h3 : ∀ l, noRenaming.regExp l = l := fun _ => rfl
  have h4 : ∀ l, noRenaming.name l = l := fun _ => rfl
  induction x <;> simp_all [Ast.rename, id_rename, dotKey_rename, propKey_rename, dir_rename, ids_rename]

theorem rel_of : {ts ts' : List Token} → ts'.map flags = ts.map flags → Rename.Rel noRenaming false ts ts'
  | [], [], _ => .nil
  | [], _ :: _, h => nomatch h
  | _ :: _, [], h => nomatch h
  | t :: ts, t' :: ts', h => by
    obtain ⟨h1, h2⟩ := List.cons.inj h
    simp only [flags, Prod.mk.injEq] at h1
    refine .cons ⟨h1.2.trans (token_rename _).symm, fun _ h => h1.1.trans h, fun _ => h1.1⟩ (fun _ => ?_)
      (rel_of h2)
    rintro u r u' r' rfl rfl _ _
    exact congrArg Prod.fst (List.cons.inj h2).1

end Rename

end Esprit
