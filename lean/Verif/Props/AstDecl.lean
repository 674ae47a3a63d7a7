import Verif.Model.AstDecl
import Verif.Props.Derive

/-! C65: the derive macros, applied to the types of the syntax tree. -/

namespace Esprit.Derive

/-- The declarations that derive `TrackingRef` and `TrackingMut` or `Untrack`. -/
def declarations : List (MacroInput Ty) := [restPattDecl, compoundPattDecl, propPattDecl, pattDecl,
  targetDecl, importDecl, exportDecl, declDecl, dtorDecl, constDtorDecl, stmtDecl, bodyDecl, blockDecl,
  forHeadDecl, forInHeadDecl, forOfHeadDecl, catchDecl, caseDecl, dirDecl, modItemDecl, stmtListItemDecl,
  exprListItemDecl, exprDecl, propDecl, propValDecl, paramsDecl, funDecl, idDecl, dotKeyDecl, propKeyDecl,
  opDecl]

instance (data : VariantData Ty) : Decidable data.Legal := by
  cases data <;> unfold VariantData.Legal <;> infer_instance

instance (d : MacroInput Ty) : Decidable d.Legal := by
  unfold MacroInput.Legal
  infer_instance

/-- The declarations of the syntax tree are legal, and the macros work for them. -/
theorem C65_declarations : ∀ d ∈ declarations, d.Legal ∧ (∃ impl, expandUntrack d = some impl) ∧
    ∀ m, ∃ impl, expandTracking locationTy d m = some impl := by
  have hl : ∀ d ∈ declarations, d.Legal := by decide +kernel
  have ht : ∀ d ∈ declarations, ∀ m, (expandTracking locationTy d m).isSome = true := by decide +kernel
  intro d hd
  obtain ⟨impl, h, _⟩ := C65_untrack d (hl d hd)
  exact ⟨hl d hd, ⟨impl, h⟩, fun m => Option.isSome_iff_exists.1 (ht d hd m)⟩

theorem declOf_mem {c : Cat} {d : MacroInput Ty} {a : Option Cat} (h : declOf c = some (d, a)) :
    d ∈ declarations := by
  cases c <;> simp only [declOf, Option.some.injEq, Prod.mk.injEq, reduceCtorEq] at h
  all_goals
    obtain ⟨rfl, -⟩ := h
    simp only [declarations, List.mem_cons, true_or, or_true]

/-- The declared types of the fields, with the type argument and without boxes. -/
def fieldTypes (d : MacroInput Ty) (arg : Option Cat) : VariantData Ty → List Ty
  | .struct fs => fs.map fun f => inst f.ty
  | .tuple fs => fs.map fun f => inst f.ty
  | .unit => []
where
  /-- Replace the type parameter by the argument. -/
  inst (t : Ty) : Ty := match d.params, arg with
    | (x, _) :: _, some c => Ty.subst x (ofCat c) t.unbox
    | _, _ => t.unbox

/-- What a reference to a part of a node reads. -/
def Place.read (v : Value Part) : Place → Option Loc
  | .field i => v.fields.values[i]?.bind fun
    | .loc l => some l
    | _ => none
  | .via _ i => v.fields.values[i]?.bind Part.locOf

/-- Assignment to a location through a reference to a part of a node. -/
def Place.write (v : Value Part) (l : Loc) : Place → Value Part
  | .field i => ⟨v.path, v.fields.modify (fun _ => .loc l) i⟩
  | .via _ i => ⟨v.path, v.fields.modify (Part.setLoc l) i⟩

theorem ast_built {c : Cat} (x : Ast c) {d : MacroInput Ty} {arg : Option Cat}
    (h : declOf c = some (d, arg)) : ∃ v data, view x = some v ∧ d.Built v data ∧
      fieldTypes d arg data = v.fields.values.map Part.ty ∧
      ∀ m p, LocatedAt locationTy m data p → p.read v = some x.loc ∧
        ∀ l, view (x.setLoc l) = some (p.write v l) := by
  cases x
  all_goals
    simp only [declOf, Option.some.injEq, Prod.mk.injEq, reduceCtorEq] at h
    all_goals (
      obtain ⟨rfl, rfl⟩ := h
      refine ⟨_, ?_, rfl, ⟨?_, ?_⟩, ?_, ?_⟩
      rotate_left
      · show (_, _) ∈ _
        repeat (first | exact List.Mem.head _ | apply List.Mem.tail)
      · rfl
      · rfl
      · intro m p hl
        simp only [tup, List.map_cons, List.map_nil] at hl
        cases hl
        all_goals
          rename_i hf
          first
            | exact ⟨rfl, fun _ => rfl⟩
            | exact absurd rfl hf
            | (simp [locationTy] at hf; done)
            | (rename_i i
               rcases i with _ | i
               · exact ⟨rfl, fun _ => rfl⟩
               · exfalso
                 simp only [List.getElem?_cons_succ] at hf
                 rcases i with _ | _ | _ | _ | _ | _ | i <;> simp at hf))

/-- Every node of the syntax tree is a value of the declared type: it is built with one of
the declared constructors from fields of the declared types. -/
theorem C65_ast {c : Cat} (x : Ast c) {d : MacroInput Ty} {arg : Option Cat}
    (h : declOf c = some (d, arg)) : ∃ v data, view x = some v ∧ d.Built v data ∧
      fieldTypes d arg data = v.fields.values.map Part.ty := by
  obtain ⟨v, data, hv, hb, ht, _⟩ := ast_built x h
  exact ⟨v, data, hv, hb, ht⟩

/-- `untrack` of a node, in the model of the syntax tree, is what the generated
implementation does, whose calls of `untrack` are those of the methods of the fields. -/
theorem C65_ast_untrack {c : Cat} (x : Ast c) {d : MacroInput Ty} {arg : Option Cat} {impl : Impl}
    (h : declOf c = some (d, arg)) (hi : expandUntrack d = some impl) :
    ∃ v, view x = some v ∧ impl.run (fun _ => Part.untrack) v = view x.untrack := by
  obtain ⟨v, data, hv, hb, _⟩ := C65_ast x h
  obtain ⟨impl', hi', _, _, _, _, hrun⟩ := C65_untrack d (C65_declarations d (declOf_mem h)).1
  rw [hi] at hi'
  cases hi'
  refine ⟨v, hv, ?_⟩
  rw [hrun _ v data hb]
  clear hrun hb hi h
  cases x <;> first | (cases hv; done) | (cases hv; rfl)

/-- The location of a node and the assignment to it, in the model of the syntax tree, are
those of the generated `tracking_ref` and `tracking_mut`. -/
theorem C65_ast_location {c : Cat} (x : Ast c) {d : MacroInput Ty} {arg : Option Cat} {m : Bool}
    {impl : Impl} (h : declOf c = some (d, arg)) (hi : expandTracking locationTy d m = some impl) :
    ∃ v p, view x = some v ∧ impl.refer v = some p ∧ p.read v = some x.loc ∧
      ∀ l, view (x.setLoc l) = some (p.write v l) := by
  obtain ⟨v, data, hv, hb, _, hx⟩ := ast_built x h
  obtain ⟨p, hp, hl⟩ := C65_tracking locationTy d (C65_declarations d (declOf_mem h)).1 m hi hb
  exact ⟨v, p, hv, hp, hx _ p hl⟩

/-- The hypotheses are met by `f` as an expression, whose location is that of the
identifier, and by a rest pattern, whose location is a field. -/
example : ∃ d arg impl, declOf .expr = some (d, arg) ∧ expandTracking locationTy d true = some impl ∧
    ∀ l, ((view (.eId ⟨l, .string c!"f"⟩ : Ast .expr)).bind impl.refer) = some (.via c!"tracking_mut" 0) := by
  obtain ⟨impl, h⟩ := (C65_declarations exprDecl (declOf_mem (c := .expr) rfl)).2.2 true
  refine ⟨_, _, impl, rfl, h, fun l => ?_⟩
  cases h
  rfl

end Esprit.Derive
