import Verif.Proofs.Estree
import Verif.Props.Syntax

/-!
# Conversion of ESTree JSON (C43, C45)
-/

namespace Esprit

open Estree

/-- **C43.** Converting a JSON object to a script returns a script or an error: it does
not panic (and the recursion follows the nesting of the object, so it ends). -/
theorem C43_no_panic (o : Object) :
    (∃ script, intoScript o = .ok script) ∨ ∃ e, intoScript o = .err e := by
  have h := intoScript_safe o
  revert h
  cases intoScript o with
  | ok s => exact fun _ => .inl ⟨s, rfl⟩
  | err e => exact fun _ => .inr ⟨e, rfl⟩
  | panic p => exact fun h => h.elim
  | fuel => exact fun h => h.elim

/-- **C43.** The resulting script carries no locations: untracking changes nothing. -/
theorem C43_untracked (o : Object) (script : Script) (h : intoScript o = .ok script) :
    script.untrack = script := by
  have := intoScript_safe o
  rw [h] at this
  exact this

/-- An identifier, as ESTree JSON. -/
def exampleId (s : Str) : Json :=
  .object [(c!"type", .string c!"Identifier"), (c!"name", .string s)]

/-- A string literal, as ESTree JSON. -/
def exampleString (s : Str) : Json :=
  .object [(c!"type", .string c!"Literal"), (c!"value", .string s)]

/-- An expression statement, as ESTree JSON. -/
def exampleStmt (e : Json) : Json :=
  .object [(c!"type", .string c!"ExpressionStatement"), (c!"expression", e)]

/-- `"use strict"; a = -b; "c"` as ESTree JSON. -/
def exampleProgram : Object :=
  [(c!"type", .string c!"Program"), (c!"body", .array [
    exampleStmt (exampleString c!"use strict"),
    exampleStmt (.object [(c!"type", .string c!"AssignmentExpression"), (c!"operator", .string c!"="),
      (c!"left", exampleId c!"a"),
      (c!"right", .object [(c!"type", .string c!"UnaryExpression"), (c!"operator", .string c!"-"),
        (c!"prefix", .bool true), (c!"argument", exampleId c!"b")])]),
    exampleStmt (exampleString c!"c")])]

/-- The converted program. -/
def exampleScript : Script :=
  .body none [⟨none, ⟨none, c!"use strict"⟩, .explicit none⟩]
    (.cons (.siStmt (.sExpr none (.eAssign none (.pSimple (.tId ⟨none, .string c!"a"⟩))
      (.eUnop none ⟨none, .minus⟩ (.eId ⟨none, .string c!"b"⟩))) (.explicit none)))
    (.cons (.siStmt (.sExpr none (.eString none ⟨none, c!"c"⟩) (.explicit none))) .nil))

example : intoScript exampleProgram = .ok exampleScript := rfl

/-- Errors are reported as errors. -/
example : ∃ e, intoScript [(c!"type", .string c!"Program"),
    (c!"body", .array [exampleStmt (exampleStmt (exampleId c!"a"))])] = .err e := ⟨_, rfl⟩

/-- `Leads stmts dirs`: the statements consist of string literals, and the directives
are those literals in order. -/
inductive Leads : List StmtListItem → List Dir → Prop where
  | nil : Leads [] []
  | cons {l l' : Loc} {s : StringLiteral} {semi : Semi} {stmts : List StmtListItem} {dirs : List Dir} :
      Leads stmts dirs → Leads (.siStmt (.sExpr l (.eString l' s) semi) :: stmts) (⟨l, s, semi⟩ :: dirs)

/-- A statement that consists of a string literal. -/
def IsStringStatement (i : StmtListItem) : Prop :=
  ∃ l l' s semi, i = .siStmt (.sExpr l (.eString l' s) semi)

/-- `Converts r js stmts`: each element of the array is an object, which `r` converts
to the statement or declaration at the same position. -/
inductive Converted (r : Estree.Rec) : List Json → List StmtListItem → Prop where
  | nil : Converted r [] []
  | cons {o : Object} {js : List Json} {i : StmtListItem} {stmts : List StmtListItem} :
      r.item o true = .ok i → Converted r js stmts → Converted r (.object o :: js) (i :: stmts)

private theorem isDirective_iff (i : StmtListItem) : isDirective i = true ↔ IsStringStatement i := by
  constructor
  · intro h
    cases i with
    | siDecl d => cases h
    | siStmt s =>
      cases s with
      | sExpr l e semi => cases e <;> first | exact ⟨_, _, _, _, rfl⟩ | cases h
      | _ => cases h
  · rintro ⟨l, l', s, semi, rfl⟩; rfl

private theorem splitPrefix_cons {α : Type} (p : α → Bool) (x : α) (xs : List α) :
    splitPrefix p (x :: xs) = if p x then (x :: (splitPrefix p xs).1, (splitPrefix p xs).2)
      else ([], x :: xs) := by
  unfold splitPrefix
  rw [List.findIdx?_cons]
  by_cases h : p x
  · simp only [h]
    cases List.findIdx? (fun x => !p x) xs <;> rfl
  · simp only [h]; rfl

private theorem split_leads : (l : List StmtListItem) →
    Leads (splitPrefix isDirective l).1 ((splitPrefix isDirective l).1.filterMap toDirective) ∧
    (∀ i, (splitPrefix isDirective l).2.head? = some i → ¬IsStringStatement i) ∧
    l = (splitPrefix isDirective l).1 ++ (splitPrefix isDirective l).2
  | [] => ⟨.nil, fun _ h => (by cases h), rfl⟩
  | i :: l => by
    obtain ⟨h1, h2, h3⟩ := split_leads l
    rw [splitPrefix_cons]
    by_cases h : isDirective i = true
    · rw [if_pos h]
      obtain ⟨a, b, s, semi, rfl⟩ := (isDirective_iff i).mp h
      exact ⟨.cons h1, h2, congrArg _ h3⟩
    · rw [if_neg h]
      refine ⟨.nil, fun j hj => ?_, rfl⟩
      cases hj
      exact fun hs => h ((isDirective_iff i).mpr hs)

private theorem ofList_toList {c : Cat} : (xs : List (Ast c)) → (Ast.ofList xs).toList = xs
  | [] => rfl
  | x :: xs => congrArg (x :: ·) (ofList_toList xs)

private theorem converted_of_maps (r : Estree.Rec) : (js : List Json) → (os : List Object) →
    (stmts : List StmtListItem) → mapList (fun v => ofJson v.intoObject) js = .ok os →
    mapList (fun o => r.item o true) os = .ok stmts → Converted r js stmts
  | [], os, stmts, h1, h2 => by cases h1; cases h2; exact .nil
  | j :: js, os, stmts, h1, h2 => by
    cases j with
    | object o =>
      replace h1 : ((mapList (fun v => ofJson v.intoObject) js).bind fun bs => .ok (o :: bs))
        = (Res.ok os : Estree.Result _) := h1
      cases hm : mapList (fun v => ofJson v.intoObject) js with
      | ok os' =>
        rw [hm] at h1
        cases h1
        replace h2 : ((r.item o true).bind fun b => (mapList (fun o => r.item o true) os').bind
          fun bs => .ok (b :: bs)) = (Res.ok stmts : Estree.Result _) := h2
        cases hi : r.item o true with
        | ok i =>
          rw [hi] at h2
          cases hs : mapList (fun o => r.item o true) os' with
          | ok ss =>
            rw [hs] at h2
            cases h2
            exact .cons hi (converted_of_maps r js os' ss hm hs)
          | _ => rw [hs] at h2; cases h2
        | _ => rw [hi] at h2; cases h2
      | _ => rw [hm] at h1; cases h1
    | _ => cases h1

/-- **C45.** Wherever a body is converted (the body of a script, function, method,
getter or setter: field `name` of the object `o`), the field is an array whose
elements are converted to statements; the directives of the body are the leading
statements that consist of a string literal, as many as there are, and the items are
the statements after them. -/
theorem C45_prologue (r : Estree.Rec) (name : Str) (o o' : Object) (l : Loc) (dirs : List Dir)
    (items : Ast (.list .sitem)) (h : extractScript r name o = .ok (.body l dirs items, o')) :
    ∃ js stmts lead, o.get name = some (.array js) ∧ Converted r js stmts ∧
      stmts = lead ++ items.toList ∧ Leads lead dirs ∧
      ∀ i, items.toList.head? = some i → ¬IsStringStatement i := by
  replace h : ((extractStmtList r name o).bind fun p => .ok (Ast.body none
      ((splitPrefix isDirective p.1).1.filterMap toDirective)
      (Ast.ofList (splitPrefix isDirective p.1).2), p.2)) = .ok (.body l dirs items, o') := h
  cases hl : extractStmtList r name o with
  | ok p =>
    rw [hl] at h
    obtain ⟨stmts, o1⟩ := p
    replace h : (Res.ok (Ast.body none ((splitPrefix isDirective stmts).1.filterMap toDirective)
      (Ast.ofList (splitPrefix isDirective stmts).2), o1) : Estree.Result _) =
      .ok (.body l dirs items, o') := h
    injection h with h
    injection h with h1 h2
    injection h1 with _ _ h3 h4
    subst h3 h4
    obtain ⟨s1, s2, s3⟩ := split_leads stmts
    rw [ofList_toList]
    refine (?_ : ∃ js, o.get name = some (.array js) ∧ Converted r js stmts).elim
      fun js hjs => ⟨js, stmts, _, hjs.1, hjs.2, s3, s1, s2⟩
    replace hl : ((extract (Object.extractArray name) o).bind fun p =>
      ((mapList (fun v => ofJson v.intoObject) p.1).map fun a => (a, p.2))).bind (fun p =>
      ((mapList (fun o => r.item o true) p.1).map fun a => (a, p.2))) = .ok (stmts, o1) := hl
    have hx : extract (Object.extractArray name) o = (ofJson (match o.get name with
        | some v => v.intoArray
        | none => .error (.missingField name))).map fun a => (a, o.without name) := by
      unfold extract Object.extractArray Object.extractWith Object.extractField Object.remove
      cases o.get name <;> rfl
    rw [hx] at hl
    cases hg : o.get name with
    | none => rw [hg] at hl; cases hl
    | some v =>
      rw [hg] at hl
      cases v with
      | array js =>
        refine ⟨js, rfl, ?_⟩
        replace hl : ((mapList (fun v => ofJson v.intoObject) js).map fun a =>
          (a, o.without name)).bind (fun p => ((mapList (fun o => r.item o true) p.1).map fun a =>
          (a, p.2))) = .ok (stmts, o1) := hl
        cases hm : mapList (fun v => ofJson v.intoObject) js with
        | ok os =>
          rw [hm] at hl
          replace hl : ((mapList (fun o => r.item o true) os).map fun a =>
            (a, o.without name)) = .ok (stmts, o1) := hl
          cases hs : mapList (fun o => r.item o true) os with
          | ok ss =>
            rw [hs] at hl
            cases hl
            exact converted_of_maps r js os _ hm hs
          | _ => rw [hs] at hl; cases hl
        | _ => rw [hm] at hl; cases hl
      | _ => cases hl
  | _ => rw [hl] at h; cases h

/-- **C45** for scripts. -/
theorem C45_script (o : Object) (l : Loc) (dirs : List Dir) (items : Ast (.list .sitem))
    (h : intoScript o = .ok (.body l dirs items)) :
    ∃ js stmts lead, o.get c!"body" = some (.array js) ∧
      Converted (recOf (depthFields o)) js stmts ∧ stmts = lead ++ items.toList ∧
      Leads lead dirs ∧ ∀ i, items.toList.head? = some i → ¬IsStringStatement i := by
  obtain ⟨o', h⟩ := run_inv h
  exact C45_prologue _ _ _ _ _ _ _ h

/-- **C45** for functions: the body is the array in the field `body` of the object in the
field `body`. -/
theorem C45_function (r : Estree.Rec) {c : Cat} (id id' : Ast c) (o : Object) (l l' : Loc)
    (ps : Ast .params) (dirs : List Dir) (items : Ast (.list .sitem)) (gen : Bool)
    (h : intoFun r id o = .ok (.func l id' ps (.body l' dirs items) gen)) :
    ∃ (ob : Object) (js : List Json) (stmts lead : List StmtListItem),
      o.get c!"body" = some (.object ob) ∧ ob.get c!"body" = some (.array js) ∧
      Converted r js stmts ∧ stmts = lead ++ items.toList ∧ Leads lead dirs ∧
      ∀ i, items.toList.head? = some i → ¬IsStringStatement i := by
  unfold intoFun at h
  cases hf : intoFunParts r o with
  | ok f =>
    rw [hf] at h
    replace h : (Res.ok (Ast.func none id (.params none (Ast.ofList f.params) f.rest) f.body f.generator)
      : Estree.Result _) = .ok (Ast.func l id' ps (.body l' dirs items) gen) := h
    injection h with h
    injection h with _ _ _ _ h _
    obtain ⟨o1, hf⟩ := run_inv hf
    obtain ⟨g, o2, hg, hf⟩ := bind_inv hf
    obtain ⟨_, _, _, rfl⟩ := extract_inv hg
    obtain ⟨q, o3, hq, hf⟩ := bind_inv hf
    have ho3 : o3.get c!"body" = o.get c!"body" := by
      obtain ⟨os, o4, h4, hq⟩ := bind_inv hq
      obtain ⟨xs, o5, h5, h4⟩ := bind_inv h4
      obtain ⟨_, _, _, h5⟩ := extract_inv h5
      have h4 := (lift_inv h4).2
      obtain ⟨s, o6, h6, hq⟩ := bind_inv hq
      have h6 := (lift_inv h6).2
      obtain ⟨t, o7, h7, hq⟩ := bind_inv hq
      have h7 := (lift_inv h7).2
      cases hq
      dsimp only at h5 h4 h6 h7
      rw [h7, h6, h4, h5, Object.get_without, if_neg (by decide), Object.get_without,
        if_neg (by decide)]
    obtain ⟨ob, o8, h8, hf⟩ := bind_inv hf
    obtain ⟨v, hv, hv', _⟩ := extract_inv h8
    obtain ⟨b, o9, h9, hf⟩ := bind_inv hf
    cases hf
    obtain ⟨h9, _⟩ := lift_inv h9
    obtain ⟨o10, h9⟩ := run_inv h9
    cases v with
    | object ob' =>
      cases hv'
      rw [ho3] at hv
      dsimp only at h9 h
      rw [h] at h9
      obtain ⟨js, stmts, lead, h1, h2⟩ := C45_prologue _ _ _ _ _ _ _ h9
      exact ⟨_, js, stmts, lead, hv, h1, h2⟩
    | _ => cases hv'
  | _ => rw [hf] at h; cases h

/-- The converted program has one directive and two items, the second of which
consists of a string literal. -/
example : (extractScript (recOf 8) c!"body" exampleProgram) =
    .ok (exampleScript, [(c!"type", .string c!"Program")]) := rfl

end Esprit
