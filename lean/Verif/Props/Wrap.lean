import Verif.Proofs.Complete.WrapText

/-!
Programs can be wrapped (C69): if a text is a program, then so is the text in which it is
put, on lines of its own, into the body of a function that is called at once, or into a block;
and the directives and statements of the function, or of the block, are those of the program.
-/

set_option linter.unusedSectionVars false

namespace Esprit

open Lex ReaderSpec Grammar

section Theorems

variable [Env] [LawfulEnv] {h s t : Str}

/-- C69: if `program` accepts a text, then it accepts the text between, on lines of their own, the
beginning `(function (x, y, ...) {` and the end `})()` of a function that is called at once.  The
directives and statements of the body of the function are those of the program (up to locations
and the origin of semicolons).  No statement is labelled twice with the same name, and the line
terminators of the texts do not form one of two characters. -/
theorem C69_function {names : List Name} (hh : HasTokens h (opensFunction names))
    (ht : HasTokens ('\n' :: t) closesFunction) {c : List Check} {l : Loc} {ds : List Dir}
    {xs : Ast (.list .sitem)} (hp : program ('\n' :: s) = .ok (.ambiguous c (.body l ds xs)))
    (hd : DistinctLabels (Ast.body l ds xs))
    (hcr1 : h.getLast? ≠ some '\r') (hcr2 : s.getLast? ≠ some '\r') :
    ∃ c' y, program (h ++ '\n' :: (s ++ '\n' :: t)) = .ok (.ambiguous c' y) ∧
      Ast.Similar y (.body none []
        (Ast.ofList [.siStmt (calledFunction names (.body none ds xs))])) := by
  have hvs : ∀ v ∈ opensFunction names, v ≠ .eof := by
    have hc : ∀ ns : List Name, ∀ v ∈ commaNames ns, v ≠ .eof := by
      intro ns
      induction ns with
      | nil => nofun
      | cons n ns ih =>
        cases ns with
        | nil => simp [commaNames]
        | cons m ns =>
          intro v hv
          rcases List.mem_cons.1 hv with rfl | hv
          · nofun
          · rcases List.mem_cons.1 hv with rfl | hv
            · nofun
            · exact ih v hv
    intro v hv
    simp only [opensFunction, List.mem_cons, List.mem_append, List.not_mem_nil, or_false] at hv
    rcases hv with rfl | rfl | rfl | hv | rfl | rfl
    case inr.inr.inr.inl => exact hc _ v hv
    all_goals nofun
  obtain ⟨as, b, bs, ts, rest, y, S, ops, k, h1, h2, h3, h4, h5, h6, h7, h8, h9⟩ :=
    Wrap.setup hh hvs (by decide) ht hp hd hcr1 hcr2
  cases Ast.similar_of_blur h6 with
  | @body _ l2 _ ds2 _ xs2 _ hds hxs =>
    have hJ := Join.glue_body h7 h9 h5 (.itemsNil (rest := bs) (by rw [(List.cons.inj h2).1]; decide)) h8 h4
    rw [Ast.toList_nil, List.append_nil, Ast.ofList_toList] at hJ
    obtain ⟨y, rest, h10, h11, h12⟩ := Wrap.called rfl rfl rfl rfl rfl rfl h1 h2 hJ
    obtain ⟨c', y', h13, h14⟩ := C50_program _ h3 h10 h11
    refine ⟨c', y', h13, h14.trans (h12.trans ?_)⟩
    exact .body rfl (.cons (.siStmt (.sExpr (.eCall (.eFun (.func .none
      ((Ast.untrack_eq_iff _ _).1 rfl) (.body hds hxs))) .nil))) .nil)

/-- C69 for blocks: if `program` accepts a text without directives, then it accepts the text
between, on lines of their own, `{` and `}`. -/
theorem C69_block (hh : HasTokens h [.lBrace]) (ht : HasTokens ('\n' :: t) [.rBrace])
    {c : List Check} {l : Loc} {xs : Ast (.list .sitem)}
    (hp : program ('\n' :: s) = .ok (.ambiguous c (.body l [] xs)))
    (hd : DistinctLabels (Ast.body l [] xs))
    (hcr1 : h.getLast? ≠ some '\r') (hcr2 : s.getLast? ≠ some '\r') :
    ∃ c' y, program (h ++ '\n' :: (s ++ '\n' :: t)) = .ok (.ambiguous c' y) ∧
      Ast.Similar y (.body none [] (Ast.ofList [.siStmt (.sBlock (.block none xs))])) := by
  obtain ⟨as, b, bs, ts, rest, y, S, ops, k, h1, h2, h3, h4, h5, h6, h7, h8, h9⟩ :=
    Wrap.setup hh (by simp) (by decide) ht hp hd hcr1 hcr2
  cases Ast.similar_of_blur h6 with
  | @body _ l2 _ ds2 _ xs2 _ hds hxs =>
    obtain rfl : ds2 = [] := by simpa using hds
    have hJ := Join.glue_body h7 h9 h5 (.itemsNil (rest := bs) (by rw [(List.cons.inj h2).1]; decide)) h8 h4
    rw [Ast.toList_nil, List.append_nil, Ast.ofList_toList] at hJ
    obtain ⟨a, as, rfl, ha, h10⟩ := List.map_eq_cons_iff.1 h1
    cases List.map_eq_nil_iff.1 h10
    obtain ⟨y, rest, h10, h11, h12⟩ := Wrap.blocked ha h2 hJ
    obtain ⟨c', y', h13, h14⟩ := C50_program _ h3 h10 h11
    exact ⟨c', y', h13, h14.trans (h12.trans (.body rfl (.cons (.siStmt (.sBlock (.block hxs))) .nil)))⟩

end Theorems

section Examples

local instance wrapEnv : Env := asciiEnv true
local instance wrapEnvLawful : LawfulEnv := asciiEnv_lawful true

private theorem hasTokens_of {s : Str} {vs : List TokenData} (ops : List Bool)
    (h : (match readTokens s ops with
      | .ok (ts, _) => decide (ts.map Token.value = vs ++ [.eof])
      | _ => false) = true) : HasTokens s vs := by
  split at h
  case h_2 => cases h
  case h_1 ts l e => exact ⟨_, _, _, (readTokens_at e).1, of_decide_eq_true h⟩

/-- The hypotheses of C69 are met, for instance by a program with a directive and a label. -/
example : ∃ n1 n2 c l ds xs,
    HasTokens c!"(function (exports, module) {" (opensFunction [n1, n2]) ∧
    HasTokens ('\n' :: c!"})()") closesFunction ∧
    program ('\n' :: c!"'d'; a: while (/b/ / 2) { break a }") = .ok (.ambiguous c (.body l ds xs)) ∧
    DistinctLabels (Ast.body l ds xs) ∧
    (c!"(function (exports, module) {").getLast? ≠ some '\r' ∧
    (c!"'d'; a: while (/b/ / 2) { break a }").getLast? ≠ some '\r' := by
  have h1 : (match program ('\n' :: c!"'d'; a: while (/b/ / 2) { break a }") with
    | .ok (.ambiguous _ (.body l ds xs)) => labelsCheck 20 Place.top ⟨_, .body l ds xs⟩
    | _ => false) = true := by decide +kernel
  split at h1
  case h_2 => cases h1
  case h_1 c1 l1 ds1 xs1 e1 =>
    exact ⟨.from c!"exports", .from c!"module", c1, l1, ds1, xs1,
      hasTokens_of (List.replicate 9 false) (by decide +kernel),
      hasTokens_of (List.replicate 5 false) (by decide +kernel), e1,
      labelsCheck_ok 20 h1, by decide, by decide⟩

/-- Likewise for blocks. -/
example : ∃ c l xs,
    HasTokens c!"{" [.lBrace] ∧ HasTokens ('\n' :: c!"}") [.rBrace] ∧
    program ('\n' :: c!"let x = /a/") = .ok (.ambiguous c (.body l [] xs)) ∧
    DistinctLabels (Ast.body l [] xs) := by
  have h1 : (match program ('\n' :: c!"let x = /a/") with
    | .ok (.ambiguous _ (.body l ds xs)) => ds.isEmpty && labelsCheck 20 Place.top ⟨_, .body l ds xs⟩
    | _ => false) = true := by decide +kernel
  split at h1
  case h_2 => cases h1
  case h_1 c1 l1 ds1 xs1 e1 =>
    obtain ⟨h0, h1⟩ := (Bool.and_eq_true _ _).mp h1
    cases List.isEmpty_iff.1 h0
    exact ⟨c1, l1, xs1, hasTokens_of [false, false] (by decide +kernel),
      hasTokens_of [false, false] (by decide +kernel), e1,
      labelsCheck_ok 20 h1⟩

/-- The converse is false: what a function may contain need not be a program. -/
example : (match program c!"return" with | .ok _ => false | _ => true) = true ∧
    (match program c!"(function () {\nreturn\n})()" with | .ok _ => true | _ => false) = true := by
  decide +kernel

/-- A string literal is a directive in a program, and a statement in a block. -/
example : (match program c!"'d'" with
    | .ok (.ambiguous _ (.body _ [_] .nil)) => true | _ => false) = true ∧
    (match program c!"{\n'd'\n}" with
    | .ok (.ambiguous _ (.body _ [] (.cons (.siStmt (.sBlock (.block _ (.cons _ .nil)))) .nil))) => true
    | _ => false) = true := by
  decide +kernel

end Examples

end Esprit
