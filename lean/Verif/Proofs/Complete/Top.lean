import Verif.Proofs.Complete.Main
import Verif.Proofs.Parser.Top

/-! The entry points accept what the grammar derives. -/

set_option linter.unusedSectionVars false
set_option linter.unusedVariables false

namespace Esprit

open Lex ReaderSpec Grammar

theorem Lex.Lexeme.strOk [Env] {op : Bool} {x y : Str} {t : Token} (h : Lexeme op x y t.value) :
    StrOk t := by
  intro lit hv
  rw [hv] at h
  cases h with
  | punctuator h1 => exact absurd h1 (by simp [punctuators])
  | word _ _ _ h => cases h
  | @string q x _ v hq h =>
    refine ⟨_, rfl, ?_⟩
    rcases hq with rfl | rfl
    · exact .inl rfl
    · exact .inr rfl

theorem Lex.Tokens.strOk [Env] {S : Str} {k k' : Nat} {e : Bool} {ops : List Bool}
    {ts : List Token} (h : Tokens S k e ops ts k') : ∀ t ∈ ts, StrOk t := by
  induction h with
  | nil => intro t ht; cases ht
  | cons h _ ih =>
    intro t ht
    rcases List.mem_cons.1 ht with rfl | ht
    · obtain ⟨_, _, _, _, _, _, _, h, _⟩ := h
      exact h.strOk
    · exact ih t ht

variable [Env] [LawfulEnv] {S : Str} {L : LocSpec} {env : Scope} {ops : List Bool} {ts rest : List Token} {k n : Nat}

theorem Ahead.fromChars {s : PState} (hs : s.lexer = Lexer.new S) (ht : Tokens S 0 true ops ts k)
    (hf : Fits env s) : Ahead S env s ts := by
  refine ⟨⟨0, true, ops, ts, k, ?_, ht, ?_⟩, ht.strOk, hf⟩
  · rw [hs]; exact Lexer.At.new S
  · rw [PState.la, hs]; rfl

/-- The state in which `script` and `strict` start. -/
def scriptState (S : Str) (strict : Bool) : PState :=
  { PState.fromChars S with
    goal := .script, ctx := { (PState.fromChars S).ctx with strict := .ofBool strict } }

theorem cp_scriptBody (strict : Bool) {x : Script} (ht : Tokens S 0 true ops ts k)
    (h : Derives L { Scope.script strict with plain := true } (.body .items) ts rest x) :
    P.cp (P.scriptBody (P.recOf n)) (scriptState S strict) fun y s' =>
      y.untrack = x.untrack ∧ Ahead S { Scope.script strict with plain := true } s' rest := by
  have hc : P.CPrologue S _ .items ts rest x := P.comp h rfl
  have ha : Ahead S { Scope.script strict with plain := true } (scriptState S strict) ts :=
    .fromChars rfl ht ⟨rfl, fun _ => rfl, rfl, rfl, rfl, rfl, fun n b h => (by cases h)⟩
  exact P.cp.scriptBody ha hc fun b s' h1 _ h2 => ⟨h1, h2⟩

theorem cp_parseScript (strict : Bool) {x : Script} (ht : Tokens S 0 true ops ts k)
    (h : Derives L { Scope.script strict with plain := true } (.body .items) ts rest x) :
    P.cp (P.parseScript (P.recOf n) strict) (.fromChars S) fun y s' => y.untrack = x.untrack :=
  (cp_scriptBody strict ht h).mono fun _ _ h => h.1

theorem cp_parseModule {x : Module} (ht : Tokens S 0 true ops ts k)
    (h : Derives L { Scope.moduleCode with plain := true } (.body .modItems) ts rest x) :
    P.cp (P.parseModule (P.recOf n)) (.fromChars S) fun y s' => y.untrack = x.untrack := by
  have hc : P.CPrologue S _ .modItems ts rest x := P.comp h rfl
  have ha : Ahead S { Scope.moduleCode with plain := true } (moduleState S) ts :=
    .fromChars rfl ht ⟨rfl, (fun h => by cases h), rfl, rfl, rfl, rfl, fun n b h => (by cases h)⟩
  unfold P.parseModule
  show P.cp (P.span _) (moduleState S) _
  cases x with
  | body l ds items =>
    unfold P.bodyDirectives P.moreModuleItems
    refine .span (.bind (.loop fun N => (hc rfl [] N _ ha).mono ?_))
    rintro ds' s1 ⟨ys, i1, rfl, h1, h2, h3, h4⟩
    refine .bind (.loop fun N => (h4 n [] N s1 h3).mono fun zs s2 h5 l => ?_)
    obtain ⟨h6, h7⟩ := h5.start
    exact Ut.body h1 h6

end Esprit
