import Verif.Proofs.LexSep
import Verif.Spec.Semis

/-! Adding semicolons to a text after its tokens. -/

set_option linter.unusedSectionVars false

namespace Esprit

open Lex ReaderSpec

theorem SemisWritten.refl : (s : Str) → SemisWritten 0 s s
  | [] => .nil
  | _ :: s => .keep (refl s)

theorem SemisWritten.append (w : Str) {n : Nat} {s s' : Str} (h : SemisWritten n s s') :
    SemisWritten n (w ++ s) (w ++ s') := by
  induction w with
  | nil => exact h
  | cons c w ih => exact .keep ih

/-- The first added semicolon. -/
theorem SemisWritten.first {n : Nat} {s s' : Str} (h : SemisWritten n s s') :
    s = s' ∨ ∃ u z z', s = u ++ z ∧ s' = u ++ ';' :: z' := by
  induction h with
  | nil => exact .inl rfl
  | keep h ih =>
    rcases ih with rfl | ⟨u, z, z', rfl, rfl⟩
    · exact .inl rfl
    · exact .inr ⟨_ :: u, z, z', rfl, rfl⟩
  | add => exact .inr ⟨[], _, _, rfl, rfl⟩

namespace Lex

theorem semi_punctuators : ∀ p ∈ punctuators, p.1.head? = some ';' → p.1 = c!";" := by decide +kernel

variable [Env] [LawfulEnv]

omit [LawfulEnv] in
/-- A semicolon is a token of its own. -/
theorem Lexeme.semi (y : Str) : Lexeme true c!";" y .semi := by
  refine .punctuator (by decide) ?_ (by simp) (by simp)
  intro x' v' hx hp
  have hne : ∀ p ∈ punctuators, p.1 ≠ [] := by decide +kernel
  cases x' with
  | nil => exact (hne _ hx rfl).elim
  | cons c x' =>
    have : c = ';' := (List.cons_prefix_cons.1 hp).1
    subst this
    have := semi_punctuators _ hx rfl
    simp at this
    simp [this]

omit [Env] [LawfulEnv] in
theorem NoTrivia.semi (e : Bool) (y : Str) : NoTrivia e (';' :: y) := by
  have hp : ∀ (c : Char) (p : Str), c ≠ ';' → ¬ (c :: p) <+: ';' :: y := by
    intro c p hc h
    exact hc (List.cons_prefix_cons.1 h).1
  refine ⟨fun c hc => ?_, hp _ _ (by decide), hp _ _ (by decide), hp _ _ (by decide),
    fun _ => hp _ _ (by decide)⟩
  simp at hc
  subst hc
  decide

/-- Semicolons can be added after a token. -/
theorem Lexes.grow {n : Nat} {e e' op : Bool} {ops : List Bool} {w x y y' z : Str} {v : TokenData}
    {vs : List (Bool × TokenData)} (h1 : Trivia e w (x ++ y) e') (h2 : NoTrivia e' (x ++ y))
    (h3 : Lexeme op x y v) (hv : v ≠ .eof) (hy : SemisWritten n y y') (h : Lexes false ops y' vs z) :
    Lexes e (op :: ops) (w ++ (x ++ y')) ((hasNewline w, v) :: vs) z := by
  rcases hy.first with rfl | ⟨u, r, r', rfl, rfl⟩
  · exact .cons h1 h2 h3 h
  have hx : x ≠ [] := fun h => hv (h3.eof_iff.1.2 h)
  have hc : SepHead ';' := .inr (.inr (.inr (.inr rfl)))
  refine .cons (h1.next ?_) ?_ (h3.change hv hc (fun _ _ => by decide)) h
  · cases x with
    | nil => exact absurd rfl hx
    | cons d x => rfl
  · rw [← List.append_assoc] at h2 ⊢
    exact h2.change (by simp [hx]) hc (fun _ => by decide)

end Lex

end Esprit
