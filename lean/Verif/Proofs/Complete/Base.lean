import Verif.Proofs.Parser.First
import Verif.Proofs.Untrack
import Verif.Proofs.CoverUntrack

/-! Running the parser on tokens that the grammar derives: basic notions. -/

set_option linter.unusedSectionVars false
set_option linter.unusedVariables false

namespace Esprit

open Lex ReaderSpec Grammar

theorem Grammar.NextIs.sat {r : List Token} {v : TokenData} {p : TokenData → Bool}
    (h : NextIs r v) (hp : p v = true) : NextSat (some p) r := by
  obtain ⟨t, r, rfl, rfl⟩ := h
  exact ⟨t, r, rfl, hp⟩

namespace P

variable [Env] [LawfulEnv] {S : Str} {env : Scope} {s s1 s2 s' : PState} {t : Token}
  {ts inp rest i1 : List Token} {α β γ : Type} {c : Cat} {r : Rec} {n N : Nat}

/-- In every state whose next tokens are `inp`, `m` succeeds with the tree `x` (up to
locations and semicolons) and leaves `rest`. -/
def Yields (S : Str) (env : Scope) (m : P (Ast c)) (inp rest : List Token) (x : Ast c) : Prop :=
  ∀ s, Ahead S env s inp → cp m s fun a s' => a.untrack = x.untrack ∧ Ahead S env s' rest

theorem Yields.bind {m : P (Ast c)} {x : Ast c} {f : Ast c → P β} {Q : β → PState → Prop}
    (h : Yields S env m inp rest x) (hs : Ahead S env s inp)
    (hf : ∀ a s', a.untrack = x.untrack → Ahead S env s' rest → cp (f a) s' Q) :
    cp (m >>= f) s Q :=
  .bind ((h s hs).mono fun a s' ⟨h1, h2⟩ => hf a s' h1 h2)

theorem Yields.allowIn {m : P (Ast c)} {x : Ast c} {b : Bool}
    (h : Yields S (env.withIn b) m inp rest x) : Yields S env (P.allowIn b m) inp rest x := by
  intro s hs
  exact .allowIn hs fun s1 _ h1 => (h s1 h1).mono fun a s' ⟨h2, h3⟩ => ⟨rest, h3, fun s2 h4 => ⟨h2, h4⟩⟩

theorem bind_assoc (m : P α) (f : α → P β) (g : β → P γ) :
    (m >>= f) >>= g = m >>= fun a => f a >>= g := by
  funext s
  show P.bind (P.bind m f) g s = P.bind m (fun a => P.bind (f a) g) s
  unfold P.bind
  cases m s <;> rfl

theorem cp.assoc {m : P α} {f : α → P β} {g : β → P γ} {Q : γ → PState → Prop}
    (h : cp (m >>= fun a => f a >>= g) s Q) : cp ((m >>= f) >>= g) s Q := by
  rw [bind_assoc]; exact h

theorem cp.assoc' {m : P α} {f : α → P β} {g : β → P γ} {Q : γ → PState → Prop}
    (h : cp ((m >>= f) >>= g) s Q) : cp (m >>= fun a => f a >>= g) s Q := by
  rw [← bind_assoc]; exact h

theorem cp.unbind {m : P α} {f : α → P β} {Q : β → PState → Prop} (h : cp (m >>= f) s Q) :
    cp m s (fun a s' => cp (f a) s' Q) := by
  have e : (m >>= f) = P.bind m f := rfl
  rw [e] at h
  unfold cp P.bind at h
  unfold cp
  cases hm : m s with
  | ok v => rw [hm] at h; exact h
  | err e => rw [hm] at h; exact h
  | panic p => rw [hm] at h; exact h
  | fuel => trivial

/-- A loop followed by something. -/
theorem cp.loopN_bind {σ : Type} {step : σ → P (σ ⊕ β)} {a : σ} {f : β → P γ}
    {Q : γ → PState → Prop}
    (h : ∀ M, N = M + 1 → cp (step a) s fun x s' =>
      match x with | .inl a' => cp (P.loopN step M a' >>= f) s' Q | .inr b => cp (f b) s' Q) :
    cp (P.loopN step N a >>= f) s Q := by
  refine .bind (.loopN fun M hM => (h M hM).mono fun x s' hx => ?_)
  cases x with
  | inr b => exact hx
  | inl a' => exact cp.unbind hx

theorem cp.loop_bind {σ : Type} {step : σ → P (σ ⊕ β)} {a : σ} {f : β → P γ}
    {Q : γ → PState → Prop} (h : ∀ N, cp (P.loopN step N a >>= f) s Q) :
    cp (P.loop step a >>= f) s Q := h _

theorem cp.vecSpan {v : List (Ast c)} {Q : Loc → PState → Prop} (h : ∀ l, Q l s) :
    cp (P.vecSpan v) s Q := by
  unfold P.vecSpan
  split
  · exact h _
  · exact .posn_bind (h _)

theorem cp.matchesTokenNo {v : TokenData} {Q : Option Token → PState → Prop}
    (h : Ahead S env s (t :: ts)) (ht : t.value ≠ v) (hm : t.value.inMode false = true ∨ s.la ≠ [])
    (hq : ∀ s', s'.la ≠ [] → Ahead S env s' (t :: ts) → Q none s')
    (hp : P.plain v = true := by rfl) :
    cp (P.matchesToken v) s Q := by
  unfold P.matchesToken
  refine .bind (.read h hm fun s' hs h' => ?_)
  rw [if_pos (by simpa using fun hh => ht ((eqv_true hp).1 hh))]
  exact .bind (.unread h' hs fun s2 hl h2 => hq s2 hl h2)

theorem cp.skip {Q : Unit → PState → Prop} (h : Ahead S env s (t :: ts))
    (hv : t.value.inMode false = true ∨ s.la ≠ [])
    (hq : ∀ s', StrOk t → Ahead S env s' ts → Q () s') : cp P.skip s Q := by
  have h1 := cp.readMode (op := false) (Q := fun _ s' => Q () s') h hv hq
  have e : ∀ l : Lexer, Lexer.skipToken false l =
      match Lexer.readToken false l with
      | .ok (_, l) => .ok ((), l) | .err e => .err e | .panic p => .panic p | .fuel => .fuel := by
    intro l
    unfold Lexer.skipToken
    cases Lexer.readToken false l <;> rfl
  unfold cp P.skip P.lex at *
  rw [e]
  cases hm : Lexer.readToken false s.lexer with
  | ok v => rw [hm] at h1; exact h1
  | err e => rw [hm] at h1; exact h1
  | panic p => rw [hm] at h1; exact h1
  | fuel => trivial

theorem eqv_false {v w : TokenData} (hp : P.plain w = true) (h : v ≠ w) : v.eqv w = false := by
  cases hh : v.eqv w with
  | false => rfl
  | true => exact (h ((eqv_true hp).1 hh)).elim

theorem inMode_of {v w : TokenData} {op : Bool} (h : v = w) (hw : w.inMode op = true) :
    v.inMode op = true := by rw [h]; exact hw

theorem inMode_of_start {p : TokenData → Bool} {v : TokenData} (hv : p v = true)
    (h1 : p .slash = false := by rfl) (h2 : p .slashAssign = false := by rfl) :
    v.inMode false = true :=
  inMode_false (fun h => by rw [h, h1] at hv; cases hv) (fun h => by rw [h, h2] at hv; cases hv)

theorem ne_of_start {p : TokenData → Bool} {v w : TokenData} (hv : p v = true)
    (h1 : p w = false := by rfl) : v ≠ w := fun h => by rw [h, h1] at hv; cases hv

/-- The result of a loop that collects a list. -/
def Collects (S : Str) (env : Scope) (acc : List (Ast c)) (xs : Ast (.list c)) (rest : List Token)
    (zs : List (Ast c)) (s' : PState) : Prop :=
  ∃ ys, zs = acc ++ ys ∧ (Ast.ofList ys).untrack = xs.untrack ∧ Ahead S env s' rest

theorem Collects.nil {acc : List (Ast c)} (h : Ahead S env s rest) :
    Collects S env acc .nil rest acc s := ⟨[], (List.append_nil _).symm, rfl, h⟩

theorem Collects.last {acc : List (Ast c)} {a x : Ast c} (h : Ahead S env s rest)
    (ha : a.untrack = x.untrack) : Collects S env acc (.cons x .nil) rest (acc ++ [a]) s :=
  ⟨[a], rfl, Ut.cons ha rfl, h⟩

theorem Collects.cons {acc : List (Ast c)} {a x : Ast c} {xs : Ast (.list c)} {zs : List (Ast c)}
    (h : Collects S env (acc ++ [a]) xs rest zs s) (ha : a.untrack = x.untrack) :
    Collects S env acc (.cons x xs) rest zs s := by
  obtain ⟨ys, h1, h2, h3⟩ := h
  exact ⟨a :: ys, by rw [h1]; simp, Ut.cons ha h2, h3⟩

theorem Collects.start {xs : Ast (.list c)} {zs : List (Ast c)}
    (h : Collects S env [] xs rest zs s) :
    (Ast.ofList zs).untrack = xs.untrack ∧ Ahead S env s rest := by
  obtain ⟨ys, rfl, h2, h3⟩ := h
  exact ⟨h2, h3⟩

theorem Collects.first {x a : Ast c} {xs : Ast (.list c)} {zs : List (Ast c)}
    (h : Collects S env [a] xs rest zs s) (ha : a.untrack = x.untrack) :
    (Ast.ofList zs).untrack = (Ast.cons x xs).untrack ∧ Ahead S env s rest := by
  obtain ⟨ys, rfl, h2, h3⟩ := h
  exact ⟨Ut.cons ha h2, h3⟩

end P

end Esprit
