import Verif.Spec.Brackets
import Verif.Proofs.Parser.Nodes

/-! The brackets of a derivation match, and `in` is guarded. -/

set_option linter.unusedSectionVars false
set_option linter.unusedVariables false

namespace Esprit

open Lex ReaderSpec Grammar

/-- Not a bracket. -/
def plainB : TokenData → Bool
  | .lParen | .rParen | .lBrack | .rBrack | .lBrace | .rBrace => false
  | _ => true

theorem Plain.of {t : Token} {d : TokenData} (h : t.value = d) (hd : plainB d = true) : Plain t := by
  intro p hp
  simp only [brackets, List.mem_cons, List.not_mem_nil, or_false] at hp
  rcases hp with rfl | rfl | rfl <;> constructor <;> intro hv <;> rw [h] at hv <;> subst hv <;> cases hd

/-- Not a bracket, `?`, `:`, or (unless allowed) `in`. -/
def looseB (allowIn : Bool) : TokenData → Bool
  | .lParen | .rParen | .lBrack | .rBrack | .lBrace | .rBrace | .question | .colon => false
  | .reserved .«in» => allowIn
  | _ => true

/-- A token that stands for itself. -/
structure Loose (allowIn : Bool) (t : Token) : Prop where
  plain : Plain t
  question : t.value ≠ .question
  colon : t.value ≠ .colon
  «in» : t.value = .reserved .«in» → allowIn = true

theorem Loose.of {a : Bool} {t : Token} {d : TokenData} (h : t.value = d) (hd : looseB a d = true) :
    Loose a t := by
  subst h
  refine ⟨Plain.of rfl ?_, ?_, ?_, ?_⟩
  · revert hd; cases t.value <;> simp [looseB, plainB]
  · intro h; rw [h] at hd; cases hd
  · intro h; rw [h] at hd; cases hd
  · intro h; rw [h] at hd; exact hd

/-- The tokens up to `rest` are balanced. -/
def Bal (inp rest : List Token) : Prop := ∃ m, inp = m ++ rest ∧ Balanced m

/-- The tokens up to `rest` are guarded. -/
def Gd (b : Bool) (inp rest : List Token) : Prop := ∃ m, inp = m ++ rest ∧ InGuarded b m

theorem Balanced.append {a b : List Token} (ha : Balanced a) (hb : Balanced b) : Balanced (a ++ b) := by
  induction ha with
  | nil => exact hb
  | token h _ ih => exact .token h ih
  | group h hi _ _ ih =>
    have := Balanced.group h hi ih
    simpa using this

theorem InGuarded.append {c : Bool} {a b : List Token} (ha : InGuarded c a) (hb : InGuarded c b) :
    InGuarded c (a ++ b) := by
  induction ha with
  | nil => exact hb
  | token h1 h2 h3 h4 _ ih => exact .token h1 h2 h3 h4 (ih hb)
  | member h1 h2 _ ih => exact .member h1 h2 (ih hb)
  | group h hi _ ih =>
    have := InGuarded.group h hi (ih hb)
    simpa using this
  | cond h h' hi _ ih1 ih2 =>
    have := InGuarded.cond h h' hi (ih2 hb)
    simpa using this

theorem InGuarded.balanced {c : Bool} {a : List Token} (ha : InGuarded c a) : Balanced a := by
  induction ha with
  | nil => exact .nil
  | token h1 h2 h3 h4 _ ih => exact .token h1 ih
  | member h1 h2 _ ih => exact .token (.of h1 rfl) (.token (.of h2 rfl) ih)
  | group h hi _ ih => exact .group h hi ih
  | cond h h' hi _ ih1 ih2 =>
    exact .token (.of h rfl) (ih1.append (.token (.of h' rfl) ih2))

theorem InGuarded.mono {c : Bool} {a : List Token} (ha : InGuarded c a) : InGuarded true a := by
  induction ha with
  | nil => exact .nil
  | token h1 h2 h3 h4 _ ih => exact .token h1 h2 h3 (fun _ => rfl) ih
  | member h1 h2 _ ih => exact .member h1 h2 ih
  | group h hi _ ih => exact .group h hi ih
  | cond h h' hi _ ih1 ih2 => exact .cond h h' ih1 ih2

section

variable {i i1 i2 rest : List Token} {t a b : Token} {c : Bool}

theorem Bal.refl : Bal i i := ⟨[], rfl, .nil⟩

theorem Bal.tok (ht : Plain t) (h : Bal i rest) : Bal (t :: i) rest := by
  obtain ⟨m, rfl, hm⟩ := h
  exact ⟨t :: m, rfl, .token ht hm⟩

theorem Bal.trans (h : Bal i i1) (h1 : Bal i1 rest) : Bal i rest := by
  obtain ⟨m, rfl, hm⟩ := h
  obtain ⟨m', rfl, hm'⟩ := h1
  exact ⟨m ++ m', by simp, hm.append hm'⟩

theorem Bal.group {x y : TokenData} (h : Bal i1 (b :: i2)) (hb : b.value = y) (ha : a.value = x)
    (hp : (x, y) ∈ brackets) (h2 : Bal i2 rest) : Bal (a :: i1) rest := by
  obtain ⟨m, rfl, hm⟩ := h
  obtain ⟨m', rfl, hm'⟩ := h2
  refine ⟨a :: m ++ b :: m', by simp, .group ?_ hm hm'⟩
  rw [ha, hb]
  exact hp

theorem Gd.refl : Gd c i i := ⟨[], rfl, .nil⟩

theorem Gd.tok (ht : Loose c t) (h : Gd c i rest) : Gd c (t :: i) rest := by
  obtain ⟨m, rfl, hm⟩ := h
  exact ⟨t :: m, rfl, .token ht.1 ht.2 ht.3 ht.4 hm⟩

theorem Gd.trans (h : Gd c i i1) (h1 : Gd c i1 rest) : Gd c i rest := by
  obtain ⟨m, rfl, hm⟩ := h
  obtain ⟨m', rfl, hm'⟩ := h1
  exact ⟨m ++ m', by simp, hm.append hm'⟩

theorem Gd.group {x y : TokenData} (h : Bal i1 (b :: i2)) (hb : b.value = y) (ha : a.value = x)
    (hp : (x, y) ∈ brackets) (h2 : Gd c i2 rest) : Gd c (a :: i1) rest := by
  obtain ⟨m, rfl, hm⟩ := h
  obtain ⟨m', rfl, hm'⟩ := h2
  refine ⟨a :: m ++ b :: m', by simp, .group ?_ hm hm'⟩
  rw [ha, hb]
  exact hp

theorem Gd.cond (ha : a.value = .question) (h : Gd true i1 (b :: i2)) (hb : b.value = .colon)
    (h2 : Gd c i2 rest) : Gd c (a :: i1) rest := by
  obtain ⟨m, rfl, hm⟩ := h
  obtain ⟨m', rfl, hm'⟩ := h2
  exact ⟨a :: m ++ b :: m', by simp, .cond ha hb hm hm'⟩

theorem Gd.bal (h : Gd c i rest) : Bal i rest := by
  obtain ⟨m, rfl, hm⟩ := h
  exact ⟨m, rfl, hm.balanced⟩

end

/-- The nonterminals of expressions and their parts, outside of braces. -/
def Grammar.NT.guarded : {c : Cat} → NT c → Bool
  | _, .func nt => guarded nt
  | _, .prop | _, .props | _, .prologue _ | _, .body _ | _, .items | _, .modItems | _, .item _
  | _, .decl | _, .stmt | _, .block | _, .exprOpt | _, .case | _, .cases | _, .catchOpt
  | _, .finallyOpt | _, .forHead | _, .forInHead | _, .forOfHead => false
  | _, _ => true

section Guard

variable [Env] {S : Str} {L : LocSpec} {c : Cat} {env : Scope} {nt : NT c} {inp rest : List Token} {x : Ast c}
  {t : Token}

theorem Ident.loose {a b : Bool} {i : Id} (h : Ident env b t i) : Loose a t := by
  cases h with | mk h _ => exact .of h rfl

theorem PropName.plain {k : PropKey} (h : PropName t k) : Plain t := by
  cases h with
  | id h => exact .of h rfl
  | word h => exact .of h rfl
  | string h => exact .of h rfl
  | number h => exact .of h rfl

theorem MemberName.plain {k : DotKey} (h : MemberName t k) : Plain t := by
  cases h with
  | id h => exact .of h rfl
  | word h => exact .of h rfl

theorem Term.bal {o : Bool} {i r : List Token} {semi : Semi} (h : Term o i r semi) : Bal i r := by
  cases h with
  | explicit h => exact .tok (.of h rfl) .refl
  | inserted _ _ => exact .refl

theorem MemberName.gd {a : Bool} {t2 : Token} {k : DotKey} {i r : List Token} (ht : t.value = .dot)
    (h : MemberName t2 k) (hg : Gd a i r) : Gd a (t :: t2 :: i) r := by
  cases h with
  | id h => exact .tok (.of ht rfl) (.tok (.of h rfl) hg)
  | @word w h =>
    by_cases hw : w = .«in»
    · subst hw
      obtain ⟨m, rfl, hm⟩ := hg
      exact ⟨t :: t2 :: m, rfl, .member ht h hm⟩
    · refine .tok (.of ht rfl) (.tok (.of h ?_) hg)
      cases w <;> first | rfl | exact absurd rfl hw

/-- The operators are spelled differently from these. -/
def notOps : List Str := [c!"(", c!")", c!"[", c!"]", c!"{", c!"}", c!"?", c!":", c!"in"]

theorem symbols_loose : ∀ p ∈ punctuators ++ reservedWords.map fun p => (p.1, TokenData.reserved p.2),
    looseB false p.2 = false → p.1 ∈ notOps := by decide

theorem spelled_loose {x : Str} (hs : IsSymbol x t.value) (hx : x ∉ notOps) : Loose false t := by
  refine .of (d := t.value) rfl ?_
  cases hb : looseB false t.value with
  | true => rfl
  | false => exact absurd (symbols_loose _ hs hb) hx

theorem Loose.any {a : Bool} (h : Loose false t) : Loose a t :=
  ⟨h.1, h.2, h.3, fun hi => by cases h.4 hi⟩

theorem IsUnop.loose {a : Bool} {op : Op UnopTag} (h : IsUnop t op) : Loose a t := by
  obtain ⟨-, x, hx, hs⟩ := h
  refine (spelled_loose hs fun hm => ?_).any
  have : ∀ x ∈ notOps, UnopTag.fromStr x = none := by decide
  rw [this x hm] at hx
  cases hx

theorem IsBinop.loose {op : Op BinopTag} (h : IsBinop env t op) : Loose env.allowIn t := by
  obtain ⟨-, hs, hi⟩ := h
  by_cases ho : op.tag = .«in»
  · rw [hi ho]
    rw [ho] at hs
    refine .of (d := t.value) rfl ?_
    have : ∀ p ∈ punctuators ++ reservedWords.map fun p => (p.1, TokenData.reserved p.2),
      p.1 = BinopTag.display .«in» → looseB true p.2 = true := by decide
    exact this _ hs rfl
  · refine (spelled_loose hs fun hm => ho ?_).any
    have : ∀ t : BinopTag, t.display ∈ notOps → t = .«in» := by intro t; cases t <;> decide
    exact this _ hm

theorem IsLogop.loose {a : Bool} {op : Op LogopTag} (h : IsLogop t op) : Loose a t := by
  obtain ⟨-, hs⟩ := h
  refine (spelled_loose hs fun hm => ?_).any
  have : ∀ t : LogopTag, t.display ∉ notOps := by intro t; cases t <;> decide
  exact this _ hm

theorem IsAssop.loose {a : Bool} {op : Op AssopTag} (h : IsAssop t op) : Loose a t := by
  obtain ⟨-, hs⟩ := h
  refine (spelled_loose hs fun hm => ?_).any
  have : ∀ t : AssopTag, t.display ∉ notOps := by intro t; cases t <;> decide
  exact this _ hm

/-- A token that is not a bracket. -/
macro "plain" : tactic => `(tactic| first
  | (apply Plain.of; assumption; rfl)
  | exact (Ident.loose (a := true) ‹Ident _ _ _ _›).plain
  | exact PropName.plain ‹_›
  | exact MemberName.plain ‹_›
  | exact (IsUnop.loose (a := true) ‹_›).plain
  | exact (IsBinop.loose ‹_›).plain
  | exact (IsLogop.loose (a := true) ‹_›).plain
  | exact (IsAssop.loose (a := true) ‹_›).plain)

/-- A token that stands for itself. -/
macro "loose" : tactic => `(tactic| first
  | (apply Loose.of; assumption; rfl)
  | exact Ident.loose ‹Ident _ _ _ _›
  | exact IsUnop.loose ‹_›
  | exact IsBinop.loose ‹_›
  | exact IsLogop.loose ‹_›
  | exact IsAssop.loose ‹_›)

/-- Goals `Bal i r`. -/
syntax "bal" : tactic
macro_rules
  | `(tactic| bal) => `(tactic| first
      | exact Bal.refl
      | assumption
      | exact Term.bal ‹_›
      | (apply Bal.trans; assumption; bal)
      | (apply Bal.trans; exact Term.bal (by assumption); bal)
      | (refine Bal.tok (by plain) ?_; bal)
      | (apply Bal.group; (first | assumption | exact Bal.refl); assumption; assumption; decide; bal))

theorem Grammar.Derives.bal (h : Derives L env nt inp rest x) : Bal inp rest := by
  induction h
  case forStmt h2 _ _ h3 _ h4 _ _ h5 h6 h7 h8 =>
    refine .tok (by plain) (.group (h5.trans (h6.trans (.tok (by plain) h7))) ‹_› ‹_› (by decide) h8)
  case forInStmt _ h2 h3 h4 =>
    refine .tok (by plain) (.group (h2.trans (.tok (by plain) h3)) ‹_› ‹_› (by decide) h4)
  case forOfStmt _ h2 h3 h4 =>
    refine .tok (by plain) (.group (h2.trans (.tok (by plain) h3)) ‹_› ‹_› (by decide) h4)
  all_goals bal

theorem functionBody_gd {a : Bool} {b : Ast (.body .sitem)}
    (h : Derives L env .functionBody inp rest b) : Gd a inp rest := by
  cases h with
  | functionBody h1 h2 h3 _ => exact .group h2.bal h3 h1 (by decide) .refl

/-- Goals `Gd b i r`. -/
syntax "gd" : tactic
macro_rules
  | `(tactic| gd) => `(tactic| first
      | exact Gd.refl
      | assumption
      | (apply Gd.trans; assumption; gd)
      | exact MemberName.gd ‹_› ‹MemberName _ _› Gd.refl
      | (refine Gd.tok (by loose) ?_; gd)
      | (apply Gd.cond; assumption; assumption; assumption; gd)
      | (apply Gd.group; (first | exact Derives.bal (by assumption) | exact Bal.refl); assumption; assumption; decide; gd))

theorem Grammar.Derives.gd (h : Derives L env nt inp rest x) (hg : nt.guarded = true) :
    Gd env.allowIn inp rest := by
  induction h
  case func hn _ hb _ _ h1 h2 h3 =>
    exact .tok (by loose) ((h1 hg).trans ((h2 rfl).trans (functionBody_gd hb)))
  case funcGenerator hn _ hb _ _ h1 h2 h3 =>
    exact .tok (by loose) (.tok (by loose) ((h1 hg).trans ((h2 rfl).trans (functionBody_gd hb))))
  all_goals try (cases hg; done)
  all_goals simp only [NT.guarded, true_implies] at *
  all_goals gd

end Guard

end Esprit
