import Verif.Proofs.Parser.Cites
import Verif.Props.Source
import Verif.Props.Words

/-!
Identifiers, literals and directives quote the source text (C49); what follows
for words reserved in strict code (C29) and for directives (C40).
-/

set_option linter.unusedSectionVars false

namespace Esprit

open Lex ReaderSpec Grammar

section Theorems

variable [Env] [LawfulEnv] {s : Str} {st mo : Bool} {tree : Node} {v : Place}

theorem returned_cites {y : Node} (h : Returned s st mo tree) (ho : Occurs .top tree v y) :
    ∃ ops ts k, Tokens s 0 true ops ts k ∧ CitesOk ts v y := by
  cases h with
  | script h =>
    obtain ⟨ops, ts, k, r, ht, hd⟩ := C34_script s _ h
    exact ⟨ops, ts, k, ht, hd.cited rfl _ _ _ ho⟩
  | strict h =>
    obtain ⟨ops, ts, k, r, ht, hd⟩ := C34_strict s _ h
    exact ⟨ops, ts, k, ht, hd.cited rfl _ _ _ ho⟩
  | module h =>
    obtain ⟨ops, ts, k, r, ht, hd⟩ := C34_module s _ h
    exact ⟨ops, ts, k, ht, hd.cited rfl _ _ _ ho⟩
  | program h =>
    obtain ⟨_, _, hx, ops, ts, k, r, ht, hd, -⟩ := C34_program s _ h
    cases hx
    exact ⟨ops, ts, k, ht, hd.cited rfl _ _ _ ho⟩

theorem token_lexeme {ops : List Bool} {ts : List Token} {k : Nat} {t : Token}
    (h : Tokens s 0 true ops ts k) (ht : t ∈ ts) :
    Loc.Within s (some t.location) ∧
    ∃ op, Lexeme op (slice s t.location.start.offset t.location.end.offset)
      (s.drop t.location.end.offset) t.value := by
  obtain ⟨l, hl⟩ := (C04_tokens_exact s _ _).2 ⟨_, h⟩
  obtain ⟨i, hi⟩ := List.getElem?_of_mem ht
  obtain ⟨-, a2, a3, -, ⟨op, -, h1⟩, a4, a5⟩ := C04_tokens_tile s ops ts l hl i t hi
  exact ⟨⟨_, _, rfl, a2, a3, a4, a5⟩, op, h1⟩

theorem wordParts_plain {x t : Str} {esc : Bool} (h : WordParts x esc t) (he : esc = false) :
    x = t := by
  induction h with
  | nil => rfl
  | plain _ _ _ ih => rw [ih he]
  | escape => cases he

/-- No punctuator is an identifier or a literal. -/
theorem punctuators_plain : ∀ p ∈ punctuators, (match p.2 with
    | .reserved _ | .identifier _ | .number _ | .string _ | .regExp _ => false
    | _ => true) = true := by decide +kernel

theorem quotes_of_lexeme {x y : Str} {op : Bool} {t : Token} {c : Cite}
    (h : Lexeme op x y t.value) (hc : c.By t) : c.Quotes x := by
  generalize hv : t.value = v at h
  cases h with
  | eof => cases c <;> simp [Cite.By, hv] at hc
  | punctuator g1 =>
    have := punctuators_plain _ g1
    simp only at this
    cases c with
    | ident i => obtain ⟨-, n, g, -⟩ := hc; rw [← hv, g] at this; cases this
    | word l w =>
      obtain ⟨-, ⟨n, g, -⟩ | ⟨n, g, -⟩⟩ := hc <;> rw [← hv, g] at this <;> cases this
    | number l n => rw [← hv, hc.2] at this; cases this
    | string l n => rw [← hv, hc.2] at this; cases this
    | regExp l n => rw [← hv, hc.2] at this; cases this
  | @word _ _ text esc _ g1 g2 g3 g4 =>
    have hres : ∀ w : Str × Reserved, w ∈ reservedWords → w.2.name = w.1 := by decide
    have key : (∀ n : Name, v = .identifier n → n.intoString = text ∧ (esc = false → n = Name.from text)) ∧
        (∀ w : Reserved, v = .reserved w → w.name = text) ∧
        (∀ n, v ≠ .number n) ∧ (∀ n, v ≠ .string n) ∧ (∀ n, v ≠ .regExp n) := by
      cases g4 with
      | reserved h =>
        refine ⟨by simp, ?_, by simp, by simp, by simp⟩
        rintro n ⟨⟩
        exact hres _ h
      | @contextual _ a h =>
        have : Name.from text = .atom a := (C11_from_exact _ _).2 (.inl ⟨_, rfl, h⟩)
        refine ⟨?_, by simp, by simp, by simp, by simp⟩
        rintro n ⟨⟩
        refine ⟨?_, fun _ => this.symm⟩
        rw [← this, C11_string_roundtrip]
      | ordinary h1 h2 =>
        refine ⟨?_, by simp, by simp, by simp, by simp⟩
        rintro n ⟨⟩
        exact ⟨rfl, fun _ => ((C11_from_exact _ _).2 (.inr ⟨rfl, h2⟩)).symm⟩
      | escaped h =>
        refine ⟨?_, by simp, by simp, by simp, by simp⟩
        rintro n ⟨⟩
        exact ⟨rfl, fun h => by cases h⟩
    obtain ⟨k1, k2, k3, k4, k5⟩ := key
    cases c with
    | ident i =>
      obtain ⟨-, n, g, hn⟩ := hc
      obtain ⟨e1, e2⟩ := k1 n (hv.symm.trans g)
      have e3 : i.name.intoString = text := by
        rcases hn with rfl | h
        · exact e1
        · rw [h, C11_string_roundtrip, e1]
      refine ⟨esc, e3 ▸ g2, fun he => ?_⟩
      have hx := wordParts_plain g2 he
      refine ⟨by rw [e3, hx], ?_⟩
      rw [hx]
      rcases hn with rfl | h
      · exact e2 he
      · rw [h, e1]
    | word l w =>
      have : w = text := by
        obtain ⟨-, ⟨n, g, e⟩ | ⟨n, g, e⟩⟩ := hc
        · rw [← e]; exact (k1 n (hv.symm.trans g)).1
        · rw [← e]; exact k2 n (hv.symm.trans g)
      subst this
      exact ⟨esc, g2, wordParts_plain g2⟩
    | number l n => exact absurd (hv.symm.trans hc.2) (k3 _)
    | string l n => exact absurd (hv.symm.trans hc.2) (k4 _)
    | regExp l n => exact absurd (hv.symm.trans hc.2) (k5 _)
  | string g1 =>
    cases c with
    | ident i => obtain ⟨-, n, g, -⟩ := hc; rw [hv] at g; cases g
    | word l w => obtain ⟨-, ⟨n, g, -⟩ | ⟨n, g, -⟩⟩ := hc <;> rw [hv] at g <;> cases g
    | number l n => have g := hc.2; rw [hv] at g; cases g
    | string l n => have g := hc.2; rw [hv] at g; cases g; rfl
    | regExp l n => have g := hc.2; rw [hv] at g; cases g
  | number g1 =>
    cases c with
    | ident i => obtain ⟨-, n, g, -⟩ := hc; rw [hv] at g; cases g
    | word l w => obtain ⟨-, ⟨n, g, -⟩ | ⟨n, g, -⟩⟩ := hc <;> rw [hv] at g <;> cases g
    | number l n => have g := hc.2; rw [hv] at g; cases g; exact ⟨_, rfl, rfl⟩
    | string l n => have g := hc.2; rw [hv] at g; cases g
    | regExp l n => have g := hc.2; rw [hv] at g; cases g
  | regexp g1 g2 g3 =>
    cases c with
    | ident i => obtain ⟨-, n, g, -⟩ := hc; rw [hv] at g; cases g
    | word l w => obtain ⟨-, ⟨n, g, -⟩ | ⟨n, g, -⟩⟩ := hc <;> rw [hv] at g <;> cases g
    | number l n => have g := hc.2; rw [hv] at g; cases g
    | string l n => have g := hc.2; rw [hv] at g; cases g
    | regExp l n => have g := hc.2; rw [hv] at g; cases g; exact ⟨_, _, by simp, g3⟩

theorem Cite.By.loc_eq {c : Cite} {t : Token} (h : c.By t) : c.loc = some t.location := by
  cases c <;> exact h.1

/-! ### C49: quotations -/

/-- The location of an identifier, property name or literal of a returned tree is
exactly where it is written, and the text there spells it. -/
theorem C49_quotes {y : Node} {c : Cite} (h : Returned s st mo tree) (ho : Occurs .top tree v y)
    (hc : c ∈ y.2.cites) :
    ∃ p q, c.loc = some ⟨p, q⟩ ∧ p.offset ≤ q.offset ∧ q.offset ≤ s.length ∧
      PosnAt s p.offset p ∧ PosnAt s q.offset q ∧ c.Quotes (slice s p.offset q.offset) := by
  obtain ⟨ops, ts, k, ht, hk⟩ := returned_cites h ho
  obtain ⟨t, hm, hb⟩ := hk.1 c hc
  obtain ⟨⟨p, q, e, h1, h2, h3, h4⟩, op, hl⟩ := token_lexeme ht hm
  have hq := quotes_of_lexeme hl hb
  cases t with
  | mk loc nl val =>
    cases e
    exact ⟨p, q, hb.loc_eq, h1, h2, h3, h4, hq⟩

/-- The text of a directive is a string literal of the source. -/
theorem C49_directives {y : Node} {d : Dir} (h : Returned s st mo tree) (ho : Occurs .top tree v y)
    (hd : d ∈ y.2.ownDirs) :
    ∃ i j, i ≤ j ∧ j ≤ s.length ∧ d.string.source = some (slice s i j) ∧
      ∃ q x, slice s i j = q :: x ∧ (q = '"' ∨ q = '\'') ∧ StringRest q x d.string.value := by
  obtain ⟨ops, ts, k, ht, hk⟩ := returned_cites h ho
  obtain ⟨t, hm, hb⟩ := hk.2 d hd
  obtain ⟨⟨p, q, e, h1, h2, h3, h4⟩, op, hl⟩ := token_lexeme ht hm
  cases t with
  | mk loc nl val =>
    cases e
    simp only at hb hl
    refine ⟨p.offset, q.offset, h1, h2, ?_⟩
    rw [hb] at hl
    generalize slice s p.offset q.offset = x at hl
    generalize s.drop q.offset = y at hl
    generalize hv : TokenData.string d.string = w at hl
    cases hl with
    | punctuator g1 => have := punctuators_plain _ g1; rw [← hv] at this; cases this
    | word _ _ _ g => rw [← hv] at g; cases g
    | string g1 g2 =>
      injection hv with hv
      rw [hv]
      exact ⟨rfl, _, _, rfl, g1, g2⟩
    | _ => cases hv

/-! ### C29: words reserved in strict code -/

theorem ownIds_cites {c : Cat} {y : Ast c} {b : Bool} {i : Id} (h : (b, i) ∈ y.ownIds) :
    .ident i ∈ y.cites := by
  cases y <;> first
    | (simp only [Ast.ownIds, List.not_mem_nil] at h; done)
    | (simp only [Ast.ownIds, List.mem_singleton, Prod.mk.injEq] at h
       simp [Ast.cites, h.2])
    | (simp only [Ast.ownIds, List.mem_map, Prod.mk.injEq] at h
       obtain ⟨a, ha, -, rfl⟩ := h
       exact List.mem_map_of_mem ha)

/-- C29 (partial: the full claim is false, see `C29_fails`).  In strict code no
identifier is written as one of the reserved words, no binding as `eval` or
`arguments`; in modules none is written `await`.  Missing: the same for
identifiers that spell these words with escapes. -/
theorem C29_unescaped_partial {y : Node} {b : Bool} {i : Id} {sp : Span}
    (h : Returned s true mo tree) (ho : Occurs .top tree v y) (hi : (b, i) ∈ y.2.ownIds)
    (hl : i.location = some sp) :
    (slice s sp.start.offset sp.end.offset ∉ [c!"implements", c!"interface", c!"let", c!"package",
      c!"private", c!"protected", c!"public", c!"static", c!"yield"]) ∧
    (b = true → slice s sp.start.offset sp.end.offset ∉ [c!"eval", c!"arguments"]) ∧
    (mo = true → slice s sp.start.offset sp.end.offset ≠ c!"await") := by
  obtain ⟨p, q, e, -, -, -, -, esc, hw, hn⟩ := C49_quotes h ho (ownIds_cites hi)
  have e : i.location = some ⟨p, q⟩ := e
  rw [hl] at e
  cases e
  simp only
  generalize slice s p.offset q.offset = x at *
  have key : ∀ a : Atom, x = a.name → i.name = .atom a := by
    rintro a rfl
    have : esc = false := by
      have hs : ∀ {x t : Str} {e : Bool}, WordParts x e t → '\\' ∉ x → e = false := by
        intro x t e hw
        induction hw with
        | nil => simp
        | plain _ _ _ ih => intro hn; exact ih fun hm => hn (List.mem_cons_of_mem _ hm)
        | escape => intro hn; exact absurd (by simp) hn
      refine hs hw ?_
      cases a <;> decide
    rw [(hn this).2]
    exact (C11_atom_roundtrip a).1
  have h27 := C27_reserved h ho hi
  refine ⟨fun hx => h27 ?_, ?_, ?_⟩
  · simp only [List.mem_cons, List.not_mem_nil, or_false] at hx ⊢
    rcases hx with hx | hx | hx | hx | hx | hx | hx | hx | hx
    · exact .inl (key .implements hx)
    · exact .inr (.inl (key .interface hx))
    · exact .inr (.inr (.inl (key .«let» hx)))
    · exact .inr (.inr (.inr (.inl (key .package hx))))
    · exact .inr (.inr (.inr (.inr (.inl (key .«private» hx)))))
    · exact .inr (.inr (.inr (.inr (.inr (.inl (key .«protected» hx))))))
    · exact .inr (.inr (.inr (.inr (.inr (.inr (.inl (key .«public» hx)))))))
    · exact .inr (.inr (.inr (.inr (.inr (.inr (.inr (.inl (key .static hx))))))))
    · exact .inr (.inr (.inr (.inr (.inr (.inr (.inr (.inr (key .yield hx))))))))
  · rintro rfl hx
    have := C27_binding h ho hi
    simp only [List.mem_cons, List.not_mem_nil, or_false] at hx
    rcases hx with hx | hx
    · exact this.1 (key .eval hx)
    · exact this.2 (key .arguments hx)
  · rintro rfl hx
    exact (C28_await h ho hi).1 (key .await hx)

/-! ### C40: directives -/

/-- Why C40 fails (see `C40_fails`): no directive that the parser returns is ever
recognised, because `Dir::pragma` includes the quotation marks. -/
theorem C40_never {y : Node} {d : Dir} (h : Returned s st mo tree) (ho : Occurs .top tree v y)
    (hd : d ∈ y.2.ownDirs) : d.pragma ≠ c!"use strict" ∧ d.pragma ≠ c!"use module" := by
  obtain ⟨i, j, -, -, h1, q, x, h2, hq, -⟩ := C49_directives h ho hd
  have : d.pragma = q :: x := by unfold Dir.pragma; rw [h1]; exact h2
  rw [this]
  constructor
  · intro e; cases e; rcases hq with hq | hq <;> cases hq
  · intro e; cases e; rcases hq with hq | hq <;> cases hq

end Theorems

section Examples

local instance quotesEnv : Env := asciiEnv true

/-- A module whose tree has identifiers (one with an escape), property names,
literals of all kinds and a directive. -/
example : (parseModule c!"'use strict'; a\\u0062c = { x: 1, 'y': b.if, z, get w() { return /r/g } }; l: for (var i in \"s\") continue l").isOk = true := by
  decide +kernel

/-- Quoting parts of each kind, and directives, occur in returned trees. -/
example : ∀ p ∈ [
    (fun y => y.2.cites.any fun | .ident _ => true | _ => false : Node → Bool),
    fun y => y.2.cites.any fun | .word _ _ => true | _ => false,
    fun y => y.2.cites.any fun | .number _ _ => true | _ => false,
    fun y => y.2.cites.any fun | .string _ _ => true | _ => false,
    fun y => y.2.cites.any fun | .regExp _ _ => true | _ => false,
    fun y => !y.2.ownDirs.isEmpty,
    fun y => y.2.ownIds.any fun p => p.1],
    ∃ tree v y, Returned c!"'use strict'; a\\u0062c = { x: 1, 'y': b.if, z, get w() { return /r/g } }; l: for (var i in \"s\") continue l"
      true false tree ∧ Occurs .top tree v y ∧ p y = true := by
  intro p hp
  refine occursIn_spec ?_
  simp only [List.mem_cons, List.not_mem_nil, or_false] at hp
  rcases hp with rfl | rfl | rfl | rfl | rfl | rfl | rfl <;> decide +kernel

end Examples

end Esprit
