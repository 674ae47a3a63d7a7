import Verif.Proofs.LexValue

/-! Changing the white space and comments between tokens. -/

namespace Esprit

open Lex ReaderSpec

namespace Lex

variable [Env]

/-- Tokens without their positions: newline flags and values of the tokens read
from a text, and the text after them. -/
inductive Lexes : (e : Bool) → List Bool → Str → List (Bool × TokenData) → Str → Prop where
  | nil {e : Bool} {s : Str} : Lexes e [] s [] s
  | cons {e e' op : Bool} {ops : List Bool} {w x y z : Str} {v : TokenData}
      {vs : List (Bool × TokenData)} :
      Trivia e w (x ++ y) e' → NoTrivia e' (x ++ y) → Lexeme op x y v →
      Lexes false ops y vs z → Lexes e (op :: ops) (w ++ (x ++ y)) ((hasNewline w, v) :: vs) z

def flags (t : Token) : Bool × TokenData := (t.newline, t.value)

theorem Tokens.lexes {s : Str} {k k' : Nat} {e : Bool} {ops : List Bool} {ts : List Token}
    (h : Tokens s k e ops ts k') : Lexes e ops (s.drop k) (ts.map flags) (s.drop k') := by
  induction h with
  | nil => exact .nil
  | @cons k k1 k2 e op ops t ts h1 h2 ih =>
    obtain ⟨w, x, y, e', a1, a2, a3, a4, a5, a6, a7, rfl⟩ := h1
    have d2 : s.drop (k + w.length + x.length) = y := by
      rw [← List.drop_drop, ← List.drop_drop, a1, List.drop_left, List.drop_left]
    rw [d2] at ih
    rw [a1, List.map_cons, flags, a5]
    exact .cons a2 a3 a4 ih

theorem Lexes.tokens {s : Str} {e : Bool} {ops : List Bool} {r z : Str}
    {vs : List (Bool × TokenData)} (h : Lexes e ops r vs z) : ∀ {k : Nat}, k ≤ s.length →
    s.drop k = r → ∃ ts k', Tokens s k e ops ts k' ∧ ts.map flags = vs ∧ s.drop k' = z ∧
      k' ≤ s.length := by
  induction h with
  | nil => exact fun {k} hk h => ⟨[], k, .nil, rfl, h, hk⟩
  | @cons e e' op ops w x y z v vs h1 h2 h3 h4 ih =>
    intro k hk h
    have hl := congrArg List.length h
    simp only [List.length_drop, List.length_append] at hl
    have d2 : s.drop (k + w.length + x.length) = y := by
      rw [← List.drop_drop, ← List.drop_drop, h, List.drop_left, List.drop_left]
    obtain ⟨ts, k', b1, b2, b3, b4⟩ := ih (by omega) d2
    have p1 := posnFrom_spec s (k + w.length) (by omega)
    have p2 := posnFrom_spec s (k + w.length + x.length) (by omega)
    refine ⟨⟨⟨_, _⟩, hasNewline w, v⟩ :: ts, k', .cons ⟨w, x, y, e', h, h1, h2, h3, rfl, p1, p2, rfl⟩
      b1, ?_, b3, b4⟩
    rw [List.map_cons, b2]
    rfl

theorem Lexes.append {e : Bool} {ops ops' : List Bool} {r z z' : Str}
    {vs vs' : List (Bool × TokenData)} (h : Lexes e ops r vs z)
    (h' : Lexes (e && ops.isEmpty) ops' z vs' z') : Lexes e (ops ++ ops') r (vs ++ vs') z' := by
  induction h with
  | nil => simpa using h'
  | cons h1 h2 h3 h4 ih => exact .cons h1 h2 h3 (ih (by simpa using h'))

/-- Trivia look at the next character only. -/
theorem Trivia.next {e e' : Bool} {w y : Str} (h : Trivia e w y e') : ∀ {y' : Str},
    y.head? = y'.head? → Trivia e w y' e' := by
  induction h with
  | nil => exact fun _ => .nil
  | space h1 _ ih => exact fun h => .space h1 (ih h)
  | newline h1 _ ih => exact fun h => .newline h1 (ih h)
  | @line e e' k w y h1 h2 _ ih =>
    intro y' h
    refine .line h1 ?_ (ih h)
    intro c hc
    apply h2 c
    cases w with
    | nil => rw [← hc]; exact h
    | cons d w => simpa using hc
  | block h1 _ ih => exact fun h => .block h1 (ih h)

/-- The characters that white space and comments after a token can start with, and `;`. -/
def SepHead (c : Char) : Prop := c ∈ whiteSpace ∨ c ∈ lineTerminators ∨ c = '/' ∨ c = '<' ∨ c = ';'

omit [Env] in
/-- A prefix that does not contain the separator lies before it. -/
theorem prefix_before {p a b b' : Str} {c : Char} (h : p <+: a ++ c :: b)
    (hc : ∀ q, p = a ++ c :: q → False) : p <+: a ++ b' := by
  induction a generalizing p with
  | nil =>
    cases p with
    | nil => exact List.nil_prefix
    | cons d p =>
      obtain ⟨t, ht⟩ := h
      simp only [List.nil_append, List.cons_append, List.cons.injEq] at ht
      exact (hc p (by rw [ht.1]; rfl)).elim
  | cons d a ih =>
    cases p with
    | nil => exact List.nil_prefix
    | cons d' p =>
      obtain ⟨t, ht⟩ := h
      simp only [List.cons_append, List.cons.injEq] at ht
      obtain ⟨rfl, ht⟩ := ht
      refine List.cons_prefix_cons.2 ⟨rfl, ih ⟨t, ht⟩ fun q hq => hc q (by rw [hq]; rfl)⟩

theorem sepHead_word [LawfulEnv] {c : Char} (h : SepHead c) : c ≠ '\\' ∧ ¬ IdPart c ∧
    ¬ IdStart c ∧ c ∉ decDigits ∧ c ≠ '.' := by
  have key : ∀ d ∈ (whiteSpace ++ lineTerminators ++ ['/', '<', ';']),
      (d ≠ '\\' ∧ d ∉ decDigits ∧ d ≠ '.' ∧ d ≠ '$' ∧ d ≠ '_' ∧ d ≠ '\u200c' ∧ d ≠ '\u200d') ∧
      ((d.toNat < 128 ∧ d.isAlpha = false ∧ d.isDigit = false ∧ (d == '_') = false) ∨
        d ∈ (['\u00a0', '\u1680', '\u2000', '\u2001', '\u2002', '\u2003',
    '\u2004', '\u2005', '\u2006', '\u2009', '\u200a', '\u202f', '\u205f', '\u3000', '\ufeff',
    '\u2028', '\u2029'] : List Char)) := by decide +kernel
  obtain ⟨⟨k1, k2, k3, k4, k5, k6, k7⟩, k8⟩ := key c (by
    rcases h with h | h | h | h | h <;> simp [h])
  have hc : Env.idContinue c = false := by
    rcases k8 with ⟨a1, a2, a3, a4⟩ | h
    · rw [LawfulEnv.ascii_continue c a1, a2, a3, a4]; rfl
    · exact LawfulEnv.separators c h
  have hs : Env.idStart c ≠ true := by
    intro hs
    rw [LawfulEnv.start_continue c hs] at hc
    cases hc
  refine ⟨k1, ?_, ?_, k2, k3⟩
  · rintro (h | h | h | h | h)
    · exact k4 h
    · exact k5 h
    · exact k6 h
    · exact k7 h
    · rw [h] at hc; cases hc
  · rintro (h | h | h)
    · exact k4 h
    · exact k5 h
    · exact hs h

/-- Nothing else changes for a token if the text from some point after it on
is replaced by a text that begins with a separator. -/
theorem Lexeme.change [LawfulEnv] {op : Bool} {x u z z' : Str} {v : TokenData} {c : Char}
    (h : Lexeme op x (u ++ z) v) (hv : v ≠ .eof) (hc : SepHead c)
    (hs : u = [] → (v = .lAngle → c ≠ '<')) : Lexeme op x (u ++ c :: z') v := by
  obtain ⟨k1, k2, k3, k4, k5⟩ := sepHead_word hc
  have hhead : ∀ {P : Char → Prop}, (∀ d, (u ++ z).head? = some d → P d) → P c →
      ∀ d, (u ++ c :: z').head? = some d → P d := by
    intro P h1 h2 d hd
    cases u with
    | nil => simp at hd; subst hd; exact h2
    | cons d' u => exact h1 d (by simpa using hd)
  generalize hy : u ++ z = y at h hhead
  cases h with
  | eof => exact absurd rfl hv
  | punctuator h1 h2 h3 h4 =>
    refine .punctuator h1 ?_ h3 (fun hx => hhead (h4 hx) k4)
    intro x' v' hx' hp
    rw [← List.append_assoc] at hp
    by_cases hq : ∃ q, x' = (x ++ u) ++ c :: q
    · exfalso
      obtain ⟨q, hq⟩ := hq
      have key : ∀ p ∈ punctuators, ∀ d ∈ p.1.tail, d ∈ whiteSpace ∨ d ∈ lineTerminators ∨ d = '/' ∨
          d = '<' ∨ d = ';' → p.1.take 2 = c!"<<" := by decide +kernel
      have hne : x ≠ [] := by
        have : ∀ p ∈ punctuators, p.1 ≠ [] := by decide +kernel
        exact this _ h1
      cases x with
      | nil => exact hne rfl
      | cons d x =>
        have h5 := key _ hx' c (by rw [hq]; simp) hc
        have key2 : ∀ p ∈ punctuators, p.1 = c!"<" → p.2 = .lAngle := by decide +kernel
        rw [hq] at h5
        cases x with
        | cons d' x =>
          -- the first two characters are `<<`
          simp only [List.cons_append, List.take_succ_cons, List.take_zero, List.cons.injEq,
            and_true] at h5
          obtain ⟨rfl, rfl⟩ := h5
          have key3 : ∀ p ∈ punctuators, p.1.take 2 = c!"<<" → ∀ e ∈ p.1.drop 2,
              e ∉ whiteSpace ∧ e ∉ lineTerminators ∧ e ≠ '/' ∧ e ≠ '<' ∧ e ≠ ';' := by decide +kernel
          have := key3 _ hx' (by rw [hq]; rfl) c (by rw [hq]; simp)
          rcases hc with hc | hc | hc | hc | hc
          · exact this.1 hc
          · exact this.2.1 hc
          · exact this.2.2.1 hc
          · exact this.2.2.2.1 hc
          · exact this.2.2.2.2 hc
        | nil =>
          cases u with
          | nil =>
            simp only [List.cons_append, List.nil_append, List.take_succ_cons, List.take_zero,
              List.cons.injEq, and_true] at h5
            obtain ⟨rfl, rfl⟩ := h5
            exact hs rfl (key2 _ h1 rfl) rfl
          | cons d' u =>
            simp only [List.cons_append, List.nil_append, List.take_succ_cons, List.take_zero,
              List.cons.injEq, and_true] at h5
            obtain ⟨rfl, rfl⟩ := h5
            have := h2 c!"<<" .lShift (by decide) (by rw [← hy]; simp)
            simp at this
    · have := prefix_before (b' := z) hp (fun q h => hq ⟨q, h⟩)
      rw [List.append_assoc, hy] at this
      exact h2 x' v' hx' this
  | word h1 h2 h3 h4 => exact .word h1 h2 (hhead h3 ⟨k1, k2⟩) h4
  | string h1 h2 => exact .string h1 h2
  | number h1 h2 h3 =>
    refine .number ?_ (hhead h2 ⟨k3, k4⟩) h3
    cases h1 with
    | decimal g1 g2 g3 g4 =>
      refine .decimal g1 g2 g3 fun he => ?_
      have := hhead (P := fun d => d ≠ '.') (fun d hd hd' => g4 he (by rw [hd, hd'])) k5
      intro hd
      exact this _ hd rfl
    | hex g1 => exact .hex g1
    | oct g1 => exact .oct g1
    | bin g1 => exact .bin g1
    | legacyOctal g1 => exact .legacyOctal g1
    | point g1 g2 => exact .point g1 g2
    | float g1 g2 g3 g4 => exact .float g1 g2 g3 g4
  | regexp h1 h2 h3 h4 => exact .regexp h1 h2 h3 (hhead h4 ⟨k1, k2⟩)

omit [Env] in
theorem NoTrivia.change {e : Bool} {a z z' : Str} {c : Char} (h : NoTrivia e (a ++ z))
    (ha : a ≠ []) (hc : SepHead c) (hs : a = c!"/" → c ≠ '/') : NoTrivia e (a ++ c :: z') := by
  have hcs : c ≠ '!' ∧ c ≠ '-' ∧ c ≠ '>' ∧ c ≠ '*' := by
    have key : ∀ d ∈ (whiteSpace ++ lineTerminators ++ ['/', '<', ';']),
      d ≠ '!' ∧ d ≠ '-' ∧ d ≠ '>' ∧ d ≠ '*' := by decide +kernel
    exact key c (by rcases hc with h | h | h | h | h <;> simp [h])
  obtain ⟨c1, c2, c3, c4⟩ := hcs
  cases a with
  | nil => exact absurd rfl ha
  | cons d a =>
    refine ⟨fun d' hd => h.space d' (by simpa using hd), ?_, ?_, ?_, fun he => ?_⟩
    · intro hp
      refine h.slashes (prefix_before hp fun q hq => ?_)
      simp only [List.cons_append, List.cons.injEq] at hq
      obtain ⟨rfl, hq⟩ := hq
      cases a with
      | nil => simp at hq; exact hs rfl hq.1.symm
      | cons => simp at hq
    · intro hp
      refine h.block (prefix_before hp fun q hq => ?_)
      have : c ∈ c!"*" := by
        have := congrArg List.tail hq
        simp only [List.cons_append, List.tail_cons] at this
        rw [this]; simp
      simp at this
      exact c4 this
    · intro hp
      refine h.htmlOpen (prefix_before hp fun q hq => ?_)
      have : c ∈ c!"!--" := by
        have := congrArg List.tail hq
        simp only [List.cons_append, List.tail_cons] at this
        rw [this]; simp
      simp at this
      rcases this with h | h
      · exact c1 h
      · exact c2 h
    · intro hp
      refine h.htmlClose he (prefix_before hp fun q hq => ?_)
      have : c ∈ c!"->" := by
        have := congrArg List.tail hq
        simp only [List.cons_append, List.tail_cons] at this
        rw [this]; simp
      simp at this
      rcases this with h | h
      · exact c2 h
      · exact c3 h

omit [Env] in
theorem slash_text : ∀ p ∈ punctuators, p.1 = c!"/" → p.2 = .slash := by decide +kernel

theorem Lexeme.slash_value [LawfulEnv] {op : Bool} {y : Str} {v : TokenData}
    (h : Lexeme op c!"/" y v) : v = .slash := by
  rcases h.slash (by simp) with ⟨_, h1⟩ | ⟨rfl, lit, rfl⟩
  · simpa using h1
  · have := h.spelled
    obtain ⟨f, hf, _⟩ := this
    have := congrArg List.length hf
    simp at this

/-- Replacing the text after the tokens. -/
theorem Lexes.change [LawfulEnv] {e : Bool} {ops : List Bool} {r z z' : Str} {c : Char}
    {vs : List (Bool × TokenData)} (h : Lexes e ops r vs z) (hc : SepHead c)
    (heof : ∀ p ∈ vs, p.2 ≠ .eof)
    (hlast : ∀ p, vs.getLast? = some p → (p.2 = .slash → c ≠ '/') ∧ (p.2 = .lAngle → c ≠ '<')) :
    ∃ a, r = a ++ z ∧ Lexes e ops (a ++ c :: z') vs (c :: z') ∧ (vs ≠ [] → a ≠ []) := by
  induction h with
  | nil => exact ⟨[], rfl, .nil, fun h => absurd rfl h⟩
  | @cons e e' op ops w x y z v vs h1 h2 h3 h4 ih =>
    obtain ⟨u, rfl, hu, hne⟩ := ih (fun p hp => heof p (by simp [hp])) (fun p hp => hlast p (by
      cases vs with
      | nil => simp at hp
      | cons q qs => simpa using hp))
    have hv := heof (hasNewline w, v) (by simp)
    have hx : x ≠ [] := fun h => hv (h3.eof_iff.1.2 h)
    have hlast' : u = [] → (v = .slash → c ≠ '/') ∧ (v = .lAngle → c ≠ '<') := by
      intro hu
      have : vs = [] := Classical.byContradiction fun h => hne h hu
      exact hlast (hasNewline w, v) (by rw [this]; rfl)
    have hl : Lexeme op x (u ++ c :: z') v := h3.change hv hc fun h => (hlast' h).2
    refine ⟨w ++ (x ++ u), by simp, ?_, fun _ => by simp [hx]⟩
    have hn : NoTrivia e' (x ++ (u ++ c :: z')) := by
      rw [← List.append_assoc] at h2 ⊢
      refine h2.change (by simp [hx]) hc fun hxu => ?_
      have hx1 : x = c!"/" ∧ u = [] := by
        cases x with
        | nil => exact absurd rfl hx
        | cons d x =>
          simp only [List.cons_append, List.cons.injEq, List.append_eq_nil_iff] at hxu
          simp [hxu]
      obtain ⟨rfl, rfl⟩ := hx1
      exact (hlast' rfl).1 h3.slash_value
    have ht : Trivia e w (x ++ (u ++ c :: z')) e' := by
      refine h1.next ?_
      cases x with
      | nil => exact absurd rfl hx
      | cons d x => rfl
    have := Lexes.cons ht hn hl hu
    simpa using this

end Lex

end Esprit
