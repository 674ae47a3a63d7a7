import Verif.Proofs.Complete.Join
import Verif.Proofs.AstSame
import Verif.Proofs.LayoutSep

/-!
Joining texts: the tokens of two texts with a line terminator between them.  The tokens
of the second are found at the positions which they have after a text like the first
that is blank.
-/

namespace Esprit

open Lex ReaderSpec Grammar

theorem PropKey.similar_blur (k : PropKey) : k.blur.Similar k := by cases k <;> constructor

theorem Ast.similar_blur {c : Cat} (x : Ast c) : Ast.Similar x.blur x := by
  induction x with
  | key k => exact .key k.similar_blur
  | ppRegular l k p ih => exact .ppRegular k.similar_blur ih
  | prRegular l k v ih => exact .prRegular k.similar_blur ih
  | body l dirs items ih => exact .body (by simp [Dir.blur, Function.comp_def]) ih
  | sBreak l i semi => exact .sBreak (by cases i <;> rfl)
  | sCont l i semi => exact .sCont (by cases i <;> rfl)
  | _ => constructor <;> first | rfl | assumption

theorem Ast.similar_of_blur {c : Cat} {x y : Ast c} (h : x.blur = y.blur) : Ast.Similar x y :=
  x.similar_blur.symm.trans (h ▸ y.similar_blur)

namespace Join

/-- A line terminator, or else a blank in place of the character. -/
def blank (c : Char) : Char := if c ∈ lineTerminators then c else ' '

theorem blank_space (c : Char) : blank c ∈ whiteSpace ∨ blank c ∈ lineTerminators := by
  unfold blank
  split
  · exact .inr ‹_›
  · exact .inl (by decide)

theorem blank_eq {c d : Char} (hd : d ∈ lineTerminators) : blank c = d ↔ c = d := by
  unfold blank
  split
  · exact Iff.rfl
  · rename_i h
    constructor
    · rintro rfl; exact absurd hd (by decide)
    · rintro rfl; exact absurd hd h

theorem posnAt_congr {s s' : Str} {k : Nat} {p : Posn} (h : PosnAt s k p)
    (he : ∀ i < k, endsLine s i = endsLine s' i) : PosnAt s' k p := by
  obtain ⟨h1, h2, j, h3, h4, h5, h6⟩ := h
  refine ⟨h1, ?_, j, h3, h4, ?_, fun i hi hk => by rw [← he i hk]; exact h6 i hi hk⟩
  · rw [h2]
    refine List.countP_congr fun i hi => ?_
    rw [he i (List.mem_range.1 hi)]
  · rcases h5 with h5 | h5
    · exact .inl h5
    · rcases Nat.eq_zero_or_pos j with hj | hj
      · exact .inl hj
      · exact .inr (by rw [← he _ (by omega)]; exact h5)

/-- Positions in the first text. -/
theorem endsLine_left {s1 z : Str} (hcr : s1.getLast? ≠ some '\r') {i : Nat} (hi : i < s1.length) :
    endsLine s1 i = endsLine (s1 ++ z) i := by
  unfold endsLine
  rw [List.getElem?_append_left hi]
  rcases Nat.lt_or_ge (i + 1) s1.length with h | h
  · rw [List.getElem?_append_left h]
  · have hl : s1[i]? ≠ some '\r' := by
      rw [List.getLast?_eq_getElem?] at hcr
      have : i = s1.length - 1 := by omega
      rw [this]; exact hcr
    rw [List.getElem?_eq_getElem hi] at hl ⊢
    have hl : s1[i] ≠ '\r' := fun h => hl (by rw [h])
    simp [hl]

/-- Positions after the first text. -/
theorem endsLine_blank {s1 z : Str} {c : Char} (i : Nat) :
    endsLine (s1.map blank ++ c :: z) i = endsLine (s1 ++ c :: z) i := by
  unfold endsLine
  rcases Nat.lt_or_ge i s1.length with hi | hi
  · have h2 : (s1.map blank ++ c :: z)[i + 1]? = some '\n' ↔ (s1 ++ c :: z)[i + 1]? = some '\n' := by
      rcases Nat.lt_or_ge (i + 1) s1.length with h | h
      · rw [List.getElem?_append_left h, List.getElem?_append_left (by simpa using h),
          List.getElem?_map, List.getElem?_eq_getElem h]
        simp [blank_eq (d := '\n') (by decide)]
      · rw [List.getElem?_append_right h, List.getElem?_append_right (by simpa using h),
          List.length_map]
    rw [List.getElem?_append_left hi, List.getElem?_append_left (by simpa using hi),
      List.getElem?_map, List.getElem?_eq_getElem hi]
    simp only [Option.map_some, ne_eq, h2]
    simp [blank_eq (d := '\n') (by decide), blank_eq (d := '\r') (by decide),
      blank_eq (d := '\u2028') (by decide), blank_eq (d := '\u2029') (by decide)]
  · rw [List.getElem?_append_right hi, List.getElem?_append_right (by simpa using hi),
      List.getElem?_append_right (by omega : s1.length ≤ i + 1),
      List.getElem?_append_right (by simp; omega), List.length_map]

/-- Trivia at the end of a text go on after a line terminator. -/
theorem trivia_append {e e' e'' : Bool} {w w' y : Str} (h : Trivia e w [] e')
    (h' : Trivia true w' y e'') : Trivia e (w ++ '\n' :: w') y e'' := by
  generalize hz : ([] : Str) = z at h
  induction h with
  | nil => exact .newline (by decide) h'
  | space h1 _ ih => exact .space h1 (ih hz)
  | newline h1 _ ih => exact .newline h1 (ih hz)
  | @line e e' k w y h1 h2 _ ih =>
    subst hz
    rw [List.append_assoc]
    refine .line h1 ?_ (ih rfl)
    intro c hc
    cases w with
    | nil => simp at hc; subst hc; decide
    | cons d w => exact h2 c (by simpa using hc)
  | block h1 _ ih =>
    rw [List.append_assoc]
    exact .block h1 (ih hz)

/-- Trivia that begin with a blank or a line terminator. -/
theorem trivia_tail {e e' : Bool} {c : Char} {w y : Str} (h : Trivia e (c :: w) y e')
    (hc : c ∈ whiteSpace ∨ c ∈ lineTerminators) :
    ∃ e1, Trivia e1 w y e' ∧ (c ∈ lineTerminators → e1 = true) ∧ (e = true → e1 = true) := by
  have hd : c ≠ '/' ∧ c ≠ '<' ∧ c ≠ '-' := by
    have key : ∀ d ∈ whiteSpace ++ lineTerminators, d ≠ '/' ∧ d ≠ '<' ∧ d ≠ '-' := by decide +kernel
    exact key c (by rcases hc with h | h <;> simp [h])
  generalize hv : c :: w = v at h
  cases h with
  | nil => cases hv
  | space h1 h2 =>
    cases hv
    have key : ∀ d ∈ whiteSpace, d ∉ lineTerminators := by decide +kernel
    exact ⟨_, h2, fun h => absurd h (key _ h1), fun h => h⟩
  | newline h1 h2 => cases hv; exact ⟨_, h2, fun _ => rfl, fun _ => rfl⟩
  | line h1 =>
    exfalso
    cases h1 <;> simp at hv
    · exact hd.1 hv.1
    · exact hd.2.1 hv.1
    · exact hd.2.2 hv.1
  | block h1 => cases h1; simp at hv; exact (hd.1 hv.1).elim

/-- Trivia that begin with blanks, and a line terminator after them. -/
theorem trivia_blank {e' : Bool} {w y : Str} : ∀ {b : Str},
    (∀ c ∈ b, c ∈ whiteSpace ∨ c ∈ lineTerminators) → ∀ {e}, Trivia e (b ++ '\n' :: w) y e' →
    Trivia true w y e'
  | [], _, _, h => by
    obtain ⟨e1, h1, h2, _⟩ := trivia_tail h (.inr (by decide))
    rw [h2 (by decide)] at h1
    exact h1
  | c :: b, hb, _, h => by
    obtain ⟨e1, h1, -⟩ := trivia_tail h (hb c (by simp))
    exact trivia_blank (fun d hd => hb d (by simp [hd])) h1

theorem blank_trivia {e' : Bool} {w y : Str} (h : Trivia true w y e') : ∀ {b : Str},
    (∀ c ∈ b, c ∈ whiteSpace ∨ c ∈ lineTerminators) → ∀ {e}, Trivia e (b ++ '\n' :: w) y e'
  | [], _, _ => .newline (by decide) h
  | c :: b, hb, _ => by
    rcases hb c (by simp) with h1 | h1
    · exact .space h1 (blank_trivia h fun d hd => hb d (by simp [hd]))
    · exact .newline h1 (blank_trivia h fun d hd => hb d (by simp [hd]))

/-- Trivia, as much as there is, include the blanks and line terminators at the beginning. -/
theorem blank_split {b z w v : Str} {c : Char} {e' : Bool}
    (hb : ∀ d ∈ b, d ∈ whiteSpace ∨ d ∈ lineTerminators) (hc : c ∈ lineTerminators)
    (h : b ++ c :: z = w ++ v) (hn : NoTrivia e' v) : ∃ w', w = b ++ c :: w' ∧ z = w' ++ v := by
  induction b generalizing w with
  | nil =>
    cases w with
    | nil =>
      simp only [List.nil_append] at h
      exact absurd hc (hn.space c (by rw [← h]; rfl)).2
    | cons d w =>
      simp only [List.nil_append, List.cons_append, List.cons.injEq] at h
      exact ⟨w, by rw [h.1]; rfl, h.2⟩
  | cons d b ih =>
    cases w with
    | nil =>
      simp only [List.nil_append] at h
      have := hn.space d (by rw [← h]; rfl)
      rcases hb d (by simp) with hd | hd
      · exact absurd hd this.1
      · exact absurd hd this.2
    | cons d' w =>
      simp only [List.cons_append, List.cons.injEq] at h
      obtain ⟨w', h1, h2⟩ := ih (fun d hd => hb d (by simp [hd])) h.2
      exact ⟨w', by rw [h1, h.1]; rfl, h2⟩

theorem hasNewline_append (a w : Str) : hasNewline (a ++ '\n' :: w) = true := by
  unfold hasNewline
  rw [List.any_append, List.any_cons]
  have : lineTerminators.contains '\n' = true := by decide
  rw [this]
  simp

section

variable [Env] [LawfulEnv] {s1 s2 : Str}

/-- A token of the first text. -/
theorem tokenAt_left (hcr : s1.getLast? ≠ some '\r') {k k' : Nat} {e op : Bool} {t : Token}
    (h : TokenAt s1 k e op t k') (ht : t.value ≠ .eof) (hk : k ≤ s1.length) :
    TokenAt (s1 ++ '\n' :: s2) k e op t k' ∧ k' ≤ s1.length := by
  obtain ⟨w, x, y, e', a1, a2, a3, a4, a5, a6, a7, rfl⟩ := h
  have hx : x ≠ [] := fun h => ht (a4.eof_iff.1.2 h)
  have hl := congrArg List.length a1
  simp only [List.length_drop, List.length_append] at hl
  have hsep : SepHead '\n' := .inr (.inl (by decide))
  refine ⟨⟨w, x, y ++ '\n' :: s2, e', ?_, ?_, ?_, ?_, a5, ?_, ?_, rfl⟩, by omega⟩
  · rw [List.drop_append_of_le_length hk, a1]
    simp
  · refine a2.next ?_
    cases x with
    | nil => exact absurd rfl hx
    | cons => rfl
  · have := NoTrivia.change (a := x ++ y) (z := []) (z' := s2) (c := '\n') (e := e')
      (by simpa using a3) (by simp [hx]) hsep (fun _ => by decide)
    simpa using this
  · exact Lexeme.change (u := y) (z := []) (z' := s2) (by simpa using a4) ht hsep (fun _ _ => by decide)
  · exact posnAt_congr a6 fun i hi => endsLine_left hcr (by omega)
  · exact posnAt_congr a7 fun i hi => endsLine_left hcr (by omega)

omit [LawfulEnv] in
/-- The first token of the second text. -/
theorem tokenAt_first {k k0 k1 : Nat} {e op op0 : Bool} {t t0 : Token}
    (h : TokenAt s1 k e op t k0) (ht : t.value = .eof) (hk : k ≤ s1.length)
    (h0 : TokenAt (s1.map blank ++ '\n' :: s2) 0 true op0 t0 k1) :
    TokenAt (s1 ++ '\n' :: s2) k e op0 t0 k1 ∧ s1.length < k1 := by
  obtain ⟨w, x, y, e', a1, a2, a3, a4, a5, a6, a7, rfl⟩ := h
  obtain ⟨w0, x0, y0, e0, b1, b2, b3, b4, b5, b6, b7, rfl⟩ := h0
  rw [ht] at a4
  have hx : x = [] := a4.eof_iff.1.1 rfl
  have hy : y = [] := a4.eof_iff.2 hx
  subst hx hy
  have hb : ∀ d ∈ s1.map blank, d ∈ whiteSpace ∨ d ∈ lineTerminators := by
    intro d hd
    obtain ⟨c, _, rfl⟩ := List.mem_map.1 hd
    exact blank_space c
  simp only [List.drop_zero] at b1
  obtain ⟨w', rfl, hw'⟩ := blank_split hb (by decide) b1 b3
  have h1 := trivia_blank hb b2
  simp only [List.append_nil] at a1 a2
  have hl := congrArg List.length a1
  simp only [List.length_drop] at hl
  have e1 : k + (w ++ '\n' :: w').length = 0 + (s1.map blank ++ '\n' :: w').length := by
    simp only [List.length_append, List.length_map, List.length_cons]
    omega
  refine ⟨⟨w ++ '\n' :: w', x0, y0, e0, ?_, trivia_append a2 h1, b3, b4, ?_, ?_, ?_, ?_⟩, ?_⟩
  · rw [List.drop_append_of_le_length hk, a1, hw']
    simp
  · rw [b5, hasNewline_append, hasNewline_append]
  · rw [e1]
    exact posnAt_congr b6 fun i _ => endsLine_blank i
  · rw [e1]
    exact posnAt_congr b7 fun i _ => endsLine_blank i
  · rw [e1]
  · simp only [List.length_append, List.length_map, List.length_cons]
    omega

omit [LawfulEnv] in
/-- The first token of the second text is on a line of its own, after the first text. -/
theorem first_start {k1 : Nat} {op0 : Bool} {t0 : Token}
    (h0 : TokenAt (s1.map blank ++ '\n' :: s2) 0 true op0 t0 k1) :
    t0.newline = true ∧ s1.length < t0.location.start.offset ∧ s1.length < k1 := by
  obtain ⟨w0, x0, y0, e0, b1, b2, b3, b4, b5, b6, b7, rfl⟩ := h0
  have hb : ∀ d ∈ s1.map blank, d ∈ whiteSpace ∨ d ∈ lineTerminators := by
    intro d hd
    obtain ⟨c, _, rfl⟩ := List.mem_map.1 hd
    exact blank_space c
  simp only [List.drop_zero] at b1
  obtain ⟨w', rfl, hw'⟩ := blank_split hb (by decide) b1 b3
  refine ⟨by rw [b5, hasNewline_append], ?_, ?_⟩
  · rw [b6.offset]
    simp only [List.length_append, List.length_map, List.length_cons]
    omega
  · simp only [List.length_append, List.length_map, List.length_cons]
    omega

omit [LawfulEnv] in
/-- The tokens of the second text. -/
theorem tokens_right {k k' : Nat} {e : Bool} {ops : List Bool} {ts : List Token}
    (h : Tokens (s1.map blank ++ '\n' :: s2) k e ops ts k') (hk : s1.length < k) :
    Tokens (s1 ++ '\n' :: s2) k e ops ts k' := by
  induction h with
  | nil => exact .nil
  | @cons n _ _ _ _ _ _ _ h1 h2 ih =>
    obtain ⟨w, x, y, e', a1, a2, a3, a4, a5, a6, a7, rfl⟩ := h1
    refine .cons ⟨w, x, y, e', ?_, a2, a3, a4, a5, posnAt_congr a6 fun i _ => endsLine_blank i,
      posnAt_congr a7 fun i _ => endsLine_blank i, rfl⟩ (ih (by omega))
    have hd : ∀ a : Str, a.length = s1.length →
        (a ++ '\n' :: s2).drop n = ('\n' :: s2).drop (n - s1.length) := by
      intro a ha
      rw [List.drop_append, ha, List.drop_eq_nil_of_le (by omega), List.nil_append]
    rw [← a1, hd _ rfl, hd _ (List.length_map ..)]

/-- The tokens of both texts. -/
theorem tokens_join (hcr : s1.getLast? ≠ some '\r') {op0 : Bool} {ops2 : List Bool} {t0 : Token}
    {R' : List Token} {k1 k2 : Nat} (h0 : TokenAt (s1.map blank ++ '\n' :: s2) 0 true op0 t0 k1)
    (h2 : Tokens (s1.map blank ++ '\n' :: s2) k1 false ops2 R' k2) {k k' : Nat} {e : Bool}
    {ops : List Bool} {ts : List Token} (h : Tokens s1 k e ops ts k') : k ≤ s1.length →
    (∃ t ∈ ts, t.value = .eof) →
    ∃ ops', Tokens (s1 ++ '\n' :: s2) k e ops' (join (t0 :: R') ts) k2 := by
  induction h with
  | nil => rintro _ ⟨t, ht, _⟩; cases ht
  | @cons k k1 k2 e op ops t ts h3 h4 ih =>
    rintro hk ⟨u, hu, hv⟩
    by_cases ht : t.value = .eof
    · rw [join_eof ht]
      obtain ⟨a1, a2⟩ := tokenAt_first h3 ht hk h0
      exact ⟨_, .cons a1 (tokens_right h2 a2)⟩
    · rw [join_cons ht]
      obtain ⟨a1, a2⟩ := tokenAt_left (s2 := s2) hcr h3 ht hk
      obtain ⟨ops', a3⟩ := ih a2 ⟨u, (List.mem_cons.1 hu).resolve_left fun h => ht (h ▸ hv), hv⟩
      exact ⟨_, .cons a1 a3⟩

omit [LawfulEnv] in
/-- The tokens of the second text without the blanks before it. -/
theorem tokens_unblank {op : Bool} {ops : List Bool} {ts : List Token} {k : Nat}
    (h : Tokens (s1.map blank ++ '\n' :: s2) 0 true (op :: ops) ts k) :
    ∃ ts' k', Tokens ('\n' :: s2) 0 true (op :: ops) ts' k' ∧ ts'.map flags = ts.map flags := by
  have hl := h.lexes
  rw [List.drop_zero] at hl
  generalize hf : ts.map flags = fs at hl
  generalize hz : List.drop k _ = z at hl
  generalize hr : s1.map blank ++ '\n' :: s2 = r at hl
  cases hl with
  | @cons _ e' _ _ w x y _ v vs h1 h2 h3 h4 =>
    have hb : ∀ d ∈ s1.map blank, d ∈ whiteSpace ∨ d ∈ lineTerminators := by
      intro d hd
      obtain ⟨c, _, rfl⟩ := List.mem_map.1 hd
      exact blank_space c
    obtain ⟨w', rfl, hw'⟩ := blank_split hb (by decide) hr h2
    have h5 : Lexes true (op :: ops) ('\n' :: w' ++ (x ++ y)) ((hasNewline ('\n' :: w'), v) :: vs) z :=
      .cons (.newline (by decide) (trivia_blank hb h1)) h2 h3 h4
    obtain ⟨ts', k', a1, a2, _⟩ := h5.tokens (s := '\n' :: s2) (k := 0) (Nat.zero_le _)
      (by rw [List.drop_zero, hw']; rfl)
    refine ⟨ts', k', a1, ?_⟩
    rw [a2, hasNewline_append]
    have := hasNewline_append [] w'
    rw [List.nil_append] at this
    rw [this]

omit [LawfulEnv] in
theorem tokens_start {s : Str} {k k' : Nat} {e : Bool} {ops : List Bool} {ts : List Token}
    (h : Tokens s k e ops ts k') : ∀ t ∈ ts, k ≤ t.location.start.offset := by
  induction h with
  | nil => simp
  | cons h1 h2 ih =>
    obtain ⟨w, x, y, e', a1, a2, a3, a4, a5, a6, a7, rfl⟩ := h1
    intro t ht
    rcases List.mem_cons.1 ht with rfl | ht
    · rw [a6.offset]; omega
    · have := ih t ht
      omega

omit [LawfulEnv] in
/-- Tokens that do not start with `/` are found in both modes. -/
theorem tokenAt_mode {s : Str} {k k' : Nat} {e op : Bool} {t : Token} (h : TokenAt s k e op t k')
    (h1 : t.value ≠ .slash) (h2 : t.value ≠ .slashAssign) (h3 : ∀ x, t.value ≠ .regExp x)
    (op' : Bool) : TokenAt s k e op' t k' := by
  obtain ⟨w, x, y, e', a1, a2, a3, a4, a5⟩ := h
  refine ⟨w, x, y, e', a1, a2, a3, ?_, a5⟩
  generalize t.value = v at a4 h1 h2 h3
  cases a4 with
  | eof => exact .eof
  | punctuator b1 b2 b3 b4 =>
    refine .punctuator b1 b2 (fun hs => ?_) b4
    have key : ∀ p ∈ punctuators, p.1.head? = some '/' → p.2 = .slash ∨ p.2 = .slashAssign := by
      decide +kernel
    rcases key _ b1 hs with h | h
    · exact absurd h h1
    · exact absurd h h2
  | word b1 b2 b3 b4 => exact .word b1 b2 b3 b4
  | string b1 b2 => exact .string b1 b2
  | number b1 b2 b3 => exact .number b1 b2 b3
  | regexp => exact absurd rfl (h3 _)

omit [LawfulEnv] in
/-- If the first token is not a division, then a token is found in both modes. -/
theorem tokenAt_any {s : Str} {k k' : Nat} {e op : Bool} {t : Token} (h : TokenAt s k e op t k')
    (h1 : t.value ≠ .slash) (h2 : t.value ≠ .slashAssign) (op' : Bool) :
    ∃ u k', TokenAt s k e op' u k' := by
  by_cases h3 : ∀ x, t.value ≠ .regExp x
  · exact ⟨t, k', tokenAt_mode h h1 h2 h3 op'⟩
  cases op' with
  | false =>
    refine ⟨t, k', ?_⟩
    obtain ⟨w, x, y, e', a1, a2, a3, a4, a5⟩ := h
    refine ⟨w, x, y, e', a1, a2, a3, ?_, a5⟩
    generalize t.value = v at a4 h3
    cases a4 with
    | regexp _ b2 b3 b4 => exact .regexp rfl b2 b3 b4
    | eof => exact (h3 nofun).elim
    | string => exact (h3 nofun).elim
    | number => exact (h3 nofun).elim
    | word _ _ _ b => exact (h3 (by cases b <;> nofun)).elim
    | @punctuator _ _ v b =>
      have : ∀ p ∈ punctuators, (match p.2 with | .regExp _ => false | _ => true) = true := by
        decide +kernel
      exact (h3 fun r hr => by have := this _ b; rw [hr] at this; cases this).elim
  | true =>
    obtain ⟨w, x, y, e', a1, a2, a3, a4, a5, a6, a7, a8⟩ := h
    have hx : ∃ z, x ++ y = '/' :: z := by
      generalize t.value = v at a4 h3
      cases a4 with
      | regexp _ b2 b3 b4 => exact ⟨_, rfl⟩
      | eof => exact (h3 nofun).elim
      | string => exact (h3 nofun).elim
      | number => exact (h3 nofun).elim
      | word _ _ _ b => exact (h3 (by cases b <;> nofun)).elim
      | @punctuator _ _ v b =>
        have : ∀ p ∈ punctuators, (match p.2 with | .regExp _ => false | _ => true) = true := by
          decide +kernel
        exact (h3 fun r hr => by have := this _ b; rw [hr] at this; cases this).elim
    obtain ⟨z, hz⟩ := hx
    have hlen : (s.drop k).length = w.length + (z.length + 1) := by
      rw [a1, hz]; simp
    rw [List.length_drop] at hlen
    have key : ∀ p ∈ punctuators, p.1.head? = some '/' → p = (c!"/", .slash) ∨ p = (c!"/=", .slashAssign) := by
      decide +kernel
    have hkey : ∀ x' v', (x', v') ∈ punctuators → x' <+: '/' :: z → x' = c!"/" ∨ x' = c!"/=" := by
      intro x' v' hm hp
      have hne : ∀ p ∈ punctuators, p.1 ≠ [] := by decide +kernel
      cases x' with
      | nil => exact absurd rfl (hne _ hm)
      | cons c x' =>
        obtain ⟨rfl, _⟩ := List.cons_prefix_cons.1 hp
        rcases key _ hm rfl with h | h
        · exact .inl (Prod.mk.inj h).1
        · exact .inr (Prod.mk.inj h).1
    have hm1 : (c!"/", TokenData.slash) ∈ punctuators := by decide +kernel
    have hm2 : (c!"/=", TokenData.slashAssign) ∈ punctuators := by decide +kernel
    by_cases hq : ∃ z', z = '=' :: z'
    · obtain ⟨z', rfl⟩ := hq
      refine ⟨⟨⟨t.location.start, posnFrom Posn.origin s (k + w.length + 2)⟩, t.newline, .slashAssign⟩,
        k + w.length + 2, w, c!"/=", z', e', by rw [a1, hz]; rfl, by rw [hz] at a2; exact a2,
        by rw [hz] at a3; exact a3, .punctuator hm2 ?_ (fun _ => rfl) nofun, a5, a6,
        posnFrom_spec s _ (by
          rw [List.length_cons] at hlen
          show k + w.length + 2 ≤ s.length
          omega), rfl⟩
      intro x' v' hm hp
      rcases hkey x' v' hm hp with rfl | rfl <;> decide
    · refine ⟨⟨⟨t.location.start, posnFrom Posn.origin s (k + w.length + 1)⟩, t.newline, .slash⟩,
        k + w.length + 1, w, c!"/", z, e', by rw [a1, hz]; rfl, by rw [hz] at a2; exact a2,
        by rw [hz] at a3; exact a3, .punctuator hm1 ?_ (fun _ => rfl) nofun, a5, a6,
        posnFrom_spec s _ (by
          show k + w.length + 1 ≤ s.length
          omega), rfl⟩
      intro x' v' hm hp
      rcases hkey x' v' hm hp with rfl | rfl
      · decide
      · obtain ⟨_, hp⟩ := List.cons_prefix_cons.1 hp
        obtain ⟨r, hr⟩ := hp
        exact absurd ⟨r, hr.symm⟩ hq

/-- Blanks and line terminators before a line terminator do not matter. -/
theorem outcome_blank {α : Type} {blur : α → α} {f : Str → Res PError α} (s1 : Str) {s2 : Str}
    (hC : ∃ ops, (∀ s', SameTokens ops ('\n' :: s2) s' → SameOutcome blur (f ('\n' :: s2)) (f s')) ∧
      ∀ n ts l, readTokens ('\n' :: s2) (ops.take n) = .ok (ts, l) → ∀ i t w,
        Reseparates ('\n' :: s2) ts i t w →
        SameOutcome blur (f ('\n' :: s2)) (f (reseparate ('\n' :: s2) ts i t w)))
    (ht : ∀ op, ∃ t k, TokenAt ('\n' :: s2) 0 true op t k) :
    SameOutcome blur (f ('\n' :: s2)) (f (s1.map blank ++ '\n' :: s2)) := by
  obtain ⟨ops, hC1, hC2⟩ := hC
  cases ops with
  | nil =>
    refine hC1 _ fun i => ?_
    rw [List.take_nil]
    rfl
  | cons op ops =>
    obtain ⟨t, k, h⟩ := ht op
    obtain ⟨l, hl⟩ := readAll_complete (.cons h .nil) (Lexer.At.new ('\n' :: s2)) rfl
    obtain ⟨w, x, y, e', a1, a2, a3, a4, a5, a6, a7, rfl⟩ := h
    rw [List.drop_zero] at a1
    obtain ⟨w', rfl, hw'⟩ := blank_split (b := []) (by simp) (by decide) a1 a3
    rw [List.nil_append] at a1 a2 a5 a6
    have ho : t.location.start.offset = ('\n' :: w').length := by rw [a6.offset, Nat.zero_add]
    have hd : ('\n' :: s2).drop t.location.start.offset = x ++ y := by
      rw [ho, a1, List.drop_left]
    have hb : ∀ d ∈ s1.map blank, d ∈ whiteSpace ∨ d ∈ lineTerminators := by
      intro d hd
      obtain ⟨c, _, rfl⟩ := List.mem_map.1 hd
      exact blank_space c
    have h1 := trivia_blank (b := []) (by simp) a2
    have := hC2 1 [t] l (by simpa [readTokens] using hl) 0 t (s1.map blank ++ '\n' :: w')
      { token := rfl
        noEof := by simp
        nonempty := by simp
        trivia := ⟨e', by rw [hd]; exact blank_trivia h1 hb, fun he => by rw [hd]; exact a3.htmlClose he⟩
        newline := by
          rw [a5, hasNewline_append]
          exact (hasNewline_append [] w').symm
        slash := by simp
        angle := by simp }
    have he : reseparate ('\n' :: s2) [t] 0 t (s1.map blank ++ '\n' :: w') =
        s1.map blank ++ '\n' :: s2 := by
      unfold reseparate
      rw [hd, hw']
      simp [prevEnd]
    rw [he] at this
    exact this

end

end Join

end Esprit
