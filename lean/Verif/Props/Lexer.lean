import Verif.Proofs.LexValue
import Verif.Spec.Env

/-!
Properties of the lexer: C03-C10, C12, C13, C16.

All statements are about `readTokens s ops`, the tokens that successive calls
of `Lexer::read_token` return on the source `s`, the `i`-th call made in mode
`ops[i]` (`true`: an operator is expected).  `Env` stands for the external
Unicode tables and the build profile, `LawfulEnv` for the few facts about the
tables that are used.
-/

namespace Esprit

open Lex ReaderSpec

section Theorems

variable [Env] [LawfulEnv]

/-- C03.  Reading tokens never runs forever (the iteration budget of the model,
one per remaining character, is never exhausted), and every token but EOF
consists of at least one character. -/
theorem C03_termination_and_progress (s : Str) (ops : List Bool) :
    readTokens s ops ≠ .fuel ∧
    ∀ ts l, readTokens s ops = .ok (ts, l) → ∀ t ∈ ts,
      t.value = .eof ∨ t.location.start.offset < t.location.end.offset := by
  refine ⟨readTokens_no_fuel s ops, fun ts l h t ht => ?_⟩
  obtain ⟨i, hi⟩ := List.getElem?_of_mem ht
  obtain ⟨op, _, h2⟩ := readTokens_get h hi
  obtain ⟨a1, a2, a3, a4, a5, a6, _⟩ := h2.text
  by_cases he : t.value = .eof
  · exact .inl he
  · right
    have : slice s t.location.start.offset t.location.end.offset ≠ [] :=
      fun hn => he (a6.eof_iff.1.2 hn)
    refine Nat.lt_of_not_le fun hle => this ?_
    rw [slice, show t.location.end.offset - t.location.start.offset = 0 by omega]
    rfl

/-- C04, exactness: a sequence of tokens is read from `s` if and only if it is
the sequence of tokens that the lexical grammar finds in `s`. -/
theorem C04_tokens_exact (s : Str) (ops : List Bool) (ts : List Token) :
    (∃ l, readTokens s ops = .ok (ts, l)) ↔ ∃ k, Tokens s 0 true ops ts k := by
  constructor
  · rintro ⟨l, h⟩
    exact ⟨_, (readTokens_at h).1⟩
  · rintro ⟨k, h⟩
    exact readAll_complete h (Lexer.At.new s) rfl

/-- C04, tiling: from the end of the previous token (or the beginning of the
source) up to the start of a token the source is trivia; the text of the span
is a lexeme with the token's value; positions are those of C02. -/
theorem C04_tokens_tile (s : Str) (ops : List Bool) (ts : List Token) (l : Lexer)
    (h : readTokens s ops = .ok (ts, l)) (i : Nat) (t : Token) (ht : ts[i]? = some t) :
    prevEnd ts i ≤ t.location.start.offset ∧
    t.location.start.offset ≤ t.location.end.offset ∧
    t.location.end.offset ≤ s.length ∧
    (∃ e, Trivia (i == 0) (slice s (prevEnd ts i) t.location.start.offset)
      (s.drop t.location.start.offset) e) ∧
    (∃ op, ops[i]? = some op ∧ Lexeme op (slice s t.location.start.offset t.location.end.offset)
      (s.drop t.location.end.offset) t.value) ∧
    PosnAt s t.location.start.offset t.location.start ∧
    PosnAt s t.location.end.offset t.location.end := by
  obtain ⟨op, h1, h2⟩ := readTokens_get h ht
  obtain ⟨a1, a2, a3, a4, ⟨e, a5, _⟩, a6, a7, a8, a9⟩ := h2.text
  refine ⟨a1, a2, ?_, ⟨e, a5⟩, ⟨op, h1, a6⟩, a8, a9⟩
  have : prevEnd ts i ≤ s.length := by
    have H : ∀ j, prevEnd ts j ≤ s.length := by
      intro j
      induction j with
      | zero => exact Nat.zero_le _
      | succ j ih =>
        show (match ts[j]? with | some t => t.location.end.offset | none => 0) ≤ _
        cases hj : ts[j]? with
        | none => exact Nat.zero_le _
        | some t' =>
          obtain ⟨op', _, b2⟩ := readTokens_get h hj
          obtain ⟨_, _, _, b4, _⟩ := b2.text
          simp only
          omega
    exact H i
  omega

/-- C05.  The newline flag of a token says whether a line terminator occurs
between the previous token and this one, comments included. -/
theorem C05_newline_exact (s : Str) (ops : List Bool) (ts : List Token) (l : Lexer)
    (h : readTokens s ops = .ok (ts, l)) (i : Nat) (t : Token) (ht : ts[i]? = some t) :
    t.newline = true ↔
      ∃ c ∈ slice s (prevEnd ts i) t.location.start.offset, c ∈ lineTerminators := by
  obtain ⟨op, h1, h2⟩ := readTokens_get h ht
  obtain ⟨a1, a2, a3, a4, a5, a6, a7, _⟩ := h2.text
  rw [a7]
  simp [hasNewline]

/-- C06.  EOF is returned only at the end of the source, after nothing but
trivia. -/
theorem C06_eof_only_at_end (s : Str) (ops : List Bool) (ts : List Token) (l : Lexer)
    (h : readTokens s ops = .ok (ts, l)) (i : Nat) (t : Token) (ht : ts[i]? = some t)
    (heof : t.value = .eof) :
    t.location.start.offset = s.length ∧ t.location.end = t.location.start ∧
    ∃ e, Trivia (i == 0) (s.drop (prevEnd ts i)) [] e := by
  obtain ⟨op, h1, h2⟩ := readTokens_get h ht
  obtain ⟨b1, b2, b3, _⟩ := C04_tokens_tile s ops ts l h i t ht
  obtain ⟨a1, a2, a3, a4, ⟨e, a5, _⟩, a6, a7, a8, a9⟩ := h2.text
  have hx := a6.eof_iff.1.1 heof
  have hy := a6.eof_iff.2 hx
  have hlen : s.length ≤ t.location.end.offset := by
    have := congrArg List.length hy
    simp at this; omega
  have hle : t.location.end.offset = t.location.start.offset := by
    have := congrArg List.length hx
    simp [slice] at this
    omega
  refine ⟨by omega, ?_, e, ?_⟩
  · rw [hle] at a9
    exact a9.unique a8
  · rw [show s.drop t.location.start.offset = [] by rw [List.drop_eq_nil_iff]; omega] at a5
    have : slice s (prevEnd ts i) t.location.start.offset = s.drop (prevEnd ts i) := by
      unfold slice
      rw [List.take_of_length_le]
      rw [List.length_drop]; omega
    rw [this] at a5
    exact a5

/-- C06.  When nothing but trivia remains, the next read returns EOF. -/
theorem C06_eof_at_end (s : Str) (ops : List Bool) (ts : List Token) (l : Lexer)
    (h : readTokens s ops = .ok (ts, l)) (e : Bool)
    (hrest : Trivia ts.isEmpty (s.drop (prevEnd ts ts.length)) [] e) (op : Bool) :
    ∃ t l', readTokens s (ops ++ [op]) = .ok (ts ++ [t], l') ∧ t.value = .eof := by
  obtain ⟨h1, h2, h3, h4⟩ := readTokens_at h
  have hb := (h1.bounded (Nat.zero_le _)).2
  generalize hk : prevEnd ts ts.length = k at h2 hrest hb
  have adv : Adv l.reader (s.drop k) ⟨[], pos l.reader.posn (s.drop k) []⟩ :=
    ⟨by rw [h2.rest]; simp, rfl⟩
  have b := (adv.posnAt h2.rest h2.posn).2
  have ht : TokenAt s k ts.isEmpty op
      ⟨⟨pos l.reader.posn (s.drop k) [], pos l.reader.posn (s.drop k) []⟩,
        hasNewline (s.drop k), .eof⟩ (k + (s.drop k).length) := by
    refine ⟨s.drop k, [], [], e, by simp, hrest, ?_, .eof, rfl, b, b, by simp⟩
    exact ⟨by simp, by simp, by simp, by simp, by simp⟩
  obtain ⟨l', h5⟩ := readToken_complete h (by rw [hk]; exact ht)
  exact ⟨_, l', h5, rfl⟩

/-- C06.  Once EOF has been returned, every later read succeeds and returns EOF
at the same position. -/
theorem C06_eof_sticky (s : Str) (ops : List Bool) (ts : List Token) (l : Lexer)
    (h : readTokens s ops = .ok (ts, l)) (t : Token) (ht : t ∈ ts) (heof : t.value = .eof)
    (more : List Bool) :
    ∃ l', readTokens s (ops ++ more) =
      .ok (ts ++ more.map fun _ => ⟨t.location, false, .eof⟩, l') := by
  -- tokens after an EOF
  have next : ∀ {ops : List Bool} {ts : List Token} {l : Lexer}, readTokens s ops = .ok (ts, l) →
      ∀ {i : Nat} {t : Token}, ts[i]? = some t → t.value = .eof →
      ∀ {j : Nat} {t' : Token}, i < j → ts[j]? = some t' → t' = ⟨t.location, false, .eof⟩ := by
    intro ops ts l h i t ht heof j
    induction j using Nat.strongRecOn with
    | ind j ih =>
      intro t' hij hj
      obtain ⟨j, rfl⟩ : ∃ k, j = k + 1 := ⟨j - 1, by omega⟩
      -- the previous token is an EOF at the same place
      have hprev : ∃ u, ts[j]? = some u ∧ u.value = .eof ∧ u.location = t.location := by
        rcases Nat.lt_or_ge i j with hlt | hge
        · have hlen : j < ts.length := by
            have := (List.getElem?_eq_some_iff.1 hj).1
            omega
          have hu : ts[j]? = some ts[j] := List.getElem?_eq_getElem hlen
          have := ih j (by omega) hlt hu
          exact ⟨ts[j], hu, by rw [this], by rw [this]⟩
        · have : i = j := by omega
          subst this
          exact ⟨t, ht, heof, rfl⟩
      obtain ⟨u, hu, hue, hul⟩ := hprev
      obtain ⟨op, h1, h2⟩ := readTokens_get h hj
      obtain ⟨c1, c2, _⟩ := C06_eof_only_at_end s ops ts l h j u hu hue
      have hp : prevEnd ts (j + 1) = s.length := by
        show (match ts[j]? with | some t => t.location.end.offset | none => 0) = _
        rw [hu]
        simp only
        rw [c2, c1]
      rw [hp] at h2
      obtain ⟨w, x, y, e', a1, a2, a3, a4, a5, a6, a7, a8⟩ := h2
      rw [List.drop_length] at a1
      have hw : w = [] := (List.append_eq_nil_iff.1 a1.symm).1
      have hxy := (List.append_eq_nil_iff.1 a1.symm).2
      have hx : x = [] := (List.append_eq_nil_iff.1 hxy).1
      subst hw hx
      simp only [List.length_nil, Nat.add_zero] at a6 a7
      obtain ⟨_, _, _, _, _, d6, _⟩ := C04_tokens_tile s ops ts l h j u hu
      rw [c1] at d6
      have e1 : t'.location.start = u.location.start := a6.unique d6
      have e2 : t'.location.end = u.location.end := by rw [c2]; exact a7.unique d6
      have e3 : t'.value = .eof := a4.eof_iff.1.2 rfl
      have e4 : t'.newline = false := by rw [a5]; rfl
      have e5 : t'.location = t.location := by
        rw [← hul]
        generalize t'.location = a at e1 e2
        generalize u.location = b at e1 e2
        cases a; cases b; simp only at e1 e2; rw [e1, e2]
      rcases t' with ⟨_, _, _⟩
      simp only at e3 e4 e5
      rw [e3, e4, e5]
  suffices H : ∀ n, ∃ l', readTokens s (ops ++ more.take n) =
      .ok (ts ++ (more.take n).map fun _ => ⟨t.location, false, .eof⟩, l') by
    simpa using H more.length
  intro n
  induction n with
  | zero => exact ⟨l, by simpa using h⟩
  | succ n ih =>
    obtain ⟨l1, h1⟩ := ih
    rcases Nat.lt_or_ge n more.length with hn | hn
    · rw [List.take_succ_eq_append_getElem hn]
      rw [← List.append_assoc, List.map_append, ← List.append_assoc]
      generalize hts1 : ts ++ (more.take n).map (fun _ => (⟨t.location, false, .eof⟩ : Token)) = ts1
        at h1 ⊢
      obtain ⟨i, hi⟩ := List.getElem?_of_mem ht
      have hi1 : ts1[i]? = some t := by
        rw [← hts1, List.getElem?_append_left (List.getElem?_eq_some_iff.1 hi).1]; exact hi
      have hne : ts1 ≠ [] := by rintro rfl; simp at hi1
      -- the last token so far is an EOF at the end
      have hlast : ∃ u, ts1[ts1.length - 1]? = some u ∧ u.value = .eof := by
        have hl : ts1.length - 1 < ts1.length := by
          cases ts1 with
          | nil => exact absurd rfl hne
          | cons => simp
        refine ⟨ts1[ts1.length - 1], List.getElem?_eq_getElem hl, ?_⟩
        rcases Nat.lt_or_ge i (ts1.length - 1) with hlt | hge
        · rw [next h1 hi1 heof hlt (List.getElem?_eq_getElem hl)]
        · have : i = ts1.length - 1 := by
            have := (List.getElem?_eq_some_iff.1 hi1).1; omega
          subst this
          rw [List.getElem?_eq_getElem hl] at hi1
          simp only [Option.some.injEq] at hi1
          rw [hi1]; exact heof
      obtain ⟨u, hu, hue⟩ := hlast
      obtain ⟨c1, c2, _⟩ := C06_eof_only_at_end s _ ts1 l1 h1 _ u hu hue
      have hp : prevEnd ts1 ts1.length = s.length := by
        have : ts1.length = (ts1.length - 1) + 1 := by
          cases ts1 with
          | nil => exact absurd rfl hne
          | cons => simp
        rw [this]
        show (match ts1[ts1.length - 1]? with | some t => t.location.end.offset | none => 0) = _
        rw [hu]
        simp only
        rw [c2, c1]
      obtain ⟨t', l2, h2, h3⟩ := C06_eof_at_end s _ ts1 l1 h1 ts1.isEmpty
        (by rw [hp, List.drop_length]; exact .nil) more[n]
      refine ⟨l2, ?_⟩
      rw [h2]
      have hlt : i < ts1.length := (List.getElem?_eq_some_iff.1 hi1).1
      have := next h2 (i := i) (t := t)
        (by rw [List.getElem?_append_left hlt]; exact hi1) heof (j := ts1.length) (t' := t') hlt
        (by rw [List.getElem?_append_right (by omega)]; simp)
      rw [this, List.map_singleton]
    · rw [List.take_of_length_le (by omega)]
      rw [List.take_of_length_le (by omega)] at h1
      exact ⟨l1, h1⟩

/-- C07.  A token's value determines its text. -/
theorem C07_values_faithful (s : Str) (ops : List Bool) (ts : List Token) (l : Lexer)
    (h : readTokens s ops = .ok (ts, l)) (t : Token) (ht : t ∈ ts) :
    Spelled (slice s t.location.start.offset t.location.end.offset) t.value := by
  obtain ⟨i, hi⟩ := List.getElem?_of_mem ht
  obtain ⟨_, _, _, _, ⟨op, _, h1⟩, _⟩ := C04_tokens_tile s ops ts l h i t hi
  exact h1.spelled

/-- C08.  The text of a string token is a quote, pieces and the same quote, and
the value is what the pieces denote, in order. -/
theorem C08_string_values (s : Str) (ops : List Bool) (ts : List Token) (l : Lexer)
    (h : readTokens s ops = .ok (ts, l)) (t : Token) (ht : t ∈ ts) (lit : StringLiteral)
    (hv : t.value = .string lit) :
    ∃ q x, (q = '"' ∨ q = '\'') ∧
      slice s t.location.start.offset t.location.end.offset = q :: x ∧
      lit.source = some (q :: x) ∧ StringRest q x lit.value ∧
      ∀ v, StringRest q x v → v = lit.value := by
  obtain ⟨i, hi⟩ := List.getElem?_of_mem ht
  obtain ⟨_, _, _, _, ⟨op, _, h1⟩, _⟩ := C04_tokens_tile s ops ts l h i t hi
  rw [hv] at h1
  generalize slice s t.location.start.offset t.location.end.offset = x at h1
  generalize s.drop t.location.end.offset = y at h1
  generalize hw : TokenData.string lit = w at h1
  cases h1 with
  | eof => cases hw
  | punctuator g1 =>
    exfalso
    have key : ∀ p ∈ punctuators, (match p.2 with | .string _ => false | _ => true) = true := by
      decide +kernel
    have := key _ g1
    rw [← hw] at this
    cases this
  | word g1 g2 g3 g4 => subst hw; cases g4
  | @string q x y v g1 g2 =>
    cases hw
    exact ⟨q, x, g1, rfl, rfl, g2, fun v' hv' => hv'.unique g1 g2⟩
  | number => cases hw
  | regexp => cases hw

/-- C08, the other direction: every quoted sequence of pieces is read as a
string token with the value they denote. -/
theorem C08_string_complete (q : Char) (x v y : Str) (hq : q = '"' ∨ q = '\'')
    (hx : StringRest q x v) (op : Bool) :
    ∃ t l, readTokens (q :: x ++ y) [op] = .ok ([t], l) ∧
      t.value = .string ⟨some (q :: x), v⟩ := by
  have b := (⟨by simp [Reader.new], rfl⟩ : Adv (Reader.new (q :: x ++ y)) (q :: x)
    ⟨y, pos ⟨0, 0, 0⟩ (q :: x) y⟩).posnAt (s := q :: x ++ y) (k := 0) rfl (PosnAt.origin _)
  have ht : TokenAt (q :: x ++ y) 0 true op
      ⟨⟨⟨0, 0, 0⟩, pos ⟨0, 0, 0⟩ (q :: x) y⟩, false, .string ⟨some (q :: x), v⟩⟩
        (0 + 0 + (q :: x).length) := by
    refine ⟨[], q :: x, y, true, by simp, .nil, ?_, .string hq hx, rfl, PosnAt.origin _,
      by simpa using b.2, by simp⟩
    rcases hq with rfl | rfl <;> exact ⟨by
      intro c hc; simp at hc; subst hc; decide, by simp, by simp, by simp, by simp⟩
  obtain ⟨l', h⟩ := readToken_complete (s := q :: x ++ y) (ops := []) (ts := [])
    (l := Lexer.new (q :: x ++ y)) rfl ht
  exact ⟨_, l', h, rfl⟩

omit [LawfulEnv] in
/-- C09 (partial: the full claim is false, see `C09_fails`).  A braced escape
denotes the code point with that hexadecimal notation as long as the number
fits 32 bits. -/
theorem C09_braced_escape_partial (ds : Str) (code : Nat)
    (h : UnicodeEscape ('{' :: ds ++ c!"}") code)
    (hsmall : numeral 16 ds < 2 ^ 32) : code = numeral 16 ds := by
  generalize hx : '{' :: ds ++ c!"}" = x at h
  cases h with
  | four h1 h2 =>
    exfalso
    subst hx
    have := h2 '{' (by simp)
    revert this; decide
  | @braced ds' h1 h2 h3 =>
    have : ds = ds' := by simpa using hx
    subst this
    exact Nat.mod_eq_of_lt hsmall

/-- C09, for the lexer (partial: numbers of 32 bits, and with overflow checks fewer than
eight digits): a string literal that consists of a braced escape is read as the
character with that number; if there is no such character, as a question mark. -/
theorem C09_string_partial (q : Char) (hq : q = '"' ∨ q = '\'') (ds y : Str) (hne : ds ≠ [])
    (hds : ∀ d ∈ ds, d ∈ hexDigits) (hlen : Env.overflowChecks = true → ds.length < 8)
    (hsmall : numeral 16 ds < 2 ^ 32) (c : Char)
    (hc : c.toNat = numeral 16 ds ∨ (¬(numeral 16 ds).isValidChar ∧ c = '?')) (op : Bool) :
    ∃ t l, readTokens (q :: (c!"\\u" ++ ('{' :: ds ++ c!"}") ++ [q]) ++ y) [op] = .ok ([t], l) ∧
      t.value = .string ⟨some (q :: (c!"\\u" ++ ('{' :: ds ++ c!"}") ++ [q])), [c]⟩ :=
  C08_string_complete q _ [c] y hq
    (.piece (.unicode (.braced hne hds hlen) (by rw [Nat.mod_eq_of_lt hsmall]; exact hc)) .close) op

/-- C10.  What a word is read as depends only on its spelling, as
`WordToken` lists. -/
theorem C10_words_classified (s : Str) (ops : List Bool) (ts : List Token) (l : Lexer)
    (h : readTokens s ops = .ok (ts, l)) (t : Token) (ht : t ∈ ts) (c : Char)
    (hc : (s.drop t.location.start.offset).head? = some c) (hw : IdStart c ∨ c = '\\') :
    ∃ esc text, WordParts (slice s t.location.start.offset t.location.end.offset) esc text ∧
      WordEnd (s.drop t.location.end.offset) ∧ WordToken esc text t.value := by
  obtain ⟨i, hi⟩ := List.getElem?_of_mem ht
  obtain ⟨_, b2, b3, _, ⟨op, _, h1⟩, _⟩ := C04_tokens_tile s ops ts l h i t hi
  have hdrop := slice_append (s := s) b2
  rw [hdrop] at hc
  have hp : c ∉ puncHeads ∧ c ≠ '"' ∧ c ≠ '\'' ∧ c ∉ decDigits := by
    rcases hw with hw | rfl
    · exact L.idStart_not_punc hw
    · decide
  generalize slice s t.location.start.offset t.location.end.offset = x at h1 hc
  generalize s.drop t.location.end.offset = y at h1 hc
  generalize t.value = v at h1
  cases h1 with
  | eof => simp at hc
  | @punctuator _ _ v g1 g2 g3 g4 =>
    exfalso
    have key : ∀ p ∈ punctuators, ∀ c ∈ p.1.head?, c ∈ puncHeads := by decide +kernel
    have hne : ∀ p ∈ punctuators, p.1 ≠ [] := by decide +kernel
    cases x with
    | nil => exact hne _ g1 rfl
    | cons d x =>
      simp at hc
      subst hc
      exact hp.1 (key _ g1 d rfl)
  | word g1 g2 g3 g4 => exact ⟨_, _, g2, g3, g4⟩
  | string g1 =>
    simp at hc
    subst hc
    rcases g1 with rfl | rfl
    · exact absurd rfl hp.2.1
    · exact absurd rfl hp.2.2.1
  | @number src _ v g1 g2 g3 =>
    exfalso
    have dig : ∀ {m z : Str}, Digits decDigits m → (m ++ z).head? ≠ some c := by
      intro m z hm he
      cases m with
      | nil => exact absurd rfl hm.1
      | cons d m =>
        simp at he
        subst he
        exact hp.2.2.2 (hm.2 d (by simp))
    cases g1 with
    | decimal g1 =>
      simp only [spellNumber, List.append_assoc] at hc
      exact dig g1 hc
    | @hex cc => cases cc <;> (simp [spellNumber] at hc; subst hc; exact hp.2.2.2 (by decide))
    | @oct cc => cases cc <;> (simp [spellNumber] at hc; subst hc; exact hp.2.2.2 (by decide))
    | @bin cc => cases cc <;> (simp [spellNumber] at hc; subst hc; exact hp.2.2.2 (by decide))
    | legacyOctal g1 =>
      obtain ⟨t, rfl, _⟩ := g1
      simp [spellNumber] at hc; subst hc; exact hp.2.2.2 (by decide)
    | float g1 =>
      simp only [spellNumber, List.append_assoc] at hc
      exact dig g1 hc
    | @point f y e g1 =>
      simp [spellNumber] at hc; subst hc; exact hp.1 (by decide)
  | regexp g1 =>
    simp at hc; subst hc; exact absurd (by decide) hp.1

/-- C10.  A word with escapes that spells a reserved word is an error. -/
theorem C10_escaped_reserved_word (s : Str) (ops : List Bool) (ts : List Token) (l : Lexer)
    (h : readTokens s ops = .ok (ts, l)) (w x y text : Str) (e : Bool) (res : Reserved) (c : Char)
    (hs : s.drop (prevEnd ts ts.length) = w ++ (x ++ y)) (ht : Trivia ts.isEmpty w (x ++ y) e)
    (hn : NoTrivia e (x ++ y)) (hx : x.head? = some c) (hc : IdStart c ∨ c = '\\')
    (hw : WordParts x true text) (hy : WordEnd y) (hr : (text, res) ∈ reservedWords) (op : Bool) :
    readTokens s (ops ++ [op]) = .err (.reservedWordWithEscapes res) :=
  readToken_reservedEscape h hs ht hn hx hc hw hy hr op

omit [Env] [LawfulEnv] in
/-- C10: the tables list 36 reserved and 18 contextual words, all different. -/
theorem C10_tables : reservedWords.length = 36 ∧ contextualWords.length = 18 ∧
    (reservedWords.map (·.1) ++ contextualWords.map (·.1)).Nodup := by decide +kernel

/-- C12.  Where the text of a token begins with a punctuator, the token is the
longest punctuator there.  (A `/` is one in operator mode only, and a `.`
followed by a digit starts a number.) -/
theorem C12_longest_punctuator (s : Str) (ops : List Bool) (ts : List Token) (l : Lexer)
    (h : readTokens s ops = .ok (ts, l)) (i : Nat) (t : Token) (ht : ts[i]? = some t)
    (p : Str) (v : TokenData) (hp : (p, v) ∈ punctuators)
    (hpre : p <+: s.drop t.location.start.offset)
    (hslash : p.head? = some '/' → ops[i]? = some true)
    (hdot : p.head? = some '.' →
      ∀ d, s[t.location.start.offset + 1]? = some d → d ∉ decDigits) :
    (slice s t.location.start.offset t.location.end.offset, t.value) ∈ punctuators ∧
    ∀ p' v', (p', v') ∈ punctuators → p' <+: s.drop t.location.start.offset →
      p'.length ≤ (slice s t.location.start.offset t.location.end.offset).length := by
  obtain ⟨_, b2, b3, _, ⟨op, hop, h1⟩, _⟩ := C04_tokens_tile s ops ts l h i t ht
  have hdrop := slice_append (s := s) b2
  have hne : ∀ p ∈ punctuators, p.1 ≠ [] := by decide +kernel
  have key : ∀ p ∈ punctuators, ∀ c ∈ p.1.head?, c ∈ puncHeads := by decide +kernel
  cases p with
  | nil => exact absurd rfl (hne _ hp)
  | cons c p =>
    have hh : (s.drop t.location.start.offset).head? = some c := by
      obtain ⟨z, hz⟩ := hpre
      rw [← hz]; rfl
    have := h1.head_punc (c := c) (by rw [← hdrop]; exact hh) (key _ hp c rfl)
      (by
        rintro rfl
        have := hslash rfl
        rw [hop] at this
        simpa using this)
      (by
        rintro rfl d hd
        refine hdot rfl d ?_
        rw [← hdrop, List.getElem?_drop] at hd
        exact hd)
    refine ⟨this.1, fun p' v' hp' hpre' => this.2 p' v' hp' ?_⟩
    rw [← hdrop]; exact hpre'

/-- C13.  The next token is the same in both modes unless a slash comes next
(after trivia). -/
theorem C13_mode_only_slash (s : Str) (ops : List Bool) (ts : List Token) (l : Lexer)
    (h : readTokens s ops = .ok (ts, l)) :
    l.readToken true = l.readToken false ∨
    ∃ w z e, s.drop (prevEnd ts ts.length) = w ++ '/' :: z ∧
      Trivia ts.isEmpty w ('/' :: z) e ∧ NoTrivia e ('/' :: z) :=
  readToken_mode h

/-- C13.  A token that begins with a slash is a division operator in operator
mode and a regular expression otherwise. -/
theorem C13_slash (s : Str) (ops : List Bool) (ts : List Token) (l : Lexer)
    (h : readTokens s ops = .ok (ts, l)) (i : Nat) (t : Token) (ht : ts[i]? = some t)
    (hc : (s.drop t.location.start.offset).head? = some '/') :
    (ops[i]? = some true ∧ (t.value = .slash ∨ t.value = .slashAssign)) ∨
    (ops[i]? = some false ∧ ∃ lit, t.value = .regExp lit) := by
  obtain ⟨_, b2, b3, _, ⟨op, hop, h1⟩, _⟩ := C04_tokens_tile s ops ts l h i t ht
  have hdrop := slice_append (s := s) b2
  rcases h1.slash (by rw [← hdrop]; exact hc) with ⟨rfl, h2⟩ | ⟨rfl, h2⟩
  · left
    refine ⟨hop, ?_⟩
    simp only [List.mem_cons, Prod.mk.injEq, List.not_mem_nil, or_false] at h2
    exact h2.imp (·.2) (·.2)
  · exact .inr ⟨hop, h2⟩

/-- C16 (partial: the full claim is false, see `C16_fails_regexp` and below).
The only panics are reading past the end inside an unterminated regular
expression or `\u{` escape, and (debug builds) overflow on a `\u{` escape of
eight or more digits. -/
theorem C16_lexer_panics_partial (s : Str) (ops : List Bool) (p : Panic)
    (h : readTokens s ops = .panic p) :
    ∃ i op ts l w z e, ops[i]? = some op ∧ readTokens s (ops.take i) = .ok (ts, l) ∧
      s.drop (prevEnd ts ts.length) = w ++ z ∧ Trivia ts.isEmpty w z e ∧ TokenPanic op z p := by
  obtain ⟨i, op, ts, l, h1, h2, h3⟩ := readTokens_panic h
  have := readToken_next h2 op
  rw [h3] at this
  obtain ⟨w, z, e, a1, a2, a3⟩ := this
  exact ⟨i, op, ts, l, w, z, e, h1, h2, a1, a2, a3⟩

/-- C16, corollary: without `/` and `\u` in the source there is no panic. -/
theorem C16_no_panic_partial (s : Str) (ops : List Bool) (h1 : '/' ∉ s) (h2 : ¬ c!"\\u" <:+: s)
    (p : Panic) : readTokens s ops ≠ .panic p := by
  intro h
  obtain ⟨i, op, ts, l, w, z, e, _, _, hs, _, hp⟩ := C16_lexer_panics_partial s ops p h
  have hz : z <:+ s := (List.suffix_append w z).trans (hs ▸ List.drop_suffix _ _)
  rcases hp with ⟨_, _, ho⟩ | ⟨pre, t, ht, _⟩
  · have : '/' ∈ z := by cases ho <;> simp
    exact h1 (hz.subset this)
  · exact h2 (List.IsInfix.trans ⟨pre, t, ht.symm⟩ hz.isInfix)


end Theorems

/-! ### Cases that meet the hypotheses, and counterexamples -/

section Examples

local instance : Env := asciiEnv true
local instance : LawfulEnv := asciiEnv_lawful true

/-- A source with comments of all kinds, both readings of `/`, and EOF. -/
def sampleSource : Str :=
  c!"<!-- a\nx /= /[/]\\//g /* 1\n2 */ >>>= .5e-1\n--> b\n'\\x41\\u{42}\\103\\\n'"

/-- The modes in which it is read. -/
def sampleModes : List Bool := [false, true, false, true, false, false, false, true]

/-- `readTokens` succeeds on the sample; the hypotheses of C03-C08, C10, C12
and C13 are met by its tokens. -/
example : ((readTokens sampleSource sampleModes).map fun p =>
      p.1.map fun t => (t.value, t.newline, t.location.start.offset, t.location.end.offset)) =
    .ok [(.identifier (.string c!"x"), true, 7, 8), (.slashAssign, false, 9, 11),
      (.regExp ⟨c!"[/]\\/", c!"g"⟩, false, 12, 20), (.uRShiftAssign, true, 31, 35),
      (.number ⟨some (.float none (some c!"5") (some ⟨.lowerCase, some .minus, c!"1"⟩)),
        F64.ofRat (5 / 100)⟩, false, 36, 41),
      (.string ⟨some c!"'\\x41\\u{42}\\103\\\n'", c!"ABC"⟩, true, 48, 66),
      (.eof, false, 66, 66), (.eof, false, 66, 66)] := by decide +kernel

/-- C04, right to left: the grammar derives tokens too. -/
example : ∃ k, Tokens sampleSource 0 true [false] [⟨⟨⟨7, 1, 0⟩, ⟨8, 1, 1⟩⟩, true,
    .identifier (.string c!"x")⟩] k :=
  (C04_tokens_exact _ _ _).1 ⟨⟨⟨c!" /= /[/]\\//g /* 1\n2 */ >>>= .5e-1\n--> b\n'\\x41\\u{42}\\103\\\n'",
    ⟨8, 1, 1⟩⟩, [], false⟩, by decide +kernel⟩

/-- C10: an escaped reserved word. -/
example : readTokens c!"x v\\u0061r" [false, true] = .err (.reservedWordWithEscapes .var) := by
  decide +kernel

example : WordParts c!"v\\u0061r" true c!"var" :=
  .plain (by decide) (.inr (.inr (.inr (.inr rfl)))) (.escape (u := c!"0061") (code := 0x61)
    (.four rfl (by decide)) rfl (.plain (by decide) (.inr (.inr (.inr (.inr rfl)))) .nil))

/-- C13: the two modes do differ at a slash. -/
example : (readTokens c!"/a/" [true]).map (·.1.map (·.value)) = .ok [.slash] ∧
    (readTokens c!"/a/" [false]).map (·.1.map (·.value)) = .ok [.regExp ⟨c!"a", []⟩] := by
  decide +kernel

/-- C16 fails: an unterminated regular expression panics. -/
theorem C16_fails_regexp : readTokens c!"/abc" [false] = .panic .readPastEnd ∧
    readTokens c!"/[abc" [false] = .panic .readPastEnd := by decide +kernel

/-- C16 fails: an unterminated `\u{` escape panics, in strings and in words. -/
theorem C16_fails_escape : readTokens c!"\"\\u{12" [false] = .panic .readPastEnd ∧
    readTokens c!"\\u{12" [false] = .panic .readPastEnd := by decide +kernel

/-- C16 and C09 fail in debug builds: a `\u{` escape with eight digits panics
even if it denotes a small number. -/
theorem C09_fails_debug : readTokens c!"\"\\u{00000041}\"" [false] = .panic .overflow := by
  decide +kernel

end Examples

/-- C09 fails in release builds: `\u{100000041}` denotes no code point, but is
read as `A`. -/
theorem C09_fails : letI := asciiEnv false
    (readTokens c!"\"\\u{100000041}\"" [false]).map (·.1.map (·.value)) =
      .ok [.string ⟨some c!"\"\\u{100000041}\"", c!"A"⟩] ∧
    numeral 16 c!"100000041" ≠ 'A'.toNat ∧ ¬ (numeral 16 c!"100000041").isValidChar := by
  decide +kernel

/-- C09: the hypotheses of the partial theorem hold for `\u{1F600}`. -/
example : letI := asciiEnv true
    UnicodeEscape ('{' :: c!"1F600" ++ c!"}") 0x1F600 ∧ numeral 16 c!"1F600" < 2 ^ 32 :=
  ⟨@UnicodeEscape.braced (asciiEnv true) c!"1F600" (by decide) (by decide) (by decide), by decide⟩

/-- C09: and so do those of the theorem about the lexer. -/
example : c!"1F600" ≠ [] ∧ (∀ d ∈ c!"1F600", d ∈ hexDigits) ∧ c!"1F600".length < 8 ∧
    (Char.ofNat 0x1F600).toNat = numeral 16 c!"1F600" := by decide +kernel

end Esprit
