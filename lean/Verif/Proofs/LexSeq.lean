import Verif.Proofs.LexTokens

/-! Facts about `readTokens` used by the lexer properties. -/

namespace Esprit

open Lex ReaderSpec

theorem Lex.slice_append {s : Str} {a b : Nat} (h : a ≤ b) :
    s.drop a = slice s a b ++ s.drop b := by
  unfold slice
  conv => lhs; rw [← List.take_append_drop (b - a) (s.drop a)]
  rw [List.drop_drop]
  congr 2
  omega

variable [Env]

theorem Lexer.readAll_append (ops ops' : List Bool) : ∀ (l : Lexer),
    l.readAll (ops ++ ops') = (l.readAll ops).bind fun (ts, l1) =>
      (l1.readAll ops').bind fun (ts', l2) => .ok (ts ++ ts', l2) := by
  induction ops with
  | nil =>
    intro l
    show l.readAll ops' = (l.readAll ops').bind fun (ts', l2) => .ok ([] ++ ts', l2)
    cases l.readAll ops' <;> rfl
  | cons op ops ih =>
    intro l
    simp only [List.cons_append, Lexer.readAll]
    cases l.readToken op with
    | ok v =>
      simp only [Res.bind]
      rw [ih]
      cases hm : v.2.readAll ops with
      | ok v2 =>
        simp only [Res.bind]
        cases v2.2.readAll ops' <;> rfl
      | err => rfl
      | panic => rfl
      | fuel => rfl
    | err => rfl
    | panic => rfl
    | fuel => rfl

theorem readTokens_snoc (s : Str) (ops : List Bool) (op : Bool) :
    readTokens s (ops ++ [op]) = (readTokens s ops).bind fun (ts, l) =>
      (l.readToken op).bind fun (t, l') => .ok (ts ++ [t], l') := by
  unfold readTokens
  rw [Lexer.readAll_append]
  cases (Lexer.new s).readAll ops with
  | ok v =>
    simp only [Res.bind, Lexer.readAll]
    cases v.2.readToken op <;> rfl
  | err => rfl
  | panic => rfl
  | fuel => rfl

variable [LawfulEnv]

theorem Lex.Tokens.last {s : Str} {k k' : Nat} {e : Bool} {ops : List Bool} {ts : List Token}
    (h : Tokens s k e ops ts k') :
    k' = (if ts = [] then k else prevEnd ts ts.length) ∧ ops.length = ts.length := by
  induction h with
  | nil => simp
  | @cons k k1 k2 e op ops t ts h1 h2 ih =>
    obtain ⟨ih1, ih2⟩ := ih
    refine ⟨?_, by simp [ih2]⟩
    rw [ih1]
    cases ts with
    | nil => simp [prevEnd, h1.end_offset]
    | cons t' ts => simp [prevEnd]

theorem readTokens_at {s : Str} {ops : List Bool} {ts : List Token} {l : Lexer}
    (h : readTokens s ops = .ok (ts, l)) :
    Tokens s 0 true ops ts (prevEnd ts ts.length) ∧ l.At s (prevEnd ts ts.length) ts.isEmpty ∧
      l.lookahead = [] ∧ ops.length = ts.length := by
  obtain ⟨k, h1, h2, h3⟩ := readAll_sound (Lexer.At.new s) rfl h
  obtain ⟨h4, h5⟩ := h1.last
  have hk : k = prevEnd ts ts.length := by
    rw [h4]; split
    · rename_i e; subst e; rfl
    · rfl
  subst hk
  refine ⟨h1, ?_, h3, h5⟩
  have : (if ops = [] then true else false) = ts.isEmpty := by
    cases ops <;> cases ts <;> simp_all
  rw [← this]; exact h2

/-- Reading the next token. -/
theorem readToken_next {s : Str} {ops : List Bool} {ts : List Token} {l : Lexer}
    (h : readTokens s ops = .ok (ts, l)) (op : Bool) :
    NextSpec s (prevEnd ts ts.length) ts.isEmpty op l (l.readToken op) := by
  obtain ⟨_, h2, h3, _⟩ := readTokens_at h
  unfold Lexer.readToken
  rw [h3]
  exact readNextToken_spec h2 op

theorem readToken_complete {s : Str} {ops : List Bool} {ts : List Token} {l : Lexer}
    (h : readTokens s ops = .ok (ts, l)) {op : Bool} {t : Token} {k : Nat}
    (ht : TokenAt s (prevEnd ts ts.length) ts.isEmpty op t k) :
    ∃ l', readTokens s (ops ++ [op]) = .ok (ts ++ [t], l') := by
  obtain ⟨_, h2, h3, _⟩ := readTokens_at h
  obtain ⟨l', h4, _⟩ := readNextToken_eval h2 ht
  refine ⟨l', ?_⟩
  rw [readTokens_snoc, h]
  simp only [Res.bind]
  unfold Lexer.readToken
  rw [h3]
  simp only [h4]

/-- The `i`-th token, in terms of source slices. -/
theorem readTokens_get {s : Str} {ops : List Bool} {ts : List Token} {l : Lexer}
    (h : readTokens s ops = .ok (ts, l)) {i : Nat} {t : Token} (ht : ts[i]? = some t) :
    ∃ op, ops[i]? = some op ∧ TokenAt s (prevEnd ts i) (i == 0) op t t.location.end.offset := by
  obtain ⟨h1, _⟩ := readTokens_at h
  obtain ⟨op, e1, k1, a1, a2, a3, a4⟩ := h1.get ht
  refine ⟨op, a1, ?_⟩
  have : k1 = prevEnd ts i := by rw [a3]; cases i <;> rfl
  rw [← this]
  have : e1 = (i == 0) := by rw [a4]; cases i <;> simp
  rw [← this]
  exact a2

theorem Lex.Tokens.bounded {s : Str} {k k' : Nat} {e : Bool} {ops : List Bool} {ts : List Token}
    (h : Tokens s k e ops ts k') (hk : k ≤ s.length) : k ≤ k' ∧ k' ≤ s.length := by
  induction h with
  | nil => omega
  | cons h1 h2 ih =>
    obtain ⟨a1, a2, a3, a4, _⟩ := h1.text
    have := ih (by omega)
    omega

theorem readTokens_no_fuel (s : Str) (ops : List Bool) : readTokens s ops ≠ .fuel := by
  suffices H : ∀ (ops : List Bool) {k : Nat} {e : Bool} {l : Lexer}, l.At s k e →
      l.lookahead = [] → l.readAll ops ≠ .fuel from H ops (Lexer.At.new s) rfl
  intro ops
  induction ops with
  | nil => intro k e l _ _ h; cases h
  | cons op ops ih =>
    intro k e l hl hla h
    unfold Lexer.readAll Lexer.readToken at h
    rw [hla] at h
    simp only at h
    have h1 := readNextToken_spec hl op
    cases hm : l.readNextToken op with
    | fuel => rw [hm] at h1; exact h1
    | err => rw [hm] at h; cases h
    | panic => rw [hm] at h; cases h
    | ok v =>
      obtain ⟨t, l1⟩ := v
      rw [hm] at h1 h
      obtain ⟨k1, a1, a2, a3⟩ := h1
      simp only [Res.bind] at h
      have := ih a2 (by rw [a3, hla])
      cases hm2 : l1.readAll ops with
      | fuel => exact this hm2
      | err => rw [hm2] at h; cases h
      | panic => rw [hm2] at h; cases h
      | ok v => rw [hm2] at h; cases h

/-- A panic of `readTokens` happens at some token. -/
theorem readTokens_panic {s : Str} {ops : List Bool} {p : Panic}
    (h : readTokens s ops = .panic p) :
    ∃ i op ts l, ops[i]? = some op ∧ readTokens s (ops.take i) = .ok (ts, l) ∧
      l.readToken op = .panic p := by
  induction hr : ops.reverse generalizing ops p with
  | nil =>
    simp only [List.reverse_eq_nil_iff] at hr
    subst hr
    cases h
  | cons op rev ih =>
    have hops : ops = rev.reverse ++ [op] := by
      rw [← List.reverse_reverse ops, hr, List.reverse_cons]
    subst hops
    generalize hg : rev.reverse = ops at h hr ⊢
    have ih := fun h => ih (ops := ops) (p := p) h (by rw [← hg, List.reverse_reverse])
    rw [readTokens_snoc] at h
    cases hm : readTokens s ops with
    | ok v =>
      obtain ⟨ts, l⟩ := v
      rw [hm] at h
      simp only [Res.bind] at h
      cases hm2 : l.readToken op with
      | ok v => rw [hm2] at h; cases h
      | err => rw [hm2] at h; cases h
      | fuel => rw [hm2] at h; cases h
      | panic q =>
        rw [hm2] at h
        cases h
        exact ⟨ops.length, op, ts, l, by simp, by simpa using hm, hm2⟩
    | err => rw [hm] at h; cases h
    | fuel => rw [hm] at h; cases h
    | panic q =>
      rw [hm] at h
      cases h
      obtain ⟨i, op', ts, l, a1, a2, a3⟩ := ih hm
      have hi : i < ops.length := by
        rcases Nat.lt_or_ge i ops.length with h | h
        · exact h
        · rw [List.getElem?_eq_none h] at a1; cases a1
      refine ⟨i, op', ts, l, ?_, ?_, a3⟩
      · rw [List.getElem?_append_left hi]; exact a1
      · rw [List.take_append_of_le_length (by omega)]; exact a2


/-! ### Words with escapes that spell a reserved word -/

theorem L.readWord_reservedEscape {x y t : Str} {w : Reserved} {r : Reader} {c : Char}
    (hx : x.head? = some c) (hs : IdStart c ∨ c = '\\') (h2 : WordParts x true t) (h3 : WordEnd y)
    (h4 : (t, w) ∈ reservedWords) (hr : r.rest = x ++ y) :
    L.readWord r = .err (.reservedWordWithEscapes w) := by
  obtain ⟨r', h5, h6⟩ := L.readWordParts_eval h2 h3 hr
  have hb : (c = '\\' || isEsIdentifierStart c) = true := by
    rcases hs with hs | hs
    · rw [(isEsIdentifierStart_iff c).2 hs]; simp
    · simp [hs]
  have hne : t ≠ [] := by
    cases h2 with
    | plain => simp
    | escape => simp
  have hp : r.peek 0 = some c := by
    rw [Reader.peek, hr]; cases x <;> simp_all
  have hT : L.tokenize ⟨true, t⟩ r' = .err (.reservedWordWithEscapes w) := by
    unfold L.tokenize
    simp only
    rw [(L.reserved_iff t w).2 h4]
    rfl
  unfold L.readWord
  rw [L.peek_bind, hp]
  have e1 : L.debugAssert (decide (c = '\\') || isEsIdentifierStart c) r = .ok ((), r) := by
    rw [hb]; rfl
  simp only [L.bind_apply]
  rw [e1]
  simp only [Res.bind, L.posn]
  rw [h6.1]
  have e2 : L.debugAssert (!t.isEmpty) r' = .ok ((), r') := by
    have : (!t.isEmpty) = true := by simpa using hne
    rw [this]; rfl
  simp only
  rw [e2]
  simp only
  rw [hT]

theorem readToken_reservedEscape {s : Str} {ops : List Bool} {ts : List Token} {l : Lexer}
    (h : readTokens s ops = .ok (ts, l)) {w x y t : Str} {e' : Bool} {res : Reserved} {c : Char}
    (hs : s.drop (prevEnd ts ts.length) = w ++ (x ++ y)) (ht : Trivia ts.isEmpty w (x ++ y) e')
    (hn : NoTrivia e' (x ++ y)) (hx : x.head? = some c) (hc : IdStart c ∨ c = '\\')
    (hw : WordParts x true t) (hy : WordEnd y) (hr : (t, res) ∈ reservedWords) (op : Bool) :
    readTokens s (ops ++ [op]) = .err (.reservedWordWithEscapes res) := by
  obtain ⟨_, h2, h3, _⟩ := readTokens_at h
  rw [readTokens_snoc, h]
  simp only [Res.bind]
  unfold Lexer.readToken
  rw [h3]
  simp only
  have hrr : l.reader.rest = w ++ (x ++ y) := by rw [h2.rest, hs]
  have hl : l.reader = ⟨w ++ (x ++ y), l.reader.posn⟩ := by
    cases hh : l.reader; simp_all
  have htr : L.triviaLoop (l.reader.rest.length + 1) l.emptyLine false l.reader =
      .ok ((hasNewline w, e'), ⟨x ++ y, pos l.reader.posn w (x ++ y)⟩) := by
    have := L.triviaLoop_eval (l.reader.rest.length + 1) l.emptyLine false e' w (x ++ y)
      l.reader.posn (by rw [hrr]; exact Nat.lt_succ_self _) (by rw [h2.empty]; exact ht) hn
    rw [hl]
    simpa [hrr] using this
  have hb : L.readTokenBody op ⟨x ++ y, pos l.reader.posn w (x ++ y)⟩ =
      .err (.reservedWordWithEscapes res) := by
    have hh : (x ++ y).head? = some c := by rw [List.head?_append, hx]; rfl
    have e1 : L.readTokenBody op ⟨x ++ y, pos l.reader.posn w (x ++ y)⟩ =
        L.tokenOf op c (Reader.peek ⟨x ++ y, pos l.reader.posn w (x ++ y)⟩ 1)
          ⟨x ++ y, pos l.reader.posn w (x ++ y)⟩ := by
      unfold L.readTokenBody
      rw [L.peek2_bind, L.peek_zero, hh]
    have hnp : c ∉ puncHeads ∧ c ≠ '"' ∧ c ≠ '\'' ∧ c ∉ decDigits := by
      rcases hc with hc | rfl
      · exact L.idStart_not_punc hc
      · decide
    have hd : isEsDecDigit c = false := by
      rw [Bool.eq_false_iff]
      intro hd
      exact hnp.2.2.2 ((isEsDecDigit_iff c).1 hd)
    rw [e1, L.not_punc_chain hnp.1]
    have : (if c = '"' ∨ c = '\'' then L.readString
      else if isEsDecDigit c then L.readNumber
      else if isEsIdentifierStart c then L.readWord
      else if c = '\\' then L.readWord
      else L.throw (.illegalChar c)) = L.readWord := by
      rw [if_neg (by simp [hnp.2.1, hnp.2.2.1]), hd]
      simp only [Bool.false_eq_true, if_false]
      rcases hc with hc | rfl
      · rw [(isEsIdentifierStart_iff c).2 hc]; rfl
      · simp
    rw [this]
    exact L.readWord_reservedEscape hx hc hw hy hr rfl
  unfold Lexer.readNextToken
  rw [htr]
  simp only [Res.bind]
  rw [hb]

/-! ### The operator mode -/

omit [LawfulEnv] in
theorem L.tokenOf_mode {c : Char} (hc : c ≠ '/') (p : Option Char) :
    L.tokenOf true c p = L.tokenOf false c p := by
  unfold L.tokenOf
  rw [if_neg hc, if_neg hc]

theorem readToken_mode {s : Str} {ops : List Bool} {ts : List Token} {l : Lexer}
    (h : readTokens s ops = .ok (ts, l)) :
    l.readToken true = l.readToken false ∨
    ∃ w z e', s.drop (prevEnd ts ts.length) = w ++ '/' :: z ∧
      Trivia ts.isEmpty w ('/' :: z) e' ∧ NoTrivia e' ('/' :: z) := by
  obtain ⟨_, h2, h3, _⟩ := readTokens_at h
  unfold Lexer.readToken Lexer.readNextToken
  rw [h3]
  simp only
  have h1 := L.triviaLoop_spec (l.reader.rest.length + 1) l.emptyLine false l.reader
    (Nat.lt_succ_self _)
  unfold L.Spec at h1
  cases hm : L.triviaLoop (l.reader.rest.length + 1) l.emptyLine false l.reader with
  | err e => exact .inl rfl
  | panic p => exact .inl rfl
  | fuel => exact .inl rfl
  | ok v =>
    obtain ⟨⟨nl, e'⟩, r⟩ := v
    rw [hm] at h1
    obtain ⟨w, a1, a2, a3, a4⟩ := h1
    simp only at a1 a2 a3 a4
    simp only [Res.bind]
    rcases r with ⟨z, p⟩
    cases z with
    | nil => exact .inl rfl
    | cons c z =>
      by_cases hc : c = '/'
      · subst hc
        right
        exact ⟨w, z, e', by rw [← h2.rest, a1.rest], by rw [← h2.empty]; exact a2, a3⟩
      · left
        have : L.readTokenBody true ⟨c :: z, p⟩ = L.readTokenBody false ⟨c :: z, p⟩ := by
          unfold L.readTokenBody
          rw [L.peek2_bind, L.peek2_bind, L.peek_cons]
          simp only
          rw [L.tokenOf_mode hc]
        rw [this]

end Esprit
