import Verif.Spec.Lex
import Verif.Model.Parser.Grammar

/-!
Names (C11) and operators (C18).
-/

namespace Esprit

private theorem ite_ind {α : Type} (Q : α → Prop) {s t : Str} {a b : α} (h : s = t → Q a)
    (h' : Q b) : Q (if s = t then a else b) := by
  by_cases hs : s = t
  · rw [if_pos hs]; exact h hs
  · rw [if_neg hs]; exact h'

/-! ### C11: names round-trip through strings -/

/-- From a string to a name and back. -/
theorem C11_string_roundtrip (s : Str) : (Name.from s).intoString = s := by
  unfold Name.from
  iterate 18 refine ite_ind (fun n : Name => n.intoString = s) (fun h => h.symm) ?_
  rfl

/-- From a contextual name to its text and back; the text is the one of the
table of contextual words. -/
theorem C11_atom_roundtrip (a : Atom) :
    Name.from (Name.atom a).intoString = .atom a ∧
    ((Name.atom a).intoString, a) ∈ Lex.contextualWords := by
  cases a <;> decide

/-- A string becomes a contextual name exactly if it is one of the contextual
words, and is kept as it is otherwise. -/
theorem C11_from_exact (s : Str) (n : Name) :
    Name.from s = n ↔
      (∃ a, n = .atom a ∧ (s, a) ∈ Lex.contextualWords) ∨
      (n = .string s ∧ ∀ a, (s, a) ∉ Lex.contextualWords) := by
  have h1 : ∀ s' a, (s', a) ∈ Lex.contextualWords → Name.from s' = .atom a := by
    intro s' a h
    have : ∀ p ∈ Lex.contextualWords, Name.from p.1 = .atom p.2 := by decide
    exact this (s', a) h
  have h2 : (∃ a, (s, a) ∈ Lex.contextualWords) ∨ Name.from s = .string s := by
    cases hs : Name.from s with
    | atom a =>
      refine .inl ⟨a, ?_⟩
      have h := C11_string_roundtrip s
      rw [hs] at h
      rw [← h]
      exact (C11_atom_roundtrip a).2
    | string t =>
      refine .inr ?_
      have h := C11_string_roundtrip s
      rw [hs] at h
      exact congrArg _ h
  constructor
  · rintro rfl
    rcases h2 with ⟨a, ha⟩ | h
    · exact .inl ⟨a, h1 s a ha, ha⟩
    · refine .inr ⟨h, fun a ha => ?_⟩
      rw [h1 s a ha] at h
      cases h
  · rintro (⟨a, rfl, ha⟩ | ⟨rfl, h⟩)
    · exact h1 s a ha
    · rcases h2 with ⟨a, ha⟩ | h'
      · exact absurd ha (h a)
      · exact h'

/-- The texts of reserved words and of contextual names are all different. -/
theorem C11_texts_distinct :
    (∀ r r' : Reserved, r.name = r'.name → r = r') ∧
    (∀ a a' : Atom, a.name = a'.name → a = a') ∧
    (∀ (r : Reserved) (a : Atom), r.name ≠ a.name) ∧
    (∀ r : Reserved, (r.name, r) ∈ Lex.reservedWords) := by
  refine ⟨?_, ?_, ?_, ?_⟩
  · intro r
    cases r <;> intro r' <;> cases r' <;> decide
  · intro a
    cases a <;> intro a' <;> cases a' <;> decide
  · intro r a
    cases r <;> cases a <;> decide
  · intro r
    cases r <;> decide

example : Name.from c!"yield" = .atom .yield ∧ Name.from c!"yields" = .string c!"yields" := by
  decide

/-! ### C18: operator text round-trips -/

/-- Formatting a binary operator and parsing the text; the parser accepts no
other text for it, so distinct operators have distinct texts. -/
theorem C18_binop_roundtrip (s : Str) (op : BinopTag) :
    BinopTag.fromStr s = some op ↔ s = op.display := by
  constructor
  · let Q := fun o : Option BinopTag => o = some op → s = op.display
    show Q (BinopTag.fromStr s)
    unfold BinopTag.fromStr
    iterate 21 refine ite_ind Q (fun h h' => by cases h'; exact h) ?_
    intro h
    cases h
  · rintro rfl
    cases op <;> decide

/-- The same for logical operators. -/
theorem C18_logop_roundtrip (s : Str) (op : LogopTag) :
    LogopTag.fromStr s = some op ↔ s = op.display := by
  constructor
  · let Q := fun o : Option LogopTag => o = some op → s = op.display
    show Q (LogopTag.fromStr s)
    unfold LogopTag.fromStr
    iterate 2 refine ite_ind Q (fun h h' => by cases h'; exact h) ?_
    intro h
    cases h
  · rintro rfl
    cases op <;> decide

/-- The same for assignment operators. -/
theorem C18_assop_roundtrip (s : Str) (op : AssopTag) :
    AssopTag.fromStr s = some op ↔ s = op.display := by
  constructor
  · let Q := fun o : Option AssopTag => o = some op → s = op.display
    show Q (AssopTag.fromStr s)
    unfold AssopTag.fromStr
    iterate 11 refine ite_ind Q (fun h h' => by cases h'; exact h) ?_
    intro h
    cases h
  · rintro rfl
    cases op <;> decide

/-- Distinct operators have distinct texts, across all three kinds. -/
theorem C18_texts_distinct :
    (∀ a b : BinopTag, a.display = b.display → a = b) ∧
    (∀ a b : LogopTag, a.display = b.display → a = b) ∧
    (∀ a b : AssopTag, a.display = b.display → a = b) ∧
    (∀ (a : BinopTag) (b : LogopTag), a.display ≠ b.display) ∧
    (∀ (a : BinopTag) (b : AssopTag), a.display ≠ b.display) ∧
    (∀ (a : LogopTag) (b : AssopTag), a.display ≠ b.display) := by
  refine ⟨?_, ?_, ?_, ?_, ?_, ?_⟩ <;>
    (intro a; cases a <;> intro b <;> cases b <;> decide)

/-- The texts of the unary operators. -/
def unopTexts : List (Str × UnopTag) :=
  [(c!"-", .minus), (c!"+", .plus), (c!"!", .not), (c!"~", .bitNot), (c!"typeof", .typeof),
   (c!"void", .void), (c!"delete", .delete)]

/-- Unary operators are parsed from their texts only. -/
theorem C18_unop_exact (s : Str) (op : UnopTag) :
    UnopTag.fromStr s = some op ↔ (s, op) ∈ unopTexts := by
  constructor
  · unfold UnopTag.fromStr
    repeat' split
    all_goals (intro h; first | (cases h; subst_vars; decide) | cases h)
  · intro h
    have : ∀ p ∈ unopTexts, UnopTag.fromStr p.1 = some p.2 := by decide
    exact this (s, op) h

/-- Every token that the parser takes for a binary operator is spelled like the
operator. -/
theorem C18_token_binop (x : Str) (v : TokenData) (allowIn : Bool) (op : BinopTag)
    (hx : Lex.Spelled x v) (h : v.toBinopTag allowIn = some op) : x = op.display := by
  cases v with
  | reserved w =>
    have : ∀ p ∈ Lex.reservedWords, ∀ a op, TokenData.toBinopTag a (.reserved p.2) = some op →
        p.1 = op.display := by
      simp only [Lex.reservedWords, List.forall_mem_cons, TokenData.toBinopTag]
      simp [BinopTag.display]
    exact this (x, w) hx allowIn op h
  | _ =>
    first
    | (simp [TokenData.toBinopTag] at h; done)
    | (simp [TokenData.toBinopTag] at h; subst h
       simpa [Lex.Spelled, Lex.punctuators, BinopTag.display] using hx)

/-- The same for logical operators. -/
theorem C18_token_logop (x : Str) (v : TokenData) (op : LogopTag)
    (hx : Lex.Spelled x v) (h : v.toLogopTag = some op) : x = op.display := by
  cases v <;> first
    | (simp [TokenData.toLogopTag] at h; done)
    | (simp [TokenData.toLogopTag] at h; subst h
       simpa [Lex.Spelled, Lex.punctuators, LogopTag.display] using hx)

/-- The same for assignment operators. -/
theorem C18_token_assop (x : Str) (v : TokenData) (op : AssopTag)
    (hx : Lex.Spelled x v) (h : v.toAssopTag = some op) : x = op.display := by
  cases v <;> first
    | (simp [TokenData.toAssopTag] at h; done)
    | (simp [TokenData.toAssopTag] at h; subst h
       simpa [Lex.Spelled, Lex.punctuators, AssopTag.display] using hx)

/-- The same for unary operators. -/
theorem C18_token_unop (x : Str) (v : TokenData) (op : UnopTag)
    (hx : Lex.Spelled x v) (h : P.unopTag v = some op) : (x, op) ∈ unopTexts := by
  cases v with
  | reserved w =>
    have : ∀ p ∈ Lex.reservedWords, ∀ op, P.unopTag (.reserved p.2) = some op →
        (p.1, op) ∈ unopTexts := by
      simp only [Lex.reservedWords, List.forall_mem_cons, P.unopTag]
      simp [unopTexts]
    exact this (x, w) hx op h
  | _ =>
    first
    | (simp [P.unopTag] at h; done)
    | (simp [P.unopTag] at h; subst h
       simpa [Lex.Spelled, Lex.punctuators, unopTexts] using hx)

/-- The text of a token that is an operator at all is taken for that operator:
every binary operator but `in` in every context, `in` where it is allowed. -/
theorem C18_token_complete (x : Str) (v : TokenData) (hx : Lex.Spelled x v)
    (hf : (∃ w, v = .reserved w) ∨ (x, v) ∈ Lex.punctuators) :
    (∀ op : BinopTag, x = op.display → v.toBinopTag true = some op) ∧
    (∀ op : BinopTag, op ≠ .in → x = op.display → v.toBinopTag false = some op) ∧
    (∀ op : LogopTag, x = op.display → v.toLogopTag = some op) ∧
    (∀ op : AssopTag, x = op.display → v.toAssopTag = some op) ∧
    (∀ op : UnopTag, (x, op) ∈ unopTexts → P.unopTag v = some op) := by
  have key : ∀ p ∈ Lex.punctuators ++ Lex.reservedWords.map (fun p => (p.1, .reserved p.2)),
      (∀ op ∈ ([.eq, .nEq, .strictEq, .strictNEq, .lt, .lEq, .gt, .gEq, .lShift, .rShift, .uRShift,
        .plus, .minus, .times, .div, .mod, .bitOr, .bitXor, .bitAnd, .«in», .instanceof] :
          List BinopTag), (p.1 = op.display → p.2.toBinopTag true = some op) ∧
          (op ≠ .in → p.1 = op.display → p.2.toBinopTag false = some op)) ∧
      (∀ op ∈ ([.or, .and] : List LogopTag), p.1 = op.display → p.2.toLogopTag = some op) ∧
      (∀ op ∈ ([.plusEq, .minusEq, .timesEq, .divEq, .modEq, .lShiftEq, .rShiftEq, .uRShiftEq,
        .bitOrEq, .bitXorEq, .bitAndEq] : List AssopTag),
          p.1 = op.display → p.2.toAssopTag = some op) ∧
      (∀ q ∈ unopTexts, p.1 = q.1 → P.unopTag p.2 = some q.2) := by
    decide +kernel
  have hmem : (x, v) ∈ Lex.punctuators ++ Lex.reservedWords.map (fun p => (p.1, .reserved p.2)) := by
    rcases hf with ⟨w, rfl⟩ | hf
    · exact List.mem_append_right _ (List.mem_map.2 ⟨(x, w), hx, rfl⟩)
    · exact List.mem_append_left _ hf
  obtain ⟨h1, h2, h3, h4⟩ := key _ hmem
  refine ⟨fun op => (h1 op (by cases op <;> decide)).1,
    fun op => (h1 op (by cases op <;> decide)).2, fun op => h2 op (by cases op <;> decide),
    fun op => h3 op (by cases op <;> decide), fun op h => h4 _ h rfl⟩

/-- Not vacuous: the token of the text `>>>` spells the unsigned shift. -/
example : Lex.Spelled c!">>>" .uRShift ∧ TokenData.toBinopTag false .uRShift = some .uRShift ∧
    BinopTag.display .uRShift = c!">>>" ∧ BinopTag.fromStr c!">>>" = some .uRShift :=
  ⟨by simp [Lex.Spelled, Lex.punctuators], by decide⟩

end Esprit
