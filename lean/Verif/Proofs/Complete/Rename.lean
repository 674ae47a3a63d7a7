import Verif.Proofs.Complete.Missing
import Verif.Proofs.RenameCover
import Verif.Proofs.Complete.Labels
import Verif.Props.Tree
import Verif.Props.Words
import Verif.Spec.Wrap

/-! Derivations from renamed tokens. -/

set_option linter.unusedSectionVars false
set_option linter.unusedVariables false

namespace Esprit

open Lex ReaderSpec Grammar

namespace Rename

variable {g : Renaming}

/-- Derivations in which only tokens have locations. -/
def NoLoc : LocSpec := fun _ _ l => l = none

/-- `t'` is the token `t`, renamed, perhaps on a new line, or if `b`, no longer on a new line. -/
def R (g : Renaming) (b : Bool) (t t' : Token) : Prop := t'.value = t.value.rename g ∧
  (b = false → t.newline = true → t'.newline = true) ∧ (t.value = .inc ∨ t.value = .dec → t'.newline = t.newline)

/-- After these tokens a line terminator ends the statement. -/
def restricted : List TokenData := [.reserved .break, .reserved .continue, .reserved .return, .reserved .throw]

/-- The first token is on the same line in both or in neither, unless the statement ends before it. -/
def Held (i j : List Token) : Prop := ∀ t r t' r', i = t :: r → j = t' :: r' → t.value ≠ .semi →
  t.value ≠ .rBrace → t'.newline = t.newline

/-- `ts'` are the tokens `ts`, renamed, perhaps with more line terminators, and if `b`, with fewer. -/
inductive Rel (g : Renaming) (b : Bool) : List Token → List Token → Prop where
  | nil : Rel g b [] []
  | cons {t t' : Token} {i j : List Token} : R g b t t' → (t.value ∈ restricted → Held i j) → Rel g b i j →
      Rel g b (t :: i) (t' :: j)

variable {b : Bool}

theorem Rel.held {t t' : Token} {i j : List Token} (h : Rel g b (t :: i) (t' :: j)) (ht : t.value ∈ restricted) :
    Held i j := by
  cases h with
  | cons _ h _ => exact h ht

theorem Rel.inv {t : Token} {i j : List Token} (h : Rel g b (t :: i) j) :
    ∃ t' j', j = t' :: j' ∧ R g b t t' ∧ Rel g b i j' := by
  cases h with
  | cons h1 _ h2 => exact ⟨_, _, rfl, h1, h2⟩

theorem Rel.inv' {t : Token} {i j : List Token} (h : Rel g b j (t :: i)) :
    ∃ t' j', j = t' :: j' ∧ R g b t' t ∧ Rel g b j' i := by
  cases h with
  | cons h1 _ h2 => exact ⟨_, _, rfl, h1, h2⟩

/-- The tokens that are not renamed. -/
def kept : TokenData → Bool
  | .identifier (.string _) | .string _ | .number _ | .regExp _ => false
  | _ => true

theorem kept_rename {v : TokenData} (h : kept v = true) : v.rename g = v := by
  cases v <;> first
    | rfl
    | cases h
    | (rename_i n; cases n <;> first | rfl | cases h)

theorem kept_inv {v w : TokenData} (h : kept v = true) (hw : w.rename g = v) : w = v := by
  cases w <;> first
    | exact hw
    | (subst hw; cases h)
    | (rename_i n
       cases n <;> first
         | exact hw
         | (subst hw; cases h))

theorem name_inj (hg : IsRenaming g) {m n : Name} (h : m.rename g = n.rename g) : m = n := by
  cases m <;> cases n <;> simp only [Name.rename, Name.atom.injEq, Name.string.injEq, reduceCtorEq] at h ⊢
  · exact h
  · exact hg.inj _ _ h

variable {t t' : Token} {i j rest : List Token} {v : TokenData} {env : Scope}

theorem R.val (h : R g b t t') (hv : t.value = v) (hk : kept v = true) : t'.value = v := by
  rw [h.1, hv, kept_rename hk]

theorem R.lit (h : R g b t t') (hv : t.value = v) : t'.value = v.rename g := by
  rw [h.1, hv]

theorem R.string (h : R g b t t') {s : StringLiteral} (hv : t'.value = .string s) :
    ∃ s, t.value = .string s := by
  rw [h.1] at hv
  cases hw : t.value <;> rw [hw] at hv <;> first | exact ⟨_, rfl⟩ | cases hv

theorem R.regExp (h : R g b t t') {x : RegExpLiteral} (hv : t'.value = .regExp x) :
    ∃ x, t.value = .regExp x := by
  rw [h.1] at hv
  cases hw : t.value <;> rw [hw] at hv <;> first | exact ⟨_, rfl⟩ | cases hv

theorem R.back (h : R g b t t') (hk : kept v = true) (hv : t'.value = v) : t.value = v :=
  kept_inv hk (h.1 ▸ hv)

theorem R.ne (h : R g b t t') (hk : kept v = true) (hv : t.value ≠ v) : t'.value ≠ v :=
  fun h1 => hv (h.back hk h1)

theorem R.mem {vs : List TokenData} (h : R g b t t') (hv : t.value ∈ vs) (hk : vs.all kept = true) :
    t'.value ∈ vs := by
  rw [h.1, kept_rename (List.all_eq_true.1 hk _ hv)]; exact hv

theorem R.notMem {vs : List TokenData} (h : R g b t t') (hv : t.value ∉ vs) (hk : vs.all kept = true) :
    t'.value ∉ vs :=
  fun h1 => hv (h.back (List.all_eq_true.1 hk _ h1) rfl ▸ h1)

/-- The surroundings with the labels renamed. -/
def ren (g : Renaming) (env : Scope) : Scope :=
  { env with labels := env.labels.map fun p => (p.1.rename g, p.2) }

theorem idOk {b : Bool} {n : Name} (h : env.IdOk b n) : (ren g env).IdOk b (n.rename g) := by
  have hn : ∀ a, n ≠ .atom a → n.rename g ≠ .atom a := by
    intro a h1 h2
    cases n <;> first | exact h1 h2 | cases h2
  refine ⟨fun hs => ⟨fun a ha => hn a ((h.1 hs).1 a ha), fun hb => ?_⟩, fun hm => hn _ (h.2 hm)⟩
  exact ⟨hn _ ((h.1 hs).2 hb).1, hn _ ((h.1 hs).2 hb).2⟩

theorem ident {k : Bool} {n : Id} (ht : R g b t t') (h : Ident env k t n) :
    Ident (ren g env) k t' ⟨some t'.location, n.name.rename g⟩ := by
  cases h with
  | mk h1 h2 => exact .mk (by rw [ht.1, h1]; rfl) (idOk h2)

theorem from_contextual {w : Str} {a : Atom} (h : (w, a) ∈ contextualWords) : Name.from w = .atom a :=
  (by decide +kernel : ∀ p ∈ contextualWords, Name.from p.1 = .atom p.2) _ h

theorem from_ordinary {w : Str} (h : ∀ a, (w, a) ∉ contextualWords) : Name.from w = .string w := by
  have h1 : ∀ a, Name.from w = .atom a → (w, a) ∈ contextualWords := by
    intro a ha
    have h2 := C11_string_roundtrip w
    rw [ha] at h2
    rw [← h2]
    cases a <;> decide
  have h2 := C11_string_roundtrip w
  cases hn : Name.from w with
  | atom a => exact absurd (h1 a hn) (h a)
  | string v => rw [hn] at h2; rw [← h2]; rfl

theorem string_rename (hg : IsRenaming g) (n : Name) : (n.rename g).intoString = g.name n.intoString := by
  cases n with
  | atom a =>
    show a.name = g.name a.name
    exact (hg.contextual a.name a (by cases a <;> decide)).symm
  | string w => rfl

theorem from_rename (hg : IsRenaming g) (n : Name) :
    Name.from (n.rename g).intoString = (Name.from n.intoString).rename g := by
  rw [string_rename hg]
  generalize n.intoString = w
  by_cases h : ∃ a, (w, a) ∈ contextualWords
  · obtain ⟨a, h⟩ := h
    rw [hg.contextual w a h, from_contextual h]; rfl
  · have h1 : ∀ a, (w, a) ∉ contextualWords := fun a ha => h ⟨a, ha⟩
    rw [from_ordinary h1, from_ordinary]
    · rfl
    · intro a ha
      have h2 := hg.inj _ _ (hg.contextual _ _ ha)
      rw [h2] at ha
      exact h1 a ha

theorem reserved_rename (hg : IsRenaming g) (w : Reserved) : g.name w.name = w.name :=
  hg.reserved w.name w (by cases w <;> decide)

theorem propName (hg : IsRenaming g) {k : PropKey} (ht : R g b t t') (h : PropName t k) :
    ∃ k', PropName t' k' ∧ k'.Similar (k.rename g) := by
  cases h with
  | @id n h =>
    refine ⟨_, .id (n := n.rename g) (by rw [ht.1, h]; rfl), ?_⟩
    rw [string_rename hg]; exact .id
  | @word w h =>
    refine ⟨_, .word (ht.val h rfl), ?_⟩
    show PropKey.Similar _ (.id _ (g.name w.name))
    rw [reserved_rename hg]; exact .id
  | string h => exact ⟨_, .string (ht.lit h), .string⟩
  | number h => exact ⟨_, .number (ht.lit h), .number⟩

theorem memberName (hg : IsRenaming g) {k : DotKey} (ht : R g b t t') (h : MemberName t k) :
    ∃ k', MemberName t' k' ∧ k'.value = (k.rename g).value := by
  cases h with
  | @id n h => exact ⟨_, .id (n := n.rename g) (by rw [ht.1, h]; rfl), string_rename hg n⟩
  | @word w h => exact ⟨_, .word (ht.val h rfl), (reserved_rename hg w).symm⟩

theorem isSymbol {x : Str} (ht : R g b t t') : IsSymbol x t'.value ↔ IsSymbol x t.value := by
  have hk : ∀ v, IsSymbol x v → kept v = true := by
    intro v h
    exact (by decide +kernel : ∀ p ∈ Lex.punctuators ++ Lex.reservedWords.map fun p => (p.1, TokenData.reserved p.2),
      kept p.2 = true) _ h
  constructor
  · intro h
    rw [ht.back (hk _ h) rfl]; exact h
  · intro h
    rw [ht.val rfl (hk _ h)]; exact h

theorem isUnop {op : Op UnopTag} (ht : R g b t t') (h : IsUnop t op) :
    IsUnop t' ⟨some t'.location, op.tag⟩ :=
  ⟨rfl, h.2.imp fun _ h => ⟨h.1, (isSymbol ht).2 h.2⟩⟩

theorem isBinop {op : Op BinopTag} (ht : R g b t t') (h : IsBinop env t op) :
    IsBinop (ren g env) t' ⟨some t'.location, op.tag⟩ :=
  ⟨rfl, (isSymbol ht).2 h.2.1, h.2.2⟩

theorem isLogop {op : Op LogopTag} (ht : R g b t t') (h : IsLogop t op) :
    IsLogop t' ⟨some t'.location, op.tag⟩ := ⟨rfl, (isSymbol ht).2 h.2⟩

theorem isAssop {op : Op AssopTag} (ht : R g b t t') (h : IsAssop t op) :
    IsAssop t' ⟨some t'.location, op.tag⟩ := ⟨rfl, (isSymbol ht).2 h.2⟩

theorem nextIs (hR : Rel g b i j) (h : NextIs i v) (hk : kept v = true) : NextIs j v := by
  obtain ⟨t, r, rfl, h⟩ := h
  obtain ⟨t', _, rfl, ht, _⟩ := hR.inv
  exact ⟨_, _, rfl, ht.val h hk⟩

theorem nextIsNot (hR : Rel g b i j) (h : NextIsNot i v) (hk : kept v = true) : NextIsNot j v := by
  obtain ⟨t, r, rfl, h⟩ := h
  obtain ⟨t', _, rfl, ht, _⟩ := hR.inv
  exact ⟨_, _, rfl, ht.ne hk h⟩

theorem nextNotIn {vs : List TokenData} (hR : Rel g b i j) (h : NextNotIn i vs) (hk : vs.all kept = true) :
    NextNotIn j vs := by
  obtain ⟨t, r, rfl, h⟩ := h
  obtain ⟨t', _, rfl, ht, _⟩ := hR.inv
  exact ⟨_, _, rfl, ht.notMem h hk⟩

theorem noRegExp (hR : Rel g b i j) (h : NoRegExp i) : NoRegExp j := by
  rintro t' r rfl x hx
  obtain ⟨t, _, rfl, ht, _⟩ := hR.inv'
  obtain ⟨x', hx⟩ := ht.regExp hx
  exact h t _ rfl x' hx

theorem noDivision (hR : Rel g b i j) (h : NoDivision i) : NoDivision j := by
  rintro t' r rfl
  obtain ⟨t, _, rfl, ht, _⟩ := hR.inv'
  exact ⟨ht.ne rfl (h t _ rfl).1, ht.ne rfl (h t _ rfl).2⟩

theorem letNoDivision (hR : Rel g b i j) (h : LetNoDivision i) : LetNoDivision j := by
  rintro t' r rfl hv
  obtain ⟨t, _, rfl, ht, hr⟩ := hR.inv'
  exact noDivision hr (h t _ rfl (ht.back rfl hv))

theorem stringNoDivision (hR : Rel g b i j)
    (h : ∀ t r s, i = t :: r → t.value = .string s → NoDivision r) :
    ∀ t r s, j = t :: r → t.value = .string s → NoDivision r := by
  rintro t' r s rfl hv
  obtain ⟨t, _, rfl, ht, hr⟩ := hR.inv'
  obtain ⟨s', hs⟩ := ht.string hv
  exact noDivision hr (h t _ s' rfl hs)

theorem noPostfix (hR : Rel g b i j) (h : NoPostfix i) : NoPostfix j := by
  obtain ⟨t, r, rfl, h⟩ := h
  obtain ⟨t', _, rfl, ht, _⟩ := hR.inv
  exact ⟨_, _, rfl, fun h1 =>
    have h1 := h1.imp (ht.back rfl) (ht.back rfl)
    (ht.2.2 h1).trans (h h1)⟩

theorem noInfix (hR : Rel g b i j) (h : NoInfix env i) : NoInfix (ren g env) j := by
  obtain ⟨t, r, rfl, h1, h2⟩ := h
  obtain ⟨t', _, rfl, ht, _⟩ := hR.inv
  exact ⟨_, _, rfl, fun op ho => h1 ⟨some t.location, op.tag⟩ ⟨rfl, (isSymbol ht).1 ho.2.1, ho.2.2⟩,
    fun op ho => h2 ⟨some t.location, op.tag⟩ ⟨rfl, (isSymbol ht).1 ho.2⟩⟩

theorem noAssign (hR : Rel g b i j) (h : NoAssign i) : NoAssign j := by
  obtain ⟨t, r, rfl, h1, h2⟩ := h
  obtain ⟨t', _, rfl, ht, _⟩ := hR.inv
  exact ⟨_, _, rfl, ht.ne rfl h1,
    fun op ho => h2 ⟨some t.location, op.tag⟩ ⟨rfl, (isSymbol ht).1 ho.2⟩⟩

theorem noArgSameLine (hR : Rel g b i j) (hh : Held i j) (h : NoArgSameLine i) : NoArgSameLine j := by
  obtain ⟨t, r, rfl, h⟩ := h
  obtain ⟨t', _, rfl, ht, _⟩ := hR.inv
  by_cases h1 : t.value = .semi ∨ t.value = .rBrace
  · exact ⟨_, _, rfl, .inr (h1.imp (ht.val · rfl) (ht.val · rfl))⟩
  · rw [not_or] at h1
    have := hh _ _ _ _ rfl rfl h1.1 h1.2
    exact ⟨_, _, rfl, h.imp this.trans (Or.imp (ht.val · rfl) (ht.val · rfl))⟩

theorem argSameLine (hR : Rel g b i j) (hh : Held i j) (h : ArgSameLine i) : ArgSameLine j := by
  obtain ⟨t, r, rfl, h1, h2, h3⟩ := h
  obtain ⟨t', _, rfl, ht, _⟩ := hR.inv
  exact ⟨_, _, rfl, (hh _ _ _ _ rfl rfl h2 h3).trans h1, ht.ne rfl h2, ht.ne rfl h3⟩

theorem identifier (ht : R g b t t') : (∃ n, t'.value = .identifier n) ↔ ∃ n, t.value = .identifier n := by
  rw [ht.1]
  constructor
  · rintro ⟨n, h⟩
    generalize t.value = w at h ⊢
    cases w <;> first | exact ⟨_, rfl⟩ | cases h
  · rintro ⟨n, h⟩
    rw [h]; exact ⟨_, rfl⟩

theorem startsBinding (ht : R g b t t') (h : StartsBinding t') : StartsBinding t :=
  h.imp (ht.back rfl) (Or.imp (ht.back rfl) (identifier ht).1)

theorem exprStmtStart (hR : Rel g b i j) (h : ExprStmtStart i) : ExprStmtStart j := by
  obtain ⟨t, r, rfl, h1, h2⟩ := h
  obtain ⟨t', _, rfl, ht, hr⟩ := hR.inv
  refine ⟨_, _, rfl, ht.notMem h1 rfl, fun hi => ?_⟩
  obtain ⟨t2, r2, rfl, h3, h4⟩ := h2 ((identifier ht).1 hi)
  obtain ⟨t2', _, rfl, ht2, _⟩ := hr.inv
  exact ⟨_, _, rfl, ht2.ne rfl h3, fun hl hb => h4 (ht.back rfl hl) (startsBinding ht2 hb)⟩

theorem forExprStart (hR : Rel g b i j) (h : ForExprStart i) : ForExprStart j := by
  obtain ⟨t, r, rfl, h1, h2, h3⟩ := h
  obtain ⟨t', _, rfl, ht, hr⟩ := hR.inv
  refine ⟨_, _, rfl, ht.ne rfl h1, ht.ne rfl h2, fun hl => ?_⟩
  obtain ⟨t2, r2, rfl, h4⟩ := h3 (ht.back rfl hl)
  obtain ⟨t2', _, rfl, ht2, _⟩ := hr.inv
  exact ⟨_, _, rfl, fun hb => h4 (startsBinding ht2 hb)⟩

theorem continues (ht : R g b t t') (h : Continues t') : Continues t := by
  rcases h with h | ⟨h, hn⟩
  · left
    rw [ht.back (List.all_eq_true.1 (by decide : continuers.all kept = true) _ h) rfl]; exact h
  · have h := h.imp (ht.back rfl) (ht.back rfl)
    exact .inr ⟨h, (ht.2.2 h).symm.trans hn⟩

theorem notContinues (hR : Rel g b i j) (h : ∃ t r, i = t :: r ∧ ¬ Continues t) :
    ∃ t r, j = t :: r ∧ ¬ Continues t := by
  obtain ⟨t, r, rfl, h⟩ := h
  obtain ⟨t', _, rfl, ht, _⟩ := hR.inv
  exact ⟨_, _, rfl, fun h1 => h (continues ht h1)⟩

theorem continues' (ht : R g b t t') (h : Continues t) : Continues t' := by
  rcases h with h | ⟨h, hn⟩
  · exact .inl (ht.mem h (by decide))
  · exact .inr ⟨h.imp (ht.val · rfl) (ht.val · rfl), (ht.2.2 h).trans hn⟩

theorem notDirective (hR : Rel g b i j) (h : ¬ StartsDirective i) : ¬ StartsDirective j := by
  rintro ⟨t', t2', r, s, rfl, h1, h2⟩
  obtain ⟨t, _, rfl, ht, hr⟩ := hR.inv'
  obtain ⟨t2, _, rfl, ht2, _⟩ := hr.inv'
  obtain ⟨s', hs⟩ := ht.string h1
  exact h ⟨_, _, _, s', rfl, hs, fun hc => h2 (continues' ht2 hc)⟩

theorem term {o : Bool} {semi : Semi} (h : Term o i rest semi) (hm : b = true → semi.missing = 0)
    (hR : Rel g b i j) :
    ∃ rest' semi', Rel g b rest rest' ∧ Term o j rest' semi' := by
  cases h with
  | explicit h =>
    obtain ⟨t', _, rfl, ht, hr⟩ := hR.inv
    exact ⟨_, _, hr, .explicit (ht.val h rfl)⟩
  | inserted h1 h2 =>
    obtain ⟨t', _, rfl, ht, hr⟩ := hR.inv
    have hb : b = false := by
      cases b with
      | false => rfl
      | true => cases hm rfl
    exact ⟨_, _, hR, .inserted (ht.ne rfl h1)
      (h2.imp (ht.val · rfl) (Or.imp (ht.val · rfl) (Or.imp_left (ht.2.1 hb))))⟩

theorem target {e : Expr} {x : AssignTarget} (h : Ast.Similar e ((Patt.sourceTarget x).rename g)) :
    ∃ x', e = Patt.sourceTarget x' ∧ Ast.Similar x' (x.rename g) := by
  cases x with
  | tId i => cases h with | eId h => exact ⟨.tId _, rfl, .tId h⟩
  | tDot l e k => cases h with | @eDot l' _ e' _ k' _ h h' => exact ⟨.tDot l' e' k', rfl, .tDot h h'⟩
  | tBrack l e p => cases h with | @eBrack l' _ e' _ p' _ h h' => exact ⟨.tBrack l' e' p', rfl, .tBrack h h'⟩

theorem restFree_untrack {c : Cat} (p : Ast c) : Patt.restFree p.untrack ↔ Patt.restFree p := by
  induction p
  case pCompound ih => exact ih
  case cArr l es r ih1 ih2 =>
    cases r with
    | none => exact ih1
    | some r => exact Iff.rfl
  case cObj ih => exact ih
  case ppRegular ih => exact ih
  case cons ih1 ih2 => exact and_congr ih1 ih2
  case some ih => exact ih
  all_goals exact Iff.rfl

theorem pattern {e : Expr} {p : PattTarget} (hf : Patt.restFree p)
    (ha : Patt.Assignable (Patt.sourceExpr p)) (h : Ast.Similar e ((Patt.sourceExpr p).rename g)) :
    ∃ p', e = Patt.sourceExpr p' ∧ Patt.restFree p' ∧ Patt.Assignable (Patt.sourceExpr p') ∧
      Ast.Similar p' (p.rename g) := by
  rw [Patt.sourceExpr_rename ha, ← C21_identical_iff] at h
  obtain ⟨p', h1, h2⟩ := intoAssignPatt_covers (Patt.restFree_rename p hf) h
  have h3 := C19_pattern_roundtrip _ _ h1
  refine ⟨p', h3.symm, ?_, ?_, (C21_identical_iff _ _).1 h2⟩
  · rw [← restFree_untrack, h2, restFree_untrack]; exact Patt.restFree_rename p hf
  · rw [h3]; exact (C19_pattern_exact _).1 ⟨_, h1⟩

theorem paramItems_shape {x : Ast .params} (h : Derives NoLoc env .paramItems i rest x) :
    ∃ ps r, x = .params none ps r := by
  cases h <;> exact ⟨_, _, rfl⟩

theorem prologue_shape {c : Cat} {nt : NT (.list c)} {x : Ast (.body c)}
    (h : Derives NoLoc env (.prologue nt) i rest x) : ∃ ds xs, x = .body none ds xs := by
  cases h <;> exact ⟨_, _, rfl⟩

theorem body_loc {c : Cat} {nt : NT (.list c)} {x : Ast (.body c)}
    (h : Derives NoLoc env (.body nt) i rest x) : x.loc = none := by
  cases h with
  | body _ h => exact h

theorem isLoop_rename : (s : Stmt) → isLoop (s.rename g) = isLoop s
  | .sLabel _ _ s => by
    show isLoop (.sLabel _ _ (s.rename g)) = _
    unfold isLoop
    exact isLoop_rename s
  | .sWhile .. | .sDoWhile .. | .sFor .. | .sForIn .. | .sForOf .. => by
    simp only [Ast.rename] <;> unfold isLoop <;> rfl
  | .sEmpty .. | .sBlock .. | .sVar .. | .sExpr .. | .sIf .. | .sBreak .. | .sCont .. | .sWith ..
  | .sSwitch .. | .sReturn .. | .sThrow .. | .sTry .. | .sDebugger .. => by
    simp only [Ast.rename] <;> unfold isLoop <;> rfl

theorem isLoop_similar {s s' : Stmt} (h : Ast.Similar s' (s.rename g)) : isLoop s = isLoop s' := by
  rw [← isLoop_rename (g := g) s, ← isLoop_untrack s', (C21_identical_iff _ _).2 h, isLoop_untrack]

theorem isDefault_similar {x x' : Ast .case} (h : Ast.Similar x' (x.rename g)) :
    isDefault x' = isDefault x := by
  cases x with
  | caseClause l e xs =>
    cases h with
    | caseClause h1 _ => cases e <;> cases h1 <;> rfl

theorem defaults : {cs cs' : Ast (.list .case)} → Ast.Similar cs' (cs.rename g) →
    (cs'.toList.filter isDefault).length = (cs.toList.filter isDefault).length
  | .nil, _, h => by cases h; rfl
  | .cons x xs, _, h => by
    cases h with
    | cons h1 h2 =>
      have ih := defaults h2
      simp only [Ast.toList_cons, List.filter_cons, isDefault_similar h1]
      split
      · simp only [List.length_cons, ih]
      · exact ih

theorem notNone {c : Cat} {x x' : Ast (.opt c)} (h : Ast.Similar x' (x.rename g)) (hx : x ≠ .none) :
    x' ≠ .none := by
  rintro rfl
  cases x with
  | none => exact hx rfl
  | some x => cases h

theorem labels (hg : IsRenaming g) {n : Name} {b : Bool} (h : (n.rename g, b) ∈ (ren g env).labels) :
    (n, b) ∈ env.labels := by
  obtain ⟨p, h1, h2⟩ := List.mem_map.1 h
  obtain ⟨m, b'⟩ := p
  simp only [Prod.mk.injEq] at h2
  obtain ⟨h2, rfl⟩ := h2
  rw [← name_inj hg h2]; exact h1

theorem labels_mem {n : Name} {b : Bool} (h : (n, b) ∈ env.labels) :
    (n.rename g, b) ∈ (ren g env).labels := List.mem_map.2 ⟨_, h, rfl⟩

/-- Closes goals that two trees are similar. -/
local macro "sim" : tactic => `(tactic| repeat' (first | assumption | rfl | constructor))

/-- Closes goals that parts have no inserted semicolons. -/
local macro "mz" h:ident : tactic => `(tactic| (
  intro hb
  have h1 := $h hb
  ((try simp only [Ast.missing, List.map_cons, List.map_nil, List.sum_cons, List.sum_nil,
    Semis.missing_target, Semis.missing_pattern] at h1 ⊢); omega)))

/-- A derivation from tokens gives one from the renamed tokens, perhaps with more line terminators,
and with fewer if no semicolons are inserted. -/
theorem derives_lines (hg : IsRenaming g) {L : LocSpec} {c : Cat} {nt : NT c} {inp : List Token} {x : Ast c}
    (h : Derives L env nt inp rest x) : env.plain = true → (b = true → x.missing = 0) → ∀ {j}, Rel g b inp j →
      ∃ rest' x', Rel g b rest rest' ∧ Derives NoLoc (ren g env) nt j rest' x' ∧
        Ast.Similar x' (x.rename g) := by
  induction h
  case identifier a1 =>
    intro hp hm j hR
    obtain ⟨t', _, rfl, ht, qt⟩ := hR.inv
    exact ⟨_, _, qt, .identifier (ident ht a1), by sim⟩
  case kNull a1 =>
    intro hp hm j hR
    obtain ⟨t', _, rfl, ht, qt⟩ := hR.inv
    exact ⟨_, _, qt, .kNull (ht.val a1 rfl), by sim⟩
  case kThis a1 =>
    intro hp hm j hR
    obtain ⟨t', _, rfl, ht, qt⟩ := hR.inv
    exact ⟨_, _, qt, .kThis (ht.val a1 rfl), by sim⟩
  case kTrue a1 =>
    intro hp hm j hR
    obtain ⟨t', _, rfl, ht, qt⟩ := hR.inv
    exact ⟨_, _, qt, .kTrue (ht.val a1 rfl), by sim⟩
  case kFalse a1 =>
    intro hp hm j hR
    obtain ⟨t', _, rfl, ht, qt⟩ := hR.inv
    exact ⟨_, _, qt, .kFalse (ht.val a1 rfl), by sim⟩
  case number a1 =>
    intro hp hm j hR
    obtain ⟨t', _, rfl, ht, qt⟩ := hR.inv
    exact ⟨_, _, qt, .number (ht.lit a1), by sim⟩
  case string a1 =>
    intro hp hm j hR
    obtain ⟨t', _, rfl, ht, qt⟩ := hR.inv
    exact ⟨_, _, qt, .string (ht.lit a1), by sim⟩
  case regExp a1 =>
    intro hp hm j hR
    obtain ⟨t', _, rfl, ht, qt⟩ := hR.inv
    exact ⟨_, _, qt, .regExp (ht.lit a1), by sim⟩
  case array a1 a2 a3 ih2 =>
    intro hp hm j hR
    obtain ⟨t', _, rfl, ht, qt⟩ := hR.inv
    obtain ⟨_, _, hr1, hd1, hs1⟩ := ih2 hp (by mz hm) qt
    obtain ⟨t2', _, rfl, ht2, qt2⟩ := hr1.inv
    exact ⟨_, _, qt2, .array (ht.val a1 rfl) hd1 (ht2.val a3 rfl), by sim⟩
  case object a1 a2 a3 ih2 =>
    intro hp hm j hR
    obtain ⟨t', _, rfl, ht, qt⟩ := hR.inv
    obtain ⟨_, _, hr1, hd1, hs1⟩ := ih2 hp (by mz hm) qt
    obtain ⟨t2', _, rfl, ht2, qt2⟩ := hr1.inv
    exact ⟨_, _, qt2, .object (ht.val a1 rfl) hd1 (ht2.val a3 rfl), by sim⟩
  case function a1 ih1 =>
    intro hp hm j hR
    obtain ⟨_, _, hr0, hd0, hs0⟩ := ih1 hp (by mz hm) hR
    exact ⟨_, _, hr0, .function hd0, by sim⟩
  case paren a1 a2 a3 ih2 =>
    intro hp hm j hR
    obtain ⟨t', _, rfl, ht, qt⟩ := hR.inv
    obtain ⟨_, _, hr1, hd1, hs1⟩ := ih2 hp (by mz hm) qt
    obtain ⟨t2', _, rfl, ht2, qt2⟩ := hr1.inv
    exact ⟨_, _, qt2, .paren (ht.val a1 rfl) hd1 (ht2.val a3 rfl), by sim⟩
  case elemsNil  =>
    intro hp hm j hR
    exact ⟨_, _, hR, .elemsNil , by sim⟩
  case elemsLast a1 ih1 =>
    intro hp hm j hR
    obtain ⟨_, _, hr0, hd0, hs0⟩ := ih1 hp (by mz hm) hR
    exact ⟨_, _, hr0, .elemsLast hd0, by sim⟩
  case elemsCons a1 a2 a3 ih1 ih3 =>
    intro hp hm j hR
    obtain ⟨_, _, hr0, hd0, hs0⟩ := ih1 hp (by mz hm) hR
    obtain ⟨t', _, rfl, ht, qt⟩ := hr0.inv
    obtain ⟨_, _, hr2, hd2, hs2⟩ := ih3 hp (by mz hm) qt
    exact ⟨_, _, hr2, .elemsCons hd0 (ht.val a2 rfl) hd2, by sim⟩
  case elemsHole a1 a2 ih2 =>
    intro hp hm j hR
    obtain ⟨t', _, rfl, ht, qt⟩ := hR.inv
    obtain ⟨_, _, hr1, hd1, hs1⟩ := ih2 hp (by mz hm) qt
    exact ⟨_, _, hr1, .elemsHole (ht.val a1 rfl) hd1, by sim⟩
  case argExpr a1 ih1 =>
    intro hp hm j hR
    obtain ⟨_, _, hr0, hd0, hs0⟩ := ih1 hp (by mz hm) hR
    exact ⟨_, _, hr0, .argExpr hd0, by sim⟩
  case argSpread a1 a2 a3 ih2 =>
    intro hp hm j hR
    obtain ⟨t', _, rfl, ht, qt⟩ := hR.inv
    obtain ⟨_, _, hr1, hd1, hs1⟩ := ih2 hp (by mz hm) qt
    exact ⟨_, _, hr1, .argSpread (ht.val a1 rfl) hd1 rfl, by sim⟩
  case propsNil  =>
    intro hp hm j hR
    exact ⟨_, _, hR, .propsNil , by sim⟩
  case propsLast a1 ih1 =>
    intro hp hm j hR
    obtain ⟨_, _, hr0, hd0, hs0⟩ := ih1 hp (by mz hm) hR
    exact ⟨_, _, hr0, .propsLast hd0, by sim⟩
  case propsCons a1 a2 a3 ih1 ih3 =>
    intro hp hm j hR
    obtain ⟨_, _, hr0, hd0, hs0⟩ := ih1 hp (by mz hm) hR
    obtain ⟨t', _, rfl, ht, qt⟩ := hr0.inv
    obtain ⟨_, _, hr2, hd2, hs2⟩ := ih3 hp (by mz hm) qt
    exact ⟨_, _, hr2, .propsCons hd0 (ht.val a2 rfl) hd2, by sim⟩
  case propInit a1 a2 a3 ih3 =>
    intro hp hm j hR
    obtain ⟨t', _, rfl, ht, qt⟩ := hR.inv
    obtain ⟨t2', _, rfl, ht2, qt2⟩ := qt.inv
    obtain ⟨_, hd0, hs0⟩ := propName hg ht a1
    obtain ⟨_, _, hr2, hd2, hs2⟩ := ih3 hp (by mz hm) qt2
    exact ⟨_, _, hr2, .propInit hd0 (ht2.val a2 rfl) hd2, by sim⟩
  case propShorthand a1 a2 a3 =>
    intro hp hm j hR
    obtain ⟨t', _, rfl, ht, qt⟩ := hR.inv
    refine ⟨_, _, qt, .propShorthand (ht.1.trans (congrArg _ a1)) ?_
      (a3.imp (fun h => nextIs qt h rfl) fun h => nextIs qt h rfl), .prShorthand ?_⟩
    · rw [from_rename hg]; exact idOk a2
    · exact from_rename hg _
  case propMethod a1 a2 a3 ih2 ih3 =>
    intro hp hm j hR
    obtain ⟨t', _, rfl, ht, qt⟩ := hR.inv
    obtain ⟨_, hd0, hs0⟩ := propName hg ht a1
    obtain ⟨_, _, hr1, hd1, hs1⟩ := ih2 hp (by mz hm) qt
    obtain ⟨_, _, hr2, hd2, hs2⟩ := ih3 hp (by mz hm) hr1
    exact ⟨_, _, hr2, .propMethod hd0 hd1 hd2, by sim⟩
  case propGenerator a1 a2 a3 a4 ih3 ih4 =>
    intro hp hm j hR
    obtain ⟨t0', _, rfl, ht0, qt0⟩ := hR.inv
    obtain ⟨t', _, rfl, ht, qt⟩ := qt0.inv
    obtain ⟨_, hd1, hs1⟩ := propName hg ht a2
    obtain ⟨_, _, hr2, hd2, hs2⟩ := ih3 hp (by mz hm) qt
    obtain ⟨_, _, hr3, hd3, hs3⟩ := ih4 hp (by mz hm) hr2
    exact ⟨_, _, hr3, .propGenerator (ht0.val a1 rfl) hd1 hd2 hd3, by sim⟩
  case propGet a1 a2 a3 a4 a5 ih5 =>
    intro hp hm j hR
    obtain ⟨t0', _, rfl, ht0, qt0⟩ := hR.inv
    obtain ⟨t', _, rfl, ht, qt⟩ := qt0.inv
    obtain ⟨t1', _, rfl, ht1, qt1⟩ := qt.inv
    obtain ⟨t2', _, rfl, ht2, qt2⟩ := qt1.inv
    obtain ⟨_, hd1, hs1⟩ := propName hg ht a2
    obtain ⟨_, _, hr4, hd4, hs4⟩ := ih5 hp (by mz hm) qt2
    exact ⟨_, _, hr4, .propGet (ht0.val a1 rfl) hd1 (ht1.val a3 rfl) (ht2.val a4 rfl) hd4, by sim⟩
  case propSet a1 a2 a3 a4 a5 a6 ih4 ih6 =>
    intro hp hm j hR
    obtain ⟨t0', _, rfl, ht0, qt0⟩ := hR.inv
    obtain ⟨t', _, rfl, ht, qt⟩ := qt0.inv
    obtain ⟨t1', _, rfl, ht1, qt1⟩ := qt.inv
    obtain ⟨_, hd1, hs1⟩ := propName hg ht a2
    obtain ⟨_, _, hr3, hd3, hs3⟩ := ih4 hp (by mz hm) qt1
    obtain ⟨t2', _, rfl, ht2, qt2⟩ := hr3.inv
    obtain ⟨_, _, hr5, hd5, hs5⟩ := ih6 hp (by mz hm) qt2
    exact ⟨_, _, hr5, .propSet (ht0.val a1 rfl) hd1 (ht1.val a3 rfl) hd3 (ht2.val a5 rfl) hd5, by sim⟩
  case name a1 =>
    intro hp hm j hR
    obtain ⟨t', _, rfl, ht, qt⟩ := hR.inv
    exact ⟨_, _, qt, .name (ident ht a1), by sim⟩
  case nameNone  =>
    intro hp hm j hR
    exact ⟨_, _, hR, .nameNone , by sim⟩
  case nameSome a1 ih1 =>
    intro hp hm j hR
    obtain ⟨_, _, hr0, hd0, hs0⟩ := ih1 hp (by mz hm) hR
    exact ⟨_, _, hr0, .nameSome hd0, by sim⟩
  case func a1 a2 a3 a4 a5 a6 ih2 ih3 ih4 =>
    intro hp hm j hR
    obtain ⟨t', _, rfl, ht, qt⟩ := hR.inv
    obtain ⟨_, _, hr1, hd1, hs1⟩ := ih2 hp (by mz hm) qt
    obtain ⟨_, _, hr2, hd2, hs2⟩ := ih3 hp (by mz hm) hr1
    obtain ⟨_, _, hr3, hd3, hs3⟩ := ih4 hp (by mz hm) hr2
    exact ⟨_, _, hr3, .func (ht.val a1 rfl) hd1 hd2 hd3 rfl nofun, by sim⟩
  case funcGenerator a1 a2 a3 a4 a5 a6 a7 ih3 ih4 ih5 =>
    intro hp hm j hR
    obtain ⟨t', _, rfl, ht, qt⟩ := hR.inv
    obtain ⟨t2', _, rfl, ht2, qt2⟩ := qt.inv
    obtain ⟨_, _, hr2, hd2, hs2⟩ := ih3 hp (by mz hm) qt2
    obtain ⟨_, _, hr3, hd3, hs3⟩ := ih4 hp (by mz hm) hr2
    obtain ⟨_, _, hr4, hd4, hs4⟩ := ih5 hp (by mz hm) hr3
    exact ⟨_, _, hr4, .funcGenerator (ht.val a1 rfl) (ht2.val a2 rfl) hd2 hd3 hd4 rfl nofun, by sim⟩
  case pattern a1 =>
    intro hp hm j hR
    obtain ⟨t', _, rfl, ht, qt⟩ := hR.inv
    exact ⟨_, _, qt, .pattern (ident ht a1), by sim⟩
  case paramsNil  =>
    intro hp hm j hR
    exact ⟨_, _, hR, .paramsNil , by sim⟩
  case paramsRest a1 a2 a3 ih2 =>
    intro hp hm j hR
    obtain ⟨t', _, rfl, ht, qt⟩ := hR.inv
    obtain ⟨_, _, hr1, hd1, hs1⟩ := ih2 hp (by mz hm) qt
    exact ⟨_, _, hr1, .paramsRest (ht.val a1 rfl) hd1 rfl, by sim⟩
  case paramsLast a1 ih1 =>
    intro hp hm j hR
    obtain ⟨_, _, hr0, hd0, hs0⟩ := ih1 hp (by mz hm) hR
    exact ⟨_, _, hr0, .paramsLast hd0, by sim⟩
  case paramsCons a1 a2 a3 ih1 ih3 =>
    intro hp hm j hR
    obtain ⟨_, _, hr, hd, hs⟩ := ih1 hp (by mz hm) hR
    obtain ⟨t', _, rfl, ht, qt⟩ := hr.inv
    obtain ⟨_, _, hr2, hd2, hs2⟩ := ih3 hp (by mz hm) qt
    obtain ⟨_, _, rfl⟩ := paramItems_shape hd2
    cases hs2 with
    | params h1 h2 => exact ⟨_, _, hr2, .paramsCons hd (ht.val a2 rfl) hd2, .params (.cons hs h1) h2⟩
  case params a1 a2 a3 a4 ih2 =>
    intro hp hm j hR
    obtain ⟨t', _, rfl, ht, qt⟩ := hR.inv
    obtain ⟨_, _, hr2, hd2, hs2⟩ := ih2 hp (by mz hm) qt
    obtain ⟨t2', _, rfl, ht2, qt2⟩ := hr2.inv
    obtain ⟨_, _, rfl⟩ := paramItems_shape hd2
    cases hs2 with
    | params h1 h2 => exact ⟨_, _, qt2, .params (ht.val a1 rfl) hd2 (ht2.val a3 rfl) rfl, .params h1 h2⟩
  case functionBody a1 a2 a3 a4 ih2 =>
    intro hp hm j hR
    obtain ⟨t', _, rfl, ht, qt⟩ := hR.inv
    obtain ⟨_, _, hr2, hd2, hs2⟩ := ih2 hp (by mz hm) qt
    obtain ⟨t2', _, rfl, ht2, qt2⟩ := hr2.inv
    refine ⟨_, _, qt2, .functionBody (ht.val a1 rfl) hd2 (ht2.val a3 rfl) ?_, hs2⟩
    intro sp h
    rw [body_loc hd2] at h
    cases h
  case lhsPrimary a1 ih1 =>
    intro hp hm j hR
    obtain ⟨_, _, hr0, hd0, hs0⟩ := ih1 hp (by mz hm) hR
    exact ⟨_, _, hr0, .lhsPrimary hd0, by sim⟩
  case newTarget a1 a2 a3 =>
    intro hp hm j hR
    obtain ⟨t', _, rfl, ht, qt⟩ := hR.inv
    obtain ⟨t2', _, rfl, ht2, qt2⟩ := qt.inv
    obtain ⟨t3', _, rfl, ht3, qt3⟩ := qt2.inv
    exact ⟨_, _, qt3, .newTarget (ht.val a1 rfl) (ht2.val a2 rfl) (ht3.val a3 rfl), by sim⟩
  case dot a1 a2 a3 ih1 =>
    intro hp hm j hR
    obtain ⟨_, _, hr0, hd0, hs0⟩ := ih1 hp (by mz hm) hR
    obtain ⟨t', _, rfl, ht, qt⟩ := hr0.inv
    obtain ⟨t2', _, rfl, ht2, qt2⟩ := qt.inv
    obtain ⟨_, hd2, hs2⟩ := memberName hg ht2 a3
    exact ⟨_, _, qt2, .dot hd0 (ht.val a2 rfl) hd2, by sim⟩
  case brack a1 a2 a3 a4 ih1 ih3 =>
    intro hp hm j hR
    obtain ⟨_, _, hr0, hd0, hs0⟩ := ih1 hp (by mz hm) hR
    obtain ⟨t', _, rfl, ht, qt⟩ := hr0.inv
    obtain ⟨_, _, hr2, hd2, hs2⟩ := ih3 hp (by mz hm) qt
    obtain ⟨t2', _, rfl, ht2, qt2⟩ := hr2.inv
    exact ⟨_, _, qt2, .brack hd0 (ht.val a2 rfl) hd2 (ht2.val a4 rfl), by sim⟩
  case call a1 a2 a3 a4 ih1 ih3 =>
    intro hp hm j hR
    obtain ⟨_, _, hr0, hd0, hs0⟩ := ih1 hp (by mz hm) hR
    obtain ⟨t', _, rfl, ht, qt⟩ := hr0.inv
    obtain ⟨_, _, hr2, hd2, hs2⟩ := ih3 hp (by mz hm) qt
    obtain ⟨t2', _, rfl, ht2, qt2⟩ := hr2.inv
    exact ⟨_, _, qt2, .call hd0 (ht.val a2 rfl) hd2 (ht2.val a4 rfl), by sim⟩
  case lhsNew a1 ih1 =>
    intro hp hm j hR
    obtain ⟨_, _, hr0, hd0, hs0⟩ := ih1 hp (by mz hm) hR
    exact ⟨_, _, hr0, .lhsNew hd0, by sim⟩
  case newBaseMember a1 a2 ih2 =>
    intro hp hm j hR
    obtain ⟨_, _, hr1, hd1, hs1⟩ := ih2 hp (by mz hm) hR
    exact ⟨_, _, hr1, .newBaseMember (nextNotIn hr1 a1 rfl) hd1, by sim⟩
  case newBaseArgs a1 ih1 =>
    intro hp hm j hR
    obtain ⟨_, _, hr0, hd0, hs0⟩ := ih1 hp (by mz hm) hR
    exact ⟨_, _, hr0, .newBaseArgs hd0, by sim⟩
  case newBaseNoArgs a1 ih1 =>
    intro hp hm j hR
    obtain ⟨_, _, hr0, hd0, hs0⟩ := ih1 hp (by mz hm) hR
    exact ⟨_, _, hr0, .newBaseNoArgs hd0, by sim⟩
  case newArgs a1 a2 a3 a4 a5 ih2 ih4 =>
    intro hp hm j hR
    obtain ⟨t', _, rfl, ht, qt⟩ := hR.inv
    obtain ⟨_, _, hr1, hd1, hs1⟩ := ih2 hp (by mz hm) qt
    obtain ⟨t2', _, rfl, ht2, qt2⟩ := hr1.inv
    obtain ⟨_, _, hr3, hd3, hs3⟩ := ih4 hp (by mz hm) qt2
    obtain ⟨t3', _, rfl, ht3, qt3⟩ := hr3.inv
    exact ⟨_, _, qt3, .newArgs (ht.val a1 rfl) hd1 (ht2.val a3 rfl) hd3 (ht3.val a5 rfl), by sim⟩
  case newNoArgs a1 a2 a3 ih2 =>
    intro hp hm j hR
    obtain ⟨t', _, rfl, ht, qt⟩ := hR.inv
    obtain ⟨_, _, hr1, hd1, hs1⟩ := ih2 hp (by mz hm) qt
    exact ⟨_, _, hr1, .newNoArgs (ht.val a1 rfl) hd1 (nextIsNot hr1 a3 rfl), by sim⟩
  case argListNil  =>
    intro hp hm j hR
    exact ⟨_, _, hR, .argListNil , by sim⟩
  case argList a1 ih1 =>
    intro hp hm j hR
    obtain ⟨_, _, hr0, hd0, hs0⟩ := ih1 hp (by mz hm) hR
    exact ⟨_, _, hr0, .argList hd0, by sim⟩
  case argsLast a1 ih1 =>
    intro hp hm j hR
    obtain ⟨_, _, hr0, hd0, hs0⟩ := ih1 hp (by mz hm) hR
    exact ⟨_, _, hr0, .argsLast hd0, by sim⟩
  case argsCons a1 a2 a3 ih1 ih3 =>
    intro hp hm j hR
    obtain ⟨_, _, hr0, hd0, hs0⟩ := ih1 hp (by mz hm) hR
    obtain ⟨t', _, rfl, ht, qt⟩ := hr0.inv
    obtain ⟨_, _, hr2, hd2, hs2⟩ := ih3 hp (by mz hm) qt
    exact ⟨_, _, hr2, .argsCons hd0 (ht.val a2 rfl) hd2, by sim⟩
  case postfixNone a1 a2 a3 ih3 =>
    intro hp hm j hR
    obtain ⟨_, _, hr2, hd2, hs2⟩ := ih3 hp (by mz hm) hR
    exact ⟨_, _, hr2, .postfixNone (nextNotIn hr2 a1 rfl) (noPostfix hr2 a2) hd2, by sim⟩
  case postInc a1 a2 a3 ih1 =>
    intro hp hm j hR
    obtain ⟨_, _, hr, hd, hs⟩ := ih1 hp (by mz hm) hR
    obtain ⟨t', _, rfl, ht, qt⟩ := hr.inv
    obtain ⟨x', rfl, hx⟩ := target hs
    exact ⟨_, _, qt, .postInc hd (ht.val a2 rfl) ((ht.2.2 (.inl a2)).trans a3), .ePostInc hx⟩
  case postDec a1 a2 a3 ih1 =>
    intro hp hm j hR
    obtain ⟨_, _, hr, hd, hs⟩ := ih1 hp (by mz hm) hR
    obtain ⟨t', _, rfl, ht, qt⟩ := hr.inv
    obtain ⟨x', rfl, hx⟩ := target hs
    exact ⟨_, _, qt, .postDec hd (ht.val a2 rfl) ((ht.2.2 (.inr a2)).trans a3), .ePostDec hx⟩
  case unaryPostfix a1 ih1 =>
    intro hp hm j hR
    obtain ⟨_, _, hr0, hd0, hs0⟩ := ih1 hp (by mz hm) hR
    exact ⟨_, _, hr0, .unaryPostfix hd0, by sim⟩
  case unop a1 a2 ih2 =>
    intro hp hm j hR
    obtain ⟨t', _, rfl, ht, qt⟩ := hR.inv
    obtain ⟨_, _, hr1, hd1, hs1⟩ := ih2 hp (by mz hm) qt
    exact ⟨_, _, hr1, .unop (isUnop ht a1) hd1, by sim⟩
  case preInc a1 a2 ih2 =>
    intro hp hm j hR
    obtain ⟨t', _, rfl, ht, qt⟩ := hR.inv
    obtain ⟨_, _, hr, hd, hs⟩ := ih2 hp (by mz hm) qt
    obtain ⟨x', rfl, hx⟩ := target hs
    exact ⟨_, _, hr, .preInc (ht.val a1 rfl) hd, .ePreInc hx⟩
  case preDec a1 a2 ih2 =>
    intro hp hm j hR
    obtain ⟨t', _, rfl, ht, qt⟩ := hR.inv
    obtain ⟨_, _, hr, hd, hs⟩ := ih2 hp (by mz hm) qt
    obtain ⟨x', rfl, hx⟩ := target hs
    exact ⟨_, _, hr, .preDec (ht.val a1 rfl) hd, .ePreDec hx⟩
  case binaryUnary a1 ih1 =>
    intro hp hm j hR
    obtain ⟨_, _, hr0, hd0, hs0⟩ := ih1 hp (by mz hm) hR
    exact ⟨_, _, hr0, .binaryUnary hd0, by sim⟩
  case binaryUp a1 a2 ih2 =>
    intro hp hm j hR
    obtain ⟨_, _, hr1, hd1, hs1⟩ := ih2 hp (by mz hm) hR
    exact ⟨_, _, hr1, .binaryUp a1 hd1, by sim⟩
  case binop op _ _ _ _ _ _ a1 a2 a3 ih1 ih3 =>
    intro hp hm j hR
    obtain ⟨_, _, hr0, hd0, hs0⟩ := ih1 hp (by mz hm) hR
    obtain ⟨t', _, rfl, ht, qt⟩ := hr0.inv
    obtain ⟨_, _, hr2, hd2, hs2⟩ := ih3 hp (by mz hm) qt
    exact ⟨_, _, hr2, .binop (op := ⟨some t'.location, op.tag⟩) hd0 (isBinop ht a2) hd2, .eBinop rfl hs0 hs2⟩
  case logop op _ _ _ _ _ _ a1 a2 a3 ih1 ih3 =>
    intro hp hm j hR
    obtain ⟨_, _, hr0, hd0, hs0⟩ := ih1 hp (by mz hm) hR
    obtain ⟨t', _, rfl, ht, qt⟩ := hr0.inv
    obtain ⟨_, _, hr2, hd2, hs2⟩ := ih3 hp (by mz hm) qt
    exact ⟨_, _, hr2, .logop (op := ⟨some t'.location, op.tag⟩) hd0 (isLogop ht a2) hd2, .eLogop rfl hs0 hs2⟩
  case condNone a1 a2 a3 a4 ih4 =>
    intro hp hm j hR
    obtain ⟨_, _, hr3, hd3, hs3⟩ := ih4 hp (by mz hm) hR
    exact ⟨_, _, hr3, .condNone (noRegExp hr3 a1) (noInfix hr3 a2) (nextIsNot hr3 a3 rfl) hd3, by sim⟩
  case cond a1 a2 a3 a4 a5 ih1 ih3 ih5 =>
    intro hp hm j hR
    obtain ⟨_, _, hr0, hd0, hs0⟩ := ih1 hp (by mz hm) hR
    obtain ⟨t', _, rfl, ht, qt⟩ := hr0.inv
    obtain ⟨_, _, hr2, hd2, hs2⟩ := ih3 hp (by mz hm) qt
    obtain ⟨t2', _, rfl, ht2, qt2⟩ := hr2.inv
    obtain ⟨_, _, hr4, hd4, hs4⟩ := ih5 hp (by mz hm) qt2
    exact ⟨_, _, hr4, .cond hd0 (ht.val a2 rfl) hd2 (ht2.val a4 rfl) hd4, by sim⟩
  case assignNone a1 a2 ih2 =>
    intro hp hm j hR
    obtain ⟨_, _, hr1, hd1, hs1⟩ := ih2 hp (by mz hm) hR
    exact ⟨_, _, hr1, .assignNone (noAssign hr1 a1) hd1, by sim⟩
  case assign a1 a2 a3 a4 a5 ih3 ih5 =>
    intro hp hm j hR
    obtain ⟨_, _, hr, hd, hs⟩ := ih3 hp (by mz hm) hR
    obtain ⟨t', _, rfl, ht, qt⟩ := hr.inv
    obtain ⟨_, _, hr2, hd2, hs2⟩ := ih5 hp (by mz hm) qt
    obtain ⟨p', rfl, hf, ha, hx⟩ := pattern (a1 hp) a2 hs
    exact ⟨_, _, hr2, .assign (fun _ => hf) ha hd (ht.val a4 rfl) hd2, .eAssign hx hs2⟩
  case binAssign a1 a2 a3 ih1 ih3 =>
    intro hp hm j hR
    obtain ⟨_, _, hr, hd, hs⟩ := ih1 hp (by mz hm) hR
    obtain ⟨t', _, rfl, ht, qt⟩ := hr.inv
    obtain ⟨_, _, hr2, hd2, hs2⟩ := ih3 hp (by mz hm) qt
    obtain ⟨x', rfl, hx⟩ := target hs
    exact ⟨_, _, hr2, .binAssign hd (isAssop ht a2) hd2, .eBinAssign rfl hx hs2⟩
  case exprsLast a1 a2 ih2 =>
    intro hp hm j hR
    obtain ⟨_, _, hr1, hd1, hs1⟩ := ih2 hp (by mz hm) hR
    exact ⟨_, _, hr1, .exprsLast (nextIsNot hr1 a1 rfl) hd1, by sim⟩
  case exprsCons a1 a2 a3 ih1 ih3 =>
    intro hp hm j hR
    obtain ⟨_, _, hr0, hd0, hs0⟩ := ih1 hp (by mz hm) hR
    obtain ⟨t', _, rfl, ht, qt⟩ := hr0.inv
    obtain ⟨_, _, hr2, hd2, hs2⟩ := ih3 hp (by mz hm) qt
    exact ⟨_, _, hr2, .exprsCons hd0 (ht.val a2 rfl) hd2, by sim⟩
  case exprOne a1 a2 ih2 =>
    intro hp hm j hR
    obtain ⟨_, _, hr1, hd1, hs1⟩ := ih2 hp (by mz hm) hR
    exact ⟨_, _, hr1, .exprOne (nextIsNot hr1 a1 rfl) hd1, by sim⟩
  case exprSeq a1 a2 ih1 =>
    intro hp hm j hR
    obtain ⟨_, _, hr, hd, hs⟩ := ih1 hp (by mz hm) hR
    cases hs with
    | cons h1 h2 =>
      cases h2 with
      | cons h2 h3 =>
        exact ⟨_, _, hr, .exprSeq hd (List.getLast?_eq_some_getLast (List.cons_ne_nil _ _)),
          .eSeq (.cons h1 (.cons h2 h3))⟩
  case directive a1 a2 a3 a4 a5 ih5 =>
    intro hp hm j hR
    obtain ⟨t', _, rfl, ht, qt⟩ := hR.inv
    obtain ⟨_, _, hr1, hd1⟩ := term a3 (by mz hm) qt
    obtain ⟨_, _, hr2, hd2, hs2⟩ := ih5 hp (by mz hm) hr1
    obtain ⟨_, _, rfl⟩ := prologue_shape hd2
    cases hs2 with
    | body h1 h2 =>
      exact ⟨_, _, hr2, .directive (ht.lit a1) (notContinues qt a2) hd1 rfl hd2,
        .body (by simp only [List.map_cons, h1, Dir.rename]) h2⟩
  case prologueEnd a1 a2 a3 ih3 =>
    intro hp hm j hR
    obtain ⟨_, _, hr2, hd2, hs2⟩ := ih3 hp (by mz hm) hR
    exact ⟨_, _, hr2, .prologueEnd (notDirective hR a1) (stringNoDivision hR a2) hd2, .body rfl hs2⟩
  case body a1 a2 ih1 =>
    intro hp hm j hR
    obtain ⟨_, _, hr2, hd2, hs2⟩ := ih1 hp (by mz hm) hR
    obtain ⟨_, _, rfl⟩ := prologue_shape hd2
    cases hs2 with
    | body h1 h2 => exact ⟨_, _, hr2, .body hd2 rfl, .body h1 h2⟩
  case itemsNil a1 =>
    intro hp hm j hR
    obtain ⟨t', _, rfl, ht, qt⟩ := hR.inv
    exact ⟨_, _, hR, .itemsNil (ht.mem a1 rfl), by sim⟩
  case itemsCons a1 a2 ih1 ih2 =>
    intro hp hm j hR
    obtain ⟨_, _, hr0, hd0, hs0⟩ := ih1 hp (by mz hm) hR
    obtain ⟨_, _, hr1, hd1, hs1⟩ := ih2 hp (by mz hm) hr0
    exact ⟨_, _, hr1, .itemsCons hd0 hd1, by sim⟩
  case modItemsNil a1 =>
    intro hp hm j hR
    obtain ⟨t', _, rfl, ht, qt⟩ := hR.inv
    exact ⟨_, _, hR, .modItemsNil (ht.val a1 rfl), by sim⟩
  case modItemsCons a1 a2 ih1 ih2 =>
    intro hp hm j hR
    obtain ⟨_, _, hr0, hd0, hs0⟩ := ih1 hp (by mz hm) hR
    obtain ⟨_, _, hr1, hd1, hs1⟩ := ih2 hp (by mz hm) hr0
    exact ⟨_, _, hr1, .modItemsCons hd0 hd1, by sim⟩
  case itemStmt a1 ih1 =>
    intro hp hm j hR
    obtain ⟨_, _, hr0, hd0, hs0⟩ := ih1 hp (by mz hm) hR
    exact ⟨_, _, hr0, .itemStmt hd0, by sim⟩
  case itemDecl a1 ih1 =>
    intro hp hm j hR
    obtain ⟨_, _, hr0, hd0, hs0⟩ := ih1 hp (by mz hm) hR
    exact ⟨_, _, hr0, .itemDecl hd0, by sim⟩
  case declFun a1 a2 ih1 =>
    intro hp hm j hR
    obtain ⟨_, _, hr2, hd2, hs2⟩ := ih1 hp (by mz hm) hR
    cases hs2 with
    | func h1 h2 h3 => exact ⟨_, _, hr2, .declFun hd2 rfl, .dFun (.func h1 h2 h3)⟩
  case declLet a1 a2 a3 a4 ih2 =>
    intro hp hm j hR
    obtain ⟨t', _, rfl, ht, qt⟩ := hR.inv
    obtain ⟨_, _, hr1, hd1, hs1⟩ := ih2 hp (by mz hm) qt
    obtain ⟨_, _, hr2, hd2⟩ := term a3 (by mz hm) hr1
    exact ⟨_, _, hr2, .declLet (ht.val a1 rfl) hd1 hd2 rfl, by sim⟩
  case declConst a1 a2 a3 a4 ih2 =>
    intro hp hm j hR
    obtain ⟨t', _, rfl, ht, qt⟩ := hR.inv
    obtain ⟨_, _, hr1, hd1, hs1⟩ := ih2 hp (by mz hm) qt
    obtain ⟨_, _, hr2, hd2⟩ := term a3 (by mz hm) hr1
    exact ⟨_, _, hr2, .declConst (ht.val a1 rfl) hd1 hd2 rfl, by sim⟩
  case dtorNone a1 a2 a3 =>
    intro hp hm j hR
    obtain ⟨t', _, rfl, ht, qt⟩ := hR.inv
    exact ⟨_, _, qt, .dtorNone (nextIsNot qt a1 rfl) (ident ht a2) rfl, by sim⟩
  case dtorInit a1 a2 a3 a4 ih3 =>
    intro hp hm j hR
    obtain ⟨t', _, rfl, ht, qt⟩ := hR.inv
    obtain ⟨t2', _, rfl, ht2, qt2⟩ := qt.inv
    obtain ⟨_, _, hr2, hd2, hs2⟩ := ih3 hp (by mz hm) qt2
    exact ⟨_, _, hr2, .dtorInit (ident ht a1) (ht2.val a2 rfl) hd2 rfl, by sim⟩
  case dtorsLast a1 a2 ih2 =>
    intro hp hm j hR
    obtain ⟨_, _, hr1, hd1, hs1⟩ := ih2 hp (by mz hm) hR
    exact ⟨_, _, hr1, .dtorsLast (nextIsNot hr1 a1 rfl) hd1, by sim⟩
  case dtorsCons a1 a2 a3 ih1 ih3 =>
    intro hp hm j hR
    obtain ⟨_, _, hr0, hd0, hs0⟩ := ih1 hp (by mz hm) hR
    obtain ⟨t', _, rfl, ht, qt⟩ := hr0.inv
    obtain ⟨_, _, hr2, hd2, hs2⟩ := ih3 hp (by mz hm) qt
    exact ⟨_, _, hr2, .dtorsCons hd0 (ht.val a2 rfl) hd2, by sim⟩
  case constDtor a1 a2 a3 ih1 ih3 =>
    intro hp hm j hR
    obtain ⟨_, _, hr0, hd0, hs0⟩ := ih1 hp (by mz hm) hR
    obtain ⟨t', _, rfl, ht, qt⟩ := hr0.inv
    obtain ⟨_, _, hr2, hd2, hs2⟩ := ih3 hp (by mz hm) qt
    exact ⟨_, _, hr2, .constDtor hd0 (ht.val a2 rfl) hd2, by sim⟩
  case constDtorsLast a1 a2 ih2 =>
    intro hp hm j hR
    obtain ⟨_, _, hr1, hd1, hs1⟩ := ih2 hp (by mz hm) hR
    exact ⟨_, _, hr1, .constDtorsLast (nextIsNot hr1 a1 rfl) hd1, by sim⟩
  case constDtorsCons a1 a2 a3 ih1 ih3 =>
    intro hp hm j hR
    obtain ⟨_, _, hr0, hd0, hs0⟩ := ih1 hp (by mz hm) hR
    obtain ⟨t', _, rfl, ht, qt⟩ := hr0.inv
    obtain ⟨_, _, hr2, hd2, hs2⟩ := ih3 hp (by mz hm) qt
    exact ⟨_, _, hr2, .constDtorsCons hd0 (ht.val a2 rfl) hd2, by sim⟩
  case block a1 a2 a3 a4 ih2 =>
    intro hp hm j hR
    obtain ⟨t', _, rfl, ht, qt⟩ := hR.inv
    obtain ⟨_, _, hr1, hd1, hs1⟩ := ih2 hp (by mz hm) qt
    obtain ⟨t2', _, rfl, ht2, qt2⟩ := hr1.inv
    exact ⟨_, _, qt2, .block (ht.val a1 rfl) hd1 (ht2.val a3 rfl) rfl, by sim⟩
  case blockStmt a1 ih1 =>
    intro hp hm j hR
    obtain ⟨_, _, hr0, hd0, hs0⟩ := ih1 hp (by mz hm) hR
    exact ⟨_, _, hr0, .blockStmt hd0, by sim⟩
  case varStmt a1 a2 a3 a4 ih2 =>
    intro hp hm j hR
    obtain ⟨t', _, rfl, ht, qt⟩ := hR.inv
    obtain ⟨_, _, hr1, hd1, hs1⟩ := ih2 hp (by mz hm) qt
    obtain ⟨_, _, hr2, hd2⟩ := term a3 (by mz hm) hr1
    exact ⟨_, _, hr2, .varStmt (ht.val a1 rfl) hd1 hd2 rfl, by sim⟩
  case emptyStmt a1 a2 =>
    intro hp hm j hR
    obtain ⟨t', _, rfl, ht, qt⟩ := hR.inv
    exact ⟨_, _, qt, .emptyStmt (ht.val a1 rfl) rfl, by sim⟩
  case exprStmt a1 a2 a3 a4 ih2 =>
    intro hp hm j hR
    obtain ⟨_, _, hr1, hd1, hs1⟩ := ih2 hp (by mz hm) hR
    obtain ⟨_, _, hr2, hd2⟩ := term a3 (by mz hm) hr1
    exact ⟨_, _, hr2, .exprStmt (exprStmtStart hR a1) hd1 hd2 rfl, by sim⟩
  case ifStmt a1 a2 a3 a4 a5 a6 a7 ih3 ih5 =>
    intro hp hm j hR
    obtain ⟨t', _, rfl, ht, qt⟩ := hR.inv
    obtain ⟨t2', _, rfl, ht2, qt2⟩ := qt.inv
    obtain ⟨_, _, hr2, hd2, hs2⟩ := ih3 hp (by mz hm) qt2
    obtain ⟨t3', _, rfl, ht3, qt3⟩ := hr2.inv
    obtain ⟨_, _, hr4, hd4, hs4⟩ := ih5 hp (by mz hm) qt3
    exact ⟨_, _, hr4, .ifStmt (ht.val a1 rfl) (ht2.val a2 rfl) hd2 (ht3.val a4 rfl) hd4 (nextIsNot hr4 a6 rfl) rfl, by sim⟩
  case ifElseStmt a1 a2 a3 a4 a5 a6 a7 a8 ih3 ih5 ih7 =>
    intro hp hm j hR
    obtain ⟨t', _, rfl, ht, qt⟩ := hR.inv
    obtain ⟨t2', _, rfl, ht2, qt2⟩ := qt.inv
    obtain ⟨_, _, hr2, hd2, hs2⟩ := ih3 hp (by mz hm) qt2
    obtain ⟨t3', _, rfl, ht3, qt3⟩ := hr2.inv
    obtain ⟨_, _, hr4, hd4, hs4⟩ := ih5 hp (by mz hm) qt3
    obtain ⟨t4', _, rfl, ht4, qt4⟩ := hr4.inv
    obtain ⟨_, _, hr6, hd6, hs6⟩ := ih7 hp (by mz hm) qt4
    exact ⟨_, _, hr6, .ifElseStmt (ht.val a1 rfl) (ht2.val a2 rfl) hd2 (ht3.val a4 rfl) hd4 (ht4.val a6 rfl) hd6 rfl, by sim⟩
  case doStmt a1 a2 a3 a4 a5 a6 a7 a8 ih2 ih5 =>
    intro hp hm j hR
    obtain ⟨t', _, rfl, ht, qt⟩ := hR.inv
    obtain ⟨_, _, hr1, hd1, hs1⟩ := ih2 hp (by mz hm) qt
    obtain ⟨t2', _, rfl, ht2, qt2⟩ := hr1.inv
    obtain ⟨t3', _, rfl, ht3, qt3⟩ := qt2.inv
    obtain ⟨_, _, hr4, hd4, hs4⟩ := ih5 hp (by mz hm) qt3
    obtain ⟨t4', _, rfl, ht4, qt4⟩ := hr4.inv
    obtain ⟨_, _, hr6, hd6⟩ := term a7 (by mz hm) qt4
    exact ⟨_, _, hr6, .doStmt (ht.val a1 rfl) hd1 (ht2.val a3 rfl) (ht3.val a4 rfl) hd4 (ht4.val a6 rfl) hd6 rfl, by sim⟩
  case whileStmt a1 a2 a3 a4 a5 a6 ih3 ih5 =>
    intro hp hm j hR
    obtain ⟨t', _, rfl, ht, qt⟩ := hR.inv
    obtain ⟨t2', _, rfl, ht2, qt2⟩ := qt.inv
    obtain ⟨_, _, hr2, hd2, hs2⟩ := ih3 hp (by mz hm) qt2
    obtain ⟨t3', _, rfl, ht3, qt3⟩ := hr2.inv
    obtain ⟨_, _, hr4, hd4, hs4⟩ := ih5 hp (by mz hm) qt3
    exact ⟨_, _, hr4, .whileStmt (ht.val a1 rfl) (ht2.val a2 rfl) hd2 (ht3.val a4 rfl) hd4 rfl, by sim⟩
  case forStmt a1 a2 a3 a4 a5 a6 a7 a8 a9 ih3 ih4 ih6 ih8 =>
    intro hp hm j hR
    obtain ⟨t', _, rfl, ht, qt⟩ := hR.inv
    obtain ⟨t2', _, rfl, ht2, qt2⟩ := qt.inv
    obtain ⟨_, _, hr2, hd2, hs2⟩ := ih3 hp (by mz hm) qt2
    obtain ⟨_, _, hr3, hd3, hs3⟩ := ih4 hp (by mz hm) hr2
    obtain ⟨t3', _, rfl, ht3, qt3⟩ := hr3.inv
    obtain ⟨_, _, hr5, hd5, hs5⟩ := ih6 hp (by mz hm) qt3
    obtain ⟨t4', _, rfl, ht4, qt4⟩ := hr5.inv
    obtain ⟨_, _, hr7, hd7, hs7⟩ := ih8 hp (by mz hm) qt4
    exact ⟨_, _, hr7, .forStmt (ht.val a1 rfl) (ht2.val a2 rfl) hd2 hd3 (ht3.val a5 rfl) hd5 (ht4.val a7 rfl) hd7 rfl, by sim⟩
  case forInStmt a1 a2 a3 a4 a5 a6 a7 a8 ih3 ih5 ih7 =>
    intro hp hm j hR
    obtain ⟨t', _, rfl, ht, qt⟩ := hR.inv
    obtain ⟨t2', _, rfl, ht2, qt2⟩ := qt.inv
    obtain ⟨_, _, hr2, hd2, hs2⟩ := ih3 hp (by mz hm) qt2
    obtain ⟨t3', _, rfl, ht3, qt3⟩ := hr2.inv
    obtain ⟨_, _, hr4, hd4, hs4⟩ := ih5 hp (by mz hm) qt3
    obtain ⟨t4', _, rfl, ht4, qt4⟩ := hr4.inv
    obtain ⟨_, _, hr6, hd6, hs6⟩ := ih7 hp (by mz hm) qt4
    exact ⟨_, _, hr6, .forInStmt (ht.val a1 rfl) (ht2.val a2 rfl) hd2 (ht3.val a4 rfl) hd4 (ht4.val a6 rfl) hd6 rfl, by sim⟩
  case forOfStmt a1 a2 a3 a4 a5 a6 a7 a8 ih3 ih5 ih7 =>
    intro hp hm j hR
    obtain ⟨t', _, rfl, ht, qt⟩ := hR.inv
    obtain ⟨t2', _, rfl, ht2, qt2⟩ := qt.inv
    obtain ⟨_, _, hr2, hd2, hs2⟩ := ih3 hp (by mz hm) qt2
    obtain ⟨t3', _, rfl, ht3, qt3⟩ := hr2.inv
    obtain ⟨_, _, hr4, hd4, hs4⟩ := ih5 hp (by mz hm) qt3
    obtain ⟨t4', _, rfl, ht4, qt4⟩ := hr4.inv
    obtain ⟨_, _, hr6, hd6, hs6⟩ := ih7 hp (by mz hm) qt4
    exact ⟨_, _, hr6, .forOfStmt (ht.val a1 rfl) (ht2.val a2 rfl) hd2 (ht3.val a4 rfl) hd4 (ht4.val a6 rfl) hd6 rfl, by sim⟩
  case exprOptNone  =>
    intro hp hm j hR
    exact ⟨_, _, hR, .exprOptNone , by sim⟩
  case exprOptSome a1 ih1 =>
    intro hp hm j hR
    obtain ⟨_, _, hr0, hd0, hs0⟩ := ih1 hp (by mz hm) hR
    exact ⟨_, _, hr0, .exprOptSome hd0, by sim⟩
  case headDtorNone a1 =>
    intro hp hm j hR
    obtain ⟨t', _, rfl, ht, qt⟩ := hR.inv
    exact ⟨_, _, qt, .headDtorNone (ident ht a1), by sim⟩
  case headDtorInit a1 a2 a3 ih3 =>
    intro hp hm j hR
    obtain ⟨t', _, rfl, ht, qt⟩ := hR.inv
    obtain ⟨t2', _, rfl, ht2, qt2⟩ := qt.inv
    obtain ⟨_, _, hr2, hd2, hs2⟩ := ih3 hp (by mz hm) qt2
    exact ⟨_, _, hr2, .headDtorInit (ident ht a1) (ht2.val a2 rfl) hd2, by sim⟩
  case headDtorsLast a1 ih1 =>
    intro hp hm j hR
    obtain ⟨_, _, hr0, hd0, hs0⟩ := ih1 hp (by mz hm) hR
    exact ⟨_, _, hr0, .headDtorsLast hd0, by sim⟩
  case headDtorsCons a1 a2 a3 ih1 ih3 =>
    intro hp hm j hR
    obtain ⟨_, _, hr0, hd0, hs0⟩ := ih1 hp (by mz hm) hR
    obtain ⟨t', _, rfl, ht, qt⟩ := hr0.inv
    obtain ⟨_, _, hr2, hd2, hs2⟩ := ih3 hp (by mz hm) qt
    exact ⟨_, _, hr2, .headDtorsCons hd0 (ht.val a2 rfl) hd2, by sim⟩
  case forHeadNone a1 =>
    intro hp hm j hR
    obtain ⟨t', _, rfl, ht, qt⟩ := hR.inv
    exact ⟨_, _, qt, .forHeadNone (ht.val a1 rfl), by sim⟩
  case forHeadVar a1 a2 a3 ih2 =>
    intro hp hm j hR
    obtain ⟨t', _, rfl, ht, qt⟩ := hR.inv
    obtain ⟨_, _, hr1, hd1, hs1⟩ := ih2 hp (by mz hm) qt
    obtain ⟨t2', _, rfl, ht2, qt2⟩ := hr1.inv
    exact ⟨_, _, qt2, .forHeadVar (ht.val a1 rfl) hd1 (ht2.val a3 rfl), by sim⟩
  case forHeadLet a1 a2 a3 ih2 =>
    intro hp hm j hR
    obtain ⟨t', _, rfl, ht, qt⟩ := hR.inv
    obtain ⟨_, _, hr1, hd1, hs1⟩ := ih2 hp (by mz hm) qt
    obtain ⟨t2', _, rfl, ht2, qt2⟩ := hr1.inv
    exact ⟨_, _, qt2, .forHeadLet (ht.val a1 rfl) hd1 (ht2.val a3 rfl), by sim⟩
  case forHeadConst a1 a2 a3 ih2 =>
    intro hp hm j hR
    obtain ⟨t', _, rfl, ht, qt⟩ := hR.inv
    obtain ⟨_, _, hr1, hd1, hs1⟩ := ih2 hp (by mz hm) qt
    obtain ⟨t2', _, rfl, ht2, qt2⟩ := hr1.inv
    exact ⟨_, _, qt2, .forHeadConst (ht.val a1 rfl) hd1 (ht2.val a3 rfl), by sim⟩
  case forHeadExpr a1 a2 a3 a4 ih3 =>
    intro hp hm j hR
    obtain ⟨_, _, hr2, hd2, hs2⟩ := ih3 hp (by mz hm) hR
    obtain ⟨t', _, rfl, ht, qt⟩ := hr2.inv
    exact ⟨_, _, qt, .forHeadExpr (letNoDivision hR a1) (forExprStart hR a2) hd2 (ht.val a4 rfl), by sim⟩
  case forInVarInit a1 a2 a3 a4 ih4 =>
    intro hp hm j hR
    obtain ⟨t', _, rfl, ht, qt⟩ := hR.inv
    obtain ⟨t2', _, rfl, ht2, qt2⟩ := qt.inv
    obtain ⟨t3', _, rfl, ht3, qt3⟩ := qt2.inv
    obtain ⟨_, _, hr3, hd3, hs3⟩ := ih4 hp (by mz hm) qt3
    exact ⟨_, _, hr3, .forInVarInit (ht.val a1 rfl) (ident ht2 a2) (ht3.val a3 rfl) hd3, by sim⟩
  case forInVar a1 a2 ih2 =>
    intro hp hm j hR
    obtain ⟨t', _, rfl, ht, qt⟩ := hR.inv
    obtain ⟨_, _, hr1, hd1, hs1⟩ := ih2 hp (by mz hm) qt
    exact ⟨_, _, hr1, .forInVar (ht.val a1 rfl) hd1, by sim⟩
  case forInLet a1 a2 ih2 =>
    intro hp hm j hR
    obtain ⟨t', _, rfl, ht, qt⟩ := hR.inv
    obtain ⟨_, _, hr1, hd1, hs1⟩ := ih2 hp (by mz hm) qt
    exact ⟨_, _, hr1, .forInLet (ht.val a1 rfl) hd1, by sim⟩
  case forInConst a1 a2 ih2 =>
    intro hp hm j hR
    obtain ⟨t', _, rfl, ht, qt⟩ := hR.inv
    obtain ⟨_, _, hr1, hd1, hs1⟩ := ih2 hp (by mz hm) qt
    exact ⟨_, _, hr1, .forInConst (ht.val a1 rfl) hd1, by sim⟩
  case forInPatt a1 a2 a3 a4 a5 ih5 =>
    intro hp hm j hR
    obtain ⟨_, _, hr, hd, hs⟩ := ih5 hp (by mz hm) hR
    obtain ⟨p', rfl, hf, ha, hx⟩ := pattern (a2 hp) a3 hs
    exact ⟨_, _, hr, .forInPatt (letNoDivision hR a1) (fun _ => hf) ha (forExprStart hR a4) hd, .fiPatt hx⟩
  case forOfVar a1 a2 ih2 =>
    intro hp hm j hR
    obtain ⟨t', _, rfl, ht, qt⟩ := hR.inv
    obtain ⟨_, _, hr1, hd1, hs1⟩ := ih2 hp (by mz hm) qt
    exact ⟨_, _, hr1, .forOfVar (ht.val a1 rfl) hd1, by sim⟩
  case forOfLet a1 a2 ih2 =>
    intro hp hm j hR
    obtain ⟨t', _, rfl, ht, qt⟩ := hR.inv
    obtain ⟨_, _, hr1, hd1, hs1⟩ := ih2 hp (by mz hm) qt
    exact ⟨_, _, hr1, .forOfLet (ht.val a1 rfl) hd1, by sim⟩
  case forOfConst a1 a2 ih2 =>
    intro hp hm j hR
    obtain ⟨t', _, rfl, ht, qt⟩ := hR.inv
    obtain ⟨_, _, hr1, hd1, hs1⟩ := ih2 hp (by mz hm) qt
    exact ⟨_, _, hr1, .forOfConst (ht.val a1 rfl) hd1, by sim⟩
  case forOfPatt a1 a2 a3 a4 a5 ih5 =>
    intro hp hm j hR
    obtain ⟨_, _, hr, hd, hs⟩ := ih5 hp (by mz hm) hR
    obtain ⟨p', rfl, hf, ha, hx⟩ := pattern (a2 hp) a3 hs
    exact ⟨_, _, hr, .forOfPatt (letNoDivision hR a1) (fun _ => hf) ha (forExprStart hR a4) hd, .foPatt hx⟩
  case breakNone a1 a2 a3 a4 a5 =>
    intro hp hm j hR
    obtain ⟨t', _, rfl, ht, qt⟩ := hR.inv
    obtain ⟨_, _, hr3, hd3⟩ := term a4 (by mz hm) qt
    exact ⟨_, _, hr3, .breakNone (ht.val a1 rfl) (noArgSameLine qt (hR.held (by rw [a1]; decide)) a2) a3 hd3 rfl, by sim⟩
  case breakLabel a1 a2 a3 a4 a5 a6 =>
    intro hp hm j hR
    obtain ⟨t', _, rfl, ht, qt⟩ := hR.inv
    have hA := argSameLine qt (hR.held (by rw [a1]; decide)) a2
    obtain ⟨t2', _, rfl, ht2, qt2⟩ := qt.inv
    obtain ⟨_, _, hr, hd⟩ := term a5 (by mz hm) qt2
    exact ⟨_, _, hr, .breakLabel (ht.val a1 rfl) hA (ident ht2 a3) (a4.imp fun _ h => labels_mem h) hd rfl, .sBreak rfl⟩
  case continueNone a1 a2 a3 a4 a5 =>
    intro hp hm j hR
    obtain ⟨t', _, rfl, ht, qt⟩ := hR.inv
    obtain ⟨_, _, hr3, hd3⟩ := term a4 (by mz hm) qt
    exact ⟨_, _, hr3, .continueNone (ht.val a1 rfl) (noArgSameLine qt (hR.held (by rw [a1]; decide)) a2) a3 hd3 rfl, by sim⟩
  case continueLabel a1 a2 a3 a4 a5 a6 =>
    intro hp hm j hR
    obtain ⟨t', _, rfl, ht, qt⟩ := hR.inv
    have hA := argSameLine qt (hR.held (by rw [a1]; decide)) a2
    obtain ⟨t2', _, rfl, ht2, qt2⟩ := qt.inv
    obtain ⟨_, _, hr, hd⟩ := term a5 (by mz hm) qt2
    exact ⟨_, _, hr, .continueLabel (ht.val a1 rfl) hA (ident ht2 a3) (labels_mem a4) hd rfl, .sCont rfl⟩
  case returnNone a1 a2 a3 a4 a5 =>
    intro hp hm j hR
    obtain ⟨t', _, rfl, ht, qt⟩ := hR.inv
    obtain ⟨_, _, hr3, hd3⟩ := term a4 (by mz hm) qt
    exact ⟨_, _, hr3, .returnNone (ht.val a1 rfl) (noArgSameLine qt (hR.held (by rw [a1]; decide)) a2) a3 hd3 rfl, by sim⟩
  case returnExpr a1 a2 a3 a4 a5 a6 ih4 =>
    intro hp hm j hR
    obtain ⟨t', _, rfl, ht, qt⟩ := hR.inv
    obtain ⟨_, _, hr3, hd3, hs3⟩ := ih4 hp (by mz hm) qt
    obtain ⟨_, _, hr4, hd4⟩ := term a5 (by mz hm) hr3
    exact ⟨_, _, hr4, .returnExpr (ht.val a1 rfl) (argSameLine qt (hR.held (by rw [a1]; decide)) a2) a3 hd3 hd4 rfl, by sim⟩
  case throwStmt a1 a2 a3 a4 a5 ih3 =>
    intro hp hm j hR
    obtain ⟨t', _, rfl, ht, qt⟩ := hR.inv
    obtain ⟨_, _, hr2, hd2, hs2⟩ := ih3 hp (by mz hm) qt
    obtain ⟨_, _, hr3, hd3⟩ := term a4 (by mz hm) hr2
    exact ⟨_, _, hr3, .throwStmt (ht.val a1 rfl) (argSameLine qt (hR.held (by rw [a1]; decide)) a2) hd2 hd3 rfl, by sim⟩
  case withStmt a1 a2 a3 a4 a5 a6 a7 ih4 ih6 =>
    intro hp hm j hR
    obtain ⟨t', _, rfl, ht, qt⟩ := hR.inv
    obtain ⟨t2', _, rfl, ht2, qt2⟩ := qt.inv
    obtain ⟨_, _, hr3, hd3, hs3⟩ := ih4 hp (by mz hm) qt2
    obtain ⟨t3', _, rfl, ht3, qt3⟩ := hr3.inv
    obtain ⟨_, _, hr5, hd5, hs5⟩ := ih6 hp (by mz hm) qt3
    exact ⟨_, _, hr5, .withStmt (ht.val a1 rfl) a2 (ht2.val a3 rfl) hd3 (ht3.val a5 rfl) hd5 rfl, by sim⟩
  case switchStmt a1 a2 a3 a4 a5 a6 a7 a8 a9 ih3 ih6 =>
    intro hp hm j hR
    obtain ⟨t', _, rfl, ht, qt⟩ := hR.inv
    obtain ⟨t2', _, rfl, ht2, qt2⟩ := qt.inv
    obtain ⟨_, _, hr2, hd2, hs2⟩ := ih3 hp (by mz hm) qt2
    obtain ⟨t3', _, rfl, ht3, qt3⟩ := hr2.inv
    obtain ⟨t4', _, rfl, ht4, qt4⟩ := qt3.inv
    obtain ⟨_, _, hr5, hd5, hs5⟩ := ih6 hp (by mz hm) qt4
    obtain ⟨t5', _, rfl, ht5, qt5⟩ := hr5.inv
    exact ⟨_, _, qt5, .switchStmt (ht.val a1 rfl) (ht2.val a2 rfl) hd2 (ht3.val a4 rfl) (ht4.val a5 rfl)
      hd5 (ht5.val a7 rfl) (by rw [defaults hs5]; exact a8) rfl, .sSwitch hs2 hs5⟩
  case casesNil  =>
    intro hp hm j hR
    exact ⟨_, _, hR, .casesNil , by sim⟩
  case casesCons a1 a2 ih1 ih2 =>
    intro hp hm j hR
    obtain ⟨_, _, hr0, hd0, hs0⟩ := ih1 hp (by mz hm) hR
    obtain ⟨_, _, hr1, hd1, hs1⟩ := ih2 hp (by mz hm) hr0
    exact ⟨_, _, hr1, .casesCons hd0 hd1, by sim⟩
  case case a1 a2 a3 a4 a5 ih2 ih4 =>
    intro hp hm j hR
    obtain ⟨t', _, rfl, ht, qt⟩ := hR.inv
    obtain ⟨_, _, hr1, hd1, hs1⟩ := ih2 hp (by mz hm) qt
    obtain ⟨t2', _, rfl, ht2, qt2⟩ := hr1.inv
    obtain ⟨_, _, hr3, hd3, hs3⟩ := ih4 hp (by mz hm) qt2
    exact ⟨_, _, hr3, .case (ht.val a1 rfl) hd1 (ht2.val a3 rfl) hd3 rfl, by sim⟩
  case default a1 a2 a3 a4 ih3 =>
    intro hp hm j hR
    obtain ⟨t', _, rfl, ht, qt⟩ := hR.inv
    obtain ⟨t2', _, rfl, ht2, qt2⟩ := qt.inv
    obtain ⟨_, _, hr2, hd2, hs2⟩ := ih3 hp (by mz hm) qt2
    exact ⟨_, _, hr2, .default (ht.val a1 rfl) (ht2.val a2 rfl) hd2 rfl, by sim⟩
  case labelStmt a1 a2 a3 a4 ih4 =>
    intro hp hm j hR
    obtain ⟨t', _, rfl, ht, qt⟩ := hR.inv
    obtain ⟨t2', _, rfl, ht2, qt2⟩ := qt.inv
    obtain ⟨_, _, hr4, hd4, hs4⟩ := ih4 hp (by mz hm) qt2
    refine ⟨_, _, hr4, .labelStmt ?_ (ident ht a2) (ht2.val a3 rfl) (isLoop_similar hs4 ▸ hd4), .sLabel rfl hs4⟩
    exact fun _ b h => a1 hp b (labels hg h)
  case tryStmt a1 a2 a3 a4 a5 a6 ih2 ih3 ih4 =>
    intro hp hm j hR
    obtain ⟨t', _, rfl, ht, qt⟩ := hR.inv
    obtain ⟨_, _, hr2, hd2, hs2⟩ := ih2 hp (by mz hm) qt
    obtain ⟨_, _, hr3, hd3, hs3⟩ := ih3 hp (by mz hm) hr2
    obtain ⟨_, _, hr4, hd4, hs4⟩ := ih4 hp (by mz hm) hr3
    exact ⟨_, _, hr4, .tryStmt (ht.val a1 rfl) hd2 hd3 hd4 (a5.imp (notNone hs3) (notNone hs4)) rfl,
      .sTry hs2 hs3 hs4⟩
  case catchNone  =>
    intro hp hm j hR
    exact ⟨_, _, hR, .catchNone , by sim⟩
  case catchSome a1 a2 a3 a4 a5 a6 ih3 ih5 =>
    intro hp hm j hR
    obtain ⟨t', _, rfl, ht, qt⟩ := hR.inv
    obtain ⟨t2', _, rfl, ht2, qt2⟩ := qt.inv
    obtain ⟨_, _, hr2, hd2, hs2⟩ := ih3 hp (by mz hm) qt2
    obtain ⟨t3', _, rfl, ht3, qt3⟩ := hr2.inv
    obtain ⟨_, _, hr4, hd4, hs4⟩ := ih5 hp (by mz hm) qt3
    exact ⟨_, _, hr4, .catchSome (ht.val a1 rfl) (ht2.val a2 rfl) hd2 (ht3.val a4 rfl) hd4 rfl, by sim⟩
  case finallyNone a1 =>
    intro hp hm j hR
    exact ⟨_, _, hR, .finallyNone (nextIsNot hR a1 rfl), by sim⟩
  case finallySome a1 a2 ih2 =>
    intro hp hm j hR
    obtain ⟨t', _, rfl, ht, qt⟩ := hR.inv
    obtain ⟨_, _, hr1, hd1, hs1⟩ := ih2 hp (by mz hm) qt
    exact ⟨_, _, hr1, .finallySome (ht.val a1 rfl) hd1, by sim⟩
  case debuggerStmt a1 a2 a3 =>
    intro hp hm j hR
    obtain ⟨t', _, rfl, ht, qt⟩ := hR.inv
    obtain ⟨_, _, hr1, hd1⟩ := term a2 (by mz hm) qt
    exact ⟨_, _, hr1, .debuggerStmt (ht.val a1 rfl) hd1 rfl, by sim⟩

/-- A derivation from tokens gives one from the renamed tokens, perhaps with more line terminators. -/
theorem derives (hg : IsRenaming g) {L : LocSpec} {c : Cat} {nt : NT c} {inp : List Token} {x : Ast c}
    (h : Derives L env nt inp rest x) (hp : env.plain = true) {j : List Token} (hR : Rel g false inp j) :
      ∃ rest' x', Rel g false rest rest' ∧ Derives NoLoc (ren g env) nt j rest' x' ∧
        Ast.Similar x' (x.rename g) := derives_lines (b := false) hg h hp nofun hR

end Rename

end Esprit
