import Verif.Spec.Closing
import Verif.Proofs.Complete.SemisLex

/-! Derivations from tokens in which semicolons before closing braces and before the end are left out. -/

set_option linter.unusedSectionVars false
set_option linter.unusedVariables false

namespace Esprit

open Lex ReaderSpec Grammar

namespace Closing

open Rename (NoLoc)
open Semis (last ok isItems isItems_ok target pattern isLoop_similar defaults notNone semi_continues paramItems_shape)

/-- The tokens before which a semicolon can be left out. -/
def Closes (v : TokenData) : Prop := v = .rBrace ∨ v = .eof

instance {v : TokenData} : Decidable (Closes v) := inferInstanceAs (Decidable (_ ∨ _))

/-- The tokens `j` are the tokens `i` without some semicolons at positions in `P`, before `}` or the end. -/
inductive Cut (P : Posn → Bool) : List Token → List Token → Prop where
  | nil : Cut P [] []
  | cons {t : Token} {i j : List Token} : Cut P i j → Cut P (t :: i) (t :: j)
  | drop {u b : Token} {i j : List Token} : u.value = .semi → u.newline = false → Closes b.value →
      P u.location.start = true → Cut P i j → Cut P (u :: b :: i) (b :: j)

/-- The first token is kept. -/
def Same (P : Posn → Bool) (i j : List Token) : Prop := ∃ t i' j', i = t :: i' ∧ j = t :: j' ∧ Cut P i' j'

/-- The first token is left out. -/
def Gone (P : Posn → Bool) (i j : List Token) : Prop :=
  ∃ u b i' j', i = u :: b :: i' ∧ j = b :: j' ∧ u.value = .semi ∧ u.newline = false ∧ Closes b.value ∧
    P u.location.start = true ∧ Cut P i' j'

/-- The first token is kept or left out. -/
def Foll (P : Posn → Bool) (i j : List Token) : Prop := Same P i j ∨ Gone P i j

/-- What can follow a nonterminal. -/
def F (P : Posn → Bool) {c : Cat} (nt : NT c) (i j : List Token) : Prop := Same P i j ∨ last nt = true ∧ Gone P i j

variable {P : Posn → Bool} {t t' : Token} {i j rest : List Token} {v : TokenData} {env : Scope}

theorem Cut.refl : (i : List Token) → Cut P i i
  | [] => .nil
  | _ :: i => .cons (Cut.refl i)

theorem Same.ins (h : Same P i j) : Cut P i j := by
  obtain ⟨_, _, _, rfl, rfl, h⟩ := h
  exact .cons h

theorem Gone.ins (h : Gone P i j) : Cut P i j := by
  obtain ⟨_, _, _, _, rfl, rfl, h1, h2, h3, h4, h5⟩ := h
  exact .drop h1 h2 h3 h4 h5

theorem Foll.ins (h : Foll P i j) : Cut P i j := h.elim Same.ins Gone.ins

theorem Same.mk (h : Cut P i j) : Same P (t :: i) (t :: j) := ⟨t, i, j, rfl, rfl, h⟩

theorem F.foll {c : Cat} {nt : NT c} (h : F P nt i j) : Foll P i j := h.imp_right And.right

theorem F.ins {c : Cat} {nt : NT c} (h : F P nt i j) : Cut P i j := h.foll.ins

theorem F.same {c : Cat} {nt : NT c} (h : F P nt i j) (hn : last nt = false) : Same P i j :=
  h.elim id fun h => by rw [hn] at h; cases h.1

theorem F.mono {c c' : Cat} {nt : NT c} {nt' : NT c'} (h : F P nt i j)
    (hl : last nt = true → last nt' = true) : F P nt' i j := h.imp_right (And.imp_left hl)

theorem F.of {c : Cat} {nt : NT c} (h : Foll P i j) (hl : last nt = true) : F P nt i j :=
  h.imp_right fun h => ⟨hl, h⟩

theorem Cut.inv {t : Token} {r : List Token} (h : Cut P (t :: r) j) :
    (∃ j', j = t :: j' ∧ Cut P r j') ∨ ∃ s j', j = s :: j' ∧ Closes s.value := by
  cases h with
  | cons h => exact .inl ⟨_, rfl, h⟩
  | drop h1 h2 h3 => exact .inr ⟨_, _, rfl, h3⟩

theorem Cut.inv' {t : Token} {r : List Token} (h : Cut P i (t :: r)) :
    (∃ i', i = t :: i' ∧ Cut P i' r) ∨ Closes t.value ∧ ∃ u i', i = u :: i' ∧ u.value = .semi := by
  cases h with
  | cons h => exact .inl ⟨_, rfl, h⟩
  | drop h1 h2 h3 => exact .inr ⟨h3, _, _, rfl, h1⟩

theorem Foll.inv {r : List Token} (h : Foll P (t :: r) j) :
    (∃ j', j = t :: j') ∨ ∃ s j', j = s :: j' ∧ Closes s.value := by
  rcases h.ins.inv with ⟨j', h, _⟩ | h
  · exact .inl ⟨j', h⟩
  · exact .inr h

theorem nextIs (h : Same P i j) (hn : NextIs i v) : NextIs j v := by
  obtain ⟨_, _, _, rfl, rfl, _⟩ := h
  obtain ⟨_, _, he, h⟩ := hn
  cases he
  exact ⟨_, _, rfl, h⟩

theorem nextIsNot (h : Foll P i j) (hn : NextIsNot i v) (hv : ¬ Closes v) : NextIsNot j v := by
  obtain ⟨t, r, rfl, h1⟩ := hn
  rcases h.inv with ⟨j', rfl⟩ | ⟨s, j', rfl, h2⟩
  · exact ⟨_, _, rfl, h1⟩
  · exact ⟨_, _, rfl, fun e => hv (e ▸ h2)⟩

theorem nextNotIn {vs : List TokenData} (h : Foll P i j) (hn : NextNotIn i vs) (hv : ∀ v, Closes v → v ∉ vs) :
    NextNotIn j vs := by
  obtain ⟨t, r, rfl, h1⟩ := hn
  rcases h.inv with ⟨j', rfl⟩ | ⟨s, j', rfl, h2⟩
  · exact ⟨_, _, rfl, h1⟩
  · exact ⟨_, _, rfl, hv _ h2⟩

theorem noRegExp (h : Foll P i j) (hn : NoRegExp i) : NoRegExp j := by
  rintro t r rfl x hx
  rcases h.ins.inv' with ⟨_, rfl, _⟩ | ⟨h, _⟩
  · exact hn _ _ rfl x hx
  · rw [hx] at h; rcases h with h | h <;> cases h

theorem noDivision (h : Cut P i j) (hn : NoDivision i) : NoDivision j := by
  rintro t r rfl
  rcases h.inv' with ⟨_, rfl, _⟩ | ⟨h, _⟩
  · exact hn _ _ rfl
  · rcases h with h | h <;> rw [h] <;> exact ⟨nofun, nofun⟩

theorem letNoDivision (h : Same P i j) (hn : LetNoDivision i) : LetNoDivision j := by
  obtain ⟨t, _, _, rfl, rfl, h⟩ := h
  rintro _ r he hv
  cases he
  exact noDivision h (hn _ _ rfl hv)

theorem stringNoDivision (h : Same P i j)
    (hn : ∀ t r s, i = t :: r → t.value = .string s → NoDivision r) :
    ∀ t r s, j = t :: r → t.value = .string s → NoDivision r := by
  obtain ⟨t, _, _, rfl, rfl, h⟩ := h
  rintro _ r s he hv
  cases he
  exact noDivision h (hn _ _ _ rfl hv)

theorem noPostfix (h : Foll P i j) (hn : NoPostfix i) : NoPostfix j := by
  obtain ⟨t, r, rfl, h1⟩ := hn
  rcases h.inv with ⟨j', rfl⟩ | ⟨s, j', rfl, h2⟩
  · exact ⟨_, _, rfl, h1⟩
  · exact ⟨_, _, rfl, by rcases h2 with h2 | h2 <;> rw [h2] <;> rintro (h | h) <;> cases h⟩

theorem closes_continuers {v : TokenData} (h : Closes v) : v ∉ continuers := by
  rcases h with rfl | rfl <;> decide

theorem closes_symbol {v : TokenData} (h : Closes v) : (∀ tag : BinopTag, ¬ IsSymbol tag.display v) ∧
    (∀ tag : LogopTag, ¬ IsSymbol tag.display v) ∧ ∀ tag : AssopTag, ¬ IsSymbol tag.display v :=
  have h := closes_continuers h
  ⟨fun tag ht => h (Lone.symbol_continues.1 tag ht), fun tag ht => h (Lone.symbol_continues.2.1 tag ht),
    fun tag ht => h (Lone.symbol_continues.2.2 tag ht)⟩

theorem noInfix (h : Foll P i j) (hn : NoInfix env i) : NoInfix env j := by
  obtain ⟨t, r, rfl, h1⟩ := hn
  rcases h.inv with ⟨j', rfl⟩ | ⟨s, j', rfl, h2⟩
  · exact ⟨_, _, rfl, h1⟩
  · refine ⟨_, _, rfl, fun op ho => ?_, fun op ho => ?_⟩
    · rw [IsBinop] at ho; exact (closes_symbol h2).1 _ ho.2.1
    · rw [IsLogop] at ho; exact (closes_symbol h2).2.1 _ ho.2

theorem noAssign (h : Foll P i j) (hn : NoAssign i) : NoAssign j := by
  obtain ⟨t, r, rfl, h1⟩ := hn
  rcases h.inv with ⟨j', rfl⟩ | ⟨s, j', rfl, h2⟩
  · exact ⟨_, _, rfl, h1⟩
  · refine ⟨_, _, rfl, by rcases h2 with h2 | h2 <;> rw [h2] <;> nofun, fun op ho => ?_⟩
    rw [IsAssop] at ho; exact (closes_symbol h2).2.2 _ ho.2

theorem argSameLine (h : Same P i j) (hn : ArgSameLine i) : ArgSameLine j := by
  obtain ⟨t, _, _, rfl, rfl, h⟩ := h
  obtain ⟨_, _, he, h1⟩ := hn
  cases he
  exact ⟨_, _, rfl, h1⟩

theorem closes_binding (h : Closes t.value) : ¬ StartsBinding t := by
  rcases h with h | h <;> rintro (h1 | h1 | ⟨n, h1⟩) <;> rw [h] at h1 <;> cases h1

theorem exprStmtStart (h : Same P i j) (hn : ExprStmtStart i) : ExprStmtStart j := by
  obtain ⟨t, i', j', rfl, rfl, h⟩ := h
  obtain ⟨_, _, he, h1, h2⟩ := hn
  cases he
  refine ⟨_, _, rfl, h1, fun hi => ?_⟩
  obtain ⟨t2, r2, rfl, h3, h4⟩ := h2 hi
  rcases h.inv with ⟨j', rfl, _⟩ | ⟨s, j', rfl, h5⟩
  · exact ⟨_, _, rfl, h3, h4⟩
  · exact ⟨_, _, rfl, by rcases h5 with h5 | h5 <;> rw [h5] <;> nofun, fun _ => closes_binding h5⟩

theorem forExprStart (h : Same P i j) (hn : ForExprStart i) : ForExprStart j := by
  obtain ⟨t, i', j', rfl, rfl, h⟩ := h
  obtain ⟨_, _, he, h1, h2, h3⟩ := hn
  cases he
  refine ⟨_, _, rfl, h1, h2, fun hi => ?_⟩
  obtain ⟨t2, r2, rfl, h4⟩ := h3 hi
  rcases h.inv with ⟨j', rfl, _⟩ | ⟨s, j', rfl, h5⟩
  · exact ⟨_, _, rfl, h4⟩
  · exact ⟨_, _, rfl, closes_binding h5⟩

theorem closes_continues (h : Closes t.value) : ¬ Continues t := by
  rintro (h1 | ⟨h1 | h1, _⟩)
  · exact closes_continuers h h1
  · rcases h with h | h <;> rw [h] at h1 <;> cases h1
  · rcases h with h | h <;> rw [h] at h1 <;> cases h1

theorem notContinues (h : Foll P i j) (hn : ∃ t r, i = t :: r ∧ ¬ Continues t) :
    ∃ t r, j = t :: r ∧ ¬ Continues t := by
  obtain ⟨t, r, rfl, h1⟩ := hn
  rcases h.inv with ⟨j', rfl⟩ | ⟨s, j', rfl, h2⟩
  · exact ⟨_, _, rfl, h1⟩
  · exact ⟨_, _, rfl, closes_continues h2⟩

theorem notDirective (hS : Same P i j) (hd : ¬ StartsDirective i) : ¬ StartsDirective j := by
  rintro ⟨t, t2, r, s, rfl, ht, hc⟩
  obtain ⟨_, i', _, rfl, h4, h5⟩ := hS
  cases h4
  rcases h5.inv' with ⟨_, rfl, _⟩ | ⟨_, u, _, rfl, hu⟩
  · exact hd ⟨_, _, _, _, rfl, ht, hc⟩
  · exact hd ⟨_, _, _, _, rfl, ht, semi_continues hu⟩

/-- `P` are positions of semicolons before `}` or the end that do not start a line; before the end there
is none that follows a jump without argument. -/
structure Fits (P : Posn → Bool) (i : List Token) : Prop where
  closes : ∀ u b r, (u :: b :: r) <:+ i → u.value = .semi → P u.location.start = true →
    u.newline = false ∧ Closes b.value
  jump : ∀ a u b r, (a :: u :: b :: r) <:+ i → a.value ∈ jumps → u.value = .semi →
    P u.location.start = true → b.value = .rBrace

theorem Fits.of {P : Posn → Bool} (h : Fits P i) (hs : j <:+ i) : Fits P j :=
  ⟨fun u b r hr => h.closes u b r (hr.trans hs), fun a u b r hr => h.jump a u b r (hr.trans hs)⟩

theorem term_jump {o : Bool} {semi : Semi} {rest' : List Token} (h : Term o i rest semi)
    (hQ : Fits P i) (hS : Same P rest rest') :
    ∃ i' semi', Foll P i i' ∧ Term o i' rest' semi' ∧
      i.length + rest'.length = i'.length + rest.length + semi.closing P ∧
      (NoArgSameLine i → (∀ u b r, i = u :: b :: r → u.value = .semi → P u.location.start = true →
        b.value = .rBrace) → NoArgSameLine i') := by
  cases h with
  | @explicit u _ h =>
    obtain ⟨b, r, r', rfl, rfl, hc⟩ := hS
    by_cases hP : P u.location.start = true
    · have hb := hQ.closes u b r (List.suffix_refl _) h hP
      refine ⟨b :: r', _, .inr ⟨_, _, _, _, rfl, rfl, h, hb.1, hb.2, hP, hc⟩,
        .inserted (by rcases hb.2 with e | e <;> rw [e] <;> nofun) (hb.2.imp_right .inl), ?_, ?_⟩
      · simp only [Semi.closing, hP, List.length_cons, Bool.toNat_true]; omega
      · exact fun _ hj => ⟨_, _, rfl, .inr (.inr (hj _ _ _ rfl h hP))⟩
    · refine ⟨u :: b :: r', _, .inl (.mk (.cons hc)), .explicit h, ?_, fun _ _ => ⟨_, _, rfl, .inr (.inl h)⟩⟩
      simp only [Semi.closing, hP, List.length_cons, Bool.toNat_false]; omega
  | inserted h1 h2 =>
    obtain ⟨b, r, r', h3, rfl, hc⟩ := hS
    cases h3
    refine ⟨_, _, .inl (.mk hc), .inserted h1 h2, ?_, ?_⟩
    · simp only [Semi.closing, List.length_cons]; omega
    · rintro ⟨_, _, he, h⟩ _
      cases he
      exact ⟨_, _, rfl, h⟩

theorem term {o : Bool} {semi : Semi} {rest' : List Token} (h : Term o i rest semi)
    (hQ : Fits P i) (hS : Same P rest rest') :
    ∃ i' semi', Foll P i i' ∧ Term o i' rest' semi' ∧
      i.length + rest'.length = i'.length + rest.length + semi.closing P := by
  obtain ⟨_, _, h1, h2, h3, _⟩ := term_jump h hQ hS
  exact ⟨_, _, h1, h2, h3⟩

/-- After a jump without argument. -/
theorem jump {o : Bool} {semi : Semi} {rest' : List Token} (h : Term o i rest semi)
    (ha : t.value ∈ jumps) (hn : NoArgSameLine i) (hQ : Fits P (t :: i)) (hS : Same P rest rest') :
    ∃ i' semi', Foll P i i' ∧ NoArgSameLine i' ∧ Term o i' rest' semi' ∧
      i.length + rest'.length = i'.length + rest.length + semi.closing P := by
  obtain ⟨i', semi', h1, h2, h3, h4⟩ := term_jump h (hQ.of (List.suffix_cons _ _)) hS
  exact ⟨_, _, h1, h4 hn fun u b r e => hQ.jump t u b r (e ▸ List.suffix_refl _) ha, h2, h3⟩

/-- Patterns and their source have the same semicolons. -/
def Counts (P : Posn → Bool) : {c : Cat} → Ast c → Prop
  | .target, t => (Patt.source t : Expr).closing P = t.closing P
  | .patt .target, p => (Patt.source p : Expr).closing P = p.closing P
  | .comp .target, p => (Patt.source p : Expr).closing P = p.closing P
  | .rest .target, p => (Patt.source p : Ast .item).closing P = p.closing P
  | .propPatt .target, p => (Patt.source p : Ast .prop).closing P = p.closing P
  | .list (.propPatt .target), ps => (Ast.ofList (Patt.source ps : List (Ast .prop))).closing P = ps.closing P
  | .opt (.patt .target), x => (Patt.arrayItem (Patt.source x : Option Expr)).closing P = x.closing P
  | .list (.opt (.patt .target)), xs =>
    (Ast.ofList ((Patt.source xs : List (Option Expr)).map Patt.arrayItem)).closing P = xs.closing P
  | .opt (.rest .target), r =>
    (Ast.ofList ((Patt.source r : Option (Ast .item)).toList.map Ast.some)).closing P = r.closing P
  | _, _ => True

theorem closing_append {P : Posn → Bool} {c : Cat} : (xs ys : List (Ast c)) →
    (Ast.ofList (xs ++ ys)).closing P = (Ast.ofList xs).closing P + (Ast.ofList ys).closing P
  | [], ys => by simp [Ast.ofList, Ast.closing]
  | x :: xs, ys => by
    simp only [List.cons_append, Ast.ofList, Ast.closing, closing_append xs ys]; omega

theorem counts {P : Posn → Bool} {c : Cat} (x : Ast c) : Counts P x := by
  induction x
  case pSimple c t ih =>
    cases c <;> first | trivial | exact ih
  case pCompound c p ih =>
    cases c <;> first | trivial | exact ih
  case cArr c l es r ih1 ih2 =>
    cases c <;> first | trivial | skip
    show (Ast.eArr l (.ofList ((Patt.source es : List (Option Expr)).map Patt.arrayItem ++
      ((Patt.source r : Option (Ast .item)).toList.map Ast.some))) : Expr).closing P = _
    simp only [Ast.closing, closing_append]
    exact congr (congrArg _ ih1) ih2
  case cObj c l ps ih =>
    cases c <;> first | trivial | exact ih
  case restPatt c l p ih =>
    cases c <;> first | trivial | exact ih
  case ppRegular c l k p ih =>
    cases c <;> first | trivial | exact ih
  case ppShorthand c i =>
    cases c <;> first | trivial | rfl
  case cons c h t ih1 ih2 =>
    cases c <;> first | trivial | skip
    case propPatt c =>
      cases c <;> first | trivial | skip
      show (Ast.cons (Patt.source h : Ast .prop) (Ast.ofList (Patt.source t : List (Ast .prop)))).closing P = _
      simp only [Ast.closing]
      exact congr (congrArg _ ih1) ih2
    case opt c =>
      cases c <;> first | trivial | skip
      case patt c =>
        cases c <;> first | trivial | skip
        show (Ast.cons (Patt.arrayItem (Patt.source h : Option Expr))
          (Ast.ofList ((Patt.source t : List (Option Expr)).map Patt.arrayItem))).closing P = _
        simp only [Ast.closing]
        exact congr (congrArg _ ih1) ih2
  case nil c =>
    cases c <;> first | trivial | skip
    case propPatt c => cases c <;> first | trivial | rfl
    case opt c =>
      cases c <;> first | trivial | skip
      case patt c => cases c <;> first | trivial | rfl
  case some c x ih =>
    cases c <;> first | trivial | skip
    case patt c =>
      cases c <;> first | trivial | exact ih
    case rest c =>
      cases c <;> trivial
  case none c =>
    cases c <;> first | trivial | skip
    case patt c => cases c <;> first | trivial | rfl
    case rest c => cases c <;> first | trivial | rfl
  all_goals first | trivial | rfl

theorem closing_target {P : Posn → Bool} (t : AssignTarget) : (Patt.sourceTarget t).closing P = t.closing P := counts t

theorem closing_pattern {P : Posn → Bool} (p : PattTarget) : (Patt.sourceExpr p).closing P = p.closing P := counts p

theorem key_refl : (k : PropKey) → k.Similar k
  | .id .. => .id
  | .string .. => .string
  | .number .. => .number

/-- Closes goals that two trees are similar. -/
local macro "sim" : tactic => `(tactic| repeat' (first | assumption | rfl | exact key_refl _ | constructor))

/-- Closes goals that count semicolons. -/
local macro "count" : tactic =>
  `(tactic| ((try simp only [List.length_cons, List.map_cons, List.map_nil, List.sum_cons, List.sum_nil,
      Ast.closing, closing_target, closing_pattern] at *); omega))

/-- A derivation from tokens gives one from the tokens without the semicolons at `P`. -/
theorem derives [Env] [LawfulEnv] {P : Posn → Bool} {L : LocSpec} {c : Cat} {nt : NT c}
    {inp : List Token} {x : Ast c} (h : Derives L env nt inp rest x) :
    ok nt = true → env.plain = true → Fits P inp → ∀ {rest'}, F P nt rest rest' →
      ∃ inp' x', Same P inp inp' ∧ Derives NoLoc env nt inp' rest' x' ∧ Ast.Similar x' x ∧
        inp.length + rest'.length = inp'.length + rest.length + x.closing P := by
  induction h
  case identifier a1 =>
    intro hk hp hQ rest' hF
    exact ⟨_, _, (.mk hF.ins), .identifier a1, by sim, by count⟩
  case kNull a1 =>
    intro hk hp hQ rest' hF
    exact ⟨_, _, (.mk hF.ins), .kNull a1, by sim, by count⟩
  case kThis a1 =>
    intro hk hp hQ rest' hF
    exact ⟨_, _, (.mk hF.ins), .kThis a1, by sim, by count⟩
  case kTrue a1 =>
    intro hk hp hQ rest' hF
    exact ⟨_, _, (.mk hF.ins), .kTrue a1, by sim, by count⟩
  case kFalse a1 =>
    intro hk hp hQ rest' hF
    exact ⟨_, _, (.mk hF.ins), .kFalse a1, by sim, by count⟩
  case number a1 =>
    intro hk hp hQ rest' hF
    exact ⟨_, _, (.mk hF.ins), .number a1, by sim, by count⟩
  case string a1 =>
    intro hk hp hQ rest' hF
    exact ⟨_, _, (.mk hF.ins), .string a1, by sim, by count⟩
  case regExp a1 =>
    intro hk hp hQ rest' hF
    exact ⟨_, _, (.mk hF.ins), .regExp a1, by sim, by count⟩
  case array a1 a2 a3 ih2 =>
    intro hk hp hQ rest' hF
    have q1 := a2.suffix
    obtain ⟨_, _, hS1, hd1, hs1, hl1⟩ := ih2 rfl hp (hQ.of (by sfx)) (.inl (.mk hF.ins))
    exact ⟨_, _, (.mk hS1.ins), .array a1 hd1 a3, by sim, by count⟩
  case object a1 a2 a3 ih2 =>
    intro hk hp hQ rest' hF
    have q1 := a2.suffix
    obtain ⟨_, _, hS1, hd1, hs1, hl1⟩ := ih2 rfl hp (hQ.of (by sfx)) (.inl (.mk hF.ins))
    exact ⟨_, _, (.mk hS1.ins), .object a1 hd1 a3, by sim, by count⟩
  case function a1 ih1 =>
    intro hk hp hQ rest' hF
    have q0 := a1.suffix
    obtain ⟨_, _, hS0, hd0, hs0, hl0⟩ := ih1 rfl hp (hQ.of (by sfx)) (hF.mono (by first | exact fun _ => rfl | exact fun h => Bool.noConfusion (show false = true from h)))
    have hS := hS0
    exact ⟨_, _, hS, .function hd0, by sim, by count⟩
  case paren a1 a2 a3 ih2 =>
    intro hk hp hQ rest' hF
    have q1 := a2.suffix
    obtain ⟨_, _, hS1, hd1, hs1, hl1⟩ := ih2 rfl hp (hQ.of (by sfx)) (.inl (.mk hF.ins))
    exact ⟨_, _, (.mk hS1.ins), .paren a1 hd1 a3, by sim, by count⟩
  case elemsNil  =>
    intro hk hp hQ rest' hF
    have hS := (hF.same rfl)
    exact ⟨_, _, hS, .elemsNil , by sim, by count⟩
  case elemsLast a1 ih1 =>
    intro hk hp hQ rest' hF
    have q0 := a1.suffix
    obtain ⟨_, _, hS0, hd0, hs0, hl0⟩ := ih1 rfl hp (hQ.of (by sfx)) (hF.mono (by first | exact fun _ => rfl | exact fun h => Bool.noConfusion (show false = true from h)))
    have hS := hS0
    exact ⟨_, _, hS, .elemsLast hd0, by sim, by count⟩
  case elemsCons a1 a2 a3 ih1 ih3 =>
    intro hk hp hQ rest' hF
    have q0 := a1.suffix
    have q2 := a3.suffix
    obtain ⟨_, _, hS2, hd2, hs2, hl2⟩ := ih3 rfl hp (hQ.of (by sfx)) (hF.mono (by first | exact fun _ => rfl | exact fun h => Bool.noConfusion (show false = true from h)))
    obtain ⟨_, _, hS0, hd0, hs0, hl0⟩ := ih1 rfl hp (hQ.of (by sfx)) (.inl (.mk hS2.ins))
    have hS := hS0
    exact ⟨_, _, hS, .elemsCons hd0 a2 hd2, by sim, by count⟩
  case elemsHole a1 a2 ih2 =>
    intro hk hp hQ rest' hF
    have q1 := a2.suffix
    obtain ⟨_, _, hS1, hd1, hs1, hl1⟩ := ih2 rfl hp (hQ.of (by sfx)) (hF.mono (by first | exact fun _ => rfl | exact fun h => Bool.noConfusion (show false = true from h)))
    exact ⟨_, _, (.mk hS1.ins), .elemsHole a1 hd1, by sim, by count⟩
  case argExpr a1 ih1 =>
    intro hk hp hQ rest' hF
    have q0 := a1.suffix
    obtain ⟨_, _, hS0, hd0, hs0, hl0⟩ := ih1 rfl hp (hQ.of (by sfx)) (hF.mono (by first | exact fun _ => rfl | exact fun h => Bool.noConfusion (show false = true from h)))
    have hS := hS0
    exact ⟨_, _, hS, .argExpr hd0, by sim, by count⟩
  case argSpread a1 a2 a3 ih2 =>
    intro hk hp hQ rest' hF
    have q1 := a2.suffix
    obtain ⟨_, _, hS1, hd1, hs1, hl1⟩ := ih2 rfl hp (hQ.of (by sfx)) (hF.mono (by first | exact fun _ => rfl | exact fun h => Bool.noConfusion (show false = true from h)))
    exact ⟨_, _, (.mk hS1.ins), .argSpread a1 hd1 rfl, by sim, by count⟩
  case propsNil  =>
    intro hk hp hQ rest' hF
    have hS := (hF.same rfl)
    exact ⟨_, _, hS, .propsNil , by sim, by count⟩
  case propsLast a1 ih1 =>
    intro hk hp hQ rest' hF
    have q0 := a1.suffix
    obtain ⟨_, _, hS0, hd0, hs0, hl0⟩ := ih1 rfl hp (hQ.of (by sfx)) (hF.mono (by first | exact fun _ => rfl | exact fun h => Bool.noConfusion (show false = true from h)))
    have hS := hS0
    exact ⟨_, _, hS, .propsLast hd0, by sim, by count⟩
  case propsCons a1 a2 a3 ih1 ih3 =>
    intro hk hp hQ rest' hF
    have q0 := a1.suffix
    have q2 := a3.suffix
    obtain ⟨_, _, hS2, hd2, hs2, hl2⟩ := ih3 rfl hp (hQ.of (by sfx)) (hF.mono (by first | exact fun _ => rfl | exact fun h => Bool.noConfusion (show false = true from h)))
    obtain ⟨_, _, hS0, hd0, hs0, hl0⟩ := ih1 rfl hp (hQ.of (by sfx)) (.inl (.mk hS2.ins))
    have hS := hS0
    exact ⟨_, _, hS, .propsCons hd0 a2 hd2, by sim, by count⟩
  case propInit a1 a2 a3 ih3 =>
    intro hk hp hQ rest' hF
    have q2 := a3.suffix
    obtain ⟨_, _, hS2, hd2, hs2, hl2⟩ := ih3 rfl hp (hQ.of (by sfx)) (hF.mono (by first | exact fun _ => rfl | exact fun h => Bool.noConfusion (show false = true from h)))
    exact ⟨_, _, (.mk (.cons hS2.ins)), .propInit a1 a2 hd2, by sim, by count⟩
  case propShorthand a1 a2 a3 =>
    intro hk hp hQ rest' hF
    exact ⟨_, _, (.mk hF.ins), .propShorthand a1 a2 (a3.imp (nextIs (hF.same rfl)) (nextIs (hF.same rfl))), by sim, by count⟩
  case propMethod a1 a2 a3 ih2 ih3 =>
    intro hk hp hQ rest' hF
    have q1 := a2.suffix
    have q2 := a3.suffix
    obtain ⟨_, _, hS2, hd2, hs2, hl2⟩ := ih3 rfl hp (hQ.of (by sfx)) (hF.mono (by first | exact fun _ => rfl | exact fun h => Bool.noConfusion (show false = true from h)))
    obtain ⟨_, _, hS1, hd1, hs1, hl1⟩ := ih2 rfl hp (hQ.of (by sfx)) (.inl hS2)
    exact ⟨_, _, (.mk hS1.ins), .propMethod a1 hd1 hd2, by sim, by count⟩
  case propGenerator a1 a2 a3 a4 ih3 ih4 =>
    intro hk hp hQ rest' hF
    have q2 := a3.suffix
    have q3 := a4.suffix
    obtain ⟨_, _, hS3, hd3, hs3, hl3⟩ := ih4 rfl hp (hQ.of (by sfx)) (hF.mono (by first | exact fun _ => rfl | exact fun h => Bool.noConfusion (show false = true from h)))
    obtain ⟨_, _, hS2, hd2, hs2, hl2⟩ := ih3 rfl hp (hQ.of (by sfx)) (.inl hS3)
    exact ⟨_, _, (.mk (.cons hS2.ins)), .propGenerator a1 a2 hd2 hd3, by sim, by count⟩
  case propGet a1 a2 a3 a4 a5 ih5 =>
    intro hk hp hQ rest' hF
    have q4 := a5.suffix
    obtain ⟨_, _, hS4, hd4, hs4, hl4⟩ := ih5 rfl hp (hQ.of (by sfx)) (hF.mono (by first | exact fun _ => rfl | exact fun h => Bool.noConfusion (show false = true from h)))
    exact ⟨_, _, (.mk (.cons (.cons (.cons hS4.ins)))), .propGet a1 a2 a3 a4 hd4, by sim, by count⟩
  case propSet a1 a2 a3 a4 a5 a6 ih4 ih6 =>
    intro hk hp hQ rest' hF
    have q3 := a4.suffix
    have q5 := a6.suffix
    obtain ⟨_, _, hS5, hd5, hs5, hl5⟩ := ih6 rfl hp (hQ.of (by sfx)) (hF.mono (by first | exact fun _ => rfl | exact fun h => Bool.noConfusion (show false = true from h)))
    obtain ⟨_, _, hS3, hd3, hs3, hl3⟩ := ih4 rfl hp (hQ.of (by sfx)) (.inl (.mk hS5.ins))
    exact ⟨_, _, (.mk (.cons (.cons hS3.ins))), .propSet a1 a2 a3 hd3 a5 hd5, by sim, by count⟩
  case name a1 =>
    intro hk hp hQ rest' hF
    exact ⟨_, _, (.mk hF.ins), .name a1, by sim, by count⟩
  case nameNone  =>
    intro hk hp hQ rest' hF
    have hS := (hF.same rfl)
    exact ⟨_, _, hS, .nameNone , by sim, by count⟩
  case nameSome a1 ih1 =>
    intro hk hp hQ rest' hF
    have q0 := a1.suffix
    obtain ⟨_, _, hS0, hd0, hs0, hl0⟩ := ih1 rfl hp (hQ.of (by sfx)) (hF.mono (by first | exact fun _ => rfl | exact fun h => Bool.noConfusion (show false = true from h)))
    have hS := hS0
    exact ⟨_, _, hS, .nameSome hd0, by sim, by count⟩
  case func a1 a2 a3 a4 a5 a6 ih2 ih3 ih4 =>
    intro hk hp hQ rest' hF
    have q1 := a2.suffix
    have q2 := a3.suffix
    have q3 := a4.suffix
    obtain ⟨_, _, hS3, hd3, hs3, hl3⟩ := ih4 rfl hp (hQ.of (by sfx)) (hF.mono (by first | exact fun _ => rfl | exact fun h => Bool.noConfusion (show false = true from h)))
    obtain ⟨_, _, hS2, hd2, hs2, hl2⟩ := ih3 rfl hp (hQ.of (by sfx)) (.inl hS3)
    obtain ⟨_, _, hS1, hd1, hs1, hl1⟩ := ih2 hk hp (hQ.of (by sfx)) (.inl hS2)
    exact ⟨_, _, (.mk hS1.ins), .func a1 hd1 hd2 hd3 rfl nofun, by sim, by count⟩
  case funcGenerator a1 a2 a3 a4 a5 a6 a7 ih3 ih4 ih5 =>
    intro hk hp hQ rest' hF
    have q2 := a3.suffix
    have q3 := a4.suffix
    have q4 := a5.suffix
    obtain ⟨_, _, hS4, hd4, hs4, hl4⟩ := ih5 rfl hp (hQ.of (by sfx)) (hF.mono (by first | exact fun _ => rfl | exact fun h => Bool.noConfusion (show false = true from h)))
    obtain ⟨_, _, hS3, hd3, hs3, hl3⟩ := ih4 rfl hp (hQ.of (by sfx)) (.inl hS4)
    obtain ⟨_, _, hS2, hd2, hs2, hl2⟩ := ih3 hk hp (hQ.of (by sfx)) (.inl hS3)
    exact ⟨_, _, (.mk (.cons hS2.ins)), .funcGenerator a1 a2 hd2 hd3 hd4 rfl nofun, by sim, by count⟩
  case pattern a1 =>
    intro hk hp hQ rest' hF
    exact ⟨_, _, (.mk hF.ins), .pattern a1, by sim, by count⟩
  case paramsNil  =>
    intro hk hp hQ rest' hF
    have hS := (hF.same rfl)
    exact ⟨_, _, hS, .paramsNil , by sim, by count⟩
  case paramsRest a1 a2 a3 ih2 =>
    intro hk hp hQ rest' hF
    have q1 := a2.suffix
    obtain ⟨_, _, hS1, hd1, hs1, hl1⟩ := ih2 rfl hp (hQ.of (by sfx)) (hF.mono (by first | exact fun _ => rfl | exact fun h => Bool.noConfusion (show false = true from h)))
    exact ⟨_, _, (.mk hS1.ins), .paramsRest a1 hd1 rfl, by sim, by count⟩
  case paramsLast a1 ih1 =>
    intro hk hp hQ rest' hF
    have q0 := a1.suffix
    obtain ⟨_, _, hS0, hd0, hs0, hl0⟩ := ih1 rfl hp (hQ.of (by sfx)) (hF.mono (by first | exact fun _ => rfl | exact fun h => Bool.noConfusion (show false = true from h)))
    have hS := hS0
    exact ⟨_, _, hS, .paramsLast hd0, by sim, by count⟩
  case paramsCons a1 a2 a3 ih1 ih3 =>
    intro hk hp hQ rest' hF
    have q0 := a1.suffix
    have q2 := a3.suffix
    obtain ⟨_, _, hS2, hd2, hs2, hl2⟩ := ih3 rfl hp (hQ.of (by sfx)) (.inl (hF.same rfl))
    obtain ⟨_, _, hS, hd, hs, hl⟩ := ih1 rfl hp (hQ.of (by sfx)) (.inl (.mk hS2.ins))
    obtain ⟨_, _, rfl⟩ := paramItems_shape hd2
    cases hs2 with
    | params h1 h2 => exact ⟨_, _, hS, .paramsCons hd a2 hd2, .params (.cons hs h1) h2, by count⟩
  case params a1 a2 a3 a4 ih2 =>
    intro hk hp hQ rest' hF
    have q1 := a2.suffix
    obtain ⟨_, _, hS2, hd2, hs2, hl2⟩ := ih2 rfl hp (hQ.of (by sfx)) (.inl (.mk hF.ins))
    obtain ⟨_, _, rfl⟩ := paramItems_shape hd2
    cases hs2 with
    | params h1 h2 => exact ⟨_, _, .mk hS2.ins, .params a1 hd2 a3 rfl, .params h1 h2, by count⟩
  case functionBody a1 a2 a3 a4 ih2 =>
    intro hk hp hQ rest' hF
    have q1 := a2.suffix
    obtain ⟨_, _, hS2, hd2, hs2, hl2⟩ := ih2 rfl hp (hQ.of (by sfx)) (.inl (.mk hF.ins))
    refine ⟨_, _, .mk hS2.ins, .functionBody a1 hd2 a3 ?_, hs2, by count⟩
    intro sp h
    rw [Rename.body_loc hd2] at h
    cases h
  case lhsPrimary a1 ih1 =>
    intro hk hp hQ rest' hF
    have q0 := a1.suffix
    obtain ⟨_, _, hS0, hd0, hs0, hl0⟩ := ih1 rfl hp (hQ.of (by sfx)) (hF.mono (by first | exact fun _ => rfl | exact fun h => Bool.noConfusion (show false = true from h)))
    have hS := hS0
    exact ⟨_, _, hS, .lhsPrimary hd0, by sim, by count⟩
  case newTarget a1 a2 a3 =>
    intro hk hp hQ rest' hF
    exact ⟨_, _, (.mk (.cons (.cons hF.ins))), .newTarget a1 a2 a3, by sim, by count⟩
  case dot a1 a2 a3 ih1 =>
    intro hk hp hQ rest' hF
    have q0 := a1.suffix
    obtain ⟨_, _, hS0, hd0, hs0, hl0⟩ := ih1 rfl hp (hQ.of (by sfx)) (.inl (.mk (.cons hF.ins)))
    have hS := hS0
    exact ⟨_, _, hS, .dot hd0 a2 a3, by sim, by count⟩
  case brack a1 a2 a3 a4 ih1 ih3 =>
    intro hk hp hQ rest' hF
    have q0 := a1.suffix
    have q2 := a3.suffix
    obtain ⟨_, _, hS2, hd2, hs2, hl2⟩ := ih3 rfl hp (hQ.of (by sfx)) (.inl (.mk hF.ins))
    obtain ⟨_, _, hS0, hd0, hs0, hl0⟩ := ih1 rfl hp (hQ.of (by sfx)) (.inl (.mk hS2.ins))
    have hS := hS0
    exact ⟨_, _, hS, .brack hd0 a2 hd2 a4, by sim, by count⟩
  case call a1 a2 a3 a4 ih1 ih3 =>
    intro hk hp hQ rest' hF
    have q0 := a1.suffix
    have q2 := a3.suffix
    obtain ⟨_, _, hS2, hd2, hs2, hl2⟩ := ih3 rfl hp (hQ.of (by sfx)) (.inl (.mk hF.ins))
    obtain ⟨_, _, hS0, hd0, hs0, hl0⟩ := ih1 rfl hp (hQ.of (by sfx)) (.inl (.mk hS2.ins))
    have hS := hS0
    exact ⟨_, _, hS, .call hd0 a2 hd2 a4, by sim, by count⟩
  case lhsNew a1 ih1 =>
    intro hk hp hQ rest' hF
    have q0 := a1.suffix
    obtain ⟨_, _, hS0, hd0, hs0, hl0⟩ := ih1 rfl hp (hQ.of (by sfx)) (hF.mono (by first | exact fun _ => rfl | exact fun h => Bool.noConfusion (show false = true from h)))
    have hS := hS0
    exact ⟨_, _, hS, .lhsNew hd0, by sim, by count⟩
  case newBaseMember a1 a2 ih2 =>
    intro hk hp hQ rest' hF
    have q1 := a2.suffix
    obtain ⟨_, _, hS1, hd1, hs1, hl1⟩ := ih2 rfl hp (hQ.of (by sfx)) (hF.mono (by first | exact fun _ => rfl | exact fun h => Bool.noConfusion (show false = true from h)))
    have hS := hS1
    exact ⟨_, _, hS, .newBaseMember (nextNotIn hF.foll a1 (by rintro _ (rfl | rfl) <;> decide)) hd1, by sim, by count⟩
  case newBaseArgs a1 ih1 =>
    intro hk hp hQ rest' hF
    have q0 := a1.suffix
    obtain ⟨_, _, hS0, hd0, hs0, hl0⟩ := ih1 rfl hp (hQ.of (by sfx)) (hF.mono (by first | exact fun _ => rfl | exact fun h => Bool.noConfusion (show false = true from h)))
    have hS := hS0
    exact ⟨_, _, hS, .newBaseArgs hd0, by sim, by count⟩
  case newBaseNoArgs a1 ih1 =>
    intro hk hp hQ rest' hF
    have q0 := a1.suffix
    obtain ⟨_, _, hS0, hd0, hs0, hl0⟩ := ih1 rfl hp (hQ.of (by sfx)) (hF.mono (by first | exact fun _ => rfl | exact fun h => Bool.noConfusion (show false = true from h)))
    have hS := hS0
    exact ⟨_, _, hS, .newBaseNoArgs hd0, by sim, by count⟩
  case newArgs a1 a2 a3 a4 a5 ih2 ih4 =>
    intro hk hp hQ rest' hF
    have q1 := a2.suffix
    have q3 := a4.suffix
    obtain ⟨_, _, hS3, hd3, hs3, hl3⟩ := ih4 rfl hp (hQ.of (by sfx)) (.inl (.mk hF.ins))
    obtain ⟨_, _, hS1, hd1, hs1, hl1⟩ := ih2 rfl hp (hQ.of (by sfx)) (.inl (.mk hS3.ins))
    exact ⟨_, _, (.mk hS1.ins), .newArgs a1 hd1 a3 hd3 a5, by sim, by count⟩
  case newNoArgs a1 a2 a3 ih2 =>
    intro hk hp hQ rest' hF
    have q1 := a2.suffix
    obtain ⟨_, _, hS1, hd1, hs1, hl1⟩ := ih2 rfl hp (hQ.of (by sfx)) (hF.mono (by first | exact fun _ => rfl | exact fun h => Bool.noConfusion (show false = true from h)))
    exact ⟨_, _, (.mk hS1.ins), .newNoArgs a1 hd1 (nextIsNot hF.foll a3 (by rintro (h | h) <;> cases h)), by sim, by count⟩
  case argListNil  =>
    intro hk hp hQ rest' hF
    have hS := (hF.same rfl)
    exact ⟨_, _, hS, .argListNil , by sim, by count⟩
  case argList a1 ih1 =>
    intro hk hp hQ rest' hF
    have q0 := a1.suffix
    obtain ⟨_, _, hS0, hd0, hs0, hl0⟩ := ih1 rfl hp (hQ.of (by sfx)) (hF.mono (by first | exact fun _ => rfl | exact fun h => Bool.noConfusion (show false = true from h)))
    have hS := hS0
    exact ⟨_, _, hS, .argList hd0, by sim, by count⟩
  case argsLast a1 ih1 =>
    intro hk hp hQ rest' hF
    have q0 := a1.suffix
    obtain ⟨_, _, hS0, hd0, hs0, hl0⟩ := ih1 rfl hp (hQ.of (by sfx)) (hF.mono (by first | exact fun _ => rfl | exact fun h => Bool.noConfusion (show false = true from h)))
    have hS := hS0
    exact ⟨_, _, hS, .argsLast hd0, by sim, by count⟩
  case argsCons a1 a2 a3 ih1 ih3 =>
    intro hk hp hQ rest' hF
    have q0 := a1.suffix
    have q2 := a3.suffix
    obtain ⟨_, _, hS2, hd2, hs2, hl2⟩ := ih3 rfl hp (hQ.of (by sfx)) (hF.mono (by first | exact fun _ => rfl | exact fun h => Bool.noConfusion (show false = true from h)))
    obtain ⟨_, _, hS0, hd0, hs0, hl0⟩ := ih1 rfl hp (hQ.of (by sfx)) (.inl (.mk hS2.ins))
    have hS := hS0
    exact ⟨_, _, hS, .argsCons hd0 a2 hd2, by sim, by count⟩
  case postfixNone a1 a2 a3 ih3 =>
    intro hk hp hQ rest' hF
    have q2 := a3.suffix
    obtain ⟨_, _, hS2, hd2, hs2, hl2⟩ := ih3 rfl hp (hQ.of (by sfx)) (hF.mono (by first | exact fun _ => rfl | exact fun h => Bool.noConfusion (show false = true from h)))
    have hS := hS2
    exact ⟨_, _, hS, .postfixNone (nextNotIn hF.foll a1 (by rintro _ (rfl | rfl) <;> decide)) (noPostfix hF.foll a2) hd2, by sim, by count⟩
  case postInc a1 a2 a3 ih1 =>
    intro hk hp hQ rest' hF
    have q0 := a1.suffix
    obtain ⟨_, _, hS, hd, hs, hl⟩ := ih1 rfl hp (hQ.of (by sfx)) (.inl (.mk hF.ins))
    obtain ⟨x', rfl, hx⟩ := target hs
    exact ⟨_, _, hS, .postInc hd a2 a3, .ePostInc hx, by count⟩
  case postDec a1 a2 a3 ih1 =>
    intro hk hp hQ rest' hF
    have q0 := a1.suffix
    obtain ⟨_, _, hS, hd, hs, hl⟩ := ih1 rfl hp (hQ.of (by sfx)) (.inl (.mk hF.ins))
    obtain ⟨x', rfl, hx⟩ := target hs
    exact ⟨_, _, hS, .postDec hd a2 a3, .ePostDec hx, by count⟩
  case unaryPostfix a1 ih1 =>
    intro hk hp hQ rest' hF
    have q0 := a1.suffix
    obtain ⟨_, _, hS0, hd0, hs0, hl0⟩ := ih1 rfl hp (hQ.of (by sfx)) (hF.mono (by first | exact fun _ => rfl | exact fun h => Bool.noConfusion (show false = true from h)))
    have hS := hS0
    exact ⟨_, _, hS, .unaryPostfix hd0, by sim, by count⟩
  case unop a1 a2 ih2 =>
    intro hk hp hQ rest' hF
    have q1 := a2.suffix
    obtain ⟨_, _, hS1, hd1, hs1, hl1⟩ := ih2 rfl hp (hQ.of (by sfx)) (hF.mono (by first | exact fun _ => rfl | exact fun h => Bool.noConfusion (show false = true from h)))
    exact ⟨_, _, (.mk hS1.ins), .unop a1 hd1, by sim, by count⟩
  case preInc a1 a2 ih2 =>
    intro hk hp hQ rest' hF
    have q1 := a2.suffix
    obtain ⟨_, _, hS, hd, hs, hl⟩ := ih2 rfl hp (hQ.of (by sfx)) (hF.mono fun _ => rfl)
    obtain ⟨x', rfl, hx⟩ := target hs
    exact ⟨_, _, .mk hS.ins, .preInc a1 hd, .ePreInc hx, by count⟩
  case preDec a1 a2 ih2 =>
    intro hk hp hQ rest' hF
    have q1 := a2.suffix
    obtain ⟨_, _, hS, hd, hs, hl⟩ := ih2 rfl hp (hQ.of (by sfx)) (hF.mono fun _ => rfl)
    obtain ⟨x', rfl, hx⟩ := target hs
    exact ⟨_, _, .mk hS.ins, .preDec a1 hd, .ePreDec hx, by count⟩
  case binaryUnary a1 ih1 =>
    intro hk hp hQ rest' hF
    have q0 := a1.suffix
    obtain ⟨_, _, hS0, hd0, hs0, hl0⟩ := ih1 rfl hp (hQ.of (by sfx)) (hF.mono (by first | exact fun _ => rfl | exact fun h => Bool.noConfusion (show false = true from h)))
    have hS := hS0
    exact ⟨_, _, hS, .binaryUnary hd0, by sim, by count⟩
  case binaryUp a1 a2 ih2 =>
    intro hk hp hQ rest' hF
    have q1 := a2.suffix
    obtain ⟨_, _, hS1, hd1, hs1, hl1⟩ := ih2 rfl hp (hQ.of (by sfx)) (hF.mono (by first | exact fun _ => rfl | exact fun h => Bool.noConfusion (show false = true from h)))
    have hS := hS1
    exact ⟨_, _, hS, .binaryUp a1 hd1, by sim, by count⟩
  case binop a1 a2 a3 ih1 ih3 =>
    intro hk hp hQ rest' hF
    have q0 := a1.suffix
    have q2 := a3.suffix
    obtain ⟨_, _, hS2, hd2, hs2, hl2⟩ := ih3 rfl hp (hQ.of (by sfx)) (hF.mono (by first | exact fun _ => rfl | exact fun h => Bool.noConfusion (show false = true from h)))
    obtain ⟨_, _, hS0, hd0, hs0, hl0⟩ := ih1 rfl hp (hQ.of (by sfx)) (.inl (.mk hS2.ins))
    have hS := hS0
    exact ⟨_, _, hS, .binop hd0 a2 hd2, by sim, by count⟩
  case logop a1 a2 a3 ih1 ih3 =>
    intro hk hp hQ rest' hF
    have q0 := a1.suffix
    have q2 := a3.suffix
    obtain ⟨_, _, hS2, hd2, hs2, hl2⟩ := ih3 rfl hp (hQ.of (by sfx)) (hF.mono (by first | exact fun _ => rfl | exact fun h => Bool.noConfusion (show false = true from h)))
    obtain ⟨_, _, hS0, hd0, hs0, hl0⟩ := ih1 rfl hp (hQ.of (by sfx)) (.inl (.mk hS2.ins))
    have hS := hS0
    exact ⟨_, _, hS, .logop hd0 a2 hd2, by sim, by count⟩
  case condNone a1 a2 a3 a4 ih4 =>
    intro hk hp hQ rest' hF
    have q3 := a4.suffix
    obtain ⟨_, _, hS3, hd3, hs3, hl3⟩ := ih4 rfl hp (hQ.of (by sfx)) (hF.mono (by first | exact fun _ => rfl | exact fun h => Bool.noConfusion (show false = true from h)))
    have hS := hS3
    exact ⟨_, _, hS, .condNone (noRegExp hF.foll a1) (noInfix hF.foll a2) (nextIsNot hF.foll a3 (by rintro (h | h) <;> cases h)) hd3, by sim, by count⟩
  case cond a1 a2 a3 a4 a5 ih1 ih3 ih5 =>
    intro hk hp hQ rest' hF
    have q0 := a1.suffix
    have q2 := a3.suffix
    have q4 := a5.suffix
    obtain ⟨_, _, hS4, hd4, hs4, hl4⟩ := ih5 rfl hp (hQ.of (by sfx)) (hF.mono (by first | exact fun _ => rfl | exact fun h => Bool.noConfusion (show false = true from h)))
    obtain ⟨_, _, hS2, hd2, hs2, hl2⟩ := ih3 rfl hp (hQ.of (by sfx)) (.inl (.mk hS4.ins))
    obtain ⟨_, _, hS0, hd0, hs0, hl0⟩ := ih1 rfl hp (hQ.of (by sfx)) (.inl (.mk hS2.ins))
    have hS := hS0
    exact ⟨_, _, hS, .cond hd0 a2 hd2 a4 hd4, by sim, by count⟩
  case assignNone a1 a2 ih2 =>
    intro hk hp hQ rest' hF
    have q1 := a2.suffix
    obtain ⟨_, _, hS1, hd1, hs1, hl1⟩ := ih2 rfl hp (hQ.of (by sfx)) (hF.mono (by first | exact fun _ => rfl | exact fun h => Bool.noConfusion (show false = true from h)))
    have hS := hS1
    exact ⟨_, _, hS, .assignNone (noAssign hF.foll a1) hd1, by sim, by count⟩
  case assign a1 a2 a3 a4 a5 ih3 ih5 =>
    intro hk hp hQ rest' hF
    have q2 := a3.suffix
    have q4 := a5.suffix
    obtain ⟨_, _, hS2, hd2, hs2, hl2⟩ := ih5 rfl hp (hQ.of (by sfx)) (hF.mono fun _ => rfl)
    obtain ⟨_, _, hS, hd, hs, hl⟩ := ih3 rfl hp (hQ.of (by sfx)) (.inl (.mk hS2.ins))
    obtain ⟨p', rfl, hf, ha, hx⟩ := pattern (a1 hp) a2 hs
    exact ⟨_, _, hS, .assign (fun _ => hf) ha hd a4 hd2, .eAssign hx hs2, by count⟩
  case binAssign a1 a2 a3 ih1 ih3 =>
    intro hk hp hQ rest' hF
    have q0 := a1.suffix
    have q2 := a3.suffix
    obtain ⟨_, _, hS2, hd2, hs2, hl2⟩ := ih3 rfl hp (hQ.of (by sfx)) (hF.mono fun _ => rfl)
    obtain ⟨_, _, hS, hd, hs, hl⟩ := ih1 rfl hp (hQ.of (by sfx)) (.inl (.mk hS2.ins))
    obtain ⟨x', rfl, hx⟩ := target hs
    exact ⟨_, _, hS, .binAssign hd a2 hd2, .eBinAssign rfl hx hs2, by count⟩
  case exprsLast a1 a2 ih2 =>
    intro hk hp hQ rest' hF
    have q1 := a2.suffix
    obtain ⟨_, _, hS1, hd1, hs1, hl1⟩ := ih2 rfl hp (hQ.of (by sfx)) (hF.mono (by first | exact fun _ => rfl | exact fun h => Bool.noConfusion (show false = true from h)))
    have hS := hS1
    exact ⟨_, _, hS, .exprsLast (nextIsNot hF.foll a1 (by rintro (h | h) <;> cases h)) hd1, by sim, by count⟩
  case exprsCons a1 a2 a3 ih1 ih3 =>
    intro hk hp hQ rest' hF
    have q0 := a1.suffix
    have q2 := a3.suffix
    obtain ⟨_, _, hS2, hd2, hs2, hl2⟩ := ih3 rfl hp (hQ.of (by sfx)) (hF.mono (by first | exact fun _ => rfl | exact fun h => Bool.noConfusion (show false = true from h)))
    obtain ⟨_, _, hS0, hd0, hs0, hl0⟩ := ih1 rfl hp (hQ.of (by sfx)) (.inl (.mk hS2.ins))
    have hS := hS0
    exact ⟨_, _, hS, .exprsCons hd0 a2 hd2, by sim, by count⟩
  case exprOne a1 a2 ih2 =>
    intro hk hp hQ rest' hF
    have q1 := a2.suffix
    obtain ⟨_, _, hS1, hd1, hs1, hl1⟩ := ih2 rfl hp (hQ.of (by sfx)) (hF.mono (by first | exact fun _ => rfl | exact fun h => Bool.noConfusion (show false = true from h)))
    have hS := hS1
    exact ⟨_, _, hS, .exprOne (nextIsNot hF.foll a1 (by rintro (h | h) <;> cases h)) hd1, by sim, by count⟩
  case exprSeq a1 a2 ih1 =>
    intro hk hp hQ rest' hF
    have q0 := a1.suffix
    obtain ⟨_, _, hS, hd, hs, hl⟩ := ih1 rfl hp (hQ.of (by sfx)) (hF.mono fun _ => rfl)
    cases hs with
    | cons h1 h2 =>
      cases h2 with
      | cons h2 h3 =>
        exact ⟨_, _, hS, .exprSeq hd (List.getLast?_eq_some_getLast (List.cons_ne_nil _ _)),
          .eSeq (.cons h1 (.cons h2 h3)), by count⟩
  case directive a1 a2 a3 a4 a5 ih5 =>
    intro hk hp hQ rest' hF
    have q2 := a3.suffix
    have q4 := a5.suffix
    obtain ⟨_, _, hS2, hd2, hs2, hl2⟩ := ih5 hk hp (hQ.of (by sfx)) (.inl (hF.same rfl))
    obtain ⟨_, _, hS1, hd1, hl1⟩ := term a3 (hQ.of (by sfx)) hS2
    obtain ⟨_, _, rfl⟩ := Rename.prologue_shape hd2
    cases hs2 with
    | body h1 h2 =>
      refine ⟨_, _, .mk hS1.ins, .directive a1 (notContinues hS1 a2) hd1 rfl hd2,
        .body (by simp only [List.map_cons, h1]) h2, by count⟩
  case prologueEnd a1 a2 a3 ih3 =>
    intro hk hp hQ rest' hF
    have q2 := a3.suffix
    obtain ⟨_, _, hS2, hd2, hs2, hl2⟩ := ih3 (isItems_ok _ hk) hp (hQ.of (by sfx)) (.inl (hF.same rfl))
    exact ⟨_, _, hS2, .prologueEnd (notDirective hS2 a1) (stringNoDivision hS2 a2) hd2,
      .body rfl hs2, by count⟩
  case body a1 a2 ih1 =>
    intro hk hp hQ rest' hF
    have q0 := a1.suffix
    obtain ⟨_, _, hS2, hd2, hs2, hl2⟩ := ih1 hk hp (hQ.of (by sfx)) (.inl (hF.same rfl))
    obtain ⟨_, _, rfl⟩ := Rename.prologue_shape hd2
    cases hs2 with
    | body h1 h2 => exact ⟨_, _, hS2, .body hd2 rfl, .body h1 h2, by count⟩
  case itemsNil a1 =>
    intro hk hp hQ rest' hF
    obtain ⟨_, _, _, he, rfl, h⟩ := hF.same rfl
    cases he
    exact ⟨_, _, .mk h, .itemsNil a1, by sim, by count⟩
  case itemsCons a1 a2 ih1 ih2 =>
    intro hk hp hQ rest' hF
    have q0 := a1.suffix
    have q1 := a2.suffix
    obtain ⟨_, _, hS1, hd1, hs1, hl1⟩ := ih2 rfl hp (hQ.of (by sfx)) (hF.mono (by first | exact fun _ => rfl | exact fun h => Bool.noConfusion (show false = true from h)))
    obtain ⟨_, _, hS0, hd0, hs0, hl0⟩ := ih1 rfl hp (hQ.of (by sfx)) (.inl hS1)
    have hS := hS0
    exact ⟨_, _, hS, .itemsCons hd0 hd1, by sim, by count⟩
  case modItemsNil a1 =>
    intro hk hp hQ rest' hF
    obtain ⟨_, _, _, he, rfl, h⟩ := hF.same rfl
    cases he
    exact ⟨_, _, .mk h, .modItemsNil a1, by sim, by count⟩
  case modItemsCons a1 a2 ih1 ih2 =>
    intro hk hp hQ rest' hF
    have q0 := a1.suffix
    have q1 := a2.suffix
    obtain ⟨_, _, hS1, hd1, hs1, hl1⟩ := ih2 rfl hp (hQ.of (by sfx)) (hF.mono (by first | exact fun _ => rfl | exact fun h => Bool.noConfusion (show false = true from h)))
    obtain ⟨_, _, hS0, hd0, hs0, hl0⟩ := ih1 rfl hp (hQ.of (by sfx)) (.inl hS1)
    have hS := hS0
    exact ⟨_, _, hS, .modItemsCons hd0 hd1, by sim, by count⟩
  case itemStmt a1 ih1 =>
    intro hk hp hQ rest' hF
    have q0 := a1.suffix
    obtain ⟨_, _, hS0, hd0, hs0, hl0⟩ := ih1 rfl hp (hQ.of (by sfx)) (hF.mono (by first | exact fun _ => rfl | exact fun h => Bool.noConfusion (show false = true from h)))
    have hS := hS0
    exact ⟨_, _, hS, .itemStmt hd0, by sim, by count⟩
  case itemDecl a1 ih1 =>
    intro hk hp hQ rest' hF
    have q0 := a1.suffix
    obtain ⟨_, _, hS0, hd0, hs0, hl0⟩ := ih1 rfl hp (hQ.of (by sfx)) (hF.mono (by first | exact fun _ => rfl | exact fun h => Bool.noConfusion (show false = true from h)))
    have hS := hS0
    exact ⟨_, _, hS, .itemDecl hd0, by sim, by count⟩
  case declFun a1 a2 ih1 =>
    intro hk hp hQ rest' hF
    have q0 := a1.suffix
    obtain ⟨_, _, hS2, hd2, hs2, hl2⟩ := ih1 rfl hp (hQ.of (by sfx)) (.inl (hF.same rfl))
    cases hs2 with
    | func h1 h2 h3 => exact ⟨_, _, hS2, .declFun hd2 rfl, .dFun (.func h1 h2 h3), by count⟩
  case declLet a1 a2 a3 a4 ih2 =>
    intro hk hp hQ rest' hF
    have q1 := a2.suffix
    have q2 := a3.suffix
    obtain ⟨_, _, hS2, hd2, hl2⟩ := term a3 (hQ.of (by sfx)) (hF.same rfl)
    obtain ⟨_, _, hS1, hd1, hs1, hl1⟩ := ih2 rfl hp (hQ.of (by sfx)) (.of hS2 rfl)
    exact ⟨_, _, (.mk hS1.ins), .declLet a1 hd1 hd2 rfl, by sim, by count⟩
  case declConst a1 a2 a3 a4 ih2 =>
    intro hk hp hQ rest' hF
    have q1 := a2.suffix
    have q2 := a3.suffix
    obtain ⟨_, _, hS2, hd2, hl2⟩ := term a3 (hQ.of (by sfx)) (hF.same rfl)
    obtain ⟨_, _, hS1, hd1, hs1, hl1⟩ := ih2 rfl hp (hQ.of (by sfx)) (.of hS2 rfl)
    exact ⟨_, _, (.mk hS1.ins), .declConst a1 hd1 hd2 rfl, by sim, by count⟩
  case dtorNone a1 a2 a3 =>
    intro hk hp hQ rest' hF
    exact ⟨_, _, (.mk hF.ins), .dtorNone (nextIsNot hF.foll a1 (by rintro (h | h) <;> cases h)) a2 rfl, by sim, by count⟩
  case dtorInit a1 a2 a3 a4 ih3 =>
    intro hk hp hQ rest' hF
    have q2 := a3.suffix
    obtain ⟨_, _, hS2, hd2, hs2, hl2⟩ := ih3 rfl hp (hQ.of (by sfx)) (hF.mono (by first | exact fun _ => rfl | exact fun h => Bool.noConfusion (show false = true from h)))
    exact ⟨_, _, (.mk (.cons hS2.ins)), .dtorInit a1 a2 hd2 rfl, by sim, by count⟩
  case dtorsLast a1 a2 ih2 =>
    intro hk hp hQ rest' hF
    have q1 := a2.suffix
    obtain ⟨_, _, hS1, hd1, hs1, hl1⟩ := ih2 rfl hp (hQ.of (by sfx)) (hF.mono (by first | exact fun _ => rfl | exact fun h => Bool.noConfusion (show false = true from h)))
    have hS := hS1
    exact ⟨_, _, hS, .dtorsLast (nextIsNot hF.foll a1 (by rintro (h | h) <;> cases h)) hd1, by sim, by count⟩
  case dtorsCons a1 a2 a3 ih1 ih3 =>
    intro hk hp hQ rest' hF
    have q0 := a1.suffix
    have q2 := a3.suffix
    obtain ⟨_, _, hS2, hd2, hs2, hl2⟩ := ih3 rfl hp (hQ.of (by sfx)) (hF.mono (by first | exact fun _ => rfl | exact fun h => Bool.noConfusion (show false = true from h)))
    obtain ⟨_, _, hS0, hd0, hs0, hl0⟩ := ih1 rfl hp (hQ.of (by sfx)) (.inl (.mk hS2.ins))
    have hS := hS0
    exact ⟨_, _, hS, .dtorsCons hd0 a2 hd2, by sim, by count⟩
  case constDtor a1 a2 a3 ih1 ih3 =>
    intro hk hp hQ rest' hF
    have q0 := a1.suffix
    have q2 := a3.suffix
    obtain ⟨_, _, hS2, hd2, hs2, hl2⟩ := ih3 rfl hp (hQ.of (by sfx)) (hF.mono (by first | exact fun _ => rfl | exact fun h => Bool.noConfusion (show false = true from h)))
    obtain ⟨_, _, hS0, hd0, hs0, hl0⟩ := ih1 rfl hp (hQ.of (by sfx)) (.inl (.mk hS2.ins))
    have hS := hS0
    exact ⟨_, _, hS, .constDtor hd0 a2 hd2, by sim, by count⟩
  case constDtorsLast a1 a2 ih2 =>
    intro hk hp hQ rest' hF
    have q1 := a2.suffix
    obtain ⟨_, _, hS1, hd1, hs1, hl1⟩ := ih2 rfl hp (hQ.of (by sfx)) (hF.mono (by first | exact fun _ => rfl | exact fun h => Bool.noConfusion (show false = true from h)))
    have hS := hS1
    exact ⟨_, _, hS, .constDtorsLast (nextIsNot hF.foll a1 (by rintro (h | h) <;> cases h)) hd1, by sim, by count⟩
  case constDtorsCons a1 a2 a3 ih1 ih3 =>
    intro hk hp hQ rest' hF
    have q0 := a1.suffix
    have q2 := a3.suffix
    obtain ⟨_, _, hS2, hd2, hs2, hl2⟩ := ih3 rfl hp (hQ.of (by sfx)) (hF.mono (by first | exact fun _ => rfl | exact fun h => Bool.noConfusion (show false = true from h)))
    obtain ⟨_, _, hS0, hd0, hs0, hl0⟩ := ih1 rfl hp (hQ.of (by sfx)) (.inl (.mk hS2.ins))
    have hS := hS0
    exact ⟨_, _, hS, .constDtorsCons hd0 a2 hd2, by sim, by count⟩
  case block a1 a2 a3 a4 ih2 =>
    intro hk hp hQ rest' hF
    have q1 := a2.suffix
    obtain ⟨_, _, hS1, hd1, hs1, hl1⟩ := ih2 rfl hp (hQ.of (by sfx)) (.inl (.mk hF.ins))
    exact ⟨_, _, (.mk hS1.ins), .block a1 hd1 a3 rfl, by sim, by count⟩
  case blockStmt a1 ih1 =>
    intro hk hp hQ rest' hF
    have q0 := a1.suffix
    obtain ⟨_, _, hS0, hd0, hs0, hl0⟩ := ih1 rfl hp (hQ.of (by sfx)) (hF.mono (by first | exact fun _ => rfl | exact fun h => Bool.noConfusion (show false = true from h)))
    have hS := hS0
    exact ⟨_, _, hS, .blockStmt hd0, by sim, by count⟩
  case varStmt a1 a2 a3 a4 ih2 =>
    intro hk hp hQ rest' hF
    have q1 := a2.suffix
    have q2 := a3.suffix
    obtain ⟨_, _, hS2, hd2, hl2⟩ := term a3 (hQ.of (by sfx)) (hF.same rfl)
    obtain ⟨_, _, hS1, hd1, hs1, hl1⟩ := ih2 rfl hp (hQ.of (by sfx)) (.of hS2 rfl)
    exact ⟨_, _, (.mk hS1.ins), .varStmt a1 hd1 hd2 rfl, by sim, by count⟩
  case emptyStmt a1 a2 =>
    intro hk hp hQ rest' hF
    exact ⟨_, _, (.mk hF.ins), .emptyStmt a1 rfl, by sim, by count⟩
  case exprStmt a1 a2 a3 a4 ih2 =>
    intro hk hp hQ rest' hF
    have q1 := a2.suffix
    have q2 := a3.suffix
    obtain ⟨_, _, hS2, hd2, hl2⟩ := term a3 (hQ.of (by sfx)) (hF.same rfl)
    obtain ⟨_, _, hS1, hd1, hs1, hl1⟩ := ih2 rfl hp (hQ.of (by sfx)) (.of hS2 rfl)
    have hS := hS1
    exact ⟨_, _, hS, .exprStmt (exprStmtStart hS a1) hd1 hd2 rfl, by sim, by count⟩
  case ifStmt a1 a2 a3 a4 a5 a6 a7 ih3 ih5 =>
    intro hk hp hQ rest' hF
    have q2 := a3.suffix
    have q4 := a5.suffix
    obtain ⟨_, _, hS4, hd4, hs4, hl4⟩ := ih5 rfl hp (hQ.of (by sfx)) (hF.mono (by first | exact fun _ => rfl | exact fun h => Bool.noConfusion (show false = true from h)))
    obtain ⟨_, _, hS2, hd2, hs2, hl2⟩ := ih3 rfl hp (hQ.of (by sfx)) (.inl (.mk hS4.ins))
    exact ⟨_, _, (.mk (.cons hS2.ins)), .ifStmt a1 a2 hd2 a4 hd4 (nextIsNot hF.foll a6 (by rintro (h | h) <;> cases h)) rfl, by sim, by count⟩
  case ifElseStmt a1 a2 a3 a4 a5 a6 a7 a8 ih3 ih5 ih7 =>
    intro hk hp hQ rest' hF
    have q2 := a3.suffix
    have q4 := a5.suffix
    have q6 := a7.suffix
    obtain ⟨_, _, hS6, hd6, hs6, hl6⟩ := ih7 rfl hp (hQ.of (by sfx)) (hF.mono (by first | exact fun _ => rfl | exact fun h => Bool.noConfusion (show false = true from h)))
    obtain ⟨_, _, hS4, hd4, hs4, hl4⟩ := ih5 rfl hp (hQ.of (by sfx)) (.inl (.mk hS6.ins))
    obtain ⟨_, _, hS2, hd2, hs2, hl2⟩ := ih3 rfl hp (hQ.of (by sfx)) (.inl (.mk hS4.ins))
    exact ⟨_, _, (.mk (.cons hS2.ins)), .ifElseStmt a1 a2 hd2 a4 hd4 a6 hd6 rfl, by sim, by count⟩
  case doStmt a1 a2 a3 a4 a5 a6 a7 a8 ih2 ih5 =>
    intro hk hp hQ rest' hF
    have q1 := a2.suffix
    have q4 := a5.suffix
    have q6 := a7.suffix
    obtain ⟨_, _, hS6, hd6, hl6⟩ := term a7 (hQ.of (by sfx)) (hF.same rfl)
    obtain ⟨_, _, hS4, hd4, hs4, hl4⟩ := ih5 rfl hp (hQ.of (by sfx)) (.inl (.mk hS6.ins))
    obtain ⟨_, _, hS1, hd1, hs1, hl1⟩ := ih2 rfl hp (hQ.of (by sfx)) (.inl (.mk (.cons hS4.ins)))
    exact ⟨_, _, (.mk hS1.ins), .doStmt a1 hd1 a3 a4 hd4 a6 hd6 rfl, by sim, by count⟩
  case whileStmt a1 a2 a3 a4 a5 a6 ih3 ih5 =>
    intro hk hp hQ rest' hF
    have q2 := a3.suffix
    have q4 := a5.suffix
    obtain ⟨_, _, hS4, hd4, hs4, hl4⟩ := ih5 rfl hp (hQ.of (by sfx)) (hF.mono (by first | exact fun _ => rfl | exact fun h => Bool.noConfusion (show false = true from h)))
    obtain ⟨_, _, hS2, hd2, hs2, hl2⟩ := ih3 rfl hp (hQ.of (by sfx)) (.inl (.mk hS4.ins))
    exact ⟨_, _, (.mk (.cons hS2.ins)), .whileStmt a1 a2 hd2 a4 hd4 rfl, by sim, by count⟩
  case forStmt a1 a2 a3 a4 a5 a6 a7 a8 a9 ih3 ih4 ih6 ih8 =>
    intro hk hp hQ rest' hF
    have q2 := a3.suffix
    have q3 := a4.suffix
    have q5 := a6.suffix
    have q7 := a8.suffix
    obtain ⟨_, _, hS7, hd7, hs7, hl7⟩ := ih8 rfl hp (hQ.of (by sfx)) (hF.mono (by first | exact fun _ => rfl | exact fun h => Bool.noConfusion (show false = true from h)))
    obtain ⟨_, _, hS5, hd5, hs5, hl5⟩ := ih6 rfl hp (hQ.of (by sfx)) (.inl (.mk hS7.ins))
    obtain ⟨_, _, hS3, hd3, hs3, hl3⟩ := ih4 rfl hp (hQ.of (by sfx)) (.inl (.mk hS5.ins))
    obtain ⟨_, _, hS2, hd2, hs2, hl2⟩ := ih3 rfl hp (hQ.of (by sfx)) (.inl hS3)
    exact ⟨_, _, (.mk (.cons hS2.ins)), .forStmt a1 a2 hd2 hd3 a5 hd5 a7 hd7 rfl, by sim, by count⟩
  case forInStmt a1 a2 a3 a4 a5 a6 a7 a8 ih3 ih5 ih7 =>
    intro hk hp hQ rest' hF
    have q2 := a3.suffix
    have q4 := a5.suffix
    have q6 := a7.suffix
    obtain ⟨_, _, hS6, hd6, hs6, hl6⟩ := ih7 rfl hp (hQ.of (by sfx)) (hF.mono (by first | exact fun _ => rfl | exact fun h => Bool.noConfusion (show false = true from h)))
    obtain ⟨_, _, hS4, hd4, hs4, hl4⟩ := ih5 rfl hp (hQ.of (by sfx)) (.inl (.mk hS6.ins))
    obtain ⟨_, _, hS2, hd2, hs2, hl2⟩ := ih3 rfl hp (hQ.of (by sfx)) (.inl (.mk hS4.ins))
    exact ⟨_, _, (.mk (.cons hS2.ins)), .forInStmt a1 a2 hd2 a4 hd4 a6 hd6 rfl, by sim, by count⟩
  case forOfStmt a1 a2 a3 a4 a5 a6 a7 a8 ih3 ih5 ih7 =>
    intro hk hp hQ rest' hF
    have q2 := a3.suffix
    have q4 := a5.suffix
    have q6 := a7.suffix
    obtain ⟨_, _, hS6, hd6, hs6, hl6⟩ := ih7 rfl hp (hQ.of (by sfx)) (hF.mono (by first | exact fun _ => rfl | exact fun h => Bool.noConfusion (show false = true from h)))
    obtain ⟨_, _, hS4, hd4, hs4, hl4⟩ := ih5 rfl hp (hQ.of (by sfx)) (.inl (.mk hS6.ins))
    obtain ⟨_, _, hS2, hd2, hs2, hl2⟩ := ih3 rfl hp (hQ.of (by sfx)) (.inl (.mk hS4.ins))
    exact ⟨_, _, (.mk (.cons hS2.ins)), .forOfStmt a1 a2 hd2 a4 hd4 a6 hd6 rfl, by sim, by count⟩
  case exprOptNone  =>
    intro hk hp hQ rest' hF
    have hS := (hF.same rfl)
    exact ⟨_, _, hS, .exprOptNone , by sim, by count⟩
  case exprOptSome a1 ih1 =>
    intro hk hp hQ rest' hF
    have q0 := a1.suffix
    obtain ⟨_, _, hS0, hd0, hs0, hl0⟩ := ih1 rfl hp (hQ.of (by sfx)) (hF.mono (by first | exact fun _ => rfl | exact fun h => Bool.noConfusion (show false = true from h)))
    have hS := hS0
    exact ⟨_, _, hS, .exprOptSome hd0, by sim, by count⟩
  case headDtorNone a1 =>
    intro hk hp hQ rest' hF
    exact ⟨_, _, (.mk hF.ins), .headDtorNone a1, by sim, by count⟩
  case headDtorInit a1 a2 a3 ih3 =>
    intro hk hp hQ rest' hF
    have q2 := a3.suffix
    obtain ⟨_, _, hS2, hd2, hs2, hl2⟩ := ih3 rfl hp (hQ.of (by sfx)) (hF.mono (by first | exact fun _ => rfl | exact fun h => Bool.noConfusion (show false = true from h)))
    exact ⟨_, _, (.mk (.cons hS2.ins)), .headDtorInit a1 a2 hd2, by sim, by count⟩
  case headDtorsLast a1 ih1 =>
    intro hk hp hQ rest' hF
    have q0 := a1.suffix
    obtain ⟨_, _, hS0, hd0, hs0, hl0⟩ := ih1 rfl hp (hQ.of (by sfx)) (hF.mono (by first | exact fun _ => rfl | exact fun h => Bool.noConfusion (show false = true from h)))
    have hS := hS0
    exact ⟨_, _, hS, .headDtorsLast hd0, by sim, by count⟩
  case headDtorsCons a1 a2 a3 ih1 ih3 =>
    intro hk hp hQ rest' hF
    have q0 := a1.suffix
    have q2 := a3.suffix
    obtain ⟨_, _, hS2, hd2, hs2, hl2⟩ := ih3 rfl hp (hQ.of (by sfx)) (hF.mono (by first | exact fun _ => rfl | exact fun h => Bool.noConfusion (show false = true from h)))
    obtain ⟨_, _, hS0, hd0, hs0, hl0⟩ := ih1 rfl hp (hQ.of (by sfx)) (.inl (.mk hS2.ins))
    have hS := hS0
    exact ⟨_, _, hS, .headDtorsCons hd0 a2 hd2, by sim, by count⟩
  case forHeadNone a1 =>
    intro hk hp hQ rest' hF
    exact ⟨_, _, (.mk hF.ins), .forHeadNone a1, by sim, by count⟩
  case forHeadVar a1 a2 a3 ih2 =>
    intro hk hp hQ rest' hF
    have q1 := a2.suffix
    obtain ⟨_, _, hS1, hd1, hs1, hl1⟩ := ih2 rfl hp (hQ.of (by sfx)) (.inl (.mk hF.ins))
    exact ⟨_, _, (.mk hS1.ins), .forHeadVar a1 hd1 a3, by sim, by count⟩
  case forHeadLet a1 a2 a3 ih2 =>
    intro hk hp hQ rest' hF
    have q1 := a2.suffix
    obtain ⟨_, _, hS1, hd1, hs1, hl1⟩ := ih2 rfl hp (hQ.of (by sfx)) (.inl (.mk hF.ins))
    exact ⟨_, _, (.mk hS1.ins), .forHeadLet a1 hd1 a3, by sim, by count⟩
  case forHeadConst a1 a2 a3 ih2 =>
    intro hk hp hQ rest' hF
    have q1 := a2.suffix
    obtain ⟨_, _, hS1, hd1, hs1, hl1⟩ := ih2 rfl hp (hQ.of (by sfx)) (.inl (.mk hF.ins))
    exact ⟨_, _, (.mk hS1.ins), .forHeadConst a1 hd1 a3, by sim, by count⟩
  case forHeadExpr a1 a2 a3 a4 ih3 =>
    intro hk hp hQ rest' hF
    have q2 := a3.suffix
    obtain ⟨_, _, hS2, hd2, hs2, hl2⟩ := ih3 rfl hp (hQ.of (by sfx)) (.inl (.mk hF.ins))
    have hS := hS2
    exact ⟨_, _, hS, .forHeadExpr (letNoDivision hS a1) (forExprStart hS a2) hd2 a4, by sim, by count⟩
  case forInVarInit a1 a2 a3 a4 ih4 =>
    intro hk hp hQ rest' hF
    have q3 := a4.suffix
    obtain ⟨_, _, hS3, hd3, hs3, hl3⟩ := ih4 rfl hp (hQ.of (by sfx)) (hF.mono (by first | exact fun _ => rfl | exact fun h => Bool.noConfusion (show false = true from h)))
    exact ⟨_, _, (.mk (.cons (.cons hS3.ins))), .forInVarInit a1 a2 a3 hd3, by sim, by count⟩
  case forInVar a1 a2 ih2 =>
    intro hk hp hQ rest' hF
    have q1 := a2.suffix
    obtain ⟨_, _, hS1, hd1, hs1, hl1⟩ := ih2 rfl hp (hQ.of (by sfx)) (hF.mono (by first | exact fun _ => rfl | exact fun h => Bool.noConfusion (show false = true from h)))
    exact ⟨_, _, (.mk hS1.ins), .forInVar a1 hd1, by sim, by count⟩
  case forInLet a1 a2 ih2 =>
    intro hk hp hQ rest' hF
    have q1 := a2.suffix
    obtain ⟨_, _, hS1, hd1, hs1, hl1⟩ := ih2 rfl hp (hQ.of (by sfx)) (hF.mono (by first | exact fun _ => rfl | exact fun h => Bool.noConfusion (show false = true from h)))
    exact ⟨_, _, (.mk hS1.ins), .forInLet a1 hd1, by sim, by count⟩
  case forInConst a1 a2 ih2 =>
    intro hk hp hQ rest' hF
    have q1 := a2.suffix
    obtain ⟨_, _, hS1, hd1, hs1, hl1⟩ := ih2 rfl hp (hQ.of (by sfx)) (hF.mono (by first | exact fun _ => rfl | exact fun h => Bool.noConfusion (show false = true from h)))
    exact ⟨_, _, (.mk hS1.ins), .forInConst a1 hd1, by sim, by count⟩
  case forInPatt a1 a2 a3 a4 a5 ih5 =>
    intro hk hp hQ rest' hF
    have q4 := a5.suffix
    obtain ⟨_, _, hS, hd, hs, hl⟩ := ih5 rfl hp (hQ.of (by sfx)) (hF.mono fun _ => rfl)
    obtain ⟨p', rfl, hf, ha, hx⟩ := pattern (a2 hp) a3 hs
    exact ⟨_, _, hS, .forInPatt (letNoDivision hS a1) (fun _ => hf) ha (forExprStart hS a4) hd, .fiPatt hx, by count⟩
  case forOfVar a1 a2 ih2 =>
    intro hk hp hQ rest' hF
    have q1 := a2.suffix
    obtain ⟨_, _, hS1, hd1, hs1, hl1⟩ := ih2 rfl hp (hQ.of (by sfx)) (hF.mono (by first | exact fun _ => rfl | exact fun h => Bool.noConfusion (show false = true from h)))
    exact ⟨_, _, (.mk hS1.ins), .forOfVar a1 hd1, by sim, by count⟩
  case forOfLet a1 a2 ih2 =>
    intro hk hp hQ rest' hF
    have q1 := a2.suffix
    obtain ⟨_, _, hS1, hd1, hs1, hl1⟩ := ih2 rfl hp (hQ.of (by sfx)) (hF.mono (by first | exact fun _ => rfl | exact fun h => Bool.noConfusion (show false = true from h)))
    exact ⟨_, _, (.mk hS1.ins), .forOfLet a1 hd1, by sim, by count⟩
  case forOfConst a1 a2 ih2 =>
    intro hk hp hQ rest' hF
    have q1 := a2.suffix
    obtain ⟨_, _, hS1, hd1, hs1, hl1⟩ := ih2 rfl hp (hQ.of (by sfx)) (hF.mono (by first | exact fun _ => rfl | exact fun h => Bool.noConfusion (show false = true from h)))
    exact ⟨_, _, (.mk hS1.ins), .forOfConst a1 hd1, by sim, by count⟩
  case forOfPatt a1 a2 a3 a4 a5 ih5 =>
    intro hk hp hQ rest' hF
    have q4 := a5.suffix
    obtain ⟨_, _, hS, hd, hs, hl⟩ := ih5 rfl hp (hQ.of (by sfx)) (hF.mono fun _ => rfl)
    obtain ⟨p', rfl, hf, ha, hx⟩ := pattern (a2 hp) a3 hs
    exact ⟨_, _, hS, .forOfPatt (letNoDivision hS a1) (fun _ => hf) ha (forExprStart hS a4) hd, .foPatt hx, by count⟩
  case breakNone a1 a2 a3 a4 a5 =>
    intro hk hp hQ rest' hF
    have q3 := a4.suffix
    obtain ⟨_, _, hS3, hj, hd3, hl3⟩ := jump a4 (by rw [a1]; decide) a2 (hQ.of (by sfx)) (hF.same rfl)
    exact ⟨_, _, (.mk hS3.ins), .breakNone a1 hj a3 hd3 rfl, by sim, by count⟩
  case breakLabel a1 a2 a3 a4 a5 a6 =>
    intro hk hp hQ rest' hF
    have q4 := a5.suffix
    obtain ⟨_, _, hS4, hd4, hl4⟩ := term a5 (hQ.of (by sfx)) (hF.same rfl)
    exact ⟨_, _, (.mk (.cons hS4.ins)), .breakLabel a1 (argSameLine (.mk hS4.ins) a2) a3 a4 hd4 rfl, by sim, by count⟩
  case continueNone a1 a2 a3 a4 a5 =>
    intro hk hp hQ rest' hF
    have q3 := a4.suffix
    obtain ⟨_, _, hS3, hj, hd3, hl3⟩ := jump a4 (by rw [a1]; decide) a2 (hQ.of (by sfx)) (hF.same rfl)
    exact ⟨_, _, (.mk hS3.ins), .continueNone a1 hj a3 hd3 rfl, by sim, by count⟩
  case continueLabel a1 a2 a3 a4 a5 a6 =>
    intro hk hp hQ rest' hF
    have q4 := a5.suffix
    obtain ⟨_, _, hS4, hd4, hl4⟩ := term a5 (hQ.of (by sfx)) (hF.same rfl)
    exact ⟨_, _, (.mk (.cons hS4.ins)), .continueLabel a1 (argSameLine (.mk hS4.ins) a2) a3 a4 hd4 rfl, by sim, by count⟩
  case returnNone a1 a2 a3 a4 a5 =>
    intro hk hp hQ rest' hF
    have q3 := a4.suffix
    obtain ⟨_, _, hS3, hj, hd3, hl3⟩ := jump a4 (by rw [a1]; decide) a2 (hQ.of (by sfx)) (hF.same rfl)
    exact ⟨_, _, (.mk hS3.ins), .returnNone a1 hj a3 hd3 rfl, by sim, by count⟩
  case returnExpr a1 a2 a3 a4 a5 a6 ih4 =>
    intro hk hp hQ rest' hF
    have q3 := a4.suffix
    have q4 := a5.suffix
    obtain ⟨_, _, hS4, hd4, hl4⟩ := term a5 (hQ.of (by sfx)) (hF.same rfl)
    obtain ⟨_, _, hS3, hd3, hs3, hl3⟩ := ih4 rfl hp (hQ.of (by sfx)) (.of hS4 rfl)
    exact ⟨_, _, (.mk hS3.ins), .returnExpr a1 (argSameLine hS3 a2) a3 hd3 hd4 rfl, by sim, by count⟩
  case throwStmt a1 a2 a3 a4 a5 ih3 =>
    intro hk hp hQ rest' hF
    have q2 := a3.suffix
    have q3 := a4.suffix
    obtain ⟨_, _, hS3, hd3, hl3⟩ := term a4 (hQ.of (by sfx)) (hF.same rfl)
    obtain ⟨_, _, hS2, hd2, hs2, hl2⟩ := ih3 rfl hp (hQ.of (by sfx)) (.of hS3 rfl)
    exact ⟨_, _, (.mk hS2.ins), .throwStmt a1 (argSameLine hS2 a2) hd2 hd3 rfl, by sim, by count⟩
  case withStmt a1 a2 a3 a4 a5 a6 a7 ih4 ih6 =>
    intro hk hp hQ rest' hF
    have q3 := a4.suffix
    have q5 := a6.suffix
    obtain ⟨_, _, hS5, hd5, hs5, hl5⟩ := ih6 rfl hp (hQ.of (by sfx)) (hF.mono (by first | exact fun _ => rfl | exact fun h => Bool.noConfusion (show false = true from h)))
    obtain ⟨_, _, hS3, hd3, hs3, hl3⟩ := ih4 rfl hp (hQ.of (by sfx)) (.inl (.mk hS5.ins))
    exact ⟨_, _, (.mk (.cons hS3.ins)), .withStmt a1 a2 a3 hd3 a5 hd5 rfl, by sim, by count⟩
  case switchStmt a1 a2 a3 a4 a5 a6 a7 a8 a9 ih3 ih6 =>
    intro hk hp hQ rest' hF
    have q2 := a3.suffix
    have q5 := a6.suffix
    obtain ⟨_, _, hS5, hd5, hs5, hl5⟩ := ih6 rfl hp (hQ.of (by sfx)) (.inl (.mk hF.ins))
    obtain ⟨_, _, hS2, hd2, hs2, hl2⟩ := ih3 rfl hp (hQ.of (by sfx)) (.inl (.mk (.cons hS5.ins)))
    exact ⟨_, _, .mk (.cons hS2.ins), .switchStmt a1 a2 hd2 a4 a5 hd5 a7
      (by rw [defaults _ hs5 rfl]; exact a8) rfl, .sSwitch hs2 hs5, by count⟩
  case casesNil  =>
    intro hk hp hQ rest' hF
    have hS := (hF.same rfl)
    exact ⟨_, _, hS, .casesNil , by sim, by count⟩
  case casesCons a1 a2 ih1 ih2 =>
    intro hk hp hQ rest' hF
    have q0 := a1.suffix
    have q1 := a2.suffix
    obtain ⟨_, _, hS1, hd1, hs1, hl1⟩ := ih2 rfl hp (hQ.of (by sfx)) (hF.mono (by first | exact fun _ => rfl | exact fun h => Bool.noConfusion (show false = true from h)))
    obtain ⟨_, _, hS0, hd0, hs0, hl0⟩ := ih1 rfl hp (hQ.of (by sfx)) (.inl hS1)
    have hS := hS0
    exact ⟨_, _, hS, .casesCons hd0 hd1, by sim, by count⟩
  case case a1 a2 a3 a4 a5 ih2 ih4 =>
    intro hk hp hQ rest' hF
    have q1 := a2.suffix
    have q3 := a4.suffix
    obtain ⟨_, _, hS3, hd3, hs3, hl3⟩ := ih4 rfl hp (hQ.of (by sfx)) (hF.mono (by first | exact fun _ => rfl | exact fun h => Bool.noConfusion (show false = true from h)))
    obtain ⟨_, _, hS1, hd1, hs1, hl1⟩ := ih2 rfl hp (hQ.of (by sfx)) (.inl (.mk hS3.ins))
    exact ⟨_, _, (.mk hS1.ins), .case a1 hd1 a3 hd3 rfl, by sim, by count⟩
  case default a1 a2 a3 a4 ih3 =>
    intro hk hp hQ rest' hF
    have q2 := a3.suffix
    obtain ⟨_, _, hS2, hd2, hs2, hl2⟩ := ih3 rfl hp (hQ.of (by sfx)) (hF.mono (by first | exact fun _ => rfl | exact fun h => Bool.noConfusion (show false = true from h)))
    exact ⟨_, _, (.mk (.cons hS2.ins)), .default a1 a2 hd2 rfl, by sim, by count⟩
  case labelStmt a1 a2 a3 a4 ih4 =>
    intro hk hp hQ rest' hF
    have q3 := a4.suffix
    obtain ⟨_, _, hS4, hd4, hs4, hl4⟩ := ih4 rfl hp (hQ.of (by sfx)) (.inl (hF.same rfl))
    exact ⟨_, _, .mk (.cons hS4.ins), .labelStmt a1 a2 a3 (isLoop_similar hs4 ▸ hd4), .sLabel rfl hs4, by count⟩
  case tryStmt a1 a2 a3 a4 a5 a6 ih2 ih3 ih4 =>
    intro hk hp hQ rest' hF
    have q1 := a2.suffix
    have q2 := a3.suffix
    have q3 := a4.suffix
    obtain ⟨_, _, hS4, hd4, hs4, hl4⟩ := ih4 rfl hp (hQ.of (by sfx)) (.inl (hF.same rfl))
    obtain ⟨_, _, hS3, hd3, hs3, hl3⟩ := ih3 rfl hp (hQ.of (by sfx)) (.inl hS4)
    obtain ⟨_, _, hS2, hd2, hs2, hl2⟩ := ih2 rfl hp (hQ.of (by sfx)) (.inl hS3)
    exact ⟨_, _, .mk hS2.ins, .tryStmt a1 hd2 hd3 hd4 (a5.imp (notNone hs3) (notNone hs4)) rfl,
      .sTry hs2 hs3 hs4, by count⟩
  case catchNone  =>
    intro hk hp hQ rest' hF
    have hS := (hF.same rfl)
    exact ⟨_, _, hS, .catchNone , by sim, by count⟩
  case catchSome a1 a2 a3 a4 a5 a6 ih3 ih5 =>
    intro hk hp hQ rest' hF
    have q2 := a3.suffix
    have q4 := a5.suffix
    obtain ⟨_, _, hS4, hd4, hs4, hl4⟩ := ih5 rfl hp (hQ.of (by sfx)) (hF.mono (by first | exact fun _ => rfl | exact fun h => Bool.noConfusion (show false = true from h)))
    obtain ⟨_, _, hS2, hd2, hs2, hl2⟩ := ih3 rfl hp (hQ.of (by sfx)) (.inl (.mk hS4.ins))
    exact ⟨_, _, (.mk (.cons hS2.ins)), .catchSome a1 a2 hd2 a4 hd4 rfl, by sim, by count⟩
  case finallyNone a1 =>
    intro hk hp hQ rest' hF
    have hS := (hF.same rfl)
    exact ⟨_, _, hS, .finallyNone (nextIsNot hF.foll a1 (by rintro (h | h) <;> cases h)), by sim, by count⟩
  case finallySome a1 a2 ih2 =>
    intro hk hp hQ rest' hF
    have q1 := a2.suffix
    obtain ⟨_, _, hS1, hd1, hs1, hl1⟩ := ih2 rfl hp (hQ.of (by sfx)) (hF.mono (by first | exact fun _ => rfl | exact fun h => Bool.noConfusion (show false = true from h)))
    exact ⟨_, _, (.mk hS1.ins), .finallySome a1 hd1, by sim, by count⟩
  case debuggerStmt a1 a2 a3 =>
    intro hk hp hQ rest' hF
    have q1 := a2.suffix
    obtain ⟨_, _, hS1, hd1, hl1⟩ := term a2 (hQ.of (by sfx)) (hF.same rfl)
    exact ⟨_, _, (.mk hS1.ins), .debuggerStmt a1 hd1 rfl, by sim, by count⟩

end Closing

end Esprit
