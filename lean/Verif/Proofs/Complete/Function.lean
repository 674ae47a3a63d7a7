import Verif.Proofs.Complete.Ops

/-! Properties, functions, bodies. -/

set_option linter.unusedSectionVars false
set_option linter.unusedVariables false

namespace Esprit

open Lex ReaderSpec Grammar

theorem NextSat.is {v : TokenData} {inp : List Token} (h : NextSat (some (· = v)) inp) :
    NextIs inp v := by
  obtain ⟨t, r, h1, h2⟩ := h
  exact ⟨t, r, h1, of_decide_eq_true h2⟩

namespace P

variable [Env] [LawfulEnv] {S : Str} {L : LocSpec} {env : Scope} {s s1 s2 s' : PState} {t t0 t1 t2 t3 : Token}
  {ts inp rest i1 i2 i3 : List Token} {α β γ : Type} {c : Cat} {r : Rec} {n N k : Nat}
  {e e1 e2 a d : Expr}

/-! ### Names and patterns -/

theorem cp.id {bd : Bool} {i : Id} {Q : Id → PState → Prop} (hs : Ahead S env s (t :: ts))
    (hi : Ident env bd t i) (hq : ∀ s', Ahead S env s' ts → Q i s') : cp (P.id bd) s Q := by
  obtain ⟨nm, hv, rfl, hok⟩ := hi.value
  unfold P.id
  refine .bind (.read hs (.inl (inMode_of hv rfl)) fun s1 _ h1 => ?_)
  rw [hv]
  exact .newId h1 hok fun s2 _ h2 => hq s2 h2

theorem comp_name {i : Id} (hi : Ident env true t i) :
    Yields S env getName (t :: rest) rest (.ident i) := by
  intro s hs
  exact .bind (.id hs hi fun s1 h1 => ⟨rfl, h1⟩)

theorem comp_nameNone (hr : NextIs inp .lParen) : Yields S env getNameOpt inp inp .none := by
  intro s hs
  obtain ⟨t, r, rfl, hv⟩ := hr
  unfold getNameOpt idOpt
  refine .bind (.bind (.read hs (.inl (inMode_of hv rfl)) fun s1 hstr h1 => ?_))
  rw [hv]
  exact .bind (.unread h1 hstr fun s2 _ h2 => ⟨rfl, h2⟩)

theorem comp_nameSome {x : Ast .id} (h : Derives L env .name inp rest x) :
    Yields S env getNameOpt inp rest (.some x) := by
  intro s hs
  cases h with
  | name hi =>
    obtain ⟨nm, hv, rfl, hok⟩ := hi.value
    unfold getNameOpt idOpt
    refine .bind (.bind (.read hs (.inl (inMode_of hv rfl)) fun s1 hstr h1 => ?_))
    rw [hv]
    exact .bind (.newId h1 hok fun s2 _ h2 => ⟨rfl, h2⟩)

theorem comp_pattern {i : Id} (hi : Ident env true t i) :
    Yields S env pattern (t :: rest) rest (.pSimple (.ident i)) := by
  intro s hs
  obtain ⟨nm, hv, -, -⟩ := hi.value
  unfold pattern
  refine .bind (.peek hs (.inl (inMode_of hv rfl)) fun s1 _ h1 => ?_)
  rw [hv]
  exact .bind (.id h1 hi fun s2 h2 => ⟨rfl, h2⟩)

/-! ### Parameters -/

theorem comp_paramsNil : CParamItems S env inp inp (.params none .nil .none) := by
  intro hr acc N s hs
  obtain ⟨t, r, rfl, hv⟩ := hr
  refine .loopN fun M _ => ?_
  unfold paramsStep
  refine .bind (.peek hs (.inl (inMode_of hv rfl)) fun s1 _ h1 => ?_)
  rw [hv]
  exact ⟨.nil h1, rfl⟩

theorem comp_paramsRest {l : Loc} {p : PattId} (hv : t.value = .ellipsis)
    (h : Yields S env pattern i1 rest p) :
    CParamItems S env (t :: i1) rest (.params none .nil (.some (.restPatt l p))) := by
  intro hr acc N s hs
  refine .loopN fun M _ => ?_
  unfold paramsStep
  refine .bind (.peek hs (.inl (inMode_of hv rfl)) fun s1 _ h1 => ?_)
  rw [hv]
  refine .bind (.span (.bind (.reread h1 fun s2 _ h2 => ?_)))
  refine h.bind h2 fun p' s3 hp h3 l => ?_
  exact ⟨.nil h3, Ut.some (Ut.restPatt hp)⟩

theorem comp_paramsLast {p : PattId} (h : Yields S env pattern inp rest p)
    (hf : NextSat (some isIdent) inp) :
    CParamItems S env inp rest (.params none (.cons p .nil) .none) := by
  intro hr acc N s hs
  obtain ⟨t, r, rfl, hv⟩ := hf
  obtain ⟨t2, r2, rfl, hv2⟩ := hr
  refine .loopN fun M _ => ?_
  unfold paramsStep
  refine .bind (.peek hs (.inl (inMode_of_start hv)) fun s1 _ h1 => ?_)
  split
  · rename_i hh; rw [hh] at hv; cases hv
  · rename_i hh; rw [hh] at hv; cases hv
  · refine h.bind h1 fun p' s3 hp h3 => ?_
    refine .bind (.matchesNo h3 (by rw [hv2]; nofun) (.inl (inMode_of hv2 rfl)) fun s4 _ h4 => ?_)
    exact ⟨.last h4 hp, rfl⟩

theorem comp_paramsCons {p : PattId} {ps : Ast (.list (.patt .id))} {r : Ast (.opt (.rest .id))}
    (h : Yields S env pattern inp (t :: i1) p) (hf : NextSat (some isIdent) inp)
    (hv : t.value = .comma) (h2 : CParamItems S env i1 rest (.params none ps r)) :
    CParamItems S env inp rest (.params none (.cons p ps) r) := by
  intro hr acc N s hs
  obtain ⟨t', r, rfl, hv'⟩ := hf
  refine .loopN fun M _ => ?_
  unfold paramsStep
  refine .bind (.peek hs (.inl (inMode_of_start hv')) fun s1 _ h1 => ?_)
  split
  · rename_i hh; rw [hh] at hv'; cases hv'
  · rename_i hh; rw [hh] at hv'; cases hv'
  · refine h.bind h1 fun p' s3 hp h3 => ?_
    refine .bind (.matchesYes h3 hv fun s4 h4 => ?_)
    exact (h2 hr (acc ++ [p']) M s4 h4).mono fun z s5 ⟨h5, h6⟩ => ⟨h5.cons hp, h6⟩

theorem comp_params {l : Loc} {ps : Ast (.list (.patt .id))} {r : Ast (.opt (.rest .id))}
    (hv : t.value = .lParen) (h : CParamItems S env i1 (t2 :: rest) (.params none ps r))
    (hv2 : t2.value = .rParen) :
    Yields S env formalParameters (t :: i1) rest (.params l ps r) := by
  intro s hs
  unfold formalParameters
  refine .span (.bind (.expect hs hv fun s1 h1 => ?_))
  refine .bind (.loop fun N => (h ⟨_, _, rfl, hv2⟩ [] N s1 h1).mono fun z s2 ⟨h2, h3⟩ => ?_)
  obtain ⟨h4, h5⟩ := h2.start
  exact .bind (.expect h5 hv2 fun s3 h6 l => ⟨Ut.params h4 h3, h6⟩)

/-! ### Bodies -/

theorem Dir.pragma_ne' {lit : StringLiteral} (h : StrOk t) (hv : t.value = .string lit)
    (l : Loc) (semi : Semi) : (Dir.mk l lit semi).pragma ≠ c!"use strict" ∧
      (Dir.mk l lit semi).pragma ≠ c!"use module" := by
  obtain ⟨x, hx, hq⟩ := h lit hv
  have : (Dir.mk l lit semi).pragma = x := by simp [Dir.pragma, hx]
  rw [this]
  constructor <;> (rintro rfl; revert hq; decide)

theorem comp_directive {nt : NT (.list c)} {ds : List Dir} {items : Ast (.list c)} {l l0 l1 : Loc}
    {lit : StringLiteral} {semi : Semi}
    (hv : t.value = .string lit) (hc : ∃ t2 r, i1 = t2 :: r ∧ ¬ Continues t2)
    (ht : Term false i1 i2 semi) (h : CPrologue S env nt i2 rest (.body l0 ds items)) :
    CPrologue S env nt (t :: i1) rest (.body l1 (⟨l, lit, semi⟩ :: ds) items) := by
  intro hn acc N s hs
  obtain ⟨t2, r, rfl, hc⟩ := hc
  have hd : NoDivision (t2 :: r) := by
    intro t' r' he
    obtain ⟨rfl, rfl⟩ := List.cons.inj he
    exact ⟨fun hh => hc (.inl (by rw [hh]; simp [continuers])),
      fun hh => hc (.inl (by rw [hh]; simp [continuers]))⟩
  refine .loopN fun M _ => ?_
  unfold directivesStep matchDirectiveOpt
  refine .bind (.posn_bind (.bind (.read hs (.inl (inMode_of hv rfl)) fun s1 hstr h1 => ?_)))
  rw [hv]
  refine .bind (.peek h1 (.inl hd.inMode) fun s2 _ h2 => ?_)
  rw [if_pos (by simpa using fun hh => hc ((expressionContinuation_iff _).1 hh))]
  refine .bind (.endWithAutoSemi (nl := .required) h2 ht (fun he => he ▸ hd) fun l' semi' s3 h3 => ?_)
  obtain ⟨p1, p2⟩ := Dir.pragma_ne' hstr hv l' semi'
  have p1' : Dir.pragma (Tracking.setLoc l' (Dir.mk none lit semi')) ≠ c!"use strict" := p1
  have p2' : Dir.pragma (Tracking.setLoc l' (Dir.mk none lit semi')) ≠ c!"use module" := p2
  refine .get_bind ?_
  rw [if_neg p1', if_neg (by simp [p2'])]
  refine .pure_bind ?_
  refine (h hn (acc ++ [_]) M s3 h3).mono ?_
  rintro ds' s4 ⟨ys, i3, rfl, h5, h6, h7, h8⟩
  refine ⟨Tracking.setLoc l' (Dir.mk none lit semi') :: ys, i3, (by simp), ?_, ?_, h7, h8⟩
  · simp only [List.map_cons, h5]
    congr 1
  · intro d hd
    rcases List.mem_cons.1 hd with rfl | hd
    · exact ⟨p1', p2'⟩
    · exact h6 d hd

theorem comp_prologueEnd {nt : NT (.list c)} {items : Ast (.list c)} {l : Loc}
    (hn : ¬ StartsDirective inp)
    (hd : ∀ t r lit, inp = t :: r → t.value = .string lit → NoDivision r)
    (h2 : isItems nt = true → (∃ t r, inp = t :: r ∧ t.value.inMode false = true) ∧
      ∀ t r lit, inp = t :: r → t.value = .string lit → ∃ t2 r2, r = t2 :: r2)
    (h : CItems S env nt inp rest items) :
    CPrologue S env nt inp rest (.body l [] items) := by
  intro hi acc N s hs
  obtain ⟨⟨t, r, rfl, hm⟩, h3⟩ := h2 hi
  refine .loopN fun M _ => ?_
  unfold directivesStep matchDirectiveOpt
  refine .bind (.posn_bind (.bind (.read hs (.inl hm) fun s1 hstr h1 => ?_)))
  split
  · rename_i lit hv
    obtain ⟨t2, r2, rfl⟩ := h3 t r lit rfl hv
    have := hd t _ lit rfl hv
    refine .bind (.peek h1 (.inl this.inMode) fun s2 _ h4 => ?_)
    rw [if_neg ?_]
    · exact .bind (.unread h4 hstr fun s3 _ h5 => ⟨[], _, by simp, rfl, by simp, h5, h⟩)
    · intro hh
      refine hn ⟨t, t2, r2, lit, rfl, hv, fun hc => ?_⟩
      rw [(expressionContinuation_iff _).2 hc] at hh
      cases hh
  · exact .bind (.unread h1 hstr fun s3 _ h5 => ⟨[], _, by simp, rfl, by simp, h5, h⟩)

theorem cp.scriptBody {x : Script} {Q : Script → PState → Prop} (hs : Ahead S env s inp)
    (h : CPrologue S env .items inp rest x)
    (hq : ∀ b s', b.untrack = x.untrack → (∀ d ∈ dirsOf b, Dir.pragma d ≠ c!"use strict") →
      Ahead S env s' rest → Q b s') : cp (P.scriptBody (recOf n)) s Q := by
  cases x with
  | body l ds items =>
    unfold P.scriptBody bodyDirectives statementList
    refine .span (.bind (.loop fun N => (h rfl [] N s hs).mono ?_))
    rintro ds' s1 ⟨ys, i1, rfl, h1, h2, h3, h4⟩
    refine .bind (.loop fun N => (h4 n [] N s1 h3).mono fun zs s2 h5 l => ?_)
    obtain ⟨h6, h7⟩ := h5.start
    refine hq _ s2 (Ut.body h1 h6) ?_ h7
    intro d hd
    exact (h2 d hd).1

theorem comp_functionBody {x : Script} (hv : t.value = .lBrace)
    (h : CPrologue S env .items i1 (t2 :: rest) x) (hv2 : t2.value = .rBrace) :
    CFunctionBody S env (t :: i1) rest x := by
  rintro env0 rfl n ps s hs
  unfold functionBody
  refine .get_bind (.modify_bind ?_)
  have hA : Ahead S env0.functionBody { s with ctx := s.ctx.newFunction } (t :: i1) := by
    refine hs.change rfl ?_
    obtain ⟨a1, a2, a3, a4, a5, a6, a7⟩ := hs.fits
    exact ⟨a1, a2, rfl, rfl, rfl, rfl, by intro n b h; cases h⟩
  refine .bind (.expect hA hv fun s1 h1 => ?_)
  refine .bind (.scriptBody h1 h fun b s2 hb hd h2 => ?_)
  have hno : functionBodyCheck ps (dirsOf b) = none := by
    unfold functionBodyCheck
    rw [if_neg]
    simpa using hd
  rw [hno]
  refine .bind (.strictCheckPure h2 (fun _ _ => nofun) (fun _ _ => nofun) fun s3 _ h3 => ?_)
  refine .bind (.expect h3 hv2 fun s4 h4 => .modify_bind ⟨hb, h4.change rfl ?_⟩)
  obtain ⟨a1, a2, a3, a4, a5, a6, a7⟩ := hs.fits
  exact ⟨a1, h4.fits.module, a3, a4, a5, a6, a7⟩

/-! ### Functions -/

theorem comp_func {nt : NT c} {x : Ast c} {l : Loc} {ps : Ast .params} {b : Script}
    (hv : t.value = .reserved .function)
    (hx : ∀ g, getIdOf nt = some g → Yields S env g i1 i2 x ∧
      ∃ t2 r, i1 = t2 :: r ∧ t2.value.inMode false = true ∧ t2.value ≠ .star)
    (hp : Yields S env formalParameters i2 i3 ps)
    (hb : CFunctionBody S env.functionBody i3 rest b) :
    CFunc S env nt (t :: i1) rest (.func l x ps b false) := by
  intro n g hg s hs
  obtain ⟨h1, t2, r, rfl, hm, hne⟩ := hx g hg
  unfold function
  refine .span (.bind (.reread hs fun s1 _ h2 => ?_))
  refine .bind (.matchesNo h2 hne (.inl hm) fun s2 _ h3 => ?_)
  refine h1.bind h3 fun x' s3 hx h4 => ?_
  refine hp.bind h4 fun p' s4 hp h5 => ?_
  exact (hb env rfl n _).bind h5 fun b' s5 hb h6 l => ⟨Ut.func hx hp hb, h6⟩

theorem comp_funcGenerator {nt : NT c} {x : Ast c} {l : Loc} {ps : Ast .params} {b : Script}
    (hv : t.value = .reserved .function) (hv2 : t2.value = .star)
    (hx : ∀ g, getIdOf nt = some g → Yields S env g i1 i2 x)
    (hp : Yields S env formalParameters i2 i3 ps)
    (hb : CFunctionBody S env.functionBody i3 rest b) :
    CFunc S env nt (t :: t2 :: i1) rest (.func l x ps b true) := by
  intro n g hg s hs
  unfold function
  refine .span (.bind (.reread hs fun s1 _ h2 => ?_))
  refine .bind (.matchesYes h2 hv2 fun s2 h3 => ?_)
  refine (hx g hg).bind h3 fun x' s3 hx h4 => ?_
  refine hp.bind h4 fun p' s4 hp h5 => ?_
  exact (hb env rfl n _).bind h5 fun b' s5 hb h6 l => ⟨Ut.func hx hp hb, h6⟩

/-! ### Properties -/

theorem cp.propertyKeyOptYes {k : PropKey} {Q : Option PropKey → PState → Prop}
    (hs : Ahead S env s (t :: ts)) (hk : PropName t k)
    (hq : ∀ s', Ahead S env s' ts → Q (some k) s') : cp propertyKeyOpt s Q := by
  unfold propertyKeyOpt
  have hm : t.value.inMode false = true := by cases hk <;> (rename_i h; rw [h]; rfl)
  refine .bind (.read hs (.inl hm) fun s1 _ h1 => ?_)
  cases hk with
  | id h => rw [h]; exact hq s1 h1
  | word h => rw [h]; exact hq s1 h1
  | string h => rw [h]; exact hq s1 h1
  | number h => rw [h]; exact hq s1 h1

theorem cp.propertyKeyOptNo {Q : Option PropKey → PState → Prop}
    (hs : Ahead S env s (t :: ts))
    (hk : t.value = .colon ∨ t.value = .lParen ∨ t.value = .comma ∨ t.value = .rBrace)
    (hq : ∀ s', Ahead S env s' (t :: ts) → Q none s') : cp propertyKeyOpt s Q := by
  unfold propertyKeyOpt
  have hm : t.value.inMode false = true := by rcases hk with h | h | h | h <;> (rw [h]; rfl)
  refine .bind (.read hs (.inl hm) fun s1 hstr h1 => ?_)
  rcases hk with h | h | h | h <;> rw [h] <;>
    exact .bind (.unread h1 hstr fun s2 _ h2 => hq s2 h2)

theorem cp.propertyKey {k : PropKey} {Q : PropKey → PState → Prop}
    (hs : Ahead S env s (t :: ts)) (hk : PropName t k)
    (hq : ∀ s', Ahead S env s' ts → Q k s') : cp P.propertyKey s Q := by
  unfold P.propertyKey
  exact .bind (.propertyKeyOptYes hs hk fun s1 h1 => hq s1 h1)

theorem cp.objectProperty {k : PropKey} {Q : Ast .prop → PState → Prop}
    (hs : Ahead S env s (t :: t2 :: ts)) (hk : PropName t k)
    (h2 : t2.value = .colon ∨ t2.value = .lParen ∨
      ((t2.value = .comma ∨ t2.value = .rBrace) ∧ ∃ n, t.value = .identifier n))
    (hq : ∀ s', Ahead S env s' (t2 :: ts) → cp (morePropInit (recOf n) k) s' Q) :
    cp (P.objectProperty (recOf n)) s Q := by
  have hm : t.value.inMode false = true := by cases hk <;> (rename_i h; rw [h]; rfl)
  have h3 : t2.value = .colon ∨ t2.value = .lParen ∨ t2.value = .comma ∨ t2.value = .rBrace := by
    rcases h2 with h | h | ⟨h | h, -⟩ <;> simp [h]
  have hm2 : t2.value.inMode false = true := by
    rcases h3 with h | h | h | h <;> (rw [h]; rfl)
  unfold P.objectProperty
  refine .bind (.read hs (.inl hm) fun s1 hstr h1 => ?_)
  split
  · rename_i hv
    refine .bind (.propertyKeyOptNo h1 h3 fun s2 h4 => ?_)
    cases hk with
    | id h => rw [hv] at h; cases h; exact hq s2 h4
    | word h => rw [hv] at h; cases h
    | string h => rw [hv] at h; cases h
    | number h => rw [hv] at h; cases h
  · rename_i hv
    refine .bind (.propertyKeyOptNo h1 h3 fun s2 h4 => ?_)
    cases hk with
    | id h => rw [hv] at h; cases h; exact hq s2 h4
    | word h => rw [hv] at h; cases h
    | string h => rw [hv] at h; cases h
    | number h => rw [hv] at h; cases h
  · rename_i hv
    cases hk <;> (rename_i h; rw [hv] at h; cases h)
  · rename_i w hv
    refine .bind (.peek h1 (.inl hm2) fun s2 _ h4 => ?_)
    split
    · rename_i hv2
      rcases h2 with h | h | ⟨h | h, ⟨n, h'⟩⟩
      · rw [h] at hv2; cases hv2
      · rw [h] at hv2; cases hv2
      · rw [hv] at h'; cases h'
      · rw [h] at hv2; cases hv2
    · rename_i hv2
      rcases h2 with h | h | ⟨h | h, ⟨n, h'⟩⟩
      · rw [h] at hv2; cases hv2
      · rw [h] at hv2; cases hv2
      · rw [h] at hv2; cases hv2
      · rw [hv] at h'; cases h'
    · refine .bind (.unread h4 hstr fun s3 _ h5 => ?_)
      exact .bind (.propertyKey h5 hk fun s4 h6 => hq s4 h6)
  · refine .bind (.unread h1 hstr fun s3 _ h5 => ?_)
    exact .bind (.propertyKey h5 hk fun s4 h6 => hq s4 h6)

theorem comp_propInit {k : PropKey} {l : Loc} (hk : PropName t k) (hv : t2.value = .colon)
    (h : ∀ n, Yields S (env.withIn true) (recOf n).assign i1 rest e) (n : Nat) :
    Yields S env (objectProperty (recOf n)) (t :: t2 :: i1) rest (.prRegular l k (.vInit e)) := by
  intro s hs
  refine .objectProperty hs hk (.inl hv) fun s1 h1 => ?_
  unfold morePropInit
  refine .bind (.peek h1 (.inl (inMode_of hv rfl)) fun s2 hl h2 => ?_)
  rw [hv]
  refine .bind (.skip h2 (.inr hl) fun s3 _ h3 => ?_)
  exact (h n).allowIn.bind h3 fun e' s4 he h4 => ⟨Ut.prRegular (Ut.vInit he), h4⟩

theorem comp_propShorthand {nm : Name} (hv : t.value = .identifier nm)
    (hok : env.IdOk false (.from nm.intoString)) (hr : NextIs rest .comma ∨ NextIs rest .rBrace)
    (n : Nat) :
    Yields S env (objectProperty (recOf n)) (t :: rest) rest
      (.prShorthand ⟨some t.location, .from nm.intoString⟩) := by
  intro s hs
  have hr' : ∃ t2 r, rest = t2 :: r ∧ (t2.value = .comma ∨ t2.value = .rBrace) := by
    rcases hr with ⟨t2, r, rfl, h⟩ | ⟨t2, r, rfl, h⟩
    · exact ⟨t2, r, rfl, .inl h⟩
    · exact ⟨t2, r, rfl, .inr h⟩
  obtain ⟨t2, r, rfl, hv2⟩ := hr'
  refine .objectProperty hs (.id hv) (.inr (.inr ⟨hv2, _, hv⟩)) fun s1 h1 => ?_
  unfold morePropInit
  have hm2 : t2.value.inMode false = true := by rcases hv2 with h | h <;> (rw [h]; rfl)
  refine .bind (.peek h1 (.inl hm2) fun s2 hl h2 => ?_)
  rcases hv2 with h | h <;> rw [h] <;> exact .bind (.newId h2 hok fun s3 _ h3 => ⟨rfl, h3⟩)

theorem comp_propMethod {k : PropKey} {l : Loc} {ps : Ast .params} {b : Script} (hk : PropName t k)
    (hf : NextIs i1 .lParen) (hp : Yields S env formalParameters i1 i2 ps)
    (hb : CFunctionBody S env.functionBody i2 rest b) (n : Nat) :
    Yields S env (objectProperty (recOf n)) (t :: i1) rest
      (.prMethod (.func l (.key k) ps b false)) := by
  intro s hs
  obtain ⟨t2, r, rfl, hv⟩ := hf
  refine .objectProperty hs hk (.inr (.inl hv)) fun s1 h1 => ?_
  unfold morePropInit
  refine .bind (.peek h1 (.inl (inMode_of hv rfl)) fun s2 hl h2 => ?_)
  rw [hv]
  refine hp.bind h2 fun p' s4 hp h5 => ?_
  exact (hb env rfl n _).bind h5 fun b' s5 hb h6 => ⟨Ut.prMethod (Ut.func rfl hp hb), h6⟩

theorem comp_propGenerator {k : PropKey} {l : Loc} {ps : Ast .params} {b : Script}
    (hv : t0.value = .star) (hk : PropName t k)
    (hp : Yields S env formalParameters i1 i2 ps)
    (hb : CFunctionBody S env.functionBody i2 rest b) (n : Nat) :
    Yields S env (objectProperty (recOf n)) (t0 :: t :: i1) rest
      (.prMethod (.func l (.key k) ps b true)) := by
  intro s hs
  unfold objectProperty
  refine .bind (.read hs (.inl (inMode_of hv rfl)) fun s1 hstr h1 => ?_)
  rw [hv]
  refine .bind (.propertyKey h1 hk fun s2 h2 => ?_)
  refine hp.bind h2 fun p' s4 hp h5 => ?_
  exact (hb env rfl n _).bind h5 fun b' s5 hb h6 => ⟨Ut.prMethod (Ut.func rfl hp hb), h6⟩

theorem comp_propGet {k : PropKey} {l l' : Loc} {b : Script}
    (hv : t0.value = .identifier (.atom .get)) (hk : PropName t k) (hv1 : t1.value = .lParen)
    (hv2 : t2.value = .rParen) (hb : CFunctionBody S env.functionBody i1 rest b) (n : Nat) :
    Yields S env (objectProperty (recOf n)) (t0 :: t :: t1 :: t2 :: i1) rest
      (.prRegular l k (.vGet l' b)) := by
  intro s hs
  unfold objectProperty
  refine .bind (.read hs (.inl (inMode_of hv rfl)) fun s1 hstr h1 => ?_)
  rw [hv]
  refine .bind (.propertyKeyOptYes h1 hk fun s2 h2 => ?_)
  refine .bind (.expect h2 hv1 fun s3 h3 => .bind (.expect h3 hv2 fun s4 h4 => ?_))
  exact (hb env rfl n _).bind h4 fun b' s5 hb h6 => ⟨Ut.prRegular (Ut.vGet hb), h6⟩

theorem comp_propSet {k : PropKey} {l l' : Loc} {b : Script} {p : PattId}
    (hv : t0.value = .identifier (.atom .set)) (hk : PropName t k) (hv1 : t1.value = .lParen)
    (hp : Yields S env pattern i1 (t2 :: i2) p)
    (hv2 : t2.value = .rParen) (hb : CFunctionBody S env.functionBody i2 rest b) (n : Nat) :
    Yields S env (objectProperty (recOf n)) (t0 :: t :: t1 :: i1) rest
      (.prRegular l k (.vSet l' p b)) := by
  intro s hs
  unfold objectProperty
  refine .bind (.read hs (.inl (inMode_of hv rfl)) fun s1 hstr h1 => ?_)
  rw [hv]
  refine .bind (.propertyKeyOptYes h1 hk fun s2 h2 => ?_)
  refine .bind (.expect h2 hv1 fun s3 h3 => ?_)
  refine hp.bind h3 fun p' s4 hp h4 => .bind (.expect h4 hv2 fun s5 h5 => ?_)
  exact (hb env rfl n _).bind h5 fun b' s6 hb h6 => ⟨Ut.prRegular (Ut.vSet hp hb), h6⟩

theorem comp_propsNil (hr : NextIs inp .rBrace) :
    CLoop S env (fun n => objectStep (recOf n)) inp inp .nil := by
  intro n acc N s hs
  obtain ⟨t, r, rfl, hv⟩ := hr
  refine .loopN fun M _ => ?_
  unfold objectStep
  refine .bind (.peek hs (.inl (inMode_of hv rfl)) fun s1 _ h1 => ?_)
  rw [(eqv_true rfl).2 hv]
  exact .nil h1

theorem comp_propsLast {x : Ast .prop} (h : ∀ n, Yields S env (objectProperty (recOf n)) inp rest x)
    (hf : NextSat (some propStart) inp) (hr : NextIs rest .rBrace) :
    CLoop S env (fun n => objectStep (recOf n)) inp rest (.cons x .nil) := by
  intro n acc N s hs
  obtain ⟨t, r, rfl, hv⟩ := hr
  obtain ⟨t0, r0, rfl, hv0⟩ := hf
  refine .loopN fun M _ => ?_
  unfold objectStep
  refine .bind (.peek hs (.inl (inMode_of_start hv0)) fun s1 _ h1 => ?_)
  rw [eqv_false rfl (ne_of_start hv0)]
  refine (h n).bind h1 fun a s2 ha h2 => ?_
  refine .bind (.matchesNo h2 (by rw [hv]; nofun) (.inl (inMode_of hv rfl)) fun s3 _ h3 => ?_)
  exact .last h3 ha

theorem comp_propsCons {x : Ast .prop} {xs : Ast (.list .prop)}
    (h : ∀ n, Yields S env (objectProperty (recOf n)) inp (t :: i1) x)
    (hf : NextSat (some propStart) inp) (hv : t.value = .comma)
    (ht : CLoop S env (fun n => objectStep (recOf n)) i1 rest xs) :
    CLoop S env (fun n => objectStep (recOf n)) inp rest (.cons x xs) := by
  intro n acc N s hs
  obtain ⟨t0, r0, rfl, hv0⟩ := hf
  refine .loopN fun M _ => ?_
  unfold objectStep
  refine .bind (.peek hs (.inl (inMode_of_start hv0)) fun s1 _ h1 => ?_)
  rw [eqv_false rfl (ne_of_start hv0)]
  refine (h n).bind h1 fun a s2 ha h2 => ?_
  refine .bind (.matchesYes h2 hv fun s3 h3 => ?_)
  exact (ht n _ _ _ h3).mono fun zs s' h4 => h4.cons ha

/-! ### Items -/

theorem comp_itemsNil (hv : t.value ∈ followsItems) :
    CItems S env .items (t :: rest) (t :: rest) .nil := by
  intro n acc N s hs
  have hm : t.value.inMode false = true := by
    simp only [followsItems, List.mem_cons, List.not_mem_nil, or_false] at hv
    rcases hv with h | h | h | h <;> (rw [h]; rfl)
  refine .loopN fun M _ => ?_
  unfold statementListStep
  refine .bind (.peek hs (.inl hm) fun s1 _ h1 => ?_)
  rw [(followStatementList_iff t).2 hv]
  exact .nil h1

theorem not_followsItems {v : TokenData} (h : stmtStart v = true) : v ∉ followsItems := by
  simp only [followsItems, List.mem_cons, List.not_mem_nil, or_false, not_or]
  refine ⟨?_, ?_, ?_, ?_⟩ <;> (rintro rfl; revert h; decide)

theorem comp_itemsCons {x : StmtListItem} {xs : Ast (.list .sitem)}
    (h : ∀ n, Yields S env ((recOf n).item true) inp i1 x) (hf : NextSat (some stmtStart) inp)
    (ht : CItems S env .items i1 rest xs) : CItems S env .items inp rest (.cons x xs) := by
  intro n acc N s hs
  obtain ⟨t0, r0, rfl, hv0⟩ := hf
  refine .loopN fun M _ => ?_
  unfold statementListStep
  refine .bind (.peek hs (.inl (inMode_of_start hv0)) fun s1 _ h1 => ?_)
  rw [if_pos (by simpa using fun hh => not_followsItems hv0 ((followStatementList_iff _).1 hh))]
  refine (h n).bind h1 fun a s2 ha h2 => ?_
  exact (ht n _ _ _ h2).mono fun zs s' h4 => h4.cons ha

end P

end Esprit
