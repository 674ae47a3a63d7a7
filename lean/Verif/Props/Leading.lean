import Verif.Spec.Wrap
import Verif.Spec.Join
import Verif.Proofs.Complete.JoinText
import Verif.Proofs.Complete.Lone
import Verif.Props.Exact
import Verif.Props.Layout

/-!
Whether a statement is the first of a program (C71): an empty statement in front of a program
does not matter, unless the program begins with a string literal.  A leading string literal
cannot be divided: the parser looks for the end of the directive in the mode of the lexer in
which `/` begins a regular expression.
-/

set_option linter.unusedSectionVars false

namespace Esprit

open Lex ReaderSpec Grammar

section Theorems

variable [Env] [LawfulEnv] {s : Str}

/-! ### The tokens of a text after a semicolon -/

private theorem tokenAt_det {s : Str} {op : Bool} {t t' : Token} {k k' : Nat}
    (h : TokenAt s 0 true op t k) (h' : TokenAt s 0 true op t' k') : t' = t ∧ k' = k := by
  obtain ⟨l, hl⟩ := readAll_complete (.cons h .nil) (Lexer.At.new s) rfl
  obtain ⟨l', hl'⟩ := readAll_complete (.cons h' .nil) (Lexer.At.new s) rfl
  rw [hl] at hl'
  obtain rfl : t' = t := by
    simp only [Res.ok.injEq, Prod.mk.injEq, List.cons.injEq, and_true] at hl'
    exact hl'.1.symm
  obtain ⟨w, x, y, e, -, -, -, -, -, -, a1, rfl⟩ := h
  obtain ⟨w', x', y', e', -, -, -, -, -, -, a2, rfl⟩ := h'
  exact ⟨rfl, by rw [← a1.offset, ← a2.offset]⟩

private theorem semi_at (z : Str) (op : Bool) :
    ∃ t, TokenAt (';' :: z) 0 true op t 1 ∧ t.value = .semi := by
  refine ⟨⟨⟨Posn.origin, posnFrom Posn.origin (';' :: z) 1⟩, false, .semi⟩, ⟨[], c!";", z, true, rfl, .nil,
    ⟨?_, ?_, ?_, ?_, ?_⟩, .punctuator ?_ ?_ nofun nofun, rfl, PosnAt.origin _,
    posnFrom_spec _ 1 (by simp), rfl⟩, rfl⟩
  · intro c hc
    cases hc
    decide +kernel
  · exact fun h => by cases (List.cons_prefix_cons.1 h).1
  · exact fun h => by cases (List.cons_prefix_cons.1 h).1
  · exact fun h => by cases (List.cons_prefix_cons.1 h).1
  · exact fun _ h => by cases (List.cons_prefix_cons.1 h).1
  · show (c!";", TokenData.semi) ∈ punctuators
    decide +kernel
  · intro x' v' hm hp
    have key : ∀ p ∈ punctuators, p.1.length ≤ 1 ∨ p.1.head? ≠ some ';' := by decide +kernel
    rcases key _ hm with h | h
    · exact h
    · cases x' with
      | nil => simp
      | cons c x' =>
        obtain ⟨rfl, _⟩ := List.cons_prefix_cons.1 hp
        exact absurd rfl h

private theorem eof_at (op : Bool) : ∃ t, TokenAt c!";" 1 false op t 1 ∧ t.value = .eof := by
  refine ⟨⟨⟨posnFrom Posn.origin c!";" 1, posnFrom Posn.origin c!";" 1⟩, false, .eof⟩,
    ⟨[], [], [], false, rfl, .nil, ⟨nofun, ?_, ?_, ?_, nofun⟩, .eof, rfl, posnFrom_spec _ 1 (by decide),
    posnFrom_spec _ 1 (by decide), rfl⟩, rfl⟩
  all_goals exact fun h => absurd (List.prefix_nil.1 h) (by decide)

/-- A semicolon, and then the tokens of the text. -/
private theorem tokens_after {op : Bool} {ops : List Bool} {ts : List Token} {k : Nat}
    (h : Tokens (c!" " ++ '\n' :: s) 0 true (op :: ops) ts k) :
    ∃ a, Tokens (c!";" ++ '\n' :: s) 0 true (false :: op :: ops) (a :: ts) k ∧ a.value = .semi := by
  obtain ⟨a, ha, hv⟩ := semi_at ('\n' :: s) false
  obtain ⟨b, hb, hbv⟩ := eof_at false
  refine ⟨a, .cons ha ?_, hv⟩
  cases h with
  | cons h1 h2 =>
    obtain ⟨h3, h4⟩ := Join.tokenAt_first (s1 := c!";") hb hbv (by decide) h1
    exact .cons h3 (Join.tokens_right (s1 := c!";") h2 h4)

private theorem tokens_left {k k' : Nat} {e : Bool} {ops : List Bool} {ts : List Token}
    (h : Tokens (c!";" ++ '\n' :: s) k e ops ts k') (hk : 0 < k) :
    Tokens (c!" " ++ '\n' :: s) k e ops ts k' := by
  induction h with
  | nil => exact .nil
  | @cons n _ _ _ _ _ _ _ h1 h2 ih =>
    obtain ⟨w, x, y, e', a1, a2, a3, a4, a5, a6, a7, rfl⟩ := h1
    have hp : ∀ i, endsLine (c!";" ++ '\n' :: s) i = endsLine (c!" " ++ '\n' :: s) i := fun i =>
      (Join.endsLine_blank (s1 := c!";") i).symm
    refine .cons ⟨w, x, y, e', ?_, a2, a3, a4, a5, Join.posnAt_congr a6 fun i _ => hp i,
      Join.posnAt_congr a7 fun i _ => hp i, rfl⟩ (ih (by omega))
    obtain ⟨n, rfl⟩ : ∃ m, n = m + 1 := ⟨n - 1, by omega⟩
    exact a1

/-- The converse. -/
private theorem tokens_before {ops : List Bool} {ts : List Token} {k : Nat}
    (h : Tokens (c!";" ++ '\n' :: s) 0 true ops ts k) (he : ∃ t ∈ ts, t.value = .eof) :
    ∃ a op ops' R, ts = a :: R ∧ a.value = .semi ∧
      Tokens (c!" " ++ '\n' :: s) 0 true (op :: ops') R k := by
  cases h with
  | nil => obtain ⟨t, ht, _⟩ := he; cases ht
  | @cons _ _ _ _ op ops t R h1 h2 =>
    obtain ⟨a, ha, hv⟩ := semi_at ('\n' :: s) op
    obtain ⟨rfl, rfl⟩ := tokenAt_det ha h1
    cases h2 with
    | nil =>
      obtain ⟨u, hu, hue⟩ := he
      cases List.mem_singleton.1 hu
      rw [hv] at hue
      cases hue
    | @cons _ _ _ _ op' ops' t' R h3 h4 =>
      refine ⟨t, op', ops', t' :: R, rfl, hv, ?_⟩
      obtain ⟨w, x, y, e', a1, a2, a3, a4, a5, a6, a7, rfl⟩ := h3
      have hp : ∀ i, endsLine (c!";" ++ '\n' :: s) i = endsLine (c!" " ++ '\n' :: s) i := fun i =>
        (Join.endsLine_blank (s1 := c!";") i).symm
      have a1' : '\n' :: s = w ++ (x ++ y) := a1
      obtain ⟨w', rfl, hw'⟩ := Join.blank_split (b := []) (by simp) (by decide) a1' a3
      have hl : 0 + (c!" " ++ '\n' :: w').length = 1 + ([] ++ '\n' :: w').length := by
        simp only [List.length_append, List.length_cons, List.length_nil]
        omega
      refine .cons ⟨c!" " ++ '\n' :: w', x, y, e', ?_, ?_, a3, a4, ?_, ?_, ?_, ?_⟩
        (tokens_left h4 (by omega))
      · rw [hw']
        rfl
      · have := Join.trivia_blank (b := []) (by simp) a2
        exact .space (by decide) (.newline (by decide) this)
      · rw [a5, Join.hasNewline_append, Join.hasNewline_append]
      · rw [hl]
        exact Join.posnAt_congr a6 fun i _ => hp i
      · rw [hl]
        exact Join.posnAt_congr a7 fun i _ => hp i
      · rw [hl]

/-! ### An empty statement in front -/

private theorem head_eof {L : LocSpec} {c : Cat} {env : Scope} {nt : NT c} {ts rest : List Token}
    {x : Ast c} (h : Derives L env nt ts rest x) (he : NextIs rest .eof) : ∃ t ∈ ts, t.value = .eof := by
  obtain ⟨t, r, rfl, ht⟩ := he
  exact ⟨t, h.suffix.subset (by simp), ht⟩

private theorem noDirective {a : Token} {i : List Token} (ha : ∀ s, a.value ≠ .string s) :
    ¬ StartsDirective (a :: i) ∧
      ∀ t r s, a :: i = t :: r → t.value = .string s → NoDivision r := by
  refine ⟨?_, ?_⟩
  · rintro ⟨t, t2, r, s, h1, h2, _⟩
    cases h1
    exact ha _ h2
  · intro t r s h1 h2
    cases h1
    exact absurd h2 (ha _)

private theorem distinct_cons {l l' l'' : Loc} {ds ds' : List Dir} {xs : Ast (.list .sitem)}
    (h : DistinctLabels (Ast.body l ds xs)) :
    DistinctLabels (Ast.body l' ds' (.cons (.siStmt (.sEmpty l'')) xs)) := by
  refine All.mk trivial ?_
  intro k hk
  obtain rfl : k = (Place.top, ⟨_, .cons (.siStmt (.sEmpty l'')) xs⟩) := by
    simpa [Ast.kids] using hk
  refine All.mk trivial ?_
  intro k hk
  have hk : k = (Place.top, ⟨_, .siStmt (.sEmpty l'')⟩) ∨ k = (Place.top, ⟨_, xs⟩) := by
    simpa [Ast.kids] using hk
  rcases hk with rfl | rfl
  · refine All.mk trivial ?_
    intro k hk
    obtain rfl : k = (Place.top, ⟨_, .sEmpty l''⟩) := by simpa [Ast.kids] using hk
    exact All.mk trivial (by intro k hk; simp [Ast.kids] at hk)
  · intro v y ho
    exact h v y (.under (by simp [Ast.kids]) ho)

/-- C71 (partial): a text that does not begin with a string literal is a program if and only if the
text is one in which a semicolon precedes it, on a line of its own; and the statements are an empty
one and then the statements of the text (up to locations and the origin of semicolons).  Missing:
texts that begin with a string literal, see `C71_fails`. -/
theorem C71_leading_partial (hf : ∀ v, FirstToken ('\n' :: s) v → ∀ x, v ≠ .string x)
    (xs : Ast (.list .sitem)) (hd : DistinctLabels (Ast.body none [] xs)) :
    (∃ c y, program ('\n' :: s) = .ok (.ambiguous c y) ∧ Ast.Similar y (.body none [] xs)) ↔
    ∃ c y, program (';' :: '\n' :: s) = .ok (.ambiguous c y) ∧
      Ast.Similar y (.body none [] (.cons (.siStmt (.sEmpty none)) xs)) := by
  have hfirst : ∀ {op ops t0 R k}, Tokens (c!" " ++ '\n' :: s) 0 true (op :: ops) (t0 :: R) k →
      ∀ x, t0.value ≠ .string x := by
    intro op ops t0 R k h
    obtain ⟨ts', k', h1, h2⟩ := Join.tokens_unblank (s1 := c!" ") h
    cases h1 with
    | @cons _ _ _ _ _ _ u us h1 _ =>
      simp only [List.map_cons, List.cons.injEq] at h2
      rw [← (Prod.mk.inj h2.1).2]
      exact hf _ ⟨_, _, _, h1, rfl⟩
  constructor
  · rintro ⟨c, y, hp, hy⟩
    obtain ⟨_, _, e0, ops0, ts0, k0, rest0, ht0, hD0, he0⟩ := C34_program _ _ hp
    cases e0
    have hany : ∀ op, ∃ t k, TokenAt ('\n' :: s) 0 true op t k := by
      intro op
      cases ht0 with
      | nil => obtain ⟨t, ht, _⟩ := head_eof hD0 he0; cases ht
      | cons h1 h2 =>
        obtain ⟨a1, a2⟩ := Join.body_slash hD0 he0
        exact Join.tokenAt_any h1 a1 a2 op
    have hb := Join.outcome_blank c!" " (C55_program_separators ('\n' :: s)) hany
    rw [hp] at hb
    cases hq : program (List.map Join.blank c!" " ++ '\n' :: s) with
    | err _ | panic _ | fuel => rw [hq] at hb; exact hb.elim
    | ok p =>
      rw [hq] at hb
      obtain ⟨c3, y2, e3, ops2, ts2, k2, rest2, ht2, hD2, he2⟩ := C34_program _ _ hq
      subst e3
      have hsim : Ast.Similar y2 (.body none [] xs) := by
        have : Program.blur _ = Program.blur _ := hb
        simp only [Program.blur, Program.ambiguous.injEq] at this
        exact (Ast.similar_of_blur this.2.symm).trans hy
      have hP := derives_plain ht2 hD2 rfl (distinctLabels_similar hsim hd)
      cases ht2 with
      | nil => obtain ⟨t, ht, _⟩ := head_eof hD2 he2; cases ht
      | cons h1 h2 =>
        have ht2 := Tokens.cons h1 h2
        cases hsim with
        | @body _ l3 _ ds3 _ xs3 _ hds hxs =>
          obtain ⟨rfl, hI⟩ := Join.no_directives (hfirst ht2) hP
          obtain ⟨a, ha, hv⟩ := tokens_after ht2
          obtain ⟨n1, n2⟩ := noDirective (i := _ :: _) (a := a) (by rw [hv]; nofun)
          have hJ := Derives.body (l := none) (.prologueEnd n1 n2 (.itemsCons (.itemStmt
            (.emptyStmt hv (L := Join.anyLoc) (l := none) trivial))
            (Join.mono (L' := Join.anyLoc) (fun _ _ _ _ => trivial) hI))) trivial
          obtain ⟨c', y', h3, h4⟩ := C50_program _ ha hJ he2
          exact ⟨c', y', h3, h4.trans (.body rfl (.cons (.siStmt .sEmpty) hxs))⟩
  · rintro ⟨c, y, hp, hy⟩
    obtain ⟨_, _, e0, ops0, ts0, k0, rest0, ht0, hD0, he0⟩ := C34_program _ _ hp
    cases e0
    have hP := derives_plain ht0 hD0 rfl (distinctLabels_similar hy (distinct_cons hd))
    obtain ⟨a, op, ops, R, rfl, ha, hT⟩ := tokens_before ht0 (head_eof hD0 he0)
    cases hy with
    | @body _ l3 _ ds3 _ xs3 _ hds hxs =>
      obtain ⟨rfl, hI⟩ := Join.no_directives (by rw [ha]; nofun) hP
      cases hI with
      | itemsNil => cases hxs
      | itemsCons h1 h2 =>
        cases hxs with
        | cons hx hxs =>
          cases hx with
          | siStmt hx =>
            cases hx
            cases h1 with
            | itemStmt h1 =>
              cases h1 with
              | emptyStmt _ _ =>
                cases hT with
                | cons h3 h4 =>
                  have hT := Tokens.cons h3 h4
                  obtain ⟨n1, n2⟩ := noDirective (hfirst hT)
                  have hJ := Derives.body (l := none) (.prologueEnd n1 n2
                    (Join.mono (L' := Join.anyLoc) (fun _ _ _ _ => trivial) h2)) trivial
                  obtain ⟨c', y', h5, h6⟩ := C50_program _ hT hJ he0
                  obtain ⟨a1, a2⟩ := Join.body_slash hJ he0
                  obtain ⟨ts', k', b1, b2⟩ := Join.tokens_unblank (s1 := c!" ") hT
                  cases b1 with
                  | @cons _ _ _ _ _ _ u us b1 _ =>
                    simp only [List.map_cons, List.cons.injEq] at b2
                    have hv : u.value = _ := (Prod.mk.inj b2.1).2
                    have hb := Join.outcome_blank c!" " (C55_program_separators ('\n' :: s))
                      (Join.tokenAt_any b1 (by rw [hv]; exact a1) (by rw [hv]; exact a2))
                    rw [show program (List.map Join.blank c!" " ++ '\n' :: s) = _ from h5] at hb
                    cases hq : program ('\n' :: s) with
                    | err _ | panic _ | fuel => rw [hq] at hb; exact hb.elim
                    | ok p =>
                      rw [hq] at hb
                      obtain ⟨c3, y2, e3, -⟩ := C34_program _ _ hq
                      subst e3
                      refine ⟨c3, y2, rfl, ?_⟩
                      have : Program.blur _ = Program.blur _ := hb
                      simp only [Program.blur, Program.ambiguous.injEq] at this
                      exact (Ast.similar_of_blur this.2).trans (h6.trans (.body rfl hxs))

/-! ### A leading string literal and `/` -/

private theorem ends_items {L : LocSpec} {env : Scope} {rest : List Token} (xs : Ast (.list .sitem))
    {inp : List Token} (h : Derives L env .items inp rest xs) :
    ∃ t ∈ inp, t.value ∈ followsItems := by
  have : ∀ (n : List (Ast .sitem)) (xs : Ast (.list .sitem)) (inp : List Token), xs.toList = n →
      Derives L env .items inp rest xs → ∃ t r, rest = t :: r ∧ t.value ∈ followsItems := by
    intro n
    induction n with
    | nil =>
      intro xs inp hn h
      cases h with
      | itemsNil he => exact ⟨_, _, rfl, he⟩
      | itemsCons => rw [Ast.toList_cons] at hn; cases hn
    | cons y ys ih =>
      intro xs inp hn h
      cases h with
      | itemsNil he => exact ⟨_, _, rfl, he⟩
      | itemsCons _ h2 =>
        rw [Ast.toList_cons] at hn
        injection hn with _ hn
        exact ih _ _ hn h2
  obtain ⟨t, r, rfl, ht⟩ := this _ xs inp rfl h
  exact ⟨t, h.suffix.subset (by simp), ht⟩

private theorem ends_modItems {L : LocSpec} {env : Scope} {rest : List Token} (xs : Ast (.list .modItem))
    {inp : List Token} (h : Derives L env .modItems inp rest xs) :
    ∃ t ∈ inp, t.value ∈ followsItems := by
  have : ∀ (n : List (Ast .modItem)) (xs : Ast (.list .modItem)) (inp : List Token), xs.toList = n →
      Derives L env .modItems inp rest xs → ∃ t r, rest = t :: r ∧ t.value = .eof := by
    intro n
    induction n with
    | nil =>
      intro xs inp hn h
      cases h with
      | modItemsNil he => exact ⟨_, _, rfl, he⟩
      | modItemsCons => rw [Ast.toList_cons] at hn; cases hn
    | cons y ys ih =>
      intro xs inp hn h
      cases h with
      | modItemsNil he => exact ⟨_, _, rfl, he⟩
      | modItemsCons _ h2 =>
        rw [Ast.toList_cons] at hn
        injection hn with _ hn
        exact ih _ _ hn h2
  obtain ⟨t, r, rfl, ht⟩ := this _ xs inp rfl h
  exact ⟨t, h.suffix.subset (by simp), by rw [ht]; decide⟩

/-- What is read where a division can be read. -/
private theorem slash_or {k k' k1 : Nat} {e op : Bool} {u u' : Token} (h : TokenAt s k e true u k')
    (hv : u.value = .slash ∨ u.value = .slashAssign) (h' : TokenAt s k e op u' k1) :
    u'.newline = u.newline ∧ (u'.value = .slash ∨ u'.value = .slashAssign ∨ ∃ x, u'.value = .regExp x) := by
  obtain ⟨w, x, y, e1, a1, a2, a3, a4, a5, -⟩ := h
  obtain ⟨w', x', y', e1', b1, b2, b3, b4, b5, -⟩ := h'
  have ha := L.triviaLoop_eval ((s.drop k).length + 1) e false e1 w (x ++ y) Posn.origin
    (by rw [a1]; exact Nat.lt_succ_self _) a2 a3
  have hb := L.triviaLoop_eval ((s.drop k).length + 1) e false e1' w' (x' ++ y') Posn.origin
    (by rw [b1]; exact Nat.lt_succ_self _) b2 b3
  rw [← a1] at ha
  rw [← b1, ha] at hb
  simp only [Res.ok.injEq, Prod.mk.injEq, Reader.mk.injEq, Bool.false_or] at hb
  obtain ⟨⟨hn, -⟩, hy, -⟩ := hb
  refine ⟨by rw [a5, b5, hn], ?_⟩
  have hx : (x ++ y).head? = some '/' := by
    have key : ∀ p ∈ punctuators, p.2 = .slash ∨ p.2 = .slashAssign → p.1.head? = some '/' := by
      decide +kernel
    have hm : (x, u.value) ∈ punctuators := by
      have := a4.spelled
      rcases hv with hv | hv <;> rw [hv] at this ⊢ <;> exact this
    have := key _ hm hv
    cases x with
    | nil => cases this
    | cons c x => exact this
  rw [hy] at hx
  rcases b4.slash hx with ⟨_, h⟩ | ⟨_, h⟩
  · simp only [List.mem_cons, Prod.mk.injEq, List.not_mem_nil, or_false] at h
    rcases h with ⟨_, h⟩ | ⟨_, h⟩
    · exact .inl h
    · exact .inr (.inl h)
  · exact .inr (.inr h)

/-- A text that begins with a string literal before `/`: the literal is a directive. -/
private theorem first_directive {c : Cat} {nt : NT (.list c)} {env : Scope} {ops : List Bool}
    {ts rest : List Token} {k k0 : Nat} {t u : Token} {x : StringLiteral} {l : Loc} {ds : List Dir}
    {items : Ast (.list c)} (hends : ∀ (xs : Ast (.list c)) inp,
      Derives (Located s) env nt inp rest xs → ∃ t ∈ inp, t.value ∈ followsItems)
    (h0 : Tokens s 0 true [false, true] [t, u] k0) (hx : t.value = .string x)
    (hu : u.value = .slash ∨ u.value = .slashAssign) (ht : Tokens s 0 true ops ts k)
    (h : Derives (Located s) env (.body nt) ts rest (.body l ds items)) :
    u.newline = true ∧ ∃ d ds', ds = d :: ds' ∧ d.string = x := by
  cases h0 with
  | @cons _ k2 _ _ _ _ _ _ h1 h2 =>
  cases h2 with
  | cons h2 _ =>
  cases ht with
  | nil =>
    cases h with
    | body h _ =>
      cases h with
      | prologueEnd _ _ h => obtain ⟨_, hm, _⟩ := hends _ _ h; cases hm
  | @cons _ k3 _ _ op ops t' r h3 h4 =>
    obtain ⟨rfl, rfl⟩ := tokenAt_det
      (Join.tokenAt_mode h1 (by rw [hx]; nofun) (by rw [hx]; nofun) (by rw [hx]; nofun) op) h3
    have key : ∀ u' r', r = u' :: r' → u'.newline = u.newline ∧
        (u'.value = .slash ∨ u'.value = .slashAssign ∨ ∃ x, u'.value = .regExp x) := by
      rintro u' r' rfl
      cases h4 with
      | cons h4 _ => exact slash_or h2 hu h4
    cases h with
    | body h _ =>
      cases h with
      | directive h0 h5 h6 =>
        refine ⟨?_, _, _, rfl, ?_⟩
        · cases h6 with
          | explicit hv => rcases (key _ _ rfl).2 with h | h | ⟨_, h⟩ <;> rw [hv] at h <;> cases h
          | inserted _ hv =>
            obtain ⟨b1, b2⟩ := key _ _ rfl
            rcases hv with hv | hv | hv | hv
            · rcases b2 with h | h | ⟨_, h⟩ <;> rw [hv] at h <;> cases h
            · rcases b2 with h | h | ⟨_, h⟩ <;> rw [hv] at h <;> cases h
            · rw [← b1]; exact hv
            · cases hv
        · rw [hx] at h0
          cases h0
          rfl
      | prologueEnd h5 h6 h7 =>
        cases r with
        | nil =>
          obtain ⟨v, hm, hv⟩ := hends _ _ h7
          cases List.mem_singleton.1 hm
          rw [hx] at hv
          simp [followsItems] at hv
        | cons u' r' =>
          obtain ⟨b1, b2⟩ := key _ _ rfl
          have b3 := h6 _ _ _ rfl hx u' r' rfl
          rcases b2 with h | h | ⟨z, h⟩
          · exact absurd h b3.1
          · exact absurd h b3.2
          · refine absurd ⟨_, u', r', x, rfl, hx, ?_⟩ h5
            rintro (h' | ⟨h' | h', _⟩)
            · rw [h] at h'
              simp [continuers] at h'
            · rw [h] at h'; cases h'
            · rw [h] at h'; cases h'

private theorem never {c : Cat} {nt : NT (.list c)} {env : Scope} {ops : List Bool} {ts rest : List Token}
    {k : Nat} {y : Ast (.body c)} (hends : ∀ (xs : Ast (.list c)) inp,
      Derives (Located s) env nt inp rest xs → ∃ t ∈ inp, t.value ∈ followsItems)
    (hs : DividesString s) (ht : Tokens s 0 true ops ts k)
    (h : Derives (Located s) env (.body nt) ts rest y) : False := by
  obtain ⟨t, u, k0, h0, ⟨x, hx⟩, hu, hn⟩ := hs
  cases y with
  | body l ds items =>
    have := (first_directive hends h0 hx hu ht h).1
    rw [hn] at this
    cases this

/-- No text that begins with the division of a string literal is accepted by any of the functions,
although a division of a string literal is accepted everywhere else. -/
theorem C71_never (hs : DividesString s) :
    (∀ y, script s ≠ .ok y) ∧ (∀ y, strict s ≠ .ok y) ∧ (∀ y, parseModule s ≠ .ok y) ∧
      ∀ y, program s ≠ .ok y := by
  refine ⟨fun y h => ?_, fun y h => ?_, fun y h => ?_, fun y h => ?_⟩
  · obtain ⟨ops, ts, k, rest, h1, h2⟩ := C34_script s y h
    exact never (fun xs _ => ends_items xs) hs h1 h2
  · obtain ⟨ops, ts, k, rest, h1, h2⟩ := C34_strict s y h
    exact never (fun xs _ => ends_items xs) hs h1 h2
  · obtain ⟨ops, ts, k, rest, h1, h2⟩ := C34_module s y h
    exact never (fun xs _ => ends_modItems xs) hs h1 h2
  · obtain ⟨_, _, _, ops, ts, k, rest, h1, h2, _⟩ := C34_program s y h
    exact never (fun xs _ => ends_items xs) hs h1 h2

/-- In a text that begins with a string literal before a division on a later line, the string
literal is not divided: if the text is accepted at all, the string literal is the first directive. -/
theorem C71_misread {x : StringLiteral} (hs : StringThenSlash s x) :
    (∀ l ds xs, script s = .ok (.body l ds xs) → ∃ d ds', ds = d :: ds' ∧ d.string = x) ∧
    (∀ l ds xs, strict s = .ok (.body l ds xs) → ∃ d ds', ds = d :: ds' ∧ d.string = x) ∧
    (∀ l ds xs, parseModule s = .ok (.body l ds xs) → ∃ d ds', ds = d :: ds' ∧ d.string = x) ∧
    ∀ c l ds xs, program s = .ok (.ambiguous c (.body l ds xs)) → ∃ d ds', ds = d :: ds' ∧ d.string = x := by
  obtain ⟨t, u, k0, h0, hx, hu, -⟩ := hs
  refine ⟨fun l ds xs h => ?_, fun l ds xs h => ?_, fun l ds xs h => ?_, fun c l ds xs h => ?_⟩
  · obtain ⟨ops, ts, k, rest, h1, h2⟩ := C34_script s _ h
    exact (first_directive (fun xs _ => ends_items xs) h0 hx hu h1 h2).2
  · obtain ⟨ops, ts, k, rest, h1, h2⟩ := C34_strict s _ h
    exact (first_directive (fun xs _ => ends_items xs) h0 hx hu h1 h2).2
  · obtain ⟨ops, ts, k, rest, h1, h2⟩ := C34_module s _ h
    exact (first_directive (fun xs _ => ends_modItems xs) h0 hx hu h1 h2).2
  · obtain ⟨_, _, e, ops, ts, k, rest, h1, h2, _⟩ := C34_program s _ h
    cases e
    exact (first_directive (fun xs _ => ends_items xs) h0 hx hu h1 h2).2

/-! ### Leading directives -/

private theorem slash_op {k k' : Nat} {e op : Bool} {u : Token} (h : TokenAt s k e op u k') :
    ∃ u' k1, TokenAt s k e true u' k1 ∧ u'.newline = u.newline ∧ ((u'.value = u.value ∧ ∀ x, u.value ≠ .regExp x) ∨
      ((∃ x, u.value = .regExp x) ∧ (u'.value = .slash ∨ u'.value = .slashAssign))) := by
  cases op with
  | true =>
    refine ⟨u, k', h, rfl, .inl ⟨rfl, fun z hz => ?_⟩⟩
    obtain ⟨w, x, y, e1, a1, a2, a3, a4, a5, -⟩ := h
    rw [hz] at a4
    obtain ⟨f, hf, _⟩ := a4.spelled
    rcases a4.slash (by rw [hf]; rfl) with ⟨_, h⟩ | ⟨h, _⟩
    · simp at h
    · cases h
  | false =>
    by_cases h3 : ∃ x, u.value = .regExp x
    · obtain ⟨x, hx⟩ := h3
      obtain ⟨u', k1, h'⟩ := Join.tokenAt_any h (by rw [hx]; nofun) (by rw [hx]; nofun) true
      obtain ⟨w, x1, y, e1, a1, a2, a3, a4, a5, -⟩ := h
      have h'' := h'
      obtain ⟨w', x', y', e1', b1, b2, b3, b4, b5, -⟩ := h'
      have ha := L.triviaLoop_eval ((s.drop k).length + 1) e false e1 w (x1 ++ y) Posn.origin
        (by rw [a1]; exact Nat.lt_succ_self _) a2 a3
      have hb := L.triviaLoop_eval ((s.drop k).length + 1) e false e1' w' (x' ++ y') Posn.origin
        (by rw [b1]; exact Nat.lt_succ_self _) b2 b3
      rw [← a1] at ha
      rw [← b1, ha] at hb
      simp only [Res.ok.injEq, Prod.mk.injEq, Reader.mk.injEq, Bool.false_or] at hb
      obtain ⟨⟨hn, -⟩, hy, -⟩ := hb
      refine ⟨u', k1, h'', by rw [a5, b5, hn], .inr ⟨⟨_, hx⟩, ?_⟩⟩
      have hh : (x1 ++ y).head? = some '/' := by
        rw [hx] at a4
        obtain ⟨f, hf, _⟩ := a4.spelled
        rw [hf]
        rfl
      rw [hy] at hh
      rcases b4.slash hh with ⟨_, h⟩ | ⟨h, _⟩
      · simp only [List.mem_cons, Prod.mk.injEq, List.not_mem_nil, or_false] at h
        rcases h with ⟨_, h⟩ | ⟨_, h⟩
        · exact .inl h
        · exact .inr h
      · cases h
    · have h3 : ∀ x, u.value ≠ .regExp x := fun x hx => h3 ⟨x, hx⟩
      by_cases h1 : u.value = .slash ∨ u.value = .slashAssign
      · obtain ⟨w, x, y, e1, a1, a2, a3, a4, a5, -⟩ := h
        have key : ∀ p ∈ punctuators, p.2 = .slash ∨ p.2 = .slashAssign → p.1.head? = some '/' := by
          decide +kernel
        have hm : (x, u.value) ∈ punctuators := by
          have := a4.spelled
          rcases h1 with hv | hv <;> rw [hv] at this ⊢ <;> exact this
        have hx := key _ hm h1
        rcases a4.slash (y := y) (by
          cases x with
          | nil => cases hx
          | cons c x => exact hx) with ⟨h, _⟩ | ⟨_, x, h⟩
        · cases h
        · exact absurd h (h3 x)
      · exact ⟨u, k', Join.tokenAt_mode h (fun h => h1 (.inl h)) (fun h => h1 (.inr h)) h3 true, rfl,
          .inl ⟨rfl, h3⟩⟩

/-- A reading of leading string statements, and of two more tokens, where divisions can be read. -/
private theorem operator_reading {ts j : List Token} {ds : List Dir} (hs : StringStatements ts j ds) :
    ∀ {k0 e ops k}, Tokens s k0 e ops ts k → ∀ {t u b}, j = t :: u :: b → (∃ x, t.value = .string x) →
    ∃ n ts' k' u', Tokens s k0 e (List.replicate n true) ts' k' ∧ StringStatements ts' [t, u'] ds ∧
      ts'.head? = ts.head? ∧ ((u'.value = u.value ∧ ∀ x, u.value ≠ .regExp x) ∨ ((∃ x, u.value = .regExp x) ∧ (u'.value = .slash ∨ u'.value = .slashAssign))) := by
  induction hs with
  | nil =>
    rintro k0 e ops k ht t u b rfl ⟨x, hx⟩
    cases ht with
    | cons h1 h2 =>
      cases h2 with
      | cons h2 h3 =>
        obtain ⟨u', k1, h4, _, h5⟩ := slash_op h2
        exact ⟨2, _, _, u', .cons (Join.tokenAt_mode h1 (by rw [hx]; nofun) (by rw [hx]; nofun)
          (by rw [hx]; nofun) true) (.cons h4 .nil), .nil, rfl, h5⟩
  | @cons v i1 i2 rest d ds hv hT hr ih =>
    intro k0 e ops k ht t u b hj hx
    cases ht with
    | cons h1 h2 =>
      obtain ⟨dl, dx, semi⟩ := d
      have h1' := Join.tokenAt_mode h1 (by rw [hv]; nofun) (by rw [hv]; nofun) (by rw [hv]; nofun) true
      cases hT with
      | explicit hw =>
        cases h2 with
        | cons h2 h3 =>
          obtain ⟨n, ts', k', u', a1, a2, a4, a3⟩ := ih h3 hj hx
          exact ⟨n + 2, _, _, u', .cons h1' (.cons (Join.tokenAt_mode h2 (by rw [hw]; nofun)
            (by rw [hw]; nofun) (by rw [hw]; nofun) true) a1), .cons hv (.explicit hw) a2, rfl, a3⟩
      | inserted hw hi =>
        obtain ⟨n, ts', k', u', a1, a2, a4, a3⟩ := ih h2 hj hx
        obtain ⟨ts2, rfl⟩ : ∃ z, ts' = _ :: z := by
          cases ts' with
          | nil => cases a4
          | cons z zs => cases a4; exact ⟨_, rfl⟩
        exact ⟨n + 1, _, _, u', .cons h1' a1, .cons hv (.inserted hw hi) a2, rfl, a3⟩

/-- Statements of string literals and the values of tokens. -/
private theorem strings_flags {ts j : List Token} {ds : List Dir} (hs : StringStatements ts j ds) :
    ∀ (ts0 : List Token), ts0.map flags = ts.map flags → ∀ {t u b}, j = t :: u :: b →
    ∃ t0 u0 b0 ds0, StringStatements ts0 (t0 :: u0 :: b0) ds0 ∧ t0.value = t.value ∧ u0.value = u.value := by
  induction hs with
  | nil =>
    rintro ts0 h t u b rfl
    obtain ⟨t0, r0, rfl, h1, h⟩ := List.map_eq_cons_iff.1 h
    obtain ⟨u0, b0, rfl, h2, h⟩ := List.map_eq_cons_iff.1 h
    exact ⟨t0, u0, b0, [], .nil, (Prod.mk.inj h1).2, (Prod.mk.inj h2).2⟩
  | @cons v i1 i2 rest d ds hv hT hr ih =>
    intro ts0 h t u b hj
    obtain ⟨v0, r0, rfl, h1, h⟩ := List.map_eq_cons_iff.1 h
    obtain ⟨dl, dx, semi⟩ := d
    have hv0 : v0.value = .string dx := (Prod.mk.inj h1).2.trans hv
    cases hT with
    | explicit hw =>
      obtain ⟨w0, b0, rfl, h2, h⟩ := List.map_eq_cons_iff.1 h
      obtain ⟨t0, u0, b0, ds0, a1, a2⟩ := ih _ h hj
      exact ⟨t0, u0, b0, ⟨dl, dx, _⟩ :: ds0, .cons hv0 (.explicit ((Prod.mk.inj h2).2.trans hw)) a1, a2⟩
    | inserted hw hi =>
      obtain ⟨t0, u0, b0, ds0, a1, a2⟩ := ih _ h hj
      obtain ⟨w0, b0, rfl, h2, h⟩ := List.map_eq_cons_iff.1 h
      have h3 : w0.newline = _ := (Prod.mk.inj h2).1
      have h4 : w0.value = _ := (Prod.mk.inj h2).2
      exact ⟨t0, u0, _, ⟨dl, dx, _⟩ :: ds0, .cons hv0 (.inserted (by rw [h4]; exact hw)
        (by rw [h4, h3]; exact hi)) a1, a2⟩

private theorem free_of (h : NoLeadingDivision ('\n' :: s)) {op : Bool} {ops : List Bool} {ts : List Token}
    {k : Nat} (ht : Tokens (c!" " ++ '\n' :: s) 0 true (op :: ops) ts k) : Lone.Free ts := by
  obtain ⟨ts0, k', h1, h2⟩ := Join.tokens_unblank (s1 := c!" ") ht
  intro t u b ds hs hx
  obtain ⟨t0, u0, b0, ds0, hs0, e1, e2⟩ := strings_flags hs ts0 h2 rfl
  obtain ⟨n, ts', k', u', a1, a2, _, a3⟩ := operator_reading hs0 h1 rfl (by rw [e1]; exact hx)
  obtain ⟨c1, c2⟩ := h n ts' k' t0 u' [] ds0 a1 a2 (by rw [e1]; exact hx)
  rw [e2] at a3
  rcases a3 with ⟨a3, a4⟩ | ⟨⟨x, a3⟩, a4 | a4⟩
  · rw [a3] at c1 c2
    exact ⟨c1, c2, a4⟩
  · exact absurd a4 c1
  · exact absurd a4 c2

private theorem similar_statements {y y' : Ast (.body .sitem)} (h : Ast.Similar y y') :
    Ast.Similar y.statements y'.statements := by
  cases h with
  | @body _ l l' ds ds' xs xs' h1 h2 =>
    show Ast.Similar (Ast.ofList (ds.map Dir.asItem ++ xs.toList)) (Ast.ofList (ds'.map Dir.asItem ++ xs'.toList))
    have e : ds.map Dir.asItem = ds'.map Dir.asItem := by
      have := congrArg (List.map fun x => (Ast.siStmt (.sExpr none (.eString none x) .inserted) : StmtListItem)) h1
      rw [List.map_map, List.map_map] at this
      exact this
    rw [e]
    induction ds'.map Dir.asItem with
    | nil => rw [List.nil_append, List.nil_append, Ast.ofList_toList, Ast.ofList_toList]; exact h2
    | cons z zs ih => exact .cons ((C21_identical_iff _ _).1 rfl) ih

private theorem distinct_tail {l l' : Loc} {ds ds' : List Dir} {x : StmtListItem} {xs : Ast (.list .sitem)}
    (h : DistinctLabels (Ast.body l ds (.cons x xs))) : DistinctLabels (Ast.body l' ds' xs) := by
  refine All.mk trivial ?_
  intro k hk
  obtain rfl : k = (Place.top, ⟨_, xs⟩) := by simpa [Ast.kids] using hk
  intro v y ho
  exact h v y (.under (w' := Place.top) (x' := ⟨_, .cons x xs⟩) (by simp [Ast.kids])
    (.under (w' := Place.top) (x' := ⟨_, xs⟩) (by simp [Ast.kids]) ho))

private theorem distinct_statements {y : Ast (.body .sitem)} (h : DistinctLabels (Ast.body none [] y.statements)) :
    DistinctLabels y := by
  cases y with
  | body l ds xs =>
    have h : DistinctLabels (Ast.body none [] (Ast.ofList (ds.map Dir.asItem ++ xs.toList))) := h
    have : DistinctLabels (Ast.body l ds xs) := by
      generalize ds.map Dir.asItem = zs at h
      induction zs with
      | nil =>
        rw [List.nil_append, Ast.ofList_toList] at h
        refine All.mk trivial ?_
        intro k hk
        obtain rfl : k = (Place.top, ⟨_, xs⟩) := by simpa [Ast.kids] using hk
        intro v y ho
        exact h v y (.under (w' := Place.top) (x' := ⟨_, xs⟩) (by simp [Ast.kids]) ho)
      | cons z zs ih => exact ih (distinct_tail h)
    exact this

/-- C71 (partial): a text is a program if and only if the text is one in which a semicolon precedes
it, on a line of its own; and the statements are an empty one and then the statements of the text,
the directives among them (up to locations and the origin of semicolons).  Missing: texts in which
one of the leading string literals precedes `/` or `/=`, see `C71_fails` and `C71_misread`. -/
theorem C71_statements_partial (hf : NoLeadingDivision ('\n' :: s))
    (zs : Ast (.list .sitem)) (hd : DistinctLabels (Ast.body none [] zs)) :
    (∃ c y, program ('\n' :: s) = .ok (.ambiguous c y) ∧ Ast.Similar y.statements zs) ↔
    ∃ c y, program (';' :: '\n' :: s) = .ok (.ambiguous c y) ∧
      Ast.Similar y (.body none [] (.cons (.siStmt (.sEmpty none)) zs)) := by
  constructor
  · rintro ⟨c, y, hp, hy⟩
    obtain ⟨_, _, e0, ops0, ts0, k0, rest0, ht0, hD0, he0⟩ := C34_program _ _ hp
    cases e0
    have hany : ∀ op, ∃ t k, TokenAt ('\n' :: s) 0 true op t k := by
      intro op
      cases ht0 with
      | nil => obtain ⟨t, ht, _⟩ := head_eof hD0 he0; cases ht
      | cons h1 h2 =>
        obtain ⟨a1, a2⟩ := Join.body_slash hD0 he0
        exact Join.tokenAt_any h1 a1 a2 op
    have hb := Join.outcome_blank c!" " (C55_program_separators ('\n' :: s)) hany
    rw [hp] at hb
    cases hq : program (List.map Join.blank c!" " ++ '\n' :: s) with
    | err _ | panic _ | fuel => rw [hq] at hb; exact hb.elim
    | ok p =>
      rw [hq] at hb
      obtain ⟨c3, y2, e3, ops2, ts2, k2, rest2, ht2, hD2, he2⟩ := C34_program _ _ hq
      subst e3
      have hsim : Ast.Similar y2.statements zs := by
        have : Program.blur _ = Program.blur _ := hb
        simp only [Program.blur, Program.ambiguous.injEq] at this
        exact (similar_statements (Ast.similar_of_blur this.2.symm)).trans hy
      have hP := derives_plain ht2 hD2 rfl
        (distinct_statements (distinctLabels_similar (.body rfl hsim) hd))
      cases ht2 with
      | nil => obtain ⟨t, ht, _⟩ := head_eof hD2 he2; cases ht
      | cons h1 h2 =>
        have ht2 := Tokens.cons h1 h2
        cases hP with
        | @body _ _ _ _ _ l3 ds3 xs3 hP hl =>
          obtain ⟨ys, hI, hys⟩ := Lone.items_of_prologue _ hP (free_of hf ht2)
          obtain ⟨a, ha, hv⟩ := tokens_after ht2
          obtain ⟨n1, n2⟩ := noDirective (i := _ :: _) (a := a) (by rw [hv]; nofun)
          have hJ := Derives.body (l := none) (.prologueEnd n1 n2 (.itemsCons (.itemStmt
            (.emptyStmt hv (L := Join.anyLoc) (l := none) trivial)) hI)) trivial
          obtain ⟨c', y', h3, h4⟩ := C50_program _ ha hJ he2
          exact ⟨c', y', h3, h4.trans (.body rfl (.cons (.siStmt .sEmpty) (hys.trans hsim)))⟩
  · rintro ⟨c, y, hp, hy⟩
    obtain ⟨_, _, e0, ops0, ts0, k0, rest0, ht0, hD0, he0⟩ := C34_program _ _ hp
    cases e0
    have hP := derives_plain ht0 hD0 rfl (distinctLabels_similar hy (distinct_cons hd))
    obtain ⟨a, op, ops, R, rfl, ha, hT⟩ := tokens_before ht0 (head_eof hD0 he0)
    cases hy with
    | @body _ l3 _ ds3 _ xs3 _ hds hxs =>
      obtain ⟨rfl, hI⟩ := Join.no_directives (by rw [ha]; nofun) hP
      cases hI with
      | itemsNil => cases hxs
      | itemsCons h1 h2 =>
        cases hxs with
        | cons hx hxs =>
          cases hx with
          | siStmt hx =>
            cases hx
            cases h1 with
            | itemStmt h1 =>
              cases h1 with
              | emptyStmt _ _ =>
                cases hT with
                | cons h3 h4 =>
                  have hT := Tokens.cons h3 h4
                  obtain ⟨ds, xs, hQ, hsim⟩ := Lone.prologue_of_items _ rfl h2 (free_of hf hT)
                  have hJ := Derives.body (l := none) hQ trivial
                  obtain ⟨c', y', h5, h6⟩ := C50_program _ hT hJ he0
                  obtain ⟨a1, a2⟩ := Join.body_slash hJ he0
                  obtain ⟨ts', k', b1, b2⟩ := Join.tokens_unblank (s1 := c!" ") hT
                  cases b1 with
                  | @cons _ _ _ _ _ _ u us b1 _ =>
                    simp only [List.map_cons, List.cons.injEq] at b2
                    have hv : u.value = _ := (Prod.mk.inj b2.1).2
                    have hb := Join.outcome_blank c!" " (C55_program_separators ('\n' :: s))
                      (Join.tokenAt_any b1 (by rw [hv]; exact a1) (by rw [hv]; exact a2))
                    rw [show program (List.map Join.blank c!" " ++ '\n' :: s) = _ from h5] at hb
                    cases hq : program ('\n' :: s) with
                    | err _ | panic _ | fuel => rw [hq] at hb; exact hb.elim
                    | ok p =>
                      rw [hq] at hb
                      obtain ⟨c3, y2, e3, -⟩ := C34_program _ _ hq
                      subst e3
                      refine ⟨c3, y2, rfl, ?_⟩
                      have : Program.blur _ = Program.blur _ := hb
                      simp only [Program.blur, Program.ambiguous.injEq] at this
                      exact (similar_statements ((Ast.similar_of_blur this.2).trans h6)).trans
                        (hsim.trans hxs)

end Theorems

section Examples

local instance leadingEnv : Env := asciiEnv true
local instance leadingEnvLawful : LawfulEnv := asciiEnv_lawful true

/-- C71 does not hold for all texts: `'a' / 2` is a program after an empty statement, but alone
it makes the parser panic (it looks for the end of a regular expression). -/
theorem C71_fails :
    (∃ y, program c!";\n'a' / 2" = .ok y) ∧ program c!"\n'a' / 2" = .panic .readPastEnd := by
  constructor
  · have h : (match program c!";\n'a' / 2" with | .ok _ => true | _ => false) = true := by decide +kernel
    split at h
    case h_1 y e => exact ⟨y, e⟩
    case h_2 => cases h
  · have h : (match program c!"\n'a' / 2" with | .panic .readPastEnd => true | _ => false) = true := by
      decide +kernel
    split at h
    case h_1 e => exact e
    case h_2 => cases h

/-- The hypothesis of `C71_never` is met. -/
example : DividesString c!"'a' / 2" := by
  have h : (match readTokens c!"'a' / 2" [false, true] with
    | .ok (ts, _) => decide (ts.map (fun t => (t.value, t.newline)) = [(.string ⟨some c!"'a'", c!"a"⟩, false), (.slash, false)])
    | _ => false) = true := by decide +kernel
  split at h
  case h_2 => cases h
  case h_1 ts l e =>
    have h := of_decide_eq_true h
    obtain ⟨t, ts, rfl, h1, h⟩ := List.map_eq_cons_iff.1 h
    obtain ⟨u, ts, rfl, h2, h⟩ := List.map_eq_cons_iff.1 h
    cases List.map_eq_nil_iff.1 h
    obtain ⟨h1, -⟩ := Prod.mk.inj h1
    obtain ⟨h2, h3⟩ := Prod.mk.inj h2
    exact ⟨t, u, _, (readTokens_at e).1, ⟨_, h1⟩, .inl h2, h3⟩

/-- The first token of a text is the one that is read in both modes. -/
private theorem firstToken_of {s : Str} {v v0 : TokenData} (h : FirstToken s v)
    (h0 : ∀ op, (match readTokens s [op] with
      | .ok (ts, _) => decide (ts.map Token.value = [v0])
      | _ => false) = true) : v = v0 := by
  obtain ⟨op, t, k, ht, rfl⟩ := h
  obtain ⟨l, hl⟩ := readAll_complete (.cons ht .nil) (Lexer.At.new s) rfl
  have := h0 op
  rw [show readTokens s [op] = .ok ([t], l) from hl] at this
  simpa using this

/-- The hypotheses of `C71_leading_partial` are met, and so are both sides. -/
example : ∃ xs, (∀ v, FirstToken ('\n' :: c!"(b) / 2") v → ∀ x, v ≠ .string x) ∧
    DistinctLabels (Ast.body none [] xs) ∧
    ∃ c y, program ('\n' :: c!"(b) / 2") = .ok (.ambiguous c y) ∧ Ast.Similar y (.body none [] xs) := by
  have h : (match program ('\n' :: c!"(b) / 2") with
    | .ok (.ambiguous _ (.body _ ds xs)) => ds.isEmpty && labelsCheck 20 Place.top ⟨_, .body none [] xs⟩
    | _ => false) = true := by decide +kernel
  split at h
  case h_2 => cases h
  case h_1 c1 l1 ds1 xs1 e1 =>
    obtain ⟨h0, h1⟩ := (Bool.and_eq_true _ _).mp h
    cases List.isEmpty_iff.1 h0
    refine ⟨xs1, ?_, labelsCheck_ok 20 h1, c1, _, e1, .body rfl ((Ast.untrack_eq_iff _ _).1 rfl)⟩
    intro v hv
    cases firstToken_of (v0 := .lParen) hv (by decide +kernel)
    nofun

/-- The tokens at the beginning of a text where divisions can be read. -/
private theorem operator_tokens {s : Str} {n : Nat} {t u : Token} {b : List Token} {k : Nat} {v w : TokenData}
    (h : Tokens s 0 true (List.replicate n true) (t :: u :: b) k)
    (h0 : (match readTokens s [true, true] with
      | .ok (ts, _) => decide (ts.map Token.value = [v, w])
      | _ => false) = true) : t.value = v ∧ u.value = w := by
  cases n with
  | zero => cases h
  | succ n =>
    cases n with
    | zero => cases h with | cons _ h => cases h
    | succ n =>
      cases h with
      | cons h1 h =>
        cases h with
        | cons h2 h =>
          obtain ⟨l, hl⟩ := readAll_complete (.cons h1 (.cons h2 .nil)) (Lexer.At.new s) rfl
          rw [show readTokens s [true, true] = .ok ([t, u], l) from hl] at h0
          simpa using h0

/-- The hypotheses of `C71_statements_partial` are met, and so are both sides; there is a directive. -/
example : ∃ zs, NoLeadingDivision ('\n' :: c!"'a'\nb") ∧ DistinctLabels (Ast.body none [] zs) ∧
    ∃ c y, program ('\n' :: c!"'a'\nb") = .ok (.ambiguous c y) ∧ Ast.Similar y.statements zs ∧
      ∃ l d xs, y = .body l [d] xs := by
  have h : (match program ('\n' :: c!"'a'\nb") with
    | .ok (.ambiguous _ (.body l ds xs)) =>
      decide (ds.length = 1) && labelsCheck 20 Place.top ⟨_, .body none [] (Ast.statements (.body l ds xs))⟩
    | _ => false) = true := by decide +kernel
  split at h
  case h_2 => cases h
  case h_1 c1 l1 ds1 xs1 e1 =>
    obtain ⟨h0, h1⟩ := (Bool.and_eq_true _ _).mp h
    obtain ⟨d, rfl⟩ := List.length_eq_one_iff.1 (of_decide_eq_true h0)
    refine ⟨_, ?_, labelsCheck_ok 20 h1, c1, _, e1, (C21_identical_iff _ _).1 rfl, _, _, _, rfl⟩
    intro n ts k t u b ds ht hs hx
    cases hs with
    | nil =>
      obtain ⟨_, hu⟩ := operator_tokens (v := .string ⟨some c!"'a'", c!"a"⟩) (w := .identifier (.string c!"b")) ht (by decide +kernel)
      rw [hu]
      exact ⟨nofun, nofun⟩
    | @cons v i1 i2 _ d ds hv hT hr =>
      obtain ⟨dl, dx, semi⟩ := d
      cases hT with
      | explicit hw =>
        obtain ⟨_, hu⟩ := operator_tokens (v := .string ⟨some c!"'a'", c!"a"⟩) (w := .identifier (.string c!"b")) ht (by decide +kernel)
        rw [hu] at hw
        cases hw
      | inserted hw hi =>
        obtain ⟨_, hu⟩ := operator_tokens (v := .string ⟨some c!"'a'", c!"a"⟩) (w := .identifier (.string c!"b")) ht (by decide +kernel)
        cases hr with
        | nil =>
          obtain ⟨x, hx⟩ := hx
          rw [hu] at hx
          cases hx
        | cons hx =>
          rw [hu] at hx
          cases hx

/-- The hypothesis of `C71_misread` is met. -/
example : StringThenSlash c!"'a'\n/b/g" ⟨some c!"'a'", c!"a"⟩ := by
  have h : (match readTokens c!"'a'\n/b/g" [false, true] with
    | .ok (ts, _) => decide (ts.map (fun t => (t.value, t.newline)) = [(.string ⟨some c!"'a'", c!"a"⟩, false), (.slash, true)])
    | _ => false) = true := by decide +kernel
  split at h
  case h_2 => cases h
  case h_1 ts l e =>
    have h := of_decide_eq_true h
    obtain ⟨t, ts, rfl, h1, h⟩ := List.map_eq_cons_iff.1 h
    obtain ⟨u, ts, rfl, h2, h⟩ := List.map_eq_cons_iff.1 h
    cases List.map_eq_nil_iff.1 h
    obtain ⟨h1, -⟩ := Prod.mk.inj h1
    obtain ⟨h2, h3⟩ := Prod.mk.inj h2
    exact ⟨t, u, _, (readTokens_at e).1, h1, .inl h2, h3⟩

private theorem accepted_as {r : Res PError Program} {z : Ast (.body .sitem)}
    (h : (match r with | .ok (.ambiguous _ y) => Ast.eqv y.untrack z.untrack | _ => false) = true) :
    ∃ c y, r = .ok (.ambiguous c y) ∧ Ast.eqv y.untrack z.untrack = true := by
  split at h
  case h_1 => exact ⟨_, _, rfl, h⟩
  case h_2 => cases h

/-- The text `'a'⏎/b/g` is accepted, as a directive and a regular expression; after an empty
statement it is accepted as a division, which it is. -/
theorem C71_misread_fails :
    (∃ c y, program c!"'a'\n/b/g" = .ok (.ambiguous c y) ∧ Ast.eqv y.untrack (Ast.body none
      [⟨none, ⟨some c!"'a'", c!"a"⟩, .inserted⟩]
      (.cons (.siStmt (.sExpr none (.eRegExp none ⟨c!"b", c!"g"⟩) .inserted)) .nil)).untrack = true) ∧
    ∃ c y, program c!";'a'\n/b/g" = .ok (.ambiguous c y) ∧ Ast.eqv y.untrack (Ast.body none []
      (.cons (.siStmt (.sEmpty none)) (.cons (.siStmt (.sExpr none
        (.eBinop none ⟨none, .div⟩ (.eBinop none ⟨none, .div⟩ (.eString none ⟨some c!"'a'", c!"a"⟩)
          (.eId ⟨none, .string c!"b"⟩)) (.eId ⟨none, .string c!"g"⟩)) .inserted)) .nil))).untrack = true :=
  ⟨accepted_as (by decide +kernel), accepted_as (by decide +kernel)⟩

end Examples

end Esprit
