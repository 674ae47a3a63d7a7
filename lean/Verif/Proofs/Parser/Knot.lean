import Verif.Proofs.Parser.Items

/-! Labels, statement list items, and the recursion. -/

set_option linter.unusedSectionVars false
set_option linter.unusedVariables false

namespace Esprit

open Lex ReaderSpec Grammar

/-! ### Labels -/

theorem Labels.get_remove (ls : Labels) (n m : Name) :
    (ls.remove n).get m = if m = n then none else ls.get m := by
  induction ls with
  | nil => simp [remove, get]
  | cons e ls ih =>
    simp only [remove, get] at ih ⊢
    by_cases h : e.1 = n
    · simp only [List.filter_cons, h, ne_eq, not_true_eq_false, decide_false, Bool.false_eq_true,
        if_false]
      rw [ih]
      by_cases hm : m = n
      · simp [hm]
      · have : ¬ e.1 = m := by rintro rfl; exact hm h
        simp only [if_neg hm, List.find?_cons, this, decide_false]
    · simp only [List.filter_cons, h, ne_eq, not_false_eq_true, decide_true, if_true,
        List.find?_cons]
      by_cases hm : e.1 = m
      · have : ¬ m = n := by rintro rfl; exact h hm
        simp [hm, this]
      · simp only [hm, decide_false]
        exact ih

theorem Labels.get_insert (ls : Labels) (n m : Name) (t : LabelType) :
    (ls.insert n t).get m = if m = n then some t else ls.get m := by
  by_cases h : m = n
  · simp [insert, get, List.find?_cons, h]
  · have h' : ¬ n = m := fun e => h e.symm
    have := ls.get_remove n m
    rw [if_neg h] at this ⊢
    rw [← this]
    simp [insert, get, List.find?_cons, h']

theorem Labels.get_removes (ids : List Id) (ls : Labels) (m : Name) (t : LabelType) :
    (ids.foldl (fun ls i => ls.remove i.name) ls).get m = some t ↔
      (∀ i ∈ ids, i.name ≠ m) ∧ ls.get m = some t := by
  induction ids generalizing ls with
  | nil => simp
  | cons i ids ih =>
    simp only [List.foldl_cons]
    rw [ih, get_remove]
    by_cases h : m = i.name
    · simp [h]
    · rw [if_neg h]
      have : i.name ≠ m := fun e => h e.symm
      simp [this]

theorem Labels.get_inserts (ids : List Id) (ls : Labels) (m : Name) (t t' : LabelType)
    (h : (ids.foldl (fun ls i => ls.insert i.name t) ls).get m = some t') :
    (t' = t ∧ ∃ i ∈ ids, i.name = m) ∨ ((∀ i ∈ ids, i.name ≠ m) ∧ ls.get m = some t') := by
  induction ids generalizing ls with
  | nil => exact .inr ⟨by simp, h⟩
  | cons i ids ih =>
    simp only [List.foldl_cons] at h
    rcases ih _ h with ⟨h1, j, h2, h3⟩ | ⟨h1, h2⟩
    · exact .inl ⟨h1, j, List.mem_cons_of_mem _ h2, h3⟩
    · rw [get_insert] at h2
      split at h2
      · rename_i hm
        cases h2
        exact .inl ⟨rfl, i, List.mem_cons_self .., hm.symm⟩
      · rename_i hm
        refine .inr ⟨?_, h2⟩
        intro j hj
        rcases List.mem_cons.1 hj with rfl | hj
        · exact fun e => hm e.symm
        · exact h1 j hj

/-- The surroundings of a statement with several labels. -/
def Scope.labelAll (env : Scope) (loop : Bool) (ids : List Id) : Scope :=
  ids.foldl (fun env i => env.label i.name loop) env

theorem Scope.labelAll_eq (env : Scope) (loop : Bool) (ids : List Id) :
    env.labelAll loop ids =
      { env with labels := (ids.map fun i => (i.name, loop)).reverse ++ env.labels } := by
  unfold labelAll
  induction ids generalizing env with
  | nil => rfl
  | cons i ids ih =>
    simp only [List.foldl_cons]
    rw [ih]
    simp [Scope.label]

/-- The tokens do not start with a label. -/
def NotLabel (i : List Token) : Prop :=
  ¬ ∃ t t2 r n, i = t :: t2 :: r ∧ t.value = .identifier n ∧ t2.value = .colon

/-- Only loops start with `do`, `while` and `for`. -/
theorem loop_start [Env] {S : Str} {env : Scope} {t : Token} {i r : List Token} {x : Stmt}
    (h : Derives (Located S) env .stmt (t :: i) r x) (hn : NotLabel (t :: i)) :
    isLoop x = decide (t.labelType = .iteration) := by
  cases h with
  | blockStmt h => cases h with
    | block hv => simp [isLoop, Token.labelType, hv]
  | labelStmt _ hid hv2 h =>
    cases hid with
    | mk hv _ => exact absurd ⟨_, _, _, _, rfl, hv, hv2⟩ hn
  | exprStmt hs =>
    obtain ⟨_, _, h, hs, -⟩ := hs
    cases h
    have : t.labelType ≠ .iteration := by
      unfold Token.labelType
      split
      · rename_i hv; exact absurd (by simp [hv, statementStarts]) hs
      · rename_i hv; exact absurd (by simp [hv, statementStarts]) hs
      · rename_i hv; exact absurd (by simp [hv, statementStarts]) hs
      · intro h; cases h
    simp [isLoop, this]
  | varStmt hv => simp [isLoop, Token.labelType, hv]
  | emptyStmt hv => simp [isLoop, Token.labelType, hv]
  | ifStmt hv => simp [isLoop, Token.labelType, hv]
  | ifElseStmt hv => simp [isLoop, Token.labelType, hv]
  | doStmt hv => simp [isLoop, Token.labelType, hv]
  | whileStmt hv => simp [isLoop, Token.labelType, hv]
  | forStmt hv => simp [isLoop, Token.labelType, hv]
  | forInStmt hv => simp [isLoop, Token.labelType, hv]
  | forOfStmt hv => simp [isLoop, Token.labelType, hv]
  | breakNone hv => simp [isLoop, Token.labelType, hv]
  | breakLabel hv => simp [isLoop, Token.labelType, hv]
  | continueNone hv => simp [isLoop, Token.labelType, hv]
  | continueLabel hv => simp [isLoop, Token.labelType, hv]
  | returnNone hv => simp [isLoop, Token.labelType, hv]
  | returnExpr hv => simp [isLoop, Token.labelType, hv]
  | throwStmt hv => simp [isLoop, Token.labelType, hv]
  | withStmt hv => simp [isLoop, Token.labelType, hv]
  | switchStmt hv => simp [isLoop, Token.labelType, hv]
  | tryStmt hv => simp [isLoop, Token.labelType, hv]
  | debuggerStmt hv => simp [isLoop, Token.labelType, hv]

/-- A statement with labels. -/
def wrapLabels (ids : List Id) (x : Stmt) : Stmt :=
  ids.reverse.foldl (fun body i => .sLabel (spanLoc i.location body.loc) i body) x

theorem wrapLabels_cons (i : Id) (ids : List Id) (x : Stmt) :
    wrapLabels (i :: ids) x =
      .sLabel (spanLoc i.location (wrapLabels ids x).loc) i (wrapLabels ids x) := by
  simp [wrapLabels]

theorem isLoop_wrap (ids : List Id) (x : Stmt) : isLoop (wrapLabels ids x) = isLoop x := by
  induction ids with
  | nil => rfl
  | cons i ids ih => rw [wrapLabels_cons]; simpa [isLoop] using ih

/-- The tokens of labels. -/
inductive LabelToks (env : Scope) : List Id → List Token → Prop where
  | nil : LabelToks env [] []
  | cons {t t2 : Token} {i : Id} {ids : List Id} {ts : List Token} : Ident env false t i →
      t2.value = .colon → LabelToks env ids ts → LabelToks env (i :: ids) (t :: t2 :: ts)

theorem LabelToks.append {env : Scope} {ids ids' : List Id} {ts ts' : List Token}
    (h : LabelToks env ids ts) (h' : LabelToks env ids' ts') :
    LabelToks env (ids ++ ids') (ts ++ ts') := by
  induction h with
  | nil => exact h'
  | cons h1 h2 _ ih => exact .cons h1 h2 ih

theorem Grammar.Ident.label {env : Scope} {b l : Bool} {t : Token} {i : Id} {n : Name}
    (h : Ident env b t i) : Ident (env.label n l) b t i := by
  cases h with
  | mk hv hid => exact .mk hv hid

theorem LabelToks.label {env : Scope} {ids : List Id} {ts : List Token} {n : Name} {l : Bool}
    (h : LabelToks env ids ts) : LabelToks (env.label n l) ids ts := by
  induction h with
  | nil => exact .nil
  | cons h1 h2 _ ih => exact .cons h1.label h2 ih

theorem derives_labels [Env] {S : Str} {i r : List Token} {x : Stmt} {ids : List Id} :
    ∀ {env : Scope} {ts : List Token}, env.plain = false → LabelToks env ids ts →
    Derives (Located S) (env.labelAll (isLoop x) ids) .stmt i r x →
    Derives (Located S) env .stmt (ts ++ i) r (wrapLabels ids x) := by
  induction ids with
  | nil =>
    intro env ts hp h hd
    cases h
    exact hd
  | cons j ids ih =>
    intro env ts hp h hd
    cases h with
    | cons h1 h2 h3 =>
      rw [wrapLabels_cons]
      refine .labelStmt (by rw [hp]; intro h; cases h) h1 h2 ?_
      rw [isLoop_wrap]
      exact ih hp h3.label hd

namespace P

variable [Env] [LawfulEnv] {S : Str} {env : Scope} {u : Bool} {n m na ni : Nat}
  {s s1 s2 s' : PState} {t : Token} {α β : Type} {r : Rec}

theorem wp.newIdFromToken {b : Bool} {name : Name} (hp : Pre S env s)
    (hv : t.value = .identifier name) :
    wp u (P.newIdFromToken b t) s (fun i s' => Ident env b t i ∧ SameBut s s') := by
  unfold P.newIdFromToken
  rw [hv]
  refine (wp.newId hp).mono ?_
  rintro i s' ⟨rfl, hid, hs⟩
  exact ⟨.mk hv hid, hs⟩

theorem wp.withLabels {ids : List Id} {op : P Stmt} (hp : Pre S env s) (l : LabelType)
    (hop : ∀ s1, s1.mu = s.mu → s1.lexer = s.lexer →
      Pre S (env.labelAll (decide (l = .iteration)) ids) s1 →
      wp u op s1 (Post S (env.labelAll (decide (l = .iteration)) ids) .stmt 1 s1)) :
    wp u (P.withLabels ids l op) s (fun y s' => ∃ x, y = wrapLabels ids x ∧
      Post S (env.labelAll (decide (l = .iteration)) ids) .stmt 1 s x s') := by
  unfold P.withLabels
  refine wp.modify_bind ?_
  generalize hs1 : ({ s with ctx := { s.ctx with
    labels := ids.foldl (fun ls i => ls.insert i.name l) s.ctx.labels } } : PState) = s1
  have hl : s1.lexer = s.lexer := by rw [← hs1]
  have hmu : s1.mu = s.mu := by simp [PState.mu, hl]
  refine (hop s1 hmu hl ⟨hp.inv.congr hl, ?_⟩).bind fun x s2 h2 => ?_
  · subst hs1
    obtain ⟨a1, a2, a3, a4, a5, a6, a7, a8⟩ := hp.env
    rw [Scope.labelAll_eq]
    refine ⟨a1, a2, a3, a4, a5, a6, ?_, a8⟩
    intro n t h
    rcases Labels.get_inserts _ _ _ _ _ h with ⟨rfl, i, hi, rfl⟩ | ⟨-, h⟩
    · refine List.mem_append_left _ ?_
      rw [List.mem_reverse]
      exact List.mem_map_of_mem (f := fun i => (Id.name i, _)) hi
    · exact List.mem_append_right _ (a7 n t h)
  · refine wp.modify_bind (wp.pure ⟨x, rfl, ?_⟩)
    refine h2.inside hl rfl ?_
    have hk := h2.frame
    subst hs1
    refine ⟨hk.goal, hk.validate, ?_, ?_⟩
    · show ({ s2.ctx with labels := _ } : Ctx) = _
      rw [hk.ctx]
    · intro n t h
      obtain ⟨h1, h2⟩ := (Labels.get_removes _ _ _ _).1 h
      rcases Labels.get_inserts _ _ _ _ _ (hk.labels n t h2) with ⟨_, i, hi, hn⟩ | ⟨-, h⟩
      · exact absurd hn (h1 i hi)
      · exact h

theorem wp.labelledStatement (hr : RecOk u S r na ni) {t0 : Token} {i0 : Id}
    (hid : Ident env false t0 i0) (hp : Pre S env s) (hi : s.mu ≤ ni)
    {tl : List Token} (hla : s.la = t :: tl) (hv : t.value = .colon) :
    wp u (P.labelledStatement r i0) s (fun x s' => Tr S 0 s s' (fun i r =>
      Derives (Located S) env .stmt (t0 :: i) r x)) := by
  unfold P.labelledStatement
  refine (wp.reread hp.inv hla hv rfl).bind ?_
  rintro _ s1 ⟨rfl, h1⟩
  have h1' := h1.one hv
  have := h1'.mu
  have hp1 := h1.tr.pre hp
  have hl : wp u (P.loop labelStep [i0]) s1 (fun ids s' => ∃ ts, LabelToks env ids (t0 :: t :: ts) ∧
      Tr S 0 s1 s' (fun i r => i = ts ++ r ∧ NotLabel r)) := by
    refine wp.loop (fun ids s' => ∃ ts, LabelToks env ids (t0 :: t :: ts) ∧
      Tr S 0 s1 s' (fun i r => i = ts ++ r)) ?_ ?_
    · exact ⟨[], .cons hid hv .nil, (Tr.refl hp1.inv).imp (by rintro a b rfl; rfl)⟩
    · rintro ids s2 ⟨ts, hts, h2⟩
      have hp2 := h2.pre hp1
      unfold labelStep
      refine (wp.peek hp2.inv).bind fun t3 s3 h3 => ?_
      have := h3.tr.mu
      have hp3 := h3.tr.pre hp2
      obtain ⟨tl3, hla3⟩ := h3.la
      split
      · rename_i name hv3
        refine (wp.rereadToken hp3.inv hla3).bind ?_
        rintro _ s4 ⟨rfl, h4⟩
        have h4' := h4.one hv3
        have := h4'.mu
        have hp4 := h4.tr.pre hp3
        have hla4 := h4.la1 hp3.inv
        refine (wp.matchesOpC hp4.inv h4.clean rfl).bind ?_
        rintro _ s5 ⟨t5, ⟨rfl, hv5, h5⟩ | ⟨rfl, hv5, hnr, h5⟩⟩
        · have := h5.zero.mu
          refine (wp.newIdFromToken (h5.tr.pre hp4) hv3).bind ?_
          rintro j s6 ⟨hj, h6⟩
          have h6' := h6.tr h5.tr.inv
          have := h6'.mu
          refine ⟨⟨ts ++ [t3, t5], ?_, (h2.trans (h3.tr.trans (h4'.trans (h5.zero.trans h6')))).mono
            (Nat.zero_le _) ?_⟩, by omega⟩
          · exact hts.append (.cons hj hv5 .nil)
          · rintro a b ⟨_, rfl, _, ⟨rfl, _⟩, _, rfl, _, rfl, rfl⟩
            simp
        · have hlen := h5.len
          refine wp.bind (wp.unread (Q := fun _ s3 => s3 = s5.push t3) (by omega) rfl) ?_
          rintro _ _ rfl
          have h6 := h4.unread h5.tr (fun _ _ h => h.1) (by omega) h5.ne
            (by obtain ⟨tl, h⟩ := h5.la; exact h5.tr.inv.clean h hnr)
          refine ⟨ts, hts, (h2.trans (h3.tr.trans h6)).imp ?_⟩
          rintro a b ⟨_, rfl, _, ⟨rfl, _⟩, rfl, r, rfl, -, r', rfl⟩
          refine ⟨rfl, ?_⟩
          rintro ⟨_, _, _, _, h, _, hc⟩
          cases h
          exact hv5 hc
      · rename_i hv3
        refine ⟨ts, hts, (h2.trans h3.tr).imp ?_⟩
        rintro a b ⟨_, rfl, rfl, r, rfl⟩
        refine ⟨rfl, ?_⟩
        rintro ⟨_, _, _, _, h, hc, _⟩
        cases h
        exact hv3 _ hc
  refine hl.bind ?_
  rintro ids s2 ⟨ts, hts, h2⟩
  have hp2 := h2.pre hp1
  have := h2.mu
  refine (wp.peek hp2.inv).bind fun t3 s3 h3 => ?_
  have := h3.tr.mu
  have hp3 := h3.tr.pre hp2
  refine (wp.withLabels hp3 t3.labelType fun s4 hmu _ hp4 => wp.statement hr hp4 (by omega)).mono ?_
  rintro _ s4 ⟨x, rfl, h4⟩
  refine (h1'.trans (h2.trans (h3.tr.trans h4))).mono (Nat.zero_le _) ?_
  rintro a b ⟨_, rfl, _, ⟨rfl, hn⟩, _, ⟨rfl, r, rfl⟩, hd⟩
  rw [← loop_start hd hn] at hd
  exact derives_labels hp.env.plain hts hd

/-! ### Statement list items -/

theorem wp.asItem {p : P Stmt} {b : Bool} (h : wp u p s (Post S env .stmt n s)) :
    wp u (P.asItem p) s (Post S env (.item b) n s) := by
  unfold P.asItem
  exact h.bind fun x s' h => h.imp fun _ _ h => .itemStmt h

theorem wp.identifierItem (hr : RecOk u S r na ni) {b : Bool} (hp : Pre S env s) (ha : s.mu < na)
    (hi : s.mu ≤ ni) {tl : List Token} {name : Name} (hla : s.la = t :: tl)
    (hv : t.value = .identifier name) :
    wp u (P.identifierItem r b) s (Post S env (.item b) 1 s) := by
  unfold P.identifierItem
  refine (wp.rereadToken hp.inv hla).bind ?_
  rintro _ s1 ⟨rfl, h1⟩
  have h1' := h1.one hv
  have := h1'.mu
  have hp1 := h1.tr.pre hp
  have hla1 := h1.la1 hp.inv
  refine (wp.peekOpC hp1.inv).bind ?_
  rintro t2 s2 ⟨h2, hcl⟩
  have := h2.tr.mu
  have hp2 := h2.tr.pre hp1
  have hlen := h2.len
  obtain ⟨tl2, hla2⟩ := h2.la
  have hexpr : t2.value ≠ .colon →
      (t.value = .identifier (.atom .«let») → ¬ StartsBinding t2) →
      wp u (do
        P.unread t
        let s ← P.expressionStatement r
        Pure.pure (.siStmt s)) s2 (Post S env (.item b) 1 s) := by
    intro hc hl
    refine wp.bind (wp.unread (Q := fun _ s3 => s3 = s2.push t) (by omega) rfl) ?_
    rintro _ _ rfl
    have h3 := h1.unread h2.tr (fun _ _ h => h.1) (by omega) h2.ne
      (hcl h1.clean).2
    have := h3.mu
    refine (wp.expressionStatement hr (h3.pre hp) (by omega)).bind fun x s4 h4 => ?_
    refine (h3.trans h4).mono (Nat.le_add_left ..) ?_
    rintro a r ⟨_, ⟨rfl, r', rfl, -, r'', rfl⟩, hx⟩
    refine .itemStmt (hx ⟨_, _, rfl, ?_, fun _ => ⟨_, _, rfl, hc, hl⟩⟩)
    rw [hv]
    simp [statementStarts]
  have hlet : t2.value ≠ .colon → wp u (if t.value.eqv (.identifier (.atom .«let»)) = true then
      if (!b) = true then P.unexpected
      else do
        let d ← P.letDeclaration r t.location.start
        Pure.pure (.siDecl d)
      else do
        P.unread t
        let s ← P.expressionStatement r
        Pure.pure (.siStmt s)) s2 (Post S env (.item b) 1 s) := by
    intro hc
    rw [eqv_plain rfl]
    refine wp.ite (fun hl => ?_) (fun hl => hexpr hc fun h => absurd h (by simpa using hl))
    have hl : t.value = .identifier (.atom .«let») := by simpa using hl
    refine wp.ite (fun _ => wp.unexpected hp2.inv hla2) (fun hb => ?_)
    have hb : b = true := by simpa using hb
    subst hb
    unfold P.letDeclaration
    refine wp.bind (Q := Post S env .decl 1 s) ?_ fun d s' h => h.imp fun _ _ h => .itemDecl h
    refine (wp.dtors hr hp2 (by omega)).bind fun ds s3 h3 => ?_
    refine wp.endStmt ((h1'.trans (h2.tr.trans h3)).mono (m := 1) (by omega) fun _ _ h => h)
      (fun i k hi h => by
        obtain ⟨_, hc, _⟩ := h
        cases hc
        exact hi.nearTok hp.inv h1.tok h1.end h1.tr.inv) ?_ ?_
    · have := h1.tok.order
      have := h1.end
      have := h2.tr.off
      have := h3.off
      omega
    · rintro i k r semi l ⟨_, rfl, _, ⟨rfl, _⟩, hd⟩ hterm hl'
      exact .declLet hl hd hterm hl'
  dsimp only
  split
  · rename_i hc
    refine (wp.newIdFromToken hp2 hv).bind ?_
    rintro j s3 ⟨hj, h3⟩
    have h3' := h3.tr hp2.inv
    have := h3.mu
    refine (wp.labelledStatement hr hj (h3'.pre hp2) (by omega)
      (by rw [h3.la]; exact hla2) hc).bind fun x s4 h4 => ?_
    refine (h1'.trans (h2.tr.trans (h3'.trans h4))).mono (Nat.le_add_right ..) ?_
    rintro a b ⟨_, rfl, _, ⟨rfl, _⟩, _, rfl, hd⟩
    exact .itemStmt hd
  · rename_i hc
    exact hlet (by rw [hc]; intro h; cases h)
  · rename_i hc
    exact hlet (by rw [hc]; intro h; cases h)
  · rename_i hc
    exact hlet (by rw [hc]; intro h; cases h)
  · rename_i hn1 hn2 hn3 hn4
    refine hexpr hn1 fun _ hs => ?_
    rcases hs with hs | hs | ⟨_, hs⟩
    · exact hn3 hs
    · exact hn4 hs
    · exact hn2 _ hs

theorem wp.stmtListItem (hr : RecOk u S r na ni) {b : Bool} (hp : Pre S env s) (ha : s.mu < na)
    (hi : s.mu ≤ ni) : wp u (P.stmtListItem r b) s (Post S env (.item b) 1 s) := by
  unfold P.stmtListItem
  refine (wp.peek hp.inv).bind fun t s1 h1 => ?_
  have := h1.tr.mu
  have hp1 := h1.tr.pre hp
  obtain ⟨tl, hla⟩ := h1.la
  have fin : ∀ {p : P StmtListItem}, wp u p s1 (Post S env (.item b) 1 s1) →
      wp u p s1 (Post S env (.item b) 1 s) := by
    intro p h
    refine h.mono fun x s2 h2 => (h1.tr.trans h2).mono (Nat.le_add_left ..) ?_
    rintro a b ⟨_, ⟨rfl, _⟩, h⟩
    exact h
  split
  · refine wp.ite (fun _ => wp.unexpected hp1.inv hla) (fun hb => ?_)
    have hb : b = true := by simpa using hb
    subst hb
    refine fin ((wp.functionDeclaration hr hp1 hla ‹_› (by omega)).bind fun d s2 h2 => ?_)
    exact h2.imp fun _ _ h => .itemDecl h
  · refine fin (wp.asItem ((wp.block hr hp1 (by omega)).bind fun d s2 h2 => ?_))
    exact h2.imp fun _ _ h => .blockStmt h
  · exact fin (wp.asItem (wp.varStatement hr hp1 (by omega) hla ‹_›))
  · refine wp.ite (fun _ => wp.unexpected hp1.inv hla) (fun hb => ?_)
    have hb : b = true := by simpa using hb
    subst hb
    refine fin ((wp.constDeclaration hr hp1 (by omega) hla ‹_›).bind fun d s2 h2 => ?_)
    exact h2.imp fun _ _ h => .itemDecl h
  · exact fin (wp.asItem (wp.emptyStatement hp1))
  · exact fin (wp.asItem (wp.ifStatement hr hp1 (by omega) (by omega)))
  · exact fin (wp.asItem (wp.continueStatement hp1 hla ‹_›))
  · exact fin (wp.asItem (wp.breakStatement hp1 hla ‹_›))
  · exact fin (wp.asItem (wp.returnStatement hr hp1 (by omega) hla ‹_›))
  · exact fin (wp.asItem (wp.withStatement hr hp1 (by omega) (by omega) hla ‹_›))
  · exact fin (wp.asItem (wp.switchStatement hr hp1 (by omega) (by omega) hla ‹_›))
  · exact fin (wp.asItem (wp.throwStatement hr hp1 (by omega) hla ‹_›))
  · exact fin (wp.asItem (wp.tryStatement hr hp1 (by omega) hla ‹_›))
  · exact fin (wp.asItem (wp.whileStatement hr hp1 (by omega) (by omega) hla ‹_›))
  · exact fin (wp.asItem (wp.doStatement hr hp1 (by omega) (by omega) hla ‹_›))
  · exact fin (wp.asItem (wp.forStatement hr hp1 (by omega) (by omega) hla ‹_›))
  · exact fin (wp.asItem (wp.debuggerStatement hp1 hla ‹_›))
  · exact fin (wp.identifierItem hr hp1 (by omega) (by omega) hla ‹_›)
  · rename_i n1 n2 n3 n4 n5 n6 n7 n8 n9 n10 n11 n12 n13 n14 n15 n16 n17 n18
    unfold P.asItem
    refine (wp.expressionStatement hr hp1 (by omega)).bind fun x s2 h2 => ?_
    refine (h1.tr.trans h2).mono (Nat.le_add_left ..) ?_
    rintro a b ⟨_, ⟨rfl, r, rfl⟩, hx⟩
    refine .itemStmt (hx ⟨_, _, rfl, ?_, ?_⟩)
    · simp only [statementStarts, List.mem_cons, List.not_mem_nil, or_false, not_or]
      exact ⟨n2, n5, n1, n3, n4, n6, n7, n8, n9, n10, n11, n12, n13, n14, n15, n16, n17⟩
    · rintro ⟨n, h⟩
      exact absurd h (n18 n)

/-- The recursion. -/
theorem recOk (u : Bool) (S : Str) (n : Nat) :
    ∀ na ni, 2 * na ≤ n + 1 → 2 * ni ≤ n → RecOk u S (P.recOf n) na ni := by
  induction n with
  | zero =>
    intro na ni h1 h2
    exact ⟨fun s env _ h => by omega, fun b s env _ h => by omega, fun s _ _ _ h => by omega⟩
  | succ n ih =>
    intro na ni h1 h2
    refine ⟨fun s env hp h => ?_, fun b s env hp h => ?_,
      fun s _ _ h _ => bf.assignmentExpression h⟩
    · exact wp.assignmentExpression (ih s.mu s.mu (by omega) (by omega)) hp (Nat.le_refl _)
        (Nat.le_refl _)
    · exact wp.stmtListItem (ih (s.mu + 1) s.mu (by omega) (by omega)) hp (Nat.lt_succ_self _)
        (Nat.le_refl _)

end P

end Esprit
