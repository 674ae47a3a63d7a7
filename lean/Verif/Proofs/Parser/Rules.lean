import Verif.Proofs.Parser.Wp

/-! Rules for the combinators of the parser. -/

set_option linter.unusedSectionVars false
set_option linter.unusedVariables false

namespace Esprit

open Lex ReaderSpec Grammar

section Pre

variable [Env] {S : Str} {n m : Nat} {s s1 s2 s' : PState}
  {R R' : List Token → List Token → Prop} {t : Token} {env : Scope}

/-- The state agrees with the surroundings. -/
structure EnvOk (env : Scope) (s : PState) : Prop where
  strict : env.strict = true → s.ctx.strict = .yes ∧ s.validate = true
  module : env.module = true → s.goal = .module ∧ s.ctx.strict = .yes ∧ s.validate = true
  function : s.ctx.function = env.function
  iteration : s.ctx.iteration = env.iteration
  switch : s.ctx.switch = env.switch
  allowIn : s.ctx.allowIn = env.allowIn
  labels : ∀ n t, s.ctx.labels.get n = some t → (n, decide (t = .iteration)) ∈ env.labels
  plain : env.plain = false

/-- The precondition of every construct. -/
structure Pre (S : Str) (env : Scope) (s : PState) : Prop where
  inv : Inv S s
  env : EnvOk env s

theorem Kept.envOk (h : Kept s s') (he : EnvOk env s) : EnvOk env s' := by
  refine ⟨?_, ?_, ?_, ?_, ?_, ?_, fun n t hn => he.labels n t (h.labels n t hn), he.plain⟩
  · rw [h.ctx, h.validate]; exact he.strict
  · rw [h.ctx, h.validate, h.goal]; exact he.module
  · rw [h.ctx]; exact he.function
  · rw [h.ctx]; exact he.iteration
  · rw [h.ctx]; exact he.switch
  · rw [h.ctx]; exact he.allowIn

theorem Tr.pre (h : Tr S n s s' R) (hp : Pre S env s) : Pre S env s' :=
  ⟨h.inv, h.frame.envOk hp.env⟩

theorem Token.weight_eq {v : TokenData} (h : t.value = v) (hv : v ≠ .eof) : t.weight = 1 := by
  unfold Token.weight
  rw [h, if_neg hv]

theorem ReadPost.one (h : ReadPost S s t s1) {v : TokenData} (hv : t.value = v)
    (hn : v ≠ .eof := by intro h; cases h) : Tr S 1 s s1 (Cons t) :=
  h.tr.mono (by rw [t.weight_eq hv hn]; exact Nat.le_refl 1) (fun _ _ h => h)

theorem ReadPost.zero (h : ReadPost S s t s1) : Tr S 0 s s1 (Cons t) :=
  h.tr.mono (Nat.zero_le _) (fun _ _ h => h)

theorem EnvOk.notPlain (h : EnvOk env s) {p : Prop} : env.plain = true → p := by
  intro hp
  rw [h.plain] at hp
  cases hp

/-- The result of a construct. -/
abbrev Post (S : Str) (env : Scope) {c : Cat} (nt : NT c) (n : Nat) (s : PState) (a : Ast c)
    (s' : PState) : Prop := Tr S n s s' (fun i r => Derives (Located S) env nt i r a)

/-- A word and a regular expression are buffered. -/
structure Odd (s : PState) (t1 t2 : Token) : Prop where
  la : s.la = [t1, t2]
  first : (∃ n, t1.value = .identifier n) ∨ t1.value = .reserved .const
  second : ∃ x, t2.value = .regExp x

/-- The recursive functions behave for all states with less than `na`, `ni` unread tokens. -/
structure RecOk (u : Bool) (S : Str) (r : Rec) (na ni : Nat) : Prop where
  assign : ∀ s env, Pre S env s → s.mu < na → P.wp u r.assign s (Post S env .assign 1 s)
  item : ∀ b s env, Pre S env s → s.mu < ni → P.wp u (r.item b) s (Post S env (.item b) 1 s)
  bad : ∀ s t1 t2, Odd s t1 t2 → s.mu < na → P.wp u r.assign s (fun _ s' => s'.la = [t2])

end Pre

/-- A comma-separated list without its first element. -/
inductive MoreComma {α : Type} (E : α → List Token → List Token → Prop) :
    List α → List Token → List Token → Prop where
  | nil {i : List Token} : MoreComma E [] i i
  | cons {t : Token} {i1 i2 r : List Token} {x : α} {xs : List α} : t.value = .comma →
      E x i1 i2 → MoreComma E xs i2 r → MoreComma E (x :: xs) (t :: i1) r

namespace P

variable [Env] [LawfulEnv] {u : Bool} {S : Str} {n m : Nat} {s s1 s2 s' : PState} {t : Token}
  {env : Scope} {α β : Type}

theorem wp.get_bind {f : PState → P β} {Q : β → PState → Prop} (h : wp u (f s) s Q) :
    wp u (P.get >>= f) s Q := h

theorem wp.posn_bind {f : Posn → P β} {Q : β → PState → Prop}
    (h : wp u (f s.lexer.reader.posn) s Q) : wp u (P.posn >>= f) s Q := h

theorem wp.modify_bind {g : PState → PState} {f : Unit → P β} {Q : β → PState → Prop}
    (h : wp u (f ()) (g s) Q) : wp u (P.modify g >>= f) s Q := h

theorem wp.pure_bind {a : α} {f : α → P β} {Q : β → PState → Prop}
    (h : wp u (f a) s Q) : wp u (Pure.pure a >>= f) s Q := h

theorem wp.ite {c : Prop} [Decidable c] {a b : P α} {Q : α → PState → Prop}
    (h1 : c → wp u a s Q) (h2 : ¬ c → wp u b s Q) : wp u (if c then a else b) s Q := by
  split
  · exact h1 ‹_›
  · exact h2 ‹_›

theorem wp.spanKeep [Tracking α] {p : P α} {C : PState → Prop} (h : wp u p s (fun _ s' => C s')) :
    wp u (span p) s (fun _ s' => C s') := by
  unfold P.span
  refine wp.posn_bind ?_
  refine h.bind fun a s' ht => ?_
  exact wp.posn_bind ht

theorem wp.span [Tracking α] {p : P α} {R : α → List Token → List Token → Prop} (hs : Inv S s)
    (h : wp u p s (fun a s' => Tr S n s s' (R a))) :
    wp u (span p) s (fun a' s' => ∃ a l, a' = Tracking.setLoc l a ∧
      (∀ sp, l = some sp → sp.start.offset = s.off) ∧
      Tr S n s s' (fun i r => R a i r ∧ Located S i r l)) := by
  unfold P.span
  refine wp.posn_bind ?_
  refine h.bind fun a s' ht => ?_
  refine wp.posn_bind ?_
  refine ⟨a, _, rfl, ?_, ht.located hs⟩
  intro sp h
  cases h
  rfl

/-- A construct with a location. -/
theorem wp.spanAst {c : Cat} {nt : NT c} {p : P (Ast c)} (hs : Inv S s)
    (h : wp u p s (fun a s' => Tr S n s s'
      (fun i r => ∀ l, Located S i r l → Derives (Located S) env nt i r (a.setLoc l)))) :
    wp u (P.span p) s (Post S env nt n s) := by
  refine (wp.span hs h).mono ?_
  rintro a' s' ⟨a, l, rfl, -, h⟩
  exact h.imp fun i r h => h.1 l h.2

theorem wp.allowInC {p : P α} {b : Bool} {R : α → List Token → List Token → Prop} {c : Prop}
    (hp : Pre S env s)
    (h : ∀ s1, s1.mu = s.mu → s1.la = s.la → Pre S (env.withIn b) s1 →
      wp u p s1 (fun a s' => Tr S n s1 s' (R a) ∧ (c → Clean s'))) :
    wp u (allowIn b p) s (fun a s' => Tr S n s s' (R a) ∧ (c → Clean s')) := by
  unfold P.allowIn
  refine wp.get_bind ?_
  refine wp.modify_bind ?_
  generalize hs1 : ({ s with ctx := { s.ctx with allowIn := b } } : PState) = s1
  have hl : s1.lexer = s.lexer := by rw [← hs1]
  have h1 := h s1 (by simp [PState.mu, hl]) (by simp [PState.la, hl]) ⟨hp.inv.congr hl, by
    subst hs1
    obtain ⟨a1, a2, a3, a4, a5, a6, a7, a8⟩ := hp.env
    exact ⟨a1, a2, a3, a4, a5, rfl, a7, a8⟩⟩
  refine h1.bind fun a s' ht => ?_
  obtain ⟨ht, hc⟩ := ht
  refine wp.modify_bind (wp.pure ⟨?_, fun h => (hc h).congr rfl⟩)
  refine ht.inside hl rfl ?_
  subst hs1
  have hk := ht.frame
  refine ⟨hk.goal, hk.validate, ?_, hk.labels⟩
  show ({ s'.ctx with allowIn := s.ctx.allowIn } : Ctx) = _
  rw [hk.ctx]

theorem wp.allowIn {p : P α} {b : Bool} {R : α → List Token → List Token → Prop}
    (hp : Pre S env s)
    (h : ∀ s1, s1.mu = s.mu → s1.la = s.la → Pre S (env.withIn b) s1 →
      wp u p s1 (fun a s' => Tr S n s1 s' (R a))) :
    wp u (allowIn b p) s (fun a s' => Tr S n s s' (R a)) :=
  (wp.allowInC (c := False) hp fun s1 h1 h2 h3 =>
    (h s1 h1 h2 h3).mono fun _ _ h => ⟨h, False.elim⟩).mono fun _ _ h => h.1

/-- Automatic semicolon insertion. -/
theorem wp.endWithAutoSemi [Tracking α] {cons : Semi → α} {nl : Newline} {start : Posn}
    {R : List Token → List Token → Prop}
    (h : Tr S n s s1 R) (hstart : ∀ i k, Rem S s i → R i k → Near S i start)
    (hle : start.offset ≤ s1.off) :
    wp u (endWithAutoSemi start nl cons) s1 (fun a s' => ∃ l semi,
      a = Tracking.setLoc l (cons semi) ∧ (∃ sp, l = some sp) ∧
      Tr S n s s' (fun i r => ∃ k, R i k ∧ Term (decide (nl = .optional)) k r semi ∧
        Located S i r l)) := by
  have loc : ∀ {s2 : PState} {m : Nat} {R' : List Token → List Token → Prop},
      Tr S m s s2 R' → s1.off ≤ s2.off → (∀ i r, R' i r → ∃ k, R i k) →
      Tr S m s s2 (fun i r => R' i r ∧ Located S i r (some ⟨start, s2.lexer.reader.posn⟩)) := by
    intro s2 m R' h1 h2 h3
    refine ⟨h1.inv, h1.frame, h1.mu, h1.off, fun rest' hr => ?_⟩
    obtain ⟨r0, c0, b1, b2, b3, b4⟩ := h1.back rest' hr
    obtain ⟨k, hk⟩ := h3 _ _ b4
    exact ⟨r0, c0, b1, b2, b3, b4, _, _, c0, rfl, Nat.le_trans hle h2, hstart _ _ b1 hk,
      hr.near h1.inv, b2, b3⟩
  unfold P.endWithAutoSemi
  refine wp.posn_bind ?_
  refine (wp.peek h.inv).bind fun t s2 h2 => ?_
  have hins : t.value ≠ .semi →
      t.value = .rBrace ∨ t.value = .eof ∨ t.newline = true ∨ nl = .optional →
      ∃ l semi,
      Tracking.setLoc (some ⟨start, s1.lexer.reader.posn⟩) (cons .inserted) =
        Tracking.setLoc l (cons semi) ∧ (∃ sp, l = some sp) ∧
      Tr S n s s2 (fun i r => ∃ k, R i k ∧ Term (decide (nl = .optional)) k r semi ∧
        Located S i r l) := by
    intro hv hc
    refine ⟨_, _, rfl, ⟨_, rfl⟩, ((loc h (Nat.le_refl _) fun _ r h => ⟨r, h⟩).trans h2.tr).mono (Nat.le_add_right ..) ?_⟩
    rintro a b ⟨_, ⟨hr, hl⟩, rfl, r, rfl⟩
    refine ⟨_, hr, .inserted hv ?_, hl⟩
    simpa using hc
  obtain ⟨tl, hla⟩ := h2.la
  split
  · rename_i hv
    refine (wp.reread h2.tr.inv hla hv rfl).bind ?_
    rintro t' s3 ⟨rfl, h3⟩
    refine wp.posn_bind ?_
    refine ⟨_, _, rfl, ⟨_, rfl⟩, (loc (h.trans (h2.tr.trans h3.zero))
      (Nat.le_trans h2.tr.off h3.tr.off) fun _ _ h => ⟨_, h.choose_spec.1⟩).mono (Nat.le_add_right ..) ?_⟩
    rintro a b ⟨⟨_, hr, _, ⟨rfl, _, rfl⟩, hc⟩, hl⟩
    cases hc
    exact ⟨_, hr, .explicit hv, hl⟩
  · rename_i hv
    exact hins (by rw [hv]; intro h; cases h) (.inl hv)
  · rename_i hv
    exact hins (by rw [hv]; intro h; cases h) (.inr (.inl hv))
  · rename_i hv1 hv2 hv3
    split
    · refine (wp.read h2.tr.inv).bind fun _ _ _ => trivial
    · rename_i hc
      refine hins hv1 ?_
      cases nl <;> simp_all

theorem wp.endWithAutoSemi_la [Tracking α] {cons : Semi → α} {nl : Newline} {start : Posn}
    (hs : Inv S s) :
    wp u (P.endWithAutoSemi start nl cons) s (fun _ s' => s'.la.length ≤ max 1 s.la.length) := by
  unfold P.endWithAutoSemi
  refine wp.posn_bind ?_
  refine (wp.peek hs).bind fun t s2 h2 => ?_
  have hlen := h2.len
  obtain ⟨tl, hla⟩ := h2.la
  split
  · rename_i hv
    refine (wp.reread h2.tr.inv hla hv rfl).bind ?_
    rintro t' s3 ⟨rfl, h3⟩
    refine wp.posn_bind ?_
    have := h3.la
    show s3.la.length ≤ _
    omega
  · show s2.la.length ≤ _
    omega
  · show s2.la.length ≤ _
    omega
  · split
    · refine (wp.read h2.tr.inv).bind fun _ _ _ => trivial
    · show s2.la.length ≤ _
      omega

/-- The state up to deferred checks. -/
def SameBut (s s' : PState) : Prop := ∃ d, s' = { s with deferred := d }

theorem SameBut.tr (h : SameBut s s') (hs : Inv S s) : Tr S 0 s s' (fun a b => a = b) := by
  obtain ⟨d, rfl⟩ := h
  exact .same hs rfl ⟨rfl, rfl, rfl, fun _ _ h => h⟩

theorem SameBut.la (h : SameBut s s') : s'.la = s.la := by
  obtain ⟨d, rfl⟩ := h
  rfl

theorem SameBut.mu (h : SameBut s s') : s'.mu = s.mu := by
  obtain ⟨d, rfl⟩ := h
  rfl

theorem wp.strictCheckPure {c : Option Check} :
    wp u (strictCheck (Pure.pure c)) s (fun _ s' => SameBut s s' ∧
      (s.ctx.strict = .yes → s.validate = true → ∀ e, c ≠ some (.strict e)) ∧
      (s.goal = .module → s.ctx.strict = .yes → s.validate = true → ∀ e, c ≠ some (.module e))) := by
  unfold P.strictCheck
  refine wp.get_bind ?_
  refine wp.ite (fun hne => ?_) (fun he => ?_)
  · refine wp.pure_bind ?_
    split
    · refine wp.ite (fun _ => trivial) (fun hc => ?_)
      refine ⟨⟨_, rfl⟩, ?_, ?_⟩
      · intro h1 h2; simp [h1, h2] at hc
      · intro _ _ _ e h; cases h
    · refine wp.ite (fun _ => trivial) (fun hc => ?_)
      refine wp.ite (fun hg => ⟨⟨_, rfl⟩, ?_, ?_⟩) (fun hg => ⟨⟨_, rfl⟩, ?_, ?_⟩)
      · intro _ _ e h; cases h
      · intro h1 h2 h3; simp [h1, h3] at hc
      · intro _ _ e h; cases h
      · intro h1 h2 h3; simp [h1, h3] at hc
    · exact ⟨⟨_, rfl⟩, (by intro _ _ _ h; cases h), (by intro _ _ _ _ h; cases h)⟩
  · simp only [ne_eq, Decidable.not_not] at he
    refine ⟨⟨_, rfl⟩, fun h => ?_, fun _ h => ?_⟩ <;> rw [he] at h <;> cases h

theorem newIdCheck_eq (b : Bool) (name : Name) (l : Span) : ∃ c, newIdCheck b name l = Pure.pure c ∧
    (b = true → name = .atom .eval ∨ name = .atom .arguments → ∃ e, c = some (.strict e)) ∧
    (∀ a ∈ strictReserved, name = .atom a → ∃ e, c = some (.strict e)) ∧
    (name = .atom .await → ∃ e, c = some (.module e)) := by
  cases name with
  | string x =>
    refine ⟨none, ?_, ?_, ?_, ?_⟩
    · unfold newIdCheck
      simp [Name.isIllegalStrictBinding, Name.isStrictReserved]
    · rintro _ (h | h) <;> cases h
    · intro a _ h; cases h
    · intro h; cases h
  | atom a =>
    cases b <;> cases a <;>
      refine ⟨_, rfl, ?_, ?_, ?_⟩ <;>
      simp [strictReserved, Name.isStrictReserved, Atom.isStrictReserved]

theorem wp.newId {b : Bool} {name : Name} {l : Span} (hp : Pre S env s) :
    wp u (newId b name l) s (fun i s' => i = ⟨some l, name⟩ ∧ env.IdOk b name ∧ SameBut s s') := by
  obtain ⟨c, hc, h1, h2, h3⟩ := newIdCheck_eq b name l
  unfold P.newId
  rw [hc]
  refine wp.strictCheckPure.bind ?_
  rintro _ s' ⟨hs, hst, hmod⟩
  refine ⟨rfl, ⟨fun he => ⟨fun a ha hn => ?_, fun hb => ⟨fun hn => ?_, fun hn => ?_⟩⟩, fun he hn => ?_⟩, hs⟩
  · obtain ⟨e, rfl⟩ := h2 a ha hn
    exact hst (hp.env.strict he).1 (hp.env.strict he).2 e rfl
  · obtain ⟨e, rfl⟩ := h1 hb (.inl hn)
    exact hst (hp.env.strict he).1 (hp.env.strict he).2 e rfl
  · obtain ⟨e, rfl⟩ := h1 hb (.inr hn)
    exact hst (hp.env.strict he).1 (hp.env.strict he).2 e rfl
  · obtain ⟨e, rfl⟩ := h3 hn
    obtain ⟨a1, a2, a3⟩ := hp.env.module he
    exact hmod a1 a2 a3 e rfl

/-- `id`. -/
theorem wp.id {b : Bool} (hp : Pre S env s) :
    wp u (P.id b) s (fun i s' => ∃ t, Ident env b t i ∧ Tr S 1 s s' (Cons t) ∧
      s'.la.length ≤ s.la.length - 1) := by
  unfold P.id
  refine (wp.read hp.inv).bind fun t s1 h1 => ?_
  split
  · rename_i name hv
    refine (wp.newId (h1.tr.pre hp)).mono ?_
    rintro i s' ⟨rfl, hid, hs⟩
    refine ⟨t, .mk hv hid, ((h1.one hv).trans (hs.tr h1.tr.inv)).imp ?_, ?_⟩
    · rintro a b ⟨_, h, rfl⟩
      exact h
    · rw [hs.la]; exact h1.la
  · trivial

theorem wp.bindingPattern {Q : Ast (.comp .id) → PState → Prop} (hs : Inv S s) :
    wp u P.bindingPattern s Q := by
  unfold P.bindingPattern
  refine (wp.peek hs).bind fun t s1 h1 => ?_
  obtain ⟨tl, hla⟩ := h1.la
  exact wp.ite (fun _ => wp.unexpected h1.tr.inv hla) (fun _ => trivial)

theorem wp.pattern (hp : Pre S env s) :
    wp u P.pattern s (fun p s' => ∃ i t, p = .pSimple (.ident i) ∧ Ident env true t i ∧
      Tr S 1 s s' (Cons t)) := by
  unfold P.pattern
  refine (wp.peek hp.inv).bind fun t s1 h1 => ?_
  split
  · refine (wp.id (h1.tr.pre hp)).bind ?_
    rintro i s' ⟨t', hi, ht, -⟩
    refine ⟨i, t', rfl, hi, (h1.tr.trans ht).mono (Nat.le_add_left ..) ?_⟩
    rintro a b ⟨_, ⟨rfl, _⟩, h⟩
    exact h
  · exact (wp.bindingPattern h1.tr.inv).bind fun _ _ h => h

theorem wp.moreComma {f : P α} {E : α → List Token → List Token → Prop} {first : α} {b : Nat}
    (hp : Pre S env s) (hb : s.mu ≤ b)
    (hf : ∀ s, Pre S env s → s.mu < b → wp u f s (fun x s' => Tr S 0 s s' (E x))) :
    wp u (moreComma first f) s (fun l s' => ∃ xs, l = first :: xs ∧
      Tr S 0 s s' (fun i r => MoreComma E xs i r ∧ NextIsNot r .comma)) := by
  unfold P.moreComma
  refine wp.loop (fun acc s1 => ∃ xs, acc = first :: xs ∧ Tr S 0 s s1 (fun i r =>
    ∀ ys rest, MoreComma E ys r rest → MoreComma E (xs ++ ys) i rest)) ?_ ?_
  · exact ⟨[], rfl, (Tr.refl hp.inv).imp (by rintro a b rfl ys rest h; exact h)⟩
  · rintro acc s1 ⟨xs, rfl, h1⟩
    unfold moreCommaStep
    refine (wp.matches h1.inv rfl).bind ?_
    rintro b s2 ⟨t, ⟨rfl, hv, h2⟩ | ⟨rfl, hv, h2⟩⟩
    · have h2' := h2.one hv
      have hmu := h2'.mu
      have hmu1 := h1.mu
      refine (hf s2 (h2.tr.pre (h1.pre hp)) (by omega)).bind fun x s3 h3 => ?_
      have hmu3 := h3.mu
      refine ⟨⟨xs ++ [x], rfl, (h1.trans (h2'.trans h3)).mono (Nat.zero_le _) ?_⟩, by omega⟩
      rintro a b ⟨_, hr, _, rfl, he⟩ ys rest hy
      rw [List.append_assoc]
      exact hr _ _ (.cons hv he hy)
    · refine ⟨xs, rfl, (h1.trans h2.tr).imp ?_⟩
      rintro a b ⟨_, hr, rfl, r, rfl⟩
      refine ⟨?_, _, _, rfl, hv⟩
      have := hr [] _ .nil
      simpa using this

theorem wp.commaSeparated {f : P α} {E : α → List Token → List Token → Prop} {b : Nat}
    (hp : Pre S env s) (hb : s.mu < b)
    (hf : ∀ s, Pre S env s → s.mu < b → wp u f s (fun x s' => Tr S 1 s s' (E x))) :
    wp u (commaSeparated f) s (fun l s' => ∃ x xs, l = x :: xs ∧
      Tr S 1 s s' (fun i r => ∃ m, E x i m ∧ MoreComma E xs m r ∧ NextIsNot r .comma)) := by
  unfold P.commaSeparated
  refine (hf s hp hb).bind fun x s1 h1 => ?_
  have hmu := h1.mu
  refine (wp.moreComma (h1.pre hp) (b := b) (by omega) fun s hs hb =>
    (hf s hs hb).mono fun _ _ h => h.mono (Nat.zero_le _) fun _ _ h => h).mono ?_
  rintro l s' ⟨xs, rfl, h2⟩
  refine ⟨x, xs, rfl, (h1.trans h2).imp ?_⟩
  rintro a b ⟨m, h1, h2, h3⟩
  exact ⟨m, h1, h2, h3⟩

end P

end Esprit
