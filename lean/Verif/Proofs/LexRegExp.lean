import Verif.Proofs.LexWord

/-! Regular expression literals. -/

namespace Esprit

open Lex

namespace L

/-- A reader with a next character. -/
theorem peek_some {r : Reader} {c : Char} (h : r.peek 0 = some c) :
    ∃ s, r.rest = c :: s := by
  rcases r with ⟨_ | ⟨d, s⟩, p⟩
  · simp [Reader.peek] at h
  · simp only [peek_cons, Option.some.injEq] at h
    exact ⟨s, by rw [h]⟩

theorem peek_head {r : Reader} : r.peek 0 = r.rest.head? := by
  rcases r with ⟨s, p⟩; exact peek_zero s p

theorem peek_none {r : Reader} (h : r.peek 0 = none) : r.rest = [] := by
  rcases r with ⟨_ | ⟨d, s⟩, p⟩
  · rfl
  · simp at h

theorem readRegexpBackslash_spec {r : Reader} {P : Panic → Prop} (hc : r.peek 0 = some '\\') :
    Spec readRegexpBackslash r (fun a r' => ∃ c, c ∉ lineTerminators ∧ a = ['\\', c] ∧
      Adv r ['\\', c] r') P := by
  unfold readRegexpBackslash
  refine Spec.reread hc ?_
  intro r1 h1
  refine Spec.peek ?_
  cases hp : r1.peek 0 with
  | none => exact Spec.throw
  | some ch =>
    simp only
    refine Spec.ite (fun _ => Spec.throw) (fun hn => ?_)
    refine Spec.reread hp ?_
    intro r2 h2
    exact Spec.pure ⟨ch, fun h => hn ((isEsNewline_iff ch).2 h), rfl, h1.trans h2⟩

/-- What the class loop has read. -/
def ClassRun (x : Str) (_ : Reader) (as : Str) : Prop := as = x ∧ RegClass x

theorem readRegexpClass_spec {r : Reader} (hc : r.peek 0 = some '[') :
    Spec readRegexpClass r (fun a r' => ∃ k, RegClass k ∧ a = '[' :: k ++ c!"]" ∧
      Adv r ('[' :: k ++ c!"]") r')
      (fun p => p = .readPastEnd ∧ ∃ k, r.rest = '[' :: k ∧ RegClass k) := by
  unfold readRegexpClass
  refine Spec.reread hc ?_
  intro r1 h1
  refine Spec.seq (readUntilWith_spec (pred := fun ch => ch = ']') (body := readRegexpClassChar)
    ClassRun (fun _ _ => False) ?_ ?_ r1) (fun _ h => h.elim) ?_
  · intro r _; exact ⟨rfl, .nil⟩
  · intro r c hc hpred
    have hne : c ≠ ']' := by simpa using hpred
    unfold readRegexpClassChar
    refine Spec.peek ?_
    rw [hc]
    simp only
    refine Spec.ite (fun hb => ?_) (fun hb => ?_)
    · subst hb
      refine (readRegexpBackslash_spec (P := fun _ => False) hc).mono ?_ (fun _ h => h)
      rintro a r' ⟨d, h1, rfl, h2⟩
      refine ⟨['\\', d], by simp, h2, ?_, fun _ h => h.elim⟩
      rintro x2 r2 as _ ⟨rfl, hx⟩
      exact ⟨rfl, .escape h1 hx⟩
    · refine Spec.reread hc ?_
      intro r' h2
      refine Spec.pure ⟨[c], by simp, h2, ?_, fun _ h => h.elim⟩
      rintro x2 r2 as _ ⟨rfl, hx⟩
      exact ⟨rfl, .plain hne hb hx⟩
  · rintro as r2 ⟨x, h2, ⟨rfl, hx⟩, h3⟩
    refine Spec.reread' ?_ ?_ ?_
    · cases hp : r2.peek 0 with
      | none => exact .inr (peek_none hp)
      | some d =>
        left
        have := h3 d (by rw [← peek_head, hp])
        simpa using this
    · intro r3 h4
      refine Spec.pure ⟨as, hx, rfl, ?_⟩
      simpa using h1.trans (h2.trans h4)
    · intro he
      refine ⟨rfl, as, ?_, hx⟩
      have := (h1.trans h2).rest
      rw [he] at this
      simpa using this

/-- What the body loop has read. -/
def BodyRun (x : Str) (_ : Reader) (as : Str) : Prop := as = x ∧ RegBody x

/-- The input ends inside a class. -/
def OpenClass (r : Reader) (p : Panic) : Prop :=
  p = .readPastEnd ∧ ∃ b k, r.rest = b ++ '[' :: k ∧ RegBody b ∧ RegClass k

theorem readRegexpBody_spec (r : Reader) :
    Spec (readUntilWith (fun ch => ch = '/') readRegexpChar) r
      (fun as r' => ∃ x, Adv r x r' ∧ BodyRun x r' as ∧ ∀ c, r'.rest.head? = some c →
        decide (c = '/') = true) (OpenClass r) := by
  refine readUntilWith_spec BodyRun OpenClass ?_ ?_ r
  · intro r _; exact ⟨rfl, .nil⟩
  · intro r c hc hpred
    have hne : c ≠ '/' := by simpa using hpred
    unfold readRegexpChar
    refine Spec.peek ?_
    rw [hc]
    simp only
    have lift : ∀ {x : Str} {r1 : Reader}, Adv r x r1 → (∀ b, RegBody b → RegBody (x ++ b)) →
        ∀ p, OpenClass r1 p → OpenClass r p := by
      rintro x r1 hadv hx p ⟨rfl, b, k, h1, h2, h3⟩
      exact ⟨rfl, x ++ b, k, by rw [hadv.rest, h1]; simp, hx b h2, h3⟩
    refine Spec.ite (fun hb => ?_) (fun hb => ?_)
    · subst hb
      refine (readRegexpBackslash_spec (P := OpenClass r) hc).mono ?_ (fun _ h => h)
      rintro a r' ⟨d, h1, rfl, h2⟩
      refine ⟨['\\', d], by simp, h2, ?_, lift h2 fun b hb => .escape h1 hb⟩
      rintro x2 r2 as _ ⟨rfl, hx⟩
      exact ⟨rfl, .escape h1 hx⟩
    refine Spec.ite (fun hk => ?_) (fun hk => ?_)
    · subst hk
      refine (readRegexpClass_spec hc).mono ?_ ?_
      · rintro a r' ⟨k, h1, rfl, h2⟩
        have step : ∀ b, RegBody b → RegBody ('[' :: k ++ c!"]" ++ b) := by
          intro b hb
          have := RegBody.cls h1 hb
          simpa using this
        refine ⟨'[' :: k ++ c!"]", by simp, h2, ?_, lift h2 step⟩
        rintro x2 r2 as _ ⟨rfl, hx⟩
        exact ⟨rfl, step _ hx⟩
      · rintro p ⟨rfl, k, h1, h2⟩
        exact ⟨rfl, [], k, h1, .nil, h2⟩
    refine Spec.ite (fun _ => Spec.throw) (fun hn => ?_)
    have hn' : c ∉ lineTerminators := fun h => hn ((isEsNewline_iff c).2 h)
    refine Spec.reread hc ?_
    intro r' h2
    refine Spec.pure ⟨[c], by simp, h2, ?_, lift h2 fun b hb' => .plain hne hb hk hn' hb'⟩
    rintro x2 r2 as _ ⟨rfl, hx⟩
    exact ⟨rfl, .plain hne hb hk hn' hx⟩

variable [Env]

theorem readRegexp_spec {r : Reader} (hc : r.peek 0 = some '/') :
    Spec readRegexp r (fun t r' => ∃ p f esc flags, Adv r ('/' :: p ++ '/' :: f) r' ∧ RegBody p ∧
      WordParts f esc flags ∧ WordEnd r'.rest ∧
      t = Token.new r.posn r'.posn (.regExp ⟨p, flags⟩))
      (fun p => (p = .readPastEnd ∧ OpenRegExp r.rest) ∨ EscapePanic r.rest p) := by
  unfold readRegexp
  refine Spec.posn (Spec.reread hc ?_)
  intro r1 h1
  refine Spec.seq (readRegexpBody_spec r1) ?_ ?_
  · rintro p ⟨rfl, b, k, h2, h3, h4⟩
    refine .inl ⟨rfl, ?_⟩
    rw [h1.rest, h2]
    exact .cls h3 h4
  · rintro as r2 ⟨x, h2, ⟨rfl, hx⟩, h3⟩
    refine Spec.reread' ?_ ?_ ?_
    · cases hp : r2.peek 0 with
      | none => exact .inr (peek_none hp)
      | some d =>
        left
        have := h3 d (by rw [← peek_head, hp])
        simpa using this
    · intro r3 h4
      have hadv := h1.trans (h2.trans h4)
      refine Spec.seq (readWordParts_spec r3) (fun p hp => .inr (hadv.escapePanic hp)) ?_
      rintro w r4 ⟨f, h5, h6, h7⟩
      refine Spec.posn (Spec.pure ⟨as, f, w.hadEscape, w.text, ?_, hx, h6, h7, rfl⟩)
      have := hadv.trans h5
      simpa using this
    · intro he
      refine .inl ⟨rfl, ?_⟩
      have := (h1.trans h2).rest
      rw [he, List.append_nil] at this
      rw [this]
      exact .body hx

/-! ### Completeness -/

omit [Env]

theorem readRegexpBackslash_eval {r r1 r2 : Reader} {c : Char} (h1 : Adv r ['\\'] r1)
    (h2 : Adv r1 [c] r2) (hc : c ∉ lineTerminators) :
    Runs readRegexpBackslash r ['\\', c] ['\\', c] r2 := by
  unfold readRegexpBackslash
  refine (Runs.reread h1).bind ?_
  refine Runs.peek (o := some c) (by rw [h2.rest]; rfl) ?_
  simp only [(isEsNewline_false c).2 hc, Bool.false_eq_true, if_false]
  exact (Runs.reread h2).map rfl

theorem untilLoop_runs_step {α : Type} {pred : Char → Bool} {body : L (List α)} {n : Nat}
    {c : Char} {s x1 x2 : Str} {r r1 r2 : Reader} {a b : List α} (hr : r.rest = c :: s)
    (h : pred c = false) (h1 : Runs body r x1 a r1) (h2 : Runs (untilLoop pred body n) r1 x2 b r2) :
    Runs (untilLoop pred body (n + 1)) r (x1 ++ x2) (a ++ b) r2 := by
  refine ⟨?_, h1.2.trans h2.2⟩
  have e : r = ⟨c :: s, r.posn⟩ := by cases r; simp_all
  rw [e, untilLoop_step h, ← e, h1.1]
  simp only [Res.bind, h2.1]

theorem untilLoop_runs_stop {α : Type} {pred : Char → Bool} {body : L (List α)} {n : Nat}
    {r : Reader} (h : ∀ c, r.rest.head? = some c → pred c = true) :
    Runs (untilLoop pred body (n + 1)) r [] [] r := ⟨untilLoop_stop h, Adv.refl r⟩

theorem classLoop_eval {k : Str} (h : RegClass k) : ∀ {y : Str} {r : Reader} {n : Nat},
    r.rest = k ++ ']' :: y → k.length < n →
      ∃ r', r'.rest = ']' :: y ∧
        Runs (untilLoop (fun ch => ch = ']') readRegexpClassChar n) r k k r' := by
  induction h with
  | nil =>
    intro y r n hr hn
    obtain ⟨n, rfl⟩ : ∃ m, n = m + 1 := ⟨n - 1, by simp at hn; omega⟩
    refine ⟨r, hr, untilLoop_runs_stop ?_⟩
    intro c hc
    rw [hr] at hc
    simp at hc
    subst hc
    rfl
  | @plain c k h1 h2 _ ih =>
    intro y r n hr hn
    obtain ⟨n, rfl⟩ : ∃ m, n = m + 1 := ⟨n - 1, by simp at hn; omega⟩
    obtain ⟨r1, a1, a2⟩ := Runs.cons (c := c) (s := k ++ ']' :: y) (by simpa using hr)
    obtain ⟨r2, a3, a4⟩ := ih a2 (n := n) (by simp at hn; omega)
    refine ⟨r2, a3, ?_⟩
    refine untilLoop_runs_step (x1 := [c]) (a := [c]) (r1 := r1)
      (by rw [hr]; rfl) (by simpa using h1) ?_ a4
    unfold readRegexpClassChar
    refine Runs.peek (o := some c) (by rw [hr]; rfl) ?_
    simp only [h2, if_false]
    exact (Runs.reread a1).map rfl
  | @escape c k h1 _ ih =>
    intro y r n hr hn
    obtain ⟨n, rfl⟩ : ∃ m, n = m + 1 := ⟨n - 1, by simp at hn; omega⟩
    obtain ⟨r1, a1, a2⟩ := Runs.cons (c := '\\') (s := c :: (k ++ ']' :: y)) (by simpa using hr)
    obtain ⟨r1', a1', a2'⟩ := Runs.cons a2
    obtain ⟨r2, a3, a4⟩ := ih a2' (n := n) (by simp at hn; omega)
    refine ⟨r2, a3, ?_⟩
    refine untilLoop_runs_step (x1 := ['\\', c]) (a := ['\\', c]) (r1 := r1')
      (by rw [hr]; rfl) (by decide) ?_ a4
    unfold readRegexpClassChar
    refine Runs.peek (o := some '\\') (by rw [hr]; rfl) ?_
    simp only [if_true]
    exact readRegexpBackslash_eval a1 a1' h1

theorem readRegexpClass_eval {k y : Str} {r : Reader} (h : RegClass k)
    (hr : r.rest = '[' :: k ++ ']' :: y) : ∃ r', r'.rest = y ∧
      Runs readRegexpClass r ('[' :: k ++ c!"]") ('[' :: k ++ c!"]") r' := by
  obtain ⟨r1, a1, a2⟩ := Runs.cons (c := '[') (s := k ++ ']' :: y) (by simpa using hr)
  obtain ⟨r2, a3, a4⟩ := classLoop_eval h a2 (n := r1.rest.length + 1) (by rw [a2]; simp; omega)
  obtain ⟨r3, a5, a6⟩ := Runs.cons a3
  refine ⟨r3, a6, ?_⟩
  unfold readRegexpClass
  have := (Runs.reread a1).bind (f := fun o => do
    let s ← readUntilWith (fun ch => ch = ']') readRegexpClassChar
    let c ← reread ']'
    pure (o :: s ++ [c])) (Runs.bind (m := readUntilWith (fun ch => ch = ']') readRegexpClassChar)
      (a := k) (x1 := k) (r1 := r2) ⟨a4.1, a4.2⟩
      (f := fun s => (do
        let c ← reread ']'
        pure ('[' :: s ++ [c]) : L Str)) ((Runs.reread a5).map (b := '[' :: k ++ c!"]") rfl))
  simpa using this

theorem bodyLoop_eval {b : Str} (h : RegBody b) : ∀ {y : Str} {r : Reader} {n : Nat},
    r.rest = b ++ '/' :: y → b.length < n →
      ∃ r', r'.rest = '/' :: y ∧
        Runs (untilLoop (fun ch => ch = '/') readRegexpChar n) r b b r' := by
  induction h with
  | nil =>
    intro y r n hr hn
    obtain ⟨n, rfl⟩ : ∃ m, n = m + 1 := ⟨n - 1, by simp at hn; omega⟩
    refine ⟨r, hr, untilLoop_runs_stop ?_⟩
    intro c hc
    rw [hr] at hc
    simp at hc
    subst hc
    rfl
  | @plain c k h1 h2 h3 h4 _ ih =>
    intro y r n hr hn
    obtain ⟨n, rfl⟩ : ∃ m, n = m + 1 := ⟨n - 1, by simp at hn; omega⟩
    obtain ⟨r1, a1, a2⟩ := Runs.cons (c := c) (s := k ++ '/' :: y) (by simpa using hr)
    obtain ⟨r2, a3, a4⟩ := ih a2 (n := n) (by simp at hn; omega)
    refine ⟨r2, a3, ?_⟩
    refine untilLoop_runs_step (x1 := [c]) (a := [c]) (r1 := r1)
      (by rw [hr]; rfl) (by simpa using h1) ?_ a4
    unfold readRegexpChar
    refine Runs.peek (o := some c) (by rw [hr]; rfl) ?_
    simp only [h2, h3, (isEsNewline_false c).2 h4, Bool.false_eq_true, if_false]
    exact (Runs.reread a1).map rfl
  | @escape c k h1 _ ih =>
    intro y r n hr hn
    obtain ⟨n, rfl⟩ : ∃ m, n = m + 1 := ⟨n - 1, by simp at hn; omega⟩
    obtain ⟨r1, a1, a2⟩ := Runs.cons (c := '\\') (s := c :: (k ++ '/' :: y)) (by simpa using hr)
    obtain ⟨r1', a1', a2'⟩ := Runs.cons a2
    obtain ⟨r2, a3, a4⟩ := ih a2' (n := n) (by simp at hn; omega)
    refine ⟨r2, a3, ?_⟩
    refine untilLoop_runs_step (x1 := ['\\', c]) (a := ['\\', c]) (r1 := r1')
      (by rw [hr]; rfl) (by decide) ?_ a4
    unfold readRegexpChar
    refine Runs.peek (o := some '\\') (by rw [hr]; rfl) ?_
    simp only [if_true]
    exact readRegexpBackslash_eval a1 a1' h1
  | @cls k x h1 _ ih =>
    intro y r n hr hn
    obtain ⟨n, rfl⟩ : ∃ m, n = m + 1 := ⟨n - 1, by simp at hn; omega⟩
    obtain ⟨r1, a1, a2⟩ := readRegexpClass_eval (y := x ++ '/' :: y) (r := r) h1
      (by rw [hr]; simp)
    obtain ⟨r2, a3, a4⟩ := ih a1 (n := n) (by simp at hn; omega)
    refine ⟨r2, a3, ?_⟩
    have := untilLoop_runs_step (pred := fun ch => ch = '/') (body := readRegexpChar)
      (x1 := '[' :: k ++ c!"]") (a := '[' :: k ++ c!"]") (r1 := r1)
      (c := '[') (by rw [hr]; rfl) (by decide) (r := r) (by
        unfold readRegexpChar
        refine Runs.peek (o := some '[') (by rw [hr]; rfl) ?_
        simpa using a2) a4
    simpa using this

variable [Env]

theorem readRegexp_eval {p f flags y : Str} {esc : Bool} {r : Reader} (h1 : RegBody p)
    (h2 : WordParts f esc flags) (h3 : WordEnd y) (hr : r.rest = '/' :: p ++ '/' :: f ++ y) :
    ∃ r', r'.rest = y ∧ Runs readRegexp r ('/' :: p ++ '/' :: f)
      (Token.new r.posn r'.posn (.regExp ⟨p, flags⟩)) r' := by
  obtain ⟨r1, a1, a2⟩ := Runs.cons (c := '/') (s := p ++ '/' :: (f ++ y)) (by simpa using hr)
  obtain ⟨r2, a3, a4⟩ := bodyLoop_eval h1 a2 (n := r1.rest.length + 1) (by rw [a2]; simp; omega)
  obtain ⟨r3, a5, a6⟩ := Runs.cons a3
  obtain ⟨r4, a7, a8⟩ := readWordParts_eval h2 h3 a6
  refine ⟨r4, a7, ?_⟩
  unfold readRegexp
  refine Runs.posn ?_
  have hlast : Runs (do
      let _ ← reread '/'
      let flags ← readWordParts
      spanEnd r.posn (.regExp ⟨p, flags.text⟩) : L Token) r2 ('/' :: f)
      (Token.new r.posn r4.posn (.regExp ⟨p, flags⟩)) r4 :=
    (Runs.reread a5).bind (a8.map rfl)
  refine (Runs.reread a1).bind (x2 := p ++ '/' :: f) ?_
  refine Runs.bind (m := readUntilWith (fun ch => ch = '/') readRegexpChar)
      (a := p) (x1 := p) (r1 := r2) ⟨a4.1, a4.2⟩ ?_
  exact hlast

end L

end Esprit
