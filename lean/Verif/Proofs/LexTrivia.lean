import Verif.Proofs.LexBase

/-! White space and comments: the trivia loop recognises exactly `Lex.Trivia`. -/

namespace Esprit

open Lex

namespace L

theorem ws_not_nl {c : Char} (h : c ∈ whiteSpace) : c ∉ lineTerminators := by
  simp only [whiteSpace, List.mem_cons, List.not_mem_nil, or_false] at h
  rcases h with rfl | rfl | rfl | rfl | rfl | rfl | rfl | rfl | rfl | rfl | rfl | rfl | rfl | rfl |
    rfl | rfl | rfl | rfl | rfl <;> decide

theorem newlinesLoop_eq (s : Str) (p : Posn) :
    newlinesLoop s p = (spanWhile isEsNewline s p).2 := by
  fun_induction newlinesLoop s p with
  | case1 p => rfl
  | case2 p cs' ih =>
    rw [ih]
    simp [spanWhile, isEsNewline]
  | case3 p c cs h1 h2 ih =>
    rw [ih]; simp [spanWhile, h2]
  | case4 p c cs h1 h2 => simp [spanWhile, h2]

theorem Spec.skipNewlines {β : Type} {f : Unit → L β} {r : Reader} {Q : β → Reader → Prop}
    {P : Panic → Prop} {c : Char} (hc : r.peek 0 = some c) (hn : c ∈ lineTerminators)
    (h : ∀ x r', Adv r x r' → x ≠ [] → (∀ d ∈ x, d ∈ lineTerminators) →
      (∀ d, r'.rest.head? = some d → d ∉ lineTerminators) → Spec (f ()) r' Q P) :
    Spec (L.skipNewlines >>= f) r Q P := by
  have hs := spanWhile_spec isEsNewline r.rest r.posn
  have hb : isEsNewline c = true := (isEsNewline_iff c).2 hn
  have hne : (spanWhile isEsNewline r.rest r.posn).1 ≠ [] := by
    rcases r with ⟨_ | ⟨d, cs⟩, p⟩
    · simp [Reader.peek] at hc
    · simp only [peek_cons, Option.some.injEq] at hc
      subst hc
      simp [spanWhile, hb]
  have := h _ _ hs.1 hne (fun d hd => (isEsNewline_iff d).1 (hs.2.1 d hd))
    (fun d hd => (isEsNewline_false d).1 (hs.2.2 d hd))
  have ev : L.skipNewlines r = .ok ((), (spanWhile isEsNewline r.rest r.posn).2) := by
    unfold L.skipNewlines
    rw [peek_bind, hc, ← newlinesLoop_eq]
    simp only [hb]
    rfl
  unfold Spec at this ⊢
  rw [bind_apply, ev]
  exact this

theorem skipN_eval : ∀ (x y : Str) (p : Posn),
    skipN x.length ⟨x ++ y, p⟩ = .ok ((), ⟨y, pos p x y⟩)
  | [], y, p => rfl
  | c :: x, y, p => by
    have := skipN_eval x y (p.step c (x ++ y))
    simp [skipN, bind_apply, skip_cons, Res.bind, pos, this]

theorem Spec.skipLineComment {β : Type} {n : Nat} {f : Unit → L β} {r : Reader}
    {Q : β → Reader → Prop} {P : Panic → Prop} {k : Str} (hk : k <+: r.rest) (hn : k.length = n)
    (h : ∀ b r', Adv r (k ++ b) r' → OneLine b → AtLineEnd r'.rest → Spec (f ()) r' Q P) :
    Spec (L.skipLineComment n >>= f) r Q P := by
  obtain ⟨y, hy⟩ := hk
  rcases r with ⟨s, p⟩
  simp only at hy
  subst hy
  have e := skipN_eval k y p
  have hs := spanWhile_spec (fun c => !isEsNewline c) y (pos p k y)
  have ha : Adv ⟨k ++ y, p⟩ k ⟨y, pos p k y⟩ := ⟨rfl, rfl⟩
  have := h _ _ (ha.trans hs.1)
    (fun d hd => (isEsNewline_false d).1 (by simpa using hs.2.1 d hd))
    (fun d hd => (isEsNewline_iff d).1 (by simpa using hs.2.2 d hd))
  unfold Spec at this ⊢
  simpa [L.skipLineComment, bind_apply, ← hn, e, Res.bind, L.skipUntil] using this

/-- The block comment loop finds the first `*/`. -/
theorem blockLoop_spec (s : Str) (p : Posn) (nl : Bool) :
    match blockLoop s p nl with
    | .ok (nl', r') => ∃ b, Adv ⟨s, p⟩ (b ++ c!"*/") r' ∧ ¬ c!"*/" <:+: b ∧
        nl' = (hasNewline b || nl)
    | .err _ => ¬ c!"*/" <:+: s
    | _ => False := by
  fun_induction blockLoop s p nl with
  | case1 p nl => simp
  | case2 c p nl =>
    simp only
    intro h
    have := h.length_le
    simp at this
  | case3 c d cs p nl h =>
    obtain ⟨rfl, rfl⟩ := h
    refine ⟨[], ⟨rfl, rfl⟩, by simp, by simp [hasNewline]⟩
  | case4 c d cs p nl h ih =>
    generalize blockLoop (d :: cs) (p.step c (d :: cs)) (isEsNewline c || nl) = res at ih
    cases res with
    | ok v =>
      obtain ⟨nl', r'⟩ := v
      obtain ⟨b, h1, h2, h3⟩ := ih
      refine ⟨c :: b, (Adv.one c (d :: cs) p).cons h1, ?_, ?_⟩
      · intro hi
        rcases List.infix_cons_iff.1 hi with hi | hi
        · have h1 := h1.rest
          rcases hi with ⟨t, ht⟩
          simp only [List.cons_append, List.nil_append, List.cons.injEq] at ht
          obtain ⟨rfl, rfl⟩ := ht
          simp only [List.cons_append, List.cons.injEq] at h1
          exact h ⟨rfl, h1.1⟩
        · exact h2 hi
      · rw [h3]
        have : isEsNewline c = lineTerminators.contains c := by
          rw [Bool.eq_iff_iff, isEsNewline_iff]; simp
        simp only [hasNewline, List.any_cons, this]
        cases lineTerminators.contains c <;> simp
    | err e =>
      simp only at ih ⊢
      intro hi
      rcases List.infix_cons_iff.1 hi with hi | hi
      · rcases hi with ⟨t, ht⟩
        simp only [List.cons_append, List.nil_append, List.cons.injEq] at ht
        exact h ⟨ht.1.symm, ht.2.1.symm⟩
      · exact ih hi
    | panic p => exact ih
    | fuel => exact ih

theorem blockLoop_err {s : Str} {p : Posn} {nl : Bool} {e : LexError}
    (h : blockLoop s p nl = .err e) : e = .unterminatedComment := by
  fun_induction blockLoop s p nl with
  | case1 p nl => cases h; rfl
  | case2 c p nl => cases h; rfl
  | case3 c d cs p nl h' => cases h
  | case4 c d cs p nl h' ih => exact ih h

theorem Spec.skipBlockComment {β : Type} {f : Bool → L β} {r : Reader}
    {Q : β → Reader → Prop} {P : Panic → Prop} (h0 : r.peek 0 = some '/') (h1 : r.peek 1 = some '*')
    (h : ∀ k r', Adv r k r' → BlockComment k → Spec (f (hasNewline k)) r' Q P) :
    Spec (L.skipBlockComment >>= f) r Q P := by
  rcases r with ⟨_ | ⟨c, _ | ⟨d, cs⟩⟩, p⟩
  · simp [Reader.peek] at h0
  · simp [Reader.peek] at h1
  · simp only [Reader.peek, List.getElem?_cons_zero, List.getElem?_cons_succ,
      Option.some.injEq] at h0 h1
    subst h0; subst h1
    have hb := blockLoop_spec cs ((p.step '/' ('*' :: cs)).step '*' cs) false
    have ev : L.skipBlockComment ⟨'/' :: '*' :: cs, p⟩ =
      blockLoop cs ((p.step '/' ('*' :: cs)).step '*' cs) false := rfl
    unfold Spec
    rw [bind_apply, ev]
    generalize blockLoop cs ((p.step '/' ('*' :: cs)).step '*' cs) false = res at hb
    cases res with
    | ok v =>
      obtain ⟨nl', r'⟩ := v
      obtain ⟨b, h1, h2, h3⟩ := hb
      have ha : Adv ⟨'/' :: '*' :: cs, p⟩ c!"/*" ⟨cs, (p.step '/' ('*' :: cs)).step '*' cs⟩ :=
        ⟨rfl, rfl⟩
      have := h (c!"/*" ++ b ++ c!"*/") r' (by simpa using ha.trans h1) (.mk h2)
      have e : nl' = hasNewline (c!"/*" ++ b ++ c!"*/") := by
        rw [h3]
        simp only [hasNewline, List.any_append, Bool.or_false]
        rw [show (c!"/*").any (fun c => lineTerminators.contains c) = false by decide,
          show (c!"*/").any (fun c => lineTerminators.contains c) = false by decide]
        simp
      rw [e]
      exact this
    | err e => trivial
    | panic p => exact hb.elim
    | fuel => exact hb.elim

end L

namespace Lex

theorem Trivia.spaces {e e' : Bool} {x w y : Str} (hx : ∀ c ∈ x, c ∈ whiteSpace)
    (h : Trivia e w y e') : Trivia e (x ++ w) y e' := by
  induction x with
  | nil => exact h
  | cons c x ih =>
    exact .space (hx c (by simp)) (ih fun d hd => hx d (by simp [hd]))

theorem Trivia.newlines {e e' : Bool} {x w y : Str} (hne : x ≠ [])
    (hx : ∀ c ∈ x, c ∈ lineTerminators) (h : Trivia true w y e') : Trivia e (x ++ w) y e' := by
  have key : ∀ {x : Str}, (∀ c ∈ x, c ∈ lineTerminators) → Trivia true (x ++ w) y e' := by
    intro x hx
    induction x with
    | nil => exact h
    | cons c x ih => exact .newline (hx c (by simp)) (ih fun d hd => hx d (by simp [hd]))
  cases x with
  | nil => exact absurd rfl hne
  | cons c x => exact .newline (hx c (by simp)) (key fun d hd => hx d (by simp [hd]))

theorem hasNewline_append (a b : Str) : hasNewline (a ++ b) = (hasNewline a || hasNewline b) := by
  simp [hasNewline]

theorem hasNewline_eq_false {a : Str} (h : ∀ c ∈ a, c ∉ lineTerminators) :
    hasNewline a = false := by
  simp only [hasNewline, List.any_eq_false, List.contains_iff_mem]
  intro c hc
  simpa using h c hc

theorem hasNewline_iff {a : Str} : hasNewline a = true ↔ ∃ c ∈ a, c ∈ lineTerminators := by
  simp [hasNewline]

theorem hasNewline_run {x : Str} (hne : x ≠ []) (hx : ∀ c ∈ x, c ∈ lineTerminators) :
    hasNewline x = true := by
  cases x with
  | nil => exact absurd rfl hne
  | cons c x => exact hasNewline_iff.2 ⟨c, by simp, hx c (by simp)⟩

end Lex

namespace L

/-- Soundness of the trivia loop. -/
theorem triviaLoop_spec : ∀ (n : Nat) (e f : Bool) (r : Reader), r.rest.length < n →
    Spec (triviaLoop n e f) r (fun v r' => ∃ w, Adv r w r' ∧ Trivia e w r'.rest v.2 ∧
      NoTrivia v.2 r'.rest ∧ v.1 = (f || hasNewline w)) NoPanic
  | 0, _, _, _, h => absurd h (by omega)
  | n + 1, e, f, r, hn => by
    have again : ∀ {x : Str} {r' : Reader} (e1 f1 : Bool), Adv r x r' → x ≠ [] →
        (∀ w r2 e2, Adv r' w r2 → Trivia e1 w r2.rest e2 → Trivia e (x ++ w) r2.rest e2) →
        f1 = (f || hasNewline x) →
        Spec (triviaLoop n e1 f1) r' (fun v r' => ∃ w, Adv r w r' ∧ Trivia e w r'.rest v.2 ∧
          NoTrivia v.2 r'.rest ∧ v.1 = (f || hasNewline w)) NoPanic := by
      intro x r' e1 f1 hadv hne ht hf
      have hl := hadv.length
      have : 0 < x.length := List.length_pos_iff.2 hne
      refine (triviaLoop_spec n e1 f1 r' (by omega)).mono ?_ (fun _ h => h)
      rintro ⟨f', e'⟩ r2 ⟨w, h1, h2, h3, h4⟩
      refine ⟨x ++ w, hadv.trans h1, ht w r2 _ h1 h2, h3, ?_⟩
      simp only at h4 ⊢
      rw [h4, hf, hasNewline_append, Bool.or_assoc]
    have stop : ∀ {y : Str} {p : Posn}, r = ⟨y, p⟩ → NoTrivia e y → ∃ w, Adv r w r ∧
        Trivia e w r.rest e ∧ NoTrivia e r.rest ∧ f = (f || hasNewline w) := by
      rintro y p rfl hs
      exact ⟨[], Adv.refl _, .nil, hs, by simp [hasNewline]⟩
    unfold triviaLoop
    refine Spec.peek2 ?_
    rcases r with ⟨s, p⟩
    cases s with
    | nil =>
      simp only [peek_zero, List.head?_nil]
      refine Spec.pure (stop rfl ⟨by simp, by simp, by simp, by simp, by simp⟩)
    | cons c cs =>
      simp only [peek_cons]
      refine Spec.ite (fun hw => ?_) (fun hw => ?_)
      · have hw' := (isEsWhitespace_iff c).1 hw
        refine Spec.bind ?_
        have hs := spanWhile_spec isEsWhitespace (c :: cs) p
        have hne : (spanWhile isEsWhitespace (c :: cs) p).1 ≠ [] := by simp [spanWhile, hw]
        show Spec _ ((spanWhile (fun c => !(!isEsWhitespace c)) (c :: cs) p).2) _ _
        simp only [Bool.not_not]
        refine again e f hs.1 hne (fun w r2 e2 _ h2 => ?_) ?_
        · exact h2.spaces fun d hd => (isEsWhitespace_iff d).1 (hs.2.1 d hd)
        · rw [hasNewline_eq_false (fun d hd => ws_not_nl ((isEsWhitespace_iff d).1 (hs.2.1 d hd)))]
          simp
      have hw' : c ∉ whiteSpace := fun h => hw ((isEsWhitespace_iff c).2 h)
      refine Spec.ite (fun hl => ?_) (fun hl => ?_)
      · refine Spec.skipNewlines (peek_cons c cs p) ((isEsNewline_iff c).1 hl) ?_
        intro x r' h1 h2 h3 h4
        refine again true true h1 h2 (fun w r2 e2 _ ht => ht.newlines h2 h3) ?_
        rw [hasNewline_run h2 h3]; simp
      have hl' : c ∉ lineTerminators := fun h => hl ((isEsNewline_iff c).2 h)
      have lineCase : ∀ {k : Str} {m : Nat}, k <+: c :: cs → k.length = m → k ≠ [] →
          OneLine k → (∀ b, OneLine b → LineComment e (k ++ b)) →
          Spec (do L.skipLineComment m; triviaLoop n e f) ⟨c :: cs, p⟩ (fun v r' => ∃ w,
            Adv ⟨c :: cs, p⟩ w r' ∧ Trivia e w r'.rest v.2 ∧
            NoTrivia v.2 r'.rest ∧ v.1 = (f || hasNewline w)) NoPanic := by
        intro k m hk hm hne h1k hlc
        refine Spec.skipLineComment hk hm ?_
        intro b r' h1 h2 h3
        refine again e f h1 (by simp [hne]) (fun w r2 e2 hadv ht => ?_) ?_
        · refine .line (hlc b h2) ?_ ht
          rw [← hadv.rest]; exact h3
        · rw [hasNewline_append, hasNewline_eq_false h2, hasNewline_eq_false h1k]
          simp
      have two : ∀ {a b : Char}, c = a → Reader.peek ⟨c :: cs, p⟩ 1 = some b →
          ∃ t, cs = b :: t := by
        intro a b _ h
        simp only [peek_cons_succ, peek_zero] at h
        cases cs with
        | nil => simp at h
        | cons d t => simp at h; exact ⟨t, by rw [h]⟩
      refine Spec.ite (fun hc => ?_) (fun hc => ?_)
      · obtain ⟨rfl, h2⟩ := hc
        obtain ⟨t, rfl⟩ := two rfl h2
        exact lineCase (k := c!"//") ⟨t, rfl⟩ rfl (by simp) (by simp [OneLine]; decide)
          (fun b hb => .slashes hb)
      refine Spec.ite (fun hb => ?_) (fun hb => ?_)
      · refine Spec.skipBlockComment (by simpa using hb.1) hb.2 ?_
        intro k r' h1 h2
        refine again e _ h1 ?_ (fun w r2 e2 _ ht => .block h2 ht) ?_
        · cases h2; simp
        · rw [Bool.or_comm]
      have nsl : ¬ c!"//" <+: c :: cs := by
        rintro ⟨t, ht⟩
        simp only [List.cons_append, List.nil_append, List.cons.injEq] at ht
        obtain ⟨rfl, rfl⟩ := ht
        exact hc ⟨rfl, rfl⟩
      have nbl : ¬ c!"/*" <+: c :: cs := by
        rintro ⟨t, ht⟩
        simp only [List.cons_append, List.nil_append, List.cons.injEq] at ht
        obtain ⟨rfl, rfl⟩ := ht
        exact hb ⟨rfl, rfl⟩
      have nsp : ∀ d, (c :: cs).head? = some d → d ∉ whiteSpace ∧ d ∉ lineTerminators := by
        intro d hd
        simp only [List.head?_cons, Option.some.injEq] at hd
        subst hd
        exact ⟨hw', hl'⟩
      refine Spec.ite (fun ho => ?_) (fun ho => ?_)
      · obtain ⟨rfl, h2⟩ := ho
        refine Spec.peekAt (Spec.peekAt ?_)
        refine Spec.ite (fun h3 => ?_) (fun h3 => ?_)
        · obtain ⟨t, rfl⟩ := two rfl h2
          obtain ⟨h3, h4⟩ := h3
          simp only [peek_cons_succ, peek_zero] at h3 h4
          cases t with
          | nil => simp at h3
          | cons d t =>
            cases t with
            | nil => simp at h4
            | cons d' t =>
              simp only [List.head?_cons, Option.some.injEq, peek_cons_succ, peek_zero] at h3 h4
              subst h3; subst h4
              exact lineCase (k := c!"<!--") ⟨t, rfl⟩ rfl (by simp) (by simp [OneLine]; decide)
                (fun b hb => .htmlOpen hb)
        · refine Spec.pure (stop rfl ⟨nsp, nsl, nbl, ?_, ?_⟩)
          · rintro ⟨t, ht⟩
            simp only [List.cons_append, List.nil_append, List.cons.injEq, true_and] at ht
            subst ht
            exact h3 ⟨rfl, rfl⟩
          · rintro _ ⟨t, ht⟩
            simp at ht
      have nop : ¬ c!"<!--" <+: c :: cs := by
        rintro ⟨t, ht⟩
        simp only [List.cons_append, List.nil_append, List.cons.injEq] at ht
        obtain ⟨rfl, rfl⟩ := ht
        exact ho ⟨rfl, rfl⟩
      refine Spec.ite (fun ho => ?_) (fun ho => ?_)
      · obtain ⟨rfl, h2⟩ := ho
        refine Spec.peekAt ?_
        refine Spec.ite (fun h3 => ?_) (fun h3 => ?_)
        · obtain ⟨t, rfl⟩ := two rfl h2
          obtain ⟨rfl, h4⟩ := h3
          simp only [peek_cons_succ, peek_zero] at h4
          cases t with
          | nil => simp at h4
          | cons d t =>
            simp only [List.head?_cons, Option.some.injEq] at h4
            subst h4
            exact lineCase (k := c!"-->") ⟨t, rfl⟩ rfl (by simp) (by simp [OneLine]; decide)
              (fun b hb => .htmlClose hb)
        · refine Spec.pure (stop rfl ⟨nsp, nsl, nbl, nop, ?_⟩)
          rintro he ⟨t, ht⟩
          simp only [List.cons_append, List.nil_append, List.cons.injEq, true_and] at ht
          subst ht
          exact h3 ⟨he, rfl⟩
      · refine Spec.pure (stop rfl ⟨nsp, nsl, nbl, nop, ?_⟩)
        rintro he ⟨t, ht⟩
        simp only [List.cons_append, List.nil_append, List.cons.injEq] at ht
        obtain ⟨rfl, rfl⟩ := ht
        exact ho ⟨rfl, rfl⟩

/-! ### Completeness -/

theorem blockLoop_eval : ∀ (b cs : Str) (p : Posn) (nl : Bool), ¬ c!"*/" <:+: b →
    blockLoop (b ++ '*' :: '/' :: cs) p nl =
      .ok (hasNewline b || nl, ⟨cs, pos p (b ++ c!"*/") cs⟩)
  | [], cs, p, nl, _ => by simp [blockLoop, hasNewline, pos]
  | c :: b, cs, p, nl, h => by
    have hb : ¬ c!"*/" <:+: b := fun hi => h (List.infix_cons_iff.2 (Or.inr hi))
    have ih := blockLoop_eval b cs (p.step c (b ++ '*' :: '/' :: cs)) (isEsNewline c || nl) hb
    have e : isEsNewline c = lineTerminators.contains c := by
      rw [Bool.eq_iff_iff, isEsNewline_iff]; simp
    have e2 : ((isEsNewline c || hasNewline b) || nl) = (hasNewline b || (isEsNewline c || nl)) := by
      cases isEsNewline c <;> cases hasNewline b <;> rfl
    have e3 : hasNewline (c :: b) = (isEsNewline c || hasNewline b) := by
      simp only [hasNewline, List.any_cons, e]
    cases b with
    | nil =>
      have : blockLoop ([c] ++ '*' :: '/' :: cs) p nl =
          blockLoop ('*' :: '/' :: cs) (p.step c ('*' :: '/' :: cs)) (isEsNewline c || nl) := by
        conv => lhs; unfold blockLoop
        simp
      rw [this]
      simp only [List.nil_append] at ih
      rw [ih, e3, e2]
      simp [pos]
    | cons d b =>
      have hne : ¬ (c = '*' ∧ d = '/') := by
        rintro ⟨rfl, rfl⟩
        exact h ⟨[], b, rfl⟩
      have : blockLoop (c :: d :: b ++ '*' :: '/' :: cs) p nl =
          blockLoop (d :: b ++ '*' :: '/' :: cs) (p.step c (d :: b ++ '*' :: '/' :: cs))
            (isEsNewline c || nl) := by
        conv => lhs; unfold blockLoop
        simp [hne]
      rw [this, ih, e3, e2]
      simp [pos]

theorem skipBlockComment_eval {k y : Str} {p : Posn} (h : BlockComment k) :
    L.skipBlockComment ⟨k ++ y, p⟩ = .ok (hasNewline k, ⟨y, pos p k y⟩) := by
  cases h with
  | @mk b hb =>
    have ev : L.skipBlockComment ⟨c!"/*" ++ b ++ c!"*/" ++ y, p⟩ =
      blockLoop (b ++ c!"*/" ++ y) ((p.step '/' ('*' :: (b ++ c!"*/" ++ y))).step '*'
        (b ++ c!"*/" ++ y)) false := rfl
    rw [ev]
    have e := blockLoop_eval b y ((p.step '/' ('*' :: (b ++ c!"*/" ++ y))).step '*'
        (b ++ c!"*/" ++ y)) false hb
    simp only [List.append_assoc, List.cons_append, List.nil_append] at e ⊢
    rw [e]
    simp only [hasNewline, List.any_append, List.any_cons, pos, List.append_assoc,
      List.cons_append, List.nil_append]
    rw [show lineTerminators.contains '/' = false by decide,
      show lineTerminators.contains '*' = false by decide]
    simp

theorem skipLineComment_eval {k b y : Str} {p : Posn} (hb : OneLine b) (hy : AtLineEnd y) :
    L.skipLineComment k.length ⟨k ++ b ++ y, p⟩ = .ok ((), ⟨y, pos p (k ++ b) y⟩) := by
  unfold L.skipLineComment
  rw [bind_apply, List.append_assoc, skipN_eval]
  simp only [Res.bind]
  rw [skipUntil_eval (fun c hc => (isEsNewline_false c).2 (hb c hc))
    (fun c hc => (isEsNewline_iff c).2 (hy c hc)), pos_append]

theorem skipNewlines_eval {x y : Str} {p : Posn} (hne : x ≠ []) (hx : ∀ c ∈ x, c ∈ lineTerminators)
    (hy : ∀ c, y.head? = some c → c ∉ lineTerminators) :
    L.skipNewlines ⟨x ++ y, p⟩ = .ok ((), ⟨y, pos p x y⟩) := by
  cases x with
  | nil => exact absurd rfl hne
  | cons c x =>
    have hc : isEsNewline c = true := (isEsNewline_iff c).2 (hx c (by simp))
    have : L.skipNewlines ⟨c :: x ++ y, p⟩ = .ok ((), newlinesLoop (c :: x ++ y) p) := by
      unfold L.skipNewlines
      rw [peek_bind]
      simp only [List.cons_append, peek_cons, hc]
      rfl
    rw [this, newlinesLoop_eq, spanWhile_eval (fun d hd => (isEsNewline_iff d).2 (hx d hd))
      (fun d hd => (isEsNewline_false d).2 (hy d hd))]

theorem skipWhitespace_eval {x y : Str} {p : Posn} (hx : ∀ c ∈ x, c ∈ whiteSpace)
    (hy : ∀ c, y.head? = some c → c ∉ whiteSpace) :
    L.skipWhitespace ⟨x ++ y, p⟩ = .ok ((), ⟨y, pos p x y⟩) := by
  unfold L.skipWhitespace L.skipWhile
  rw [skipUntil_eval (fun c hc => by simpa using (isEsWhitespace_iff c).2 (hx c hc))
    (fun c hc => by simpa using (isEsWhitespace_false c).2 (hy c hc))]

end L

namespace Lex

/-- First character of trivia. -/
theorem Trivia.head {e e' : Bool} {c : Char} {w y : Str} (h : Trivia e (c :: w) y e') :
    (c ∈ whiteSpace ∧ Trivia e w y e') ∨ (c ∈ lineTerminators ∧ Trivia true w y e') ∨
      ((∃ k w', c :: w = k ++ w' ∧ LineComment e k ∧ AtLineEnd (w' ++ y) ∧ Trivia e w' y e') ∨
      (∃ k w', c :: w = k ++ w' ∧ BlockComment k ∧ Trivia e w' y e')) := by
  generalize hx : c :: w = x at h
  cases h with
  | nil => simp at hx
  | space h1 h2 =>
    simp only [List.cons.injEq] at hx
    obtain ⟨rfl, rfl⟩ := hx
    exact .inl ⟨h1, h2⟩
  | newline h1 h2 =>
    simp only [List.cons.injEq] at hx
    obtain ⟨rfl, rfl⟩ := hx
    exact .inr (.inl ⟨h1, h2⟩)
  | line h1 h2 h3 => exact .inr (.inr (.inl ⟨_, _, rfl, h1, h2, h3⟩))
  | block h1 h2 => exact .inr (.inr (.inr ⟨_, _, rfl, h1, h2⟩))

theorem LineComment.start {e : Bool} {k : Str} (h : LineComment e k) :
    ∃ c t, k = c :: t ∧ c ∉ whiteSpace ∧ c ∉ lineTerminators := by
  cases h
  · exact ⟨_, _, rfl, by decide, by decide⟩
  · exact ⟨_, _, rfl, by decide, by decide⟩
  · exact ⟨_, _, rfl, by decide, by decide⟩

theorem BlockComment.start {k : Str} (h : BlockComment k) :
    ∃ c t, k = c :: t ∧ c ∉ whiteSpace ∧ c ∉ lineTerminators := by
  cases h
  exact ⟨_, _, rfl, by decide, by decide⟩

theorem Trivia.head_space {e e' : Bool} {c : Char} {w y : Str} (h : Trivia e (c :: w) y e')
    (hc : c ∈ whiteSpace) : Trivia e w y e' := by
  rcases h.head with h | h | ⟨k, w', hk, h, _⟩ | ⟨k, w', hk, h, _⟩
  · exact h.2
  · exact absurd h.1 (L.ws_not_nl hc)
  · obtain ⟨d, t, rfl, h1, h2⟩ := h.start
    simp only [List.cons_append, List.cons.injEq] at hk
    exact absurd (hk.1 ▸ hc) h1
  · obtain ⟨d, t, rfl, h1, h2⟩ := h.start
    simp only [List.cons_append, List.cons.injEq] at hk
    exact absurd (hk.1 ▸ hc) h1

theorem Trivia.head_newline {e e' : Bool} {c : Char} {w y : Str} (h : Trivia e (c :: w) y e')
    (hc : c ∈ lineTerminators) : Trivia true w y e' := by
  rcases h.head with h | h | ⟨k, w', hk, h, _⟩ | ⟨k, w', hk, h, _⟩
  · exact absurd hc (L.ws_not_nl h.1)
  · exact h.2
  · obtain ⟨d, t, rfl, h1, h2⟩ := h.start
    simp only [List.cons_append, List.cons.injEq] at hk
    exact absurd (hk.1 ▸ hc) h2
  · obtain ⟨d, t, rfl, h1, h2⟩ := h.start
    simp only [List.cons_append, List.cons.injEq] at hk
    exact absurd (hk.1 ▸ hc) h2

/-- The maximal run of white space at the start of trivia. -/
theorem Trivia.span_space {e e' : Bool} {w y : Str} (h : Trivia e w y e')
    (hy : ∀ c, y.head? = some c → c ∉ whiteSpace ∧ c ∉ lineTerminators) :
    ∃ x w', w = x ++ w' ∧ (∀ c ∈ x, c ∈ whiteSpace) ∧ Trivia e w' y e' ∧
      (∀ c, (w' ++ y).head? = some c → c ∉ whiteSpace) ∧
      (∀ c, w.head? = some c → c ∈ whiteSpace → x ≠ []) := by
  induction w with
  | nil =>
    refine ⟨[], [], rfl, by simp, h, fun c hc => ?_, by simp⟩
    exact (hy c (by simpa using hc)).1
  | cons c w ih =>
    by_cases hc : c ∈ whiteSpace
    · obtain ⟨x, w', rfl, h1, h2, h3, _⟩ := ih (h.head_space hc)
      refine ⟨c :: x, w', rfl, ?_, h2, h3, by simp⟩
      intro d hd
      rcases List.mem_cons.1 hd with rfl | hd
      · exact hc
      · exact h1 d hd
    · refine ⟨[], c :: w, rfl, by simp, h, ?_, ?_⟩
      · intro d hd
        simp only [List.cons_append, List.head?_cons, Option.some.injEq] at hd
        exact hd ▸ hc
      · intro d hd hd'
        simp only [List.head?_cons, Option.some.injEq] at hd
        exact absurd (hd ▸ hd') hc

/-- The maximal run of line terminators at the start of trivia. -/
theorem Trivia.span_newline {e' : Bool} {w y : Str} : ∀ {e : Bool}, Trivia e w y e' →
    (∀ c, y.head? = some c → c ∉ whiteSpace ∧ c ∉ lineTerminators) →
    (∀ c, w.head? = some c → c ∈ lineTerminators → ∃ x w', x ≠ [] ∧ w = x ++ w' ∧
      (∀ c ∈ x, c ∈ lineTerminators) ∧ Trivia true w' y e' ∧
      (∀ c, (w' ++ y).head? = some c → c ∉ lineTerminators)) := by
  induction w with
  | nil => intro e h hy c hc; simp at hc
  | cons c w ih =>
    intro e h hy d hd hdl
    simp only [List.head?_cons, Option.some.injEq] at hd
    subst hd
    have ht := h.head_newline hdl
    cases w with
    | nil =>
      refine ⟨[c], [], by simp, rfl, by simpa using hdl, ht, fun d hd => ?_⟩
      exact (hy d (by simpa using hd)).2
    | cons d w =>
      by_cases hd : d ∈ lineTerminators
      · obtain ⟨x, w', hne, hw, h1, h2, h3⟩ := ih ht hy d rfl hd
        refine ⟨c :: x, w', by simp, by rw [hw]; rfl, ?_, h2, h3⟩
        intro a ha
        rcases List.mem_cons.1 ha with rfl | ha
        · exact hdl
        · exact h1 a ha
      · refine ⟨[c], d :: w, by simp, rfl, by simpa using hdl, ht, ?_⟩
        intro a ha
        simp only [List.cons_append, List.head?_cons, Option.some.injEq] at ha
        exact ha ▸ hd

end Lex

namespace L

theorem triviaLoop_stop {n : Nat} {e f : Bool} {y : Str} {p : Posn} (h : NoTrivia e y) :
    triviaLoop (n + 1) e f ⟨y, p⟩ = .ok ((f, e), ⟨y, p⟩) := by
  obtain ⟨h1, h2, h3, h4, h5⟩ := h
  unfold triviaLoop
  rw [peek2_bind]
  rcases y with _ | ⟨c, _ | ⟨d, cs⟩⟩
  · rfl
  · have hc := h1 c rfl
    simp [(isEsWhitespace_false c).2 hc.1, (isEsNewline_false c).2 hc.2, Reader.peek, pure_apply]
  · have hc := h1 c rfl
    have e1 : ¬ (c = '/' ∧ d = '/') := by rintro ⟨rfl, rfl⟩; exact h2 ⟨cs, rfl⟩
    have e2 : ¬ (c = '/' ∧ d = '*') := by rintro ⟨rfl, rfl⟩; exact h3 ⟨cs, rfl⟩
    simp only [peek_cons, (isEsWhitespace_false c).2 hc.1, (isEsNewline_false c).2 hc.2,
      peek_cons_succ, Option.some.injEq, e1, e2, if_false, Bool.false_eq_true]
    split
    · rename_i hx
      obtain ⟨rfl, rfl⟩ := hx
      simp only [peekAt_bind]
      rw [if_neg]
      · rfl
      · rintro ⟨a1, a2⟩
        simp only [peek_cons_succ] at a1 a2
        rcases cs with _ | ⟨x, _ | ⟨z, cs⟩⟩
        · simp at a1
        · simp [Reader.peek] at a2
        · simp at a1 a2
          subst a1; subst a2
          exact h4 ⟨cs, rfl⟩
    · split
      · rename_i _ hx
        obtain ⟨rfl, rfl⟩ := hx
        simp only [peekAt_bind]
        rw [if_neg]
        · rfl
        · rintro ⟨a1, a2⟩
          simp only [peek_cons_succ] at a2
          rcases cs with _ | ⟨x, cs⟩
          · simp at a2
          · simp at a2
            subst a2
            exact h5 a1 ⟨cs, rfl⟩
      · rfl

theorem trivia_nil {e e' : Bool} {y : Str} (h : Trivia e [] y e') : e = e' := by
  generalize hx : ([] : Str) = x at h
  cases h with
  | nil => rfl
  | space => simp at hx
  | newline => simp at hx
  | line h1 h2 h3 => obtain ⟨c, t, rfl, _⟩ := h1.start; simp at hx
  | block h1 h2 => obtain ⟨c, t, rfl, _⟩ := h1.start; simp at hx

/-- The trivia loop passes over trivia. -/
theorem triviaLoop_pass : ∀ (n : Nat) (e f e' : Bool) (w y : Str) (p : Posn),
    (w ++ y).length < n → Trivia e w y e' →
    (∀ c, y.head? = some c → c ∉ whiteSpace ∧ c ∉ lineTerminators) →
    ∃ m, y.length < m + 1 ∧ triviaLoop n e f ⟨w ++ y, p⟩ =
      triviaLoop (m + 1) e' (f || hasNewline w) ⟨y, pos p w y⟩
  | 0, _, _, _, _, _, _, h, _, _ => absurd h (by omega)
  | n + 1, e, f, e', [], y, p, hn, ht, hy => by
    obtain rfl := trivia_nil ht
    exact ⟨n, hn, by simp [hasNewline, pos]⟩
  | n + 1, e, f, e', c :: w, y, p, hn, ht, hy => by
    have step : ∀ {x w' : Str} {e1 f1 : Bool}, c :: w = x ++ w' → x ≠ [] → Trivia e1 w' y e' →
        f1 = (f || hasNewline x) →
        triviaLoop (n + 1) e f ⟨x ++ w' ++ y, p⟩ =
          triviaLoop n e1 f1 ⟨w' ++ y, pos p x (w' ++ y)⟩ →
        ∃ m, y.length < m + 1 ∧ triviaLoop (n + 1) e f ⟨c :: w ++ y, p⟩ =
          triviaLoop (m + 1) e' (f || hasNewline (c :: w)) ⟨y, pos p (c :: w) y⟩ := by
      intro x w' e1 f1 hw hne ht' hf heq
      have : 0 < x.length := List.length_pos_iff.2 hne
      obtain ⟨m, hm, h⟩ := triviaLoop_pass n e1 f1 e' w' y (pos p x (w' ++ y)) (by
        rw [hw] at hn; simp only [List.length_append] at hn ⊢; omega) ht' hy
      refine ⟨m, hm, ?_⟩
      rw [hw, heq, h, hf, hasNewline_append, Bool.or_assoc, pos_append]
    rcases ht.head with ⟨hc, _⟩ | ⟨hc, _⟩ | ⟨k, w', hk, h1, h2, h3⟩ | ⟨k, w', hk, h1, h2⟩
    · obtain ⟨x, w', hw, h1, h2, h3, h4⟩ := ht.span_space hy
      have hne := h4 c rfl hc
      refine step hw hne h2 (f1 := f) ?_ ?_
      · rw [hasNewline_eq_false fun d hd => ws_not_nl (h1 d hd)]; simp
      · cases x with
        | nil => exact absurd rfl hne
        | cons d x =>
          have hd : isEsWhitespace d = true := (isEsWhitespace_iff d).2 (h1 d (by simp))
          conv => lhs; unfold triviaLoop
          rw [peek2_bind]
          simp only [List.cons_append, peek_cons, hd, if_true]
          have := skipWhitespace_eval (p := p) h1 h3
          simp only [List.cons_append, List.append_assoc] at this ⊢
          rw [bind_apply, this]
          rfl
    · obtain ⟨x, w', hne, hw, h1, h2, h3⟩ := ht.span_newline hy c rfl hc
      refine step hw hne h2 (f1 := true) ?_ ?_
      · rw [hasNewline_run hne h1]; simp
      · cases x with
        | nil => exact absurd rfl hne
        | cons d x =>
          have hd : isEsNewline d = true := (isEsNewline_iff d).2 (h1 d (by simp))
          have hd2 : isEsWhitespace d = false :=
            (isEsWhitespace_false d).2 fun hx => ws_not_nl hx (h1 d (by simp))
          conv => lhs; unfold triviaLoop
          rw [peek2_bind]
          simp only [List.cons_append, peek_cons, hd, hd2, if_true, Bool.false_eq_true, if_false]
          have := skipNewlines_eval (p := p) hne h1 h3
          simp only [List.cons_append, List.append_assoc] at this ⊢
          rw [bind_apply, this]
          rfl
    · have lineCase : ∀ {a b : Str} {m : Nat}, k = a ++ b → a.length = m → a ≠ [] → OneLine a →
          OneLine b → (∀ s, triviaLoop (n + 1) e f ⟨a ++ s, p⟩ =
            (do skipLineComment m; triviaLoop n e f : L (Bool × Bool)) ⟨a ++ s, p⟩) →
          ∃ m, y.length < m + 1 ∧ triviaLoop (n + 1) e f ⟨c :: w ++ y, p⟩ =
            triviaLoop (m + 1) e' (f || hasNewline (c :: w)) ⟨y, pos p (c :: w) y⟩ := by
        intro a b m hab hm hne ha hb heq
        refine step hk (by rw [hab]; simp [hne]) h3 (f1 := f) ?_ ?_
        · rw [hab, hasNewline_append, hasNewline_eq_false ha, hasNewline_eq_false hb]; simp
        · rw [hab]
          have := skipLineComment_eval (k := a) (p := p) hb h2
          simp only [List.append_assoc] at this ⊢
          rw [heq, bind_apply, ← hm, this]
          rfl
      cases h1 with
      | slashes hb =>
        exact lineCase (a := c!"//") rfl rfl (by simp) (by simp [OneLine]; decide) hb
          fun s => rfl
      | htmlOpen hb =>
        exact lineCase (a := c!"<!--") rfl rfl (by simp)
          (by simp [OneLine]; decide) hb fun s => rfl
      | htmlClose hb =>
        exact lineCase (a := c!"-->") rfl rfl (by simp)
          (by simp [OneLine]; decide) hb fun s => rfl
    · have hne : k ≠ [] := by obtain ⟨d, t, rfl, _⟩ := h1.start; simp
      refine step hk hne h2 (f1 := (hasNewline k || f)) (by rw [Bool.or_comm]) ?_
      have ev := skipBlockComment_eval (y := w' ++ y) (p := p) h1
      have heq : triviaLoop (n + 1) e f ⟨k ++ (w' ++ y), p⟩ =
          (do let nl ← skipBlockComment; triviaLoop n e (nl || f) : L (Bool × Bool))
            ⟨k ++ (w' ++ y), p⟩ := by
        cases h1; rfl
      rw [List.append_assoc, heq, bind_apply, ev]
      rfl

/-- Completeness of the trivia loop. -/
theorem triviaLoop_eval (n : Nat) (e f e' : Bool) (w y : Str) (p : Posn)
    (hn : (w ++ y).length < n) (ht : Trivia e w y e') (hy : NoTrivia e' y) :
    triviaLoop n e f ⟨w ++ y, p⟩ = .ok ((f || hasNewline w, e'), ⟨y, pos p w y⟩) := by
  obtain ⟨m, _, h⟩ := triviaLoop_pass n e f e' w y p hn ht hy.space
  rw [h, triviaLoop_stop hy]

/-- A block comment without end. -/
theorem triviaLoop_open (n : Nat) (e f e' : Bool) (w b : Str) (p : Posn)
    (hn : (w ++ (c!"/*" ++ b)).length < n) (ht : Trivia e w (c!"/*" ++ b) e')
    (hb : ¬ c!"*/" <:+: b) :
    triviaLoop n e f ⟨w ++ (c!"/*" ++ b), p⟩ = .err .unterminatedComment := by
  obtain ⟨m, _, h⟩ := triviaLoop_pass n e f e' w (c!"/*" ++ b) p hn ht (by
    intro c hc
    simp at hc
    subst hc
    decide)
  rw [h]
  generalize pos p w (c!"/*" ++ b) = q
  have ev : triviaLoop (m + 1) e' (f || hasNewline w) ⟨c!"/*" ++ b, q⟩ =
      (do let nl ← skipBlockComment; triviaLoop m e' (nl || (f || hasNewline w)) : L (Bool × Bool))
        ⟨c!"/*" ++ b, q⟩ := rfl
  have ev2 : L.skipBlockComment ⟨c!"/*" ++ b, q⟩ =
      blockLoop b ((q.step '/' ('*' :: b)).step '*' b) false := rfl
  rw [ev, bind_apply, ev2]
  have := blockLoop_spec b ((q.step '/' ('*' :: b)).step '*' b) false
  cases hbl : blockLoop b ((q.step '/' ('*' :: b)).step '*' b) false with
  | ok v =>
    rw [hbl] at this
    obtain ⟨k, h1, _, _⟩ := this
    exact absurd ⟨k, v.2.rest, by simpa using h1.rest.symm⟩ hb
  | err x => rw [blockLoop_err hbl]; rfl
  | panic x => rw [hbl] at this; exact this.elim
  | fuel => rw [hbl] at this; exact this.elim

end L

end Esprit
