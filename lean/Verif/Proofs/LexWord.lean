import Verif.Proofs.LexEscape

/-! Words, regular expressions and strings. -/

namespace Esprit

open Lex

/-! ### `char::from_u32` -/

theorem charFromU32_some {n : Nat} {c : Char} (h : charFromU32 n = some c) : c.toNat = n := by
  unfold charFromU32 at h
  split at h
  · rename_i hv
    simp only [Option.some.injEq] at h
    subst h
    show n.toUInt32.toNat = n
    simp only [Nat.toUInt32, UInt32.toNat_ofNat']
    omega
  · cases h

theorem charFromU32_isSome {n : Nat} : (charFromU32 n).isSome = true ↔ n.isValidChar := by
  unfold charFromU32 Nat.isValidChar
  split
  · rename_i h; simpa using h
  · rename_i h; simpa using h

theorem charFromU32_toNat (c : Char) : charFromU32 c.toNat = some c := by
  have : (charFromU32 c.toNat).isSome = true := charFromU32_isSome.2 c.valid
  obtain ⟨d, hd⟩ := Option.isSome_iff_exists.1 this
  rw [hd]
  exact congrArg some (Char.eq_of_toNat (charFromU32_some hd))

theorem codeChar_iff {n : Nat} {c : Char} : CodeChar n c ↔ c = L.charOrQuestion n := by
  unfold L.charOrQuestion CodeChar
  cases h : charFromU32 n with
  | none =>
    have hv : ¬ n.isValidChar := fun hv => by
      have := charFromU32_isSome.2 hv
      rw [h] at this; cases this
    constructor
    · rintro (rfl | h')
      · exact absurd c.valid hv
      · exact h'.2
    · rintro rfl; exact .inr ⟨hv, rfl⟩
  | some d =>
    have hd := charFromU32_some h
    constructor
    · rintro (h' | h')
      · exact Char.eq_of_toNat (by rw [h', hd])
      · exact absurd (charFromU32_isSome.1 (by rw [h]; rfl)) h'.1
    · rintro rfl; exact .inl hd

variable [Env]

theorem isEsIdentifierStart_iff (c : Char) : isEsIdentifierStart c = true ↔ IdStart c := by
  unfold isEsIdentifierStart IdStart
  by_cases h1 : c = '$' <;> by_cases h2 : c = '_' <;> simp [h1, h2]

theorem isEsIdentifierContinue_iff (c : Char) : isEsIdentifierContinue c = true ↔ IdPart c := by
  unfold isEsIdentifierContinue IdPart
  by_cases h1 : c = '$' <;> by_cases h2 : c = '_' <;> by_cases h3 : c = '\u200c' <;>
    by_cases h4 : c = '\u200d' <;> simp [h1, h2, h3, h4]

theorem Lex.EscapePanic.prepend {s : Str} {p : Panic} (x : Str) (h : EscapePanic s p) :
    EscapePanic (x ++ s) p := by
  obtain ⟨pre, t, rfl, ht⟩ := h
  exact ⟨x ++ pre, t, by simp, ht⟩

namespace L

theorem _root_.Esprit.Adv.escapePanic {r r' : Reader} {x : Str} {p : Panic} (h : Adv r x r')
    (hp : EscapePanic r'.rest p) : EscapePanic r.rest p := by
  rw [h.rest]; exact Lex.EscapePanic.prepend x hp

/-! ### Words -/

/-- Parts of a word. -/
def PartsRun (x : Str) (_ : Reader) (as : List (Bool × Char)) : Prop :=
  WordParts x (as.any (·.1)) (as.map (·.2))

theorem readWordParts_loop_spec (r : Reader) :
    Spec (readUntilWith (fun ch => ch ≠ '\\' && !isEsIdentifierContinue ch) readWordPart) r
      (fun as r' => ∃ x, Adv r x r' ∧ PartsRun x r' as ∧ ∀ c, r'.rest.head? = some c →
        (decide (c ≠ '\\') && !isEsIdentifierContinue c) = true) (EscapePanic r.rest) := by
  refine readUntilWith_spec PartsRun (fun r p => EscapePanic r.rest p) ?_ ?_ r
  · intro r _; exact .nil
  · intro r c hc hpred
    unfold readWordPart
    refine Spec.read ?_ (fun h => by rw [Reader.peek, h] at hc; simp at hc)
    intro d r1 h1
    have hcd : d = c := by
      have := h1.rest
      rw [Reader.peek, this] at hc
      simpa using hc
    subst hcd
    refine Spec.ite (fun hd => ?_) (fun hd => ?_)
    · subst hd
      refine Spec.bind ?_
      unfold readWordEscape
      refine Spec.peek ?_
      refine Spec.ite (fun hu => ?_) (fun _ => Spec.throw)
      refine Spec.reread hu ?_
      intro r2 h2
      refine Spec.seq (readUnicodeEscapeSeq_spec r2) ?_ ?_
      · intro p hp
        refine ⟨[], r2.rest, ?_, hp⟩
        have := (h1.trans h2).rest
        simpa using this
      · rintro ⟨u, code⟩ r3 ⟨h3, h4⟩
        simp only at h3 h4
        simp only
        cases hch : charFromU32 code with
        | none => exact Spec.throw
        | some ch =>
          refine Spec.pure (Spec.pure ⟨c!"\\u" ++ u, by simp, ?_, ?_, ?_⟩)
          · have := (h1.trans h2).trans h3
            simpa using this
          · intro x2 r4 as _ hx
            have := WordParts.escape h4 (charFromU32_some hch) hx
            simpa [PartsRun] using this
          · intro p hp
            exact ((h1.trans h2).trans h3).escapePanic hp
    · refine Spec.pure ⟨[d], by simp, h1, ?_, fun p hp => h1.escapePanic hp⟩
      intro x2 r2 as _ hx
      have hid : IdPart d := by
        rw [← isEsIdentifierContinue_iff]
        simpa [hd] using hpred
      have := WordParts.plain hd hid hx
      simpa [PartsRun] using this

theorem readWordParts_spec (r : Reader) :
    Spec readWordParts r (fun w r' => ∃ x, Adv r x r' ∧ WordParts x w.hadEscape w.text ∧
      WordEnd r'.rest) (EscapePanic r.rest) := by
  unfold readWordParts
  refine Spec.seq (readWordParts_loop_spec r) (fun _ h => h) ?_
  rintro as r' ⟨x, h1, h2, h3⟩
  refine Spec.pure ⟨x, h1, h2, ?_⟩
  intro c hc
  have := h3 c hc
  simp only [ne_eq, Bool.and_eq_true, decide_eq_true_eq, Bool.not_eq_true', decide_not] at this
  refine ⟨by simpa using this.1, fun hi => ?_⟩
  rw [← isEsIdentifierContinue_iff, this.2] at hi
  cases hi

theorem readWordParts_loop_eval {x t : Str} {b : Bool} (h : WordParts x b t) :
    ∀ {y : Str} {r : Reader} {n : Nat}, WordEnd y → r.rest = x ++ y → x.length < n →
      ∃ as r', r'.rest = y ∧
        Runs (untilLoop (fun ch => ch ≠ '\\' && !isEsIdentifierContinue ch) readWordPart n) r x as r' ∧
        as.any (·.1) = b ∧ as.map (·.2) = t := by
  induction h with
  | nil =>
    intro y r n hy hr hn
    cases n with
    | zero => simp at hn
    | succ n =>
      rcases r with ⟨s, p⟩
      simp only [List.nil_append] at hr
      subst hr
      refine ⟨[], ⟨s, p⟩, rfl, ⟨untilLoop_stop ?_, Adv.refl _⟩, rfl, rfl⟩
      intro c hc
      have := hy c hc
      rw [← isEsIdentifierContinue_iff] at this
      simp [this.1, Bool.eq_false_iff.2 this.2]
  | @plain c x t b hc hi _ ih =>
    intro y r n hy hr hn
    cases n with
    | zero => simp at hn
    | succ n =>
      obtain ⟨r1, h1, hr1⟩ := Runs.cons (c := c) (s := x ++ y) (by simpa using hr)
      obtain ⟨as, r2, h2, h3, h4, h5⟩ := ih hy hr1 (n := n) (by simp at hn; omega)
      refine ⟨(false, c) :: as, r2, h2, ⟨?_, h1.cons h3.2⟩, by simp [h4], by simp [h5]⟩
      have hp : (decide (c ≠ '\\') && !isEsIdentifierContinue c) = false := by
        rw [(isEsIdentifierContinue_iff c).2 hi]; simp
      rw [(Adv.inv h1).1, untilLoop_step hp, ← (Adv.inv h1).1]
      have hb : readWordPart r = .ok ([(false, c)], r1) := by
        have : Runs readWordPart r [c] [(false, c)] r1 := by
          refine (Runs.read h1).map ?_
          simp [hc, pure_apply]
        exact this.1
      rw [hb]
      simp only [Res.bind, h3.1]
      rfl
  | @escape u x t code c b hu hc _ ih =>
    intro y r n hy hr hn
    cases n with
    | zero => simp at hn
    | succ n =>
      obtain ⟨r1, h1, hr1⟩ := Runs.cons (c := '\\') (s := 'u' :: (u ++ (x ++ y))) (by simpa using hr)
      obtain ⟨r2, h2, hr2⟩ := Runs.cons hr1
      obtain ⟨r3, hr3, h3⟩ := Runs.of_eval hr2 (fun p => readUnicodeEscapeSeq_eval (p := p) hu)
      obtain ⟨as, r4, h4, h5, h6, h7⟩ := ih hy hr3 (n := n) (by simp at hn; omega)
      refine ⟨(true, c) :: as, r4, h4, ⟨?_, ?_⟩, by simp, by simp [h7]⟩
      · have hp : (decide ('\\' ≠ '\\') && !isEsIdentifierContinue '\\') = false := by simp
        rw [(Adv.inv h1).1, untilLoop_step hp, ← (Adv.inv h1).1]
        have hb : readWordPart r = .ok ([(true, c)], r3) := by
          have he : Runs readWordEscape r1 ('u' :: u) c r3 := by
            unfold readWordEscape
            refine Runs.peek (o := some 'u') (by rw [hr1]; rfl) ?_
            simp only [if_true]
            refine (Runs.reread h2).bind (h3.map ?_)
            simp only [← hc, charFromU32_toNat]
            rfl
          have : Runs readWordPart r ('\\' :: 'u' :: u) [(true, c)] r3 := by
            unfold readWordPart
            refine (Runs.read h1).bind ?_
            simp only [if_true]
            exact he.map rfl
          exact this.1
        rw [hb]
        simp only [Res.bind, h5.1]
        rfl
      · have := ((h1.trans h2).trans h3.2).trans h5.2
        simpa using this

theorem readWordParts_eval {x t y : Str} {b : Bool} {r : Reader} (h : WordParts x b t)
    (hy : WordEnd y) (hr : r.rest = x ++ y) :
    ∃ r', r'.rest = y ∧ Runs readWordParts r x ⟨b, t⟩ r' := by
  obtain ⟨as, r', h1, h2, h3, h4⟩ := readWordParts_loop_eval h hy hr
    (n := r.rest.length + 1) (by rw [hr]; simp; omega)
  refine ⟨r', h1, ?_⟩
  unfold readWordParts
  refine Runs.map (a := as) ⟨h2.1, h2.2⟩ ?_
  rw [h3, h4]
  rfl

/-! ### Classification of words -/

omit [Env] in
theorem lookup_iff {α : Type} {l : List (Str × α)} (hl : (l.map (·.1)).Nodup) (t : Str) (a : α) :
    l.lookup t = some a ↔ (t, a) ∈ l := by
  induction l with
  | nil => simp
  | cons x l ih =>
    obtain ⟨k, v⟩ := x
    simp only [List.map_cons, List.nodup_cons] at hl
    rw [List.lookup_cons]
    by_cases hk : t = k
    · subst hk
      simp only [beq_self_eq_true, Option.some.injEq, List.mem_cons, Prod.mk.injEq, true_and]
      constructor
      · rintro rfl; exact .inl rfl
      · rintro (rfl | h)
        · rfl
        · exact absurd (List.mem_map_of_mem (f := (·.1)) h) hl.1
    · have : (t == k) = false := by simpa using hk
      simp [this, hk, ih hl.2]

omit [Env] in
theorem reserved_iff (t : Str) (w : Reserved) :
    reservedTable.lookup t = some w ↔ (t, w) ∈ reservedWords := by
  rw [lookup_iff (by decide +kernel) t w]
  have h1 : ∀ x ∈ reservedTable, x ∈ reservedWords := by decide +kernel
  have h2 : ∀ x ∈ reservedWords, x ∈ reservedTable := by decide +kernel
  exact ⟨h1 _, h2 _⟩

omit [Env] in
theorem contextual_iff (t : Str) (a : Atom) :
    contextualTable.lookup t = some a ↔ (t, a) ∈ contextualWords := by
  rw [lookup_iff (by decide +kernel) t a]
  have h1 : ∀ x ∈ contextualTable, x ∈ contextualWords := by decide +kernel
  have h2 : ∀ x ∈ contextualWords, x ∈ contextualTable := by decide +kernel
  exact ⟨h1 _, h2 _⟩

omit [Env] in
theorem contextual_not_reserved {t : Str} {a : Atom} (h : (t, a) ∈ contextualWords) :
    reservedTable.lookup t = none := by
  have key : ∀ x ∈ contextualWords, reservedTable.lookup x.1 = none := by decide +kernel
  exact key _ h

/-- `tokenize` classifies words as specified. -/
theorem tokenize_eval (w : Word) (r : Reader) (v : TokenData) :
    tokenize w r = .ok (v, r) ↔ WordToken w.hadEscape w.text v := by
  obtain ⟨esc, t⟩ := w
  unfold tokenize
  simp only
  constructor
  · intro h
    cases hr : reservedTable.lookup t with
    | some w =>
      rw [hr] at h
      cases esc with
      | true => simp [throw] at h
      | false =>
        simp only [Bool.not_false, if_true, pure_apply, Res.ok.injEq, Prod.mk.injEq, and_true] at h
        subst h
        exact .reserved ((reserved_iff t w).1 hr)
    | none =>
      have hn : ∀ w, (t, w) ∉ reservedWords := fun w hw => by
        rw [← reserved_iff, hr] at hw; cases hw
      rw [hr] at h
      cases hc : contextualTable.lookup t with
      | some a =>
        rw [hc] at h
        cases esc with
        | true =>
          simp only [Bool.not_true, Bool.false_eq_true, if_false, pure_apply, Res.ok.injEq,
            Prod.mk.injEq, and_true] at h
          subst h
          exact .escaped hn
        | false =>
          simp only [Bool.not_false, if_true, pure_apply, Res.ok.injEq, Prod.mk.injEq,
            and_true] at h
          subst h
          exact .contextual ((contextual_iff t a).1 hc)
      | none =>
        rw [hc] at h
        simp only [pure_apply, Res.ok.injEq, Prod.mk.injEq, and_true] at h
        subst h
        cases esc with
        | true => exact .escaped hn
        | false =>
          exact .ordinary hn fun a ha => by rw [← contextual_iff, hc] at ha; cases ha
  · intro h
    cases h with
    | reserved h =>
      rw [(reserved_iff _ _).2 h]; rfl
    | contextual h =>
      rw [contextual_not_reserved h, (contextual_iff _ _).2 h]; rfl
    | ordinary h1 h2 =>
      have e1 : reservedTable.lookup t = none := by
        cases hr : reservedTable.lookup t with
        | none => rfl
        | some w => exact absurd ((reserved_iff _ _).1 hr) (h1 w)
      have e2 : contextualTable.lookup t = none := by
        cases hr : contextualTable.lookup t with
        | none => rfl
        | some w => exact absurd ((contextual_iff _ _).1 hr) (h2 w)
      rw [e1, e2]; rfl
    | escaped h1 =>
      have e1 : reservedTable.lookup t = none := by
        cases hr : reservedTable.lookup t with
        | none => rfl
        | some w => exact absurd ((reserved_iff _ _).1 hr) (h1 w)
      rw [e1]
      cases hr : contextualTable.lookup t with
      | none => rfl
      | some w => rfl

theorem tokenize_spec (w : Word) (r : Reader) (P : Panic → Prop) :
    Spec (tokenize w) r (fun v r' => r' = r ∧ WordToken w.hadEscape w.text v) P := by
  have hcases : (∃ v, tokenize w r = .ok (v, r)) ∨ ∃ e, tokenize w r = .err e := by
    obtain ⟨esc, t⟩ := w
    unfold tokenize
    simp only
    cases reservedTable.lookup t with
    | some w => cases esc <;> simp [pure_apply, throw]
    | none =>
      cases contextualTable.lookup t with
      | some a => cases esc <;> simp [pure_apply]
      | none => simp [pure_apply]
  unfold Spec
  rcases hcases with ⟨v, hv⟩ | ⟨e, he⟩
  · rw [hv]; exact ⟨rfl, (tokenize_eval w r v).1 hv⟩
  · rw [he]; trivial

/-- A word token. -/
theorem readWord_spec [LawfulEnv] (r : Reader) {c : Char} (hc : r.peek 0 = some c)
    (hs : IdStart c ∨ c = '\\') :
    Spec readWord r (fun t r' => ∃ x esc s, Adv r x r' ∧ x.head? = some c ∧
      WordParts x esc s ∧ WordEnd r'.rest ∧ WordToken esc s t.value ∧
      t = Token.new r.posn r'.posn t.value) (EscapePanic r.rest) := by
  have hb : (c = '\\' || isEsIdentifierStart c) = true := by
    rcases hs with hs | hs
    · rw [(isEsIdentifierStart_iff c).2 hs]; simp
    · simp [hs]
  unfold readWord
  refine Spec.peek ?_
  rw [hc]
  refine Spec.debugAssert (by simpa using hb) ?_
  refine Spec.posn ?_
  refine Spec.seq (readWordParts_spec r) (fun _ h => h) ?_
  rintro w r1 ⟨x, h1, h2, h3⟩
  have hx : x.head? = some c := by
    cases x with
    | nil =>
      exfalso
      have he := h1.rest
      simp only [List.nil_append] at he
      have : r1.rest.head? = some c := by
        rw [← he]
        rcases r with ⟨s, q⟩
        simpa using hc
      have := h3 c this
      rcases hs with hs | hs
      · apply this.2
        rcases hs with rfl | rfl | hs
        · exact .inl rfl
        · exact .inr (.inl rfl)
        · exact .inr (.inr (.inr (.inr (LawfulEnv.start_continue c hs))))
      · exact this.1 hs
    | cons d x =>
      have he := h1.rest
      rw [Reader.peek, he] at hc
      simpa using hc
  have hne : w.text ≠ [] := by
    generalize w.hadEscape = b, w.text = t at h2
    cases h2 with
    | nil => simp at hx
    | plain => simp
    | escape => simp
  refine Spec.debugAssert (by simpa using hne) ?_
  refine Spec.seq (tokenize_spec w r1 (EscapePanic r.rest)) (fun _ h => h) ?_
  rintro v r2 ⟨rfl, hv⟩
  unfold spanEnd
  refine Spec.posn (Spec.pure ?_)
  exact ⟨x, w.hadEscape, w.text, h1, hx, h2, h3, hv, rfl⟩

theorem readWord_eval {x y s : Str} {esc : Bool} {v : TokenData} {r : Reader} {c : Char}
    (hx : x.head? = some c) (hs : IdStart c ∨ c = '\\') (h2 : WordParts x esc s) (h3 : WordEnd y)
    (h4 : WordToken esc s v) (hr : r.rest = x ++ y) :
    ∃ r', r'.rest = y ∧ Runs readWord r x (Token.new r.posn r'.posn v) r' := by
  obtain ⟨r', h5, h6⟩ := readWordParts_eval h2 h3 hr
  refine ⟨r', h5, ?_⟩
  have hb : (c = '\\' || isEsIdentifierStart c) = true := by
    rcases hs with hs | hs
    · rw [(isEsIdentifierStart_iff c).2 hs]; simp
    · simp [hs]
  have hne : s ≠ [] := by
    cases h2 with
    | nil => simp at hx
    | plain => simp_all
    | escape => simp_all
  unfold readWord
  refine Runs.peek (o := some c) (by rw [hr]; cases x <;> simp_all) ?_
  refine (Runs.debugAssert (r := r) (b := (c = '\\' || isEsIdentifierStart c)) (by simpa using hb)).bind
    (x2 := x) ?_
  refine Runs.posn ?_
  refine h6.map ?_
  rw [bind_apply]
  have : debugAssert (!s.isEmpty) r' = .ok ((), r') := by
    have : (!s.isEmpty) = true := by simpa using hne
    rw [this]; rfl
  rw [this]
  simp only [Res.bind]
  rw [bind_apply, (tokenize_eval ⟨esc, s⟩ r' v).2 h4]
  rfl

end L

end Esprit
