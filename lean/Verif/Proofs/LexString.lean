import Verif.Proofs.LexRegExp

/-! String literals. -/

namespace Esprit

open Lex

theorem unescape_eq (c : Char) : unescape c = simpleEscape c := by
  unfold unescape simpleEscape
  by_cases h1 : c = 'n'
  · subst h1; rfl
  by_cases h2 : c = 'r'
  · subst h2; rfl
  by_cases h3 : c = 't'
  · subst h3; rfl
  by_cases h4 : c = 'b'
  · subst h4; rfl
  by_cases h5 : c = 'v'
  · subst h5; rfl
  by_cases h6 : c = 'f'
  · subst h6; rfl
  simp only [h1, h2, h3, h4, h5, h6, if_false]

variable [Env]

theorem Lex.StringPiece.congr {q : Char} {x y y' v : Str} (h : StringPiece q x y v)
    (hy : y.head? = y'.head?) : StringPiece q x y' v := by
  cases h with
  | plain h1 h2 h3 => exact .plain h1 h2 h3
  | simple h1 h2 h3 h4 => exact .simple h1 h2 h3 h4
  | continuation h1 h2 => exact .continuation h1 (by rwa [← hy])
  | continuationCRLF => exact .continuationCRLF
  | hex h1 h2 h3 => exact .hex h1 h2 h3
  | unicode h1 h2 => exact .unicode h1 h2
  | octal h1 h2 h3 h4 h5 h6 => exact .octal h1 h2 h3 h4 (by rwa [← hy]) h6

namespace L

omit [Env] in
theorem octalLoop_spec {P : Panic → Prop} : ∀ (k code : Nat) (r : Reader), code ≤ 255 →
    Spec (octalLoop k code) r (fun v r' => Adv r v.1 r' ∧ v.1.length ≤ k ∧
      (∀ d ∈ v.1, d ∈ octDigits) ∧ v.2 = code * 8 ^ v.1.length + numeral 8 v.1 ∧ v.2 ≤ 255 ∧
      (∀ d, r'.rest.head? = some d → d ∈ octDigits → v.1.length = k ∨ 255 < v.2 * 8 + digitVal d))
      P
  | 0, code, r, hc => Spec.pure ⟨Adv.refl r, Nat.le_refl _, by simp, by simp [numeral], hc,
      fun d _ _ => .inl rfl⟩
  | k + 1, code, r, hc => by
    have stop : (∀ d, r.rest.head? = some d → d ∈ octDigits →
        [].length = k + 1 ∨ 255 < code * 8 + digitVal d) →
        Spec (Pure.pure ([], code) : L (Str × Nat)) r
        (fun v r' => Adv r v.1 r' ∧ v.1.length ≤ k + 1 ∧
      (∀ d ∈ v.1, d ∈ octDigits) ∧ v.2 = code * 8 ^ v.1.length + numeral 8 v.1 ∧ v.2 ≤ 255 ∧
      (∀ d, r'.rest.head? = some d → d ∈ octDigits →
        v.1.length = k + 1 ∨ 255 < v.2 * 8 + digitVal d)) P := fun h =>
      Spec.pure ⟨Adv.refl r, Nat.zero_le _, by simp, by simp [numeral], hc, h⟩
    unfold octalLoop
    refine Spec.peek ?_
    cases hp : r.peek 0 with
    | none =>
      refine stop fun d hd => ?_
      rw [← peek_head, hp] at hd
      cases hd
    | some ch =>
      simp only
      refine Spec.ite (fun ho => ?_) (fun ho => ?_)
      · have ho' := (isEsOctDigit_iff ch).1 ho
        simp only [(toDigit_oct ho').1]
        refine Spec.ite (fun hbig => ?_) (fun hsmall => ?_)
        · refine stop fun d hd _ => ?_
          rw [← peek_head, hp] at hd
          simp only [Option.some.injEq] at hd
          subst hd
          exact .inr hbig
        · refine Spec.reread hp ?_
          intro r1 h1
          refine Spec.seq (octalLoop_spec (P := P) k _ r1 (by omega)) (fun _ h => h) ?_
          rintro ⟨s, v⟩ r2 ⟨a1, a2, a3, a4, a5, a6⟩
          simp only at a1 a2 a3 a4 a5 a6
          refine Spec.pure ⟨h1.cons a1, by simp; omega, ?_, ?_, a5, ?_⟩
          · intro d hd
            rcases List.mem_cons.1 hd with rfl | hd
            · exact ho'
            · exact a3 d hd
          · simp only [numeral_cons, List.length_cons, Nat.pow_succ']
            rw [a4, Nat.add_mul, Nat.mul_assoc, Nat.add_assoc]
          · intro d hd hd'
            rcases a6 d hd hd' with h | h
            · exact .inl (by simp [h])
            · exact .inr h
      · refine stop fun d hd hd' => ?_
        rw [← peek_head, hp] at hd
        simp only [Option.some.injEq] at hd
        subst hd
        exact absurd ((isEsOctDigit_iff ch).2 hd') ho

omit [Env] in
theorem readNewlineInto_spec {r : Reader} {c : Char} {P : Panic → Prop} (hp : r.peek 0 = some c)
    (hc : c ∈ lineTerminators) :
    Spec readNewlineInto r (fun s r' => Adv r s r' ∧
      ((s = ['\r', '\n']) ∨ (s = [c] ∧ ¬ (c = '\r' ∧ r'.rest.head? = some '\n')))) P := by
  unfold readNewlineInto
  refine Spec.peek ?_
  rw [hp]
  refine Spec.debugAssert (by simpa using (isEsNewline_iff c).2 hc) ?_
  refine Spec.peek2 ?_
  obtain ⟨s, hs⟩ := peek_some hp
  rcases r with ⟨_, p⟩
  simp only at hs
  subst hs
  refine Spec.ite (fun h => ?_) (fun h => ?_)
  · simp only [peek_cons, peek_cons_succ, peek_zero, Prod.mk.injEq, List.head?_cons, Option.some.injEq] at h
    obtain ⟨rfl, h⟩ := h
    cases s with
    | nil => simp at h
    | cons d s =>
      simp at h
      subst h
      exact ⟨⟨rfl, rfl⟩, .inl rfl⟩
  · refine ⟨Adv.one c s p, .inr ⟨rfl, ?_⟩⟩
    rintro ⟨rfl, h'⟩
    apply h
    simp only at h'
    simp [h']

theorem readStringEscape_spec (q : Char) {r : Reader} (hc : r.peek 0 = some '\\') :
    Spec readStringEscape r (fun v r' => Adv r v.1 r' ∧ v.1 ≠ [] ∧
      (r'.rest = [] ∧ v.1 = ['\\'] ∨ StringPiece q v.1 r'.rest v.2)) (EscapePanic r.rest) := by
  unfold readStringEscape
  refine Spec.reread hc ?_
  intro r1 h1
  refine Spec.peek ?_
  cases hp : r1.peek 0 with
  | none => exact Spec.pure ⟨h1, by simp, .inl ⟨peek_none hp, rfl⟩⟩
  | some ch =>
    simp only
    refine Spec.ite (fun ho => ?_) (fun ho => ?_)
    · have ho' := (isEsOctDigit_iff ch).1 ho
      refine Spec.seq (octalLoop_spec (P := EscapePanic r.rest) 3 0 r1 (by omega)) (fun _ h => h) ?_
      rintro ⟨s, v⟩ r2 ⟨a1, a2, a3, a4, a5, a6⟩
      simp only at a1 a2 a3 a4 a5 a6
      simp only [Nat.zero_mul, Nat.zero_add] at a4
      subst a4
      refine Spec.pure ⟨h1.cons a1, by simp, .inr (.octal ?_ a2 a3 a5 ?_ (codeChar_iff.2 rfl))⟩
      · rintro rfl
        have he := a1.rest
        simp only [List.nil_append] at he
        rcases a6 ch (by rw [← he, ← peek_head, hp]) ho' with h | h
        · simp at h
        · have := (toDigit_oct ho').2
          simp [numeral] at h
          omega
      · intro d hd hd'
        rw [numeral_append]
        exact a6 d hd hd'
    have ho' : ch ∉ octDigits := fun h => ho ((isEsOctDigit_iff ch).2 h)
    refine Spec.ite (fun hx => ?_) (fun hx => ?_)
    · subst hx
      refine Spec.reread hp ?_
      intro r2 h2
      refine Spec.seq (readHexDigitInto_spec (P := EscapePanic r.rest)) (fun _ h => h) ?_
      rintro ⟨c1, d1⟩ r3 ⟨a1, a2, a3⟩
      refine Spec.seq (readHexDigitInto_spec (P := EscapePanic r.rest)) (fun _ h => h) ?_
      rintro ⟨c2, d2⟩ r4 ⟨b1, b2, b3⟩
      simp only at a1 a2 a3 b1 b2 b3
      subst a3; subst b3
      refine Spec.pure ⟨?_, by simp, .inr (.hex a2 b2 (codeChar_iff.2 ?_))⟩
      · exact h1.trans (h2.trans (a1.trans b1))
      · simp [numeral]
    refine Spec.ite (fun hu => ?_) (fun hu => ?_)
    · subst hu
      refine Spec.reread hp ?_
      intro r2 h2
      refine Spec.seq (readUnicodeEscapeSeq_spec r2) ?_ ?_
      · intro p hp'
        refine ⟨[], r2.rest, ?_, hp'⟩
        have := (h1.trans h2).rest
        simpa using this
      · rintro ⟨u, code⟩ r3 ⟨a1, a2⟩
        simp only at a1 a2
        exact Spec.pure ⟨h1.trans (h2.trans a1), by simp, .inr (.unicode a2 (codeChar_iff.2 rfl))⟩
    refine Spec.ite (fun hn => ?_) (fun hn => ?_)
    · have hn' := (isEsNewline_iff ch).1 hn
      refine Spec.seq (readNewlineInto_spec (P := EscapePanic r.rest) hp hn') (fun _ h => h) ?_
      rintro s r2 ⟨a1, rfl | ⟨rfl, a2⟩⟩
      · exact Spec.pure ⟨h1.trans a1, by simp, .inr .continuationCRLF⟩
      · exact Spec.pure ⟨h1.trans a1, by simp, .inr (.continuation hn' a2)⟩
    · have hn' : ch ∉ lineTerminators := fun h => hn ((isEsNewline_iff ch).2 h)
      refine Spec.reread hp ?_
      intro r2 h2
      rw [unescape_eq]
      exact Spec.pure ⟨h1.trans h2, by simp, .inr (.simple ho' hx hu hn')⟩

theorem plainRun {q : Char} {s x v : Str} (hs : ∀ c ∈ s, c ≠ q ∧ c ≠ '\\' ∧ c ∉ lineTerminators)
    (h : StringRest q x v) : StringRest q (s ++ x) (s ++ v) := by
  induction s with
  | nil => exact h
  | cons c s ih =>
    have := ih fun d hd => hs d (by simp [hd])
    obtain ⟨h1, h2, h3⟩ := hs c (by simp)
    exact StringRest.piece (p := [c]) (v := [c]) (.plain h1 h2 h3) this

theorem stringRest_head {q : Char} {x v : Str} (h : StringRest q x v) : x ≠ [] := by
  cases h with
  | close => simp
  | piece h1 h2 =>
    cases h1 <;> simp

theorem stringLoop_spec (q : Char) : ∀ (n : Nat) (r : Reader),
    r.rest.length < n → Spec (stringLoop q n) r (fun v r' => Adv r v.1 r' ∧ StringRest q v.1 v.2)
      (EscapePanic r.rest)
  | 0, _, h => absurd h (by omega)
  | n + 1, r, hn => by
    unfold stringLoop
    refine Spec.readIntoUntil ?_
    intro s r1 h1 h2 h3
    have hs : ∀ c ∈ s, c ≠ q ∧ c ≠ '\\' ∧ c ∉ lineTerminators := by
      intro c hc
      have := h2 c hc
      simp only [Bool.or_eq_false_iff, decide_eq_false_iff_not, isEsNewline_false] at this
      exact ⟨this.1.1, this.1.2, this.2⟩
    refine Spec.peek ?_
    cases hp : r1.peek 0 with
    | none => exact Spec.throw
    | some ch =>
      simp only
      refine Spec.ite (fun hb => ?_) (fun hb => ?_)
      · subst hb
        refine Spec.seq (readStringEscape_spec q hp) (fun p hp' => h1.escapePanic hp') ?_
        rintro ⟨es, ev⟩ r2 ⟨a1, a2, a3⟩
        simp only at a1 a2 a3
        have hl := (h1.trans a1).length
        have hpos : 0 < es.length := List.length_pos_iff.2 a2
        simp only [List.length_append] at hl
        refine Spec.seq (stringLoop_spec q n r2 (by omega))
          (fun p hp' => (h1.trans a1).escapePanic hp') ?_
        rintro ⟨ss, sv⟩ r3 ⟨b1, b2⟩
        simp only at b1 b2
        have hss := stringRest_head b2
        refine Spec.pure ⟨(h1.trans a1).trans b1, ?_⟩
        simp only [List.append_assoc]
        refine plainRun hs ?_
        refine .piece ?_ b2
        rcases a3 with ⟨a3, _⟩ | a3
        · have := b1.rest
          rw [a3] at this
          exact absurd (List.append_eq_nil_iff.1 this.symm).1 hss
        · refine a3.congr ?_
          rw [b1.rest]
          cases ss with
          | nil => exact absurd rfl hss
          | cons c ss => rfl
      · refine Spec.ite (fun _ => Spec.throw) (fun hnl => ?_)
        refine Spec.skip hp ?_
        intro r2 h4
        have hq : ch = q := by
          have := h3 ch (by rw [← peek_head, hp])
          simp only [Bool.or_eq_true, decide_eq_true_eq, hb, or_false, hnl, Bool.false_eq_true,
            or_false] at this
          exact this
        subst hq
        exact Spec.pure ⟨h1.trans h4, by simpa using plainRun hs .close⟩

theorem readString_spec {r : Reader} {q : Char} (hp : r.peek 0 = some q) :
    Spec readString r (fun t r' => ∃ x v, Adv r (q :: x) r' ∧ StringRest q x v ∧
      t = Token.new r.posn r'.posn (.string ⟨some (q :: x), v⟩)) (EscapePanic r.rest) := by
  unfold readString
  refine Spec.peek ?_
  rw [hp]
  refine Spec.debugAssert rfl (Spec.posn (Spec.read ?_ ?_))
  · intro c r1 h1
    have hcq : c = q := by
      rw [peek_head, h1.rest] at hp
      simpa using hp
    subst hcq
    refine Spec.seq (P := EscapePanic r1.rest) (stringLoop_spec c (r1.rest.length + 1) r1 (Nat.lt_succ_self _))
      (fun p hp' => h1.escapePanic hp') ?_
    rintro ⟨s, v⟩ r2 ⟨a1, a2⟩
    simp only at a1 a2
    exact Spec.posn (Spec.pure ⟨s, v, h1.cons a1, a2, rfl⟩)
  · intro he
    rw [peek_head, he] at hp
    cases hp

/-! ### Completeness -/

omit [Env] in
theorem octalLoop_eval : ∀ (k code : Nat) (ds y : Str) (r : Reader), r.rest = ds ++ y →
    ds.length ≤ k → (∀ d ∈ ds, d ∈ octDigits) → code * 8 ^ ds.length + numeral 8 ds ≤ 255 →
    (∀ d, y.head? = some d → d ∈ octDigits → ds.length = k ∨
      255 < (code * 8 ^ ds.length + numeral 8 ds) * 8 + digitVal d) →
    ∃ r', r'.rest = y ∧
      Runs (octalLoop k code) r ds (ds, code * 8 ^ ds.length + numeral 8 ds) r'
  | 0, code, ds, y, r, hr, hk, _, _, _ => by
    obtain rfl : ds = [] := by simpa using hk
    exact ⟨r, hr, by simpa [octalLoop, numeral] using Runs.pure ([], code) r⟩
  | k + 1, code, [], y, r, hr, _, _, hle, hy => by
    refine ⟨r, hr, ?_⟩
    simp only [List.length_nil, Nat.pow_zero, Nat.mul_one, numeral, List.foldl_nil,
      Nat.add_zero] at hy ⊢
    unfold octalLoop
    refine Runs.peek (o := y.head?) (by rw [hr]; rfl) ?_
    cases hh : y.head? with
    | none => exact Runs.pure _ _
    | some d =>
      simp only
      by_cases ho : isEsOctDigit d = true
      · have ho' := (isEsOctDigit_iff d).1 ho
        have : 255 < code * 8 + digitVal d := by
          rcases hy d hh ho' with h | h
          · simp at h
          · exact h
        simp only [ho, if_true, (toDigit_oct ho').1, gt_iff_lt, this]
        exact Runs.pure _ _
      · simp only [ho, Bool.false_eq_true, if_false]
        exact Runs.pure _ _
  | k + 1, code, d :: ds, y, r, hr, hk, hd, hle, hy => by
    have ho' := hd d (by simp)
    have e : code * 8 ^ (d :: ds).length + numeral 8 (d :: ds) =
        (code * 8 + digitVal d) * 8 ^ ds.length + numeral 8 ds := by
      rw [numeral_cons, List.length_cons, Nat.pow_succ', Nat.add_mul, Nat.mul_assoc, Nat.add_assoc]
    obtain ⟨r1, a1, a2⟩ := Runs.cons (c := d) (s := ds ++ y) (by simpa using hr)
    obtain ⟨r2, a3, a4⟩ := octalLoop_eval k (code * 8 + digitVal d) ds y r1 a2
      (by simpa using hk) (fun c hc => hd c (by simp [hc])) (by rw [← e]; exact hle)
      (by
        intro c hc hc'
        rw [← e]
        rcases hy c hc hc' with h | h
        · exact .inl (by simpa using h)
        · exact .inr h)
    refine ⟨r2, a3, ?_⟩
    have hsmall : ¬ 255 < code * 8 + digitVal d := by
      have : 1 ≤ 8 ^ ds.length := Nat.one_le_pow _ _ (by decide)
      have := Nat.mul_le_mul_left (code * 8 + digitVal d) this
      omega
    unfold octalLoop
    refine Runs.peek (o := some d) (by rw [hr]; rfl) ?_
    simp only [(isEsOctDigit_iff d).2 ho', if_true, (toDigit_oct ho').1, gt_iff_lt, hsmall,
      if_false]
    rw [e]
    exact (Runs.reread a1).bind (a4.map rfl)

theorem readStringEscape_eval {q : Char} {x y v : Str} {r : Reader} (h : StringPiece q x y v)
    (hb : x.head? = some '\\') (hr : r.rest = x ++ y) :
    ∃ r', r'.rest = y ∧ Runs readStringEscape r x (x, v) r' := by
  cases h with
  | plain h1 h2 h3 => simp at hb; exact absurd hb h2
  | @simple c y h1 h2 h3 h4 =>
    obtain ⟨r1, a1, a2⟩ := Runs.cons (c := '\\') (s := c :: y) (by simpa using hr)
    obtain ⟨r2, a3, a4⟩ := Runs.cons a2
    refine ⟨r2, a4, ?_⟩
    unfold readStringEscape
    refine (Runs.reread a1).bind (x2 := [c]) ?_
    refine Runs.peek (o := some c) (by rw [a2]; rfl) ?_
    have : isEsOctDigit c = false := by
      rw [Bool.eq_false_iff]; exact fun h => h1 ((isEsOctDigit_iff c).1 h)
    simp only [this, h2, h3, (isEsNewline_false c).2 h4, Bool.false_eq_true, if_false]
    rw [← unescape_eq]
    exact (Runs.reread a3).map rfl
  | @continuation c y h1 h2 =>
    obtain ⟨r1, a1, a2⟩ := Runs.cons (c := '\\') (s := c :: y) (by simpa using hr)
    obtain ⟨r2, a3, a4⟩ := Runs.cons a2
    refine ⟨r2, a4, ?_⟩
    unfold readStringEscape
    refine (Runs.reread a1).bind (x2 := [c]) ?_
    refine Runs.peek (o := some c) (by rw [a2]; rfl) ?_
    have e1 : isEsOctDigit c = false ∧ c ≠ 'x' ∧ c ≠ 'u' := by
      simp only [lineTerminators, List.mem_cons, List.not_mem_nil, or_false] at h1
      rcases h1 with rfl | rfl | rfl | rfl <;> decide
    simp only [e1.1, e1.2.1, e1.2.2, (isEsNewline_iff c).2 h1, Bool.false_eq_true, if_false, if_true]
    refine Runs.map (a := [c]) ?_ rfl
    unfold readNewlineInto
    refine Runs.peek (o := some c) (by rw [a2]; rfl) ?_
    refine (Runs.debugAssert (by simpa using (isEsNewline_iff c).2 h1)).bind (x2 := [c]) ?_
    have hne : ¬ ((r1.peek 0, r1.peek 1) = (some '\r', some '\n')) := by
      rw [Reader.peek, Reader.peek, a2]
      simp only [List.getElem?_cons_zero, List.getElem?_cons_succ, Prod.mk.injEq,
        ← List.head?_eq_getElem?, List.head?_cons, Option.some.injEq]
      exact h2
    unfold Runs
    rw [peek2_bind, if_neg hne]
    exact (Runs.read a3).map rfl
  | continuationCRLF =>
    obtain ⟨r1, a1, a2⟩ := Runs.cons (c := '\\') (s := '\r' :: '\n' :: y) (by simpa using hr)
    obtain ⟨r2, a3, a4⟩ := Runs.cons a2
    obtain ⟨r3, a5, a6⟩ := Runs.cons a4
    refine ⟨r3, a6, ?_⟩
    unfold readStringEscape
    refine (Runs.reread a1).bind (x2 := ['\r', '\n']) ?_
    refine Runs.peek (o := some '\r') (by rw [a2]; rfl) ?_
    have e1 : isEsOctDigit '\r' = false ∧ '\r' ≠ 'x' ∧ '\r' ≠ 'u' ∧ isEsNewline '\r' = true := by
      decide
    simp only [e1.1, e1.2.1, e1.2.2.1, e1.2.2.2, Bool.false_eq_true, if_false, if_true]
    refine Runs.map (a := ['\r', '\n']) ?_ rfl
    unfold readNewlineInto
    refine Runs.peek (o := some '\r') (by rw [a2]; rfl) ?_
    refine (Runs.debugAssert e1.2.2.2).bind (x2 := ['\r', '\n']) ?_
    have hne : (r1.peek 0, r1.peek 1) = (some '\r', some '\n') := by
      rw [Reader.peek, Reader.peek, a2]; rfl
    unfold Runs
    rw [peek2_bind, if_pos hne]
    exact (Runs.skip2 a3 a5).map rfl
  | @hex a b c y h1 h2 h3 =>
    obtain ⟨r1, a1, a2⟩ := Runs.cons (c := '\\') (s := 'x' :: a :: b :: y) (by simpa using hr)
    obtain ⟨r2, a3, a4⟩ := Runs.cons a2
    obtain ⟨r3, a5, a6⟩ := Runs.of_eval (x := [a]) (y := b :: y) a4
      (fun p => readHexDigitInto_eval (p := p) h1)
    obtain ⟨r4, a7, a8⟩ := Runs.of_eval (x := [b]) (y := y) a5
      (fun p => readHexDigitInto_eval (p := p) h2)
    refine ⟨r4, a7, ?_⟩
    unfold readStringEscape
    refine (Runs.reread a1).bind (x2 := ['x', a, b]) ?_
    refine Runs.peek (o := some 'x') (by rw [a2]; rfl) ?_
    have e1 : isEsOctDigit 'x' = false := by decide
    simp only [e1, Bool.false_eq_true, if_false, if_true]
    refine (Runs.reread a3).bind (a6.bind (a8.map ?_))
    rw [codeChar_iff.1 h3]
    simp [numeral, pure_apply]
  | @unicode u y code c h1 h2 =>
    obtain ⟨r1, a1, a2⟩ := Runs.cons (c := '\\') (s := 'u' :: (u ++ y)) (by simpa using hr)
    obtain ⟨r2, a3, a4⟩ := Runs.cons a2
    obtain ⟨r3, a5, a6⟩ := Runs.of_eval a4 (fun p => readUnicodeEscapeSeq_eval (p := p) h1)
    refine ⟨r3, a5, ?_⟩
    unfold readStringEscape
    refine (Runs.reread a1).bind (x2 := 'u' :: u) ?_
    refine Runs.peek (o := some 'u') (by rw [a2]; rfl) ?_
    have e1 : isEsOctDigit 'u' = false ∧ 'u' ≠ 'x' := by decide
    simp only [e1.1, e1.2, Bool.false_eq_true, if_false, if_true]
    refine (Runs.reread a3).bind (a6.map ?_)
    rw [codeChar_iff.1 h2]
    rfl
  | @octal ds y c h1 h2 h3 h4 h5 h6 =>
    obtain ⟨r1, a1, a2⟩ := Runs.cons (c := '\\') (s := ds ++ y) (by simpa using hr)
    obtain ⟨r2, a3, a4⟩ := octalLoop_eval 3 0 ds y r1 a2 h2 h3 (by simpa using h4) (by
      intro d hd hd'
      have := h5 d hd hd'
      rw [numeral_append] at this
      simpa using this)
    simp only [Nat.zero_mul, Nat.zero_add] at a4
    refine ⟨r2, a3, ?_⟩
    unfold readStringEscape
    refine (Runs.reread a1).bind (x2 := ds) ?_
    cases ds with
    | nil => exact absurd rfl h1
    | cons d ds =>
      refine Runs.peek (o := some d) (by rw [a2]; rfl) ?_
      simp only [(isEsOctDigit_iff d).2 (h3 d (by simp)), if_true]
      refine a4.map ?_
      rw [codeChar_iff.1 h6]
      rfl

/-- The plain characters at the start of the rest of a string. -/
theorem stringRest_split {q : Char} {x v : Str} (h : StringRest q x v) :
    ∃ s, (∀ c ∈ s, c ≠ q ∧ c ≠ '\\' ∧ c ∉ lineTerminators) ∧
      ((x = s ++ [q] ∧ v = s) ∨ ∃ e ev x' v', x = s ++ e ++ x' ∧ v = s ++ ev ++ v' ∧
        e.head? = some '\\' ∧ StringPiece q e x' ev ∧ StringRest q x' v') := by
  induction h with
  | close => exact ⟨[], by simp, .inl ⟨rfl, rfl⟩⟩
  | @piece p v x w h1 h2 ih =>
    have esc : p.head? = some '\\' → ∃ s, (∀ c ∈ s, c ≠ q ∧ c ≠ '\\' ∧ c ∉ lineTerminators) ∧
      ((p ++ x = s ++ [q] ∧ v ++ w = s) ∨ ∃ e ev x' v', p ++ x = s ++ e ++ x' ∧
        v ++ w = s ++ ev ++ v' ∧
        e.head? = some '\\' ∧ StringPiece q e x' ev ∧ StringRest q x' v') := fun hp =>
      ⟨[], by simp, .inr ⟨p, v, x, w, rfl, rfl, hp, h1, h2⟩⟩
    cases h1 with
    | @plain c y a1 a2 a3 =>
      obtain ⟨s, hs, h⟩ := ih
      refine ⟨c :: s, ?_, ?_⟩
      · intro d hd
        rcases List.mem_cons.1 hd with rfl | hd
        · exact ⟨a1, a2, a3⟩
        · exact hs d hd
      · rcases h with ⟨rfl, rfl⟩ | ⟨e, ev, x', v', rfl, rfl, b1, b2, b3⟩
        · exact .inl ⟨rfl, rfl⟩
        · exact .inr ⟨e, ev, x', v', by simp, by simp, b1, b2, b3⟩
    | simple => exact esc rfl
    | continuation => exact esc rfl
    | continuationCRLF => exact esc rfl
    | hex => exact esc rfl
    | unicode => exact esc rfl
    | octal => exact esc rfl

theorem stringLoop_eval {q : Char} (hq : q = '"' ∨ q = '\'') :
    ∀ (n : Nat) {x v y : Str} {r : Reader}, StringRest q x v → r.rest = x ++ y → x.length < n →
      ∃ r', r'.rest = y ∧ Runs (stringLoop q n) r x (x, v) r'
  | 0, _, _, _, _, _, _, h => absurd h (by omega)
  | n + 1, x, v, y, r, h, hr, hn => by
    have hplain : ∀ {s : Str}, (∀ c ∈ s, c ≠ q ∧ c ≠ '\\' ∧ c ∉ lineTerminators) →
        ∀ c ∈ s, (decide (c = q) || decide (c = '\\') || isEsNewline c) = false := by
      intro s hs c hc
      obtain ⟨a1, a2, a3⟩ := hs c hc
      simp [a1, a2, (isEsNewline_false c).2 a3]
    obtain ⟨s, hs, ⟨rfl, rfl⟩ | ⟨e, ev, x', v', rfl, rfl, b1, b2, b3⟩⟩ := stringRest_split h
    · obtain ⟨r1, a1, a2⟩ := Runs.readIntoUntil (r := r) (x := v) (y := q :: y)
        (by rw [hr]; simp) (hplain hs) (by intro c hc; simp at hc; simp [hc])
      obtain ⟨r2, a3, a4⟩ := Runs.cons a1
      refine ⟨r2, a4, ?_⟩
      unfold stringLoop
      refine Runs.bind (m := readInto2Until _) a2 ?_
      refine Runs.peek (o := some q) (by rw [a1]; rfl) ?_
      have e1 : q ≠ '\\' ∧ isEsNewline q = false := by
        rcases hq with rfl | rfl <;> decide
      simp only [e1.1, e1.2, Bool.false_eq_true, if_false]
      exact (Runs.skip a3).map rfl
    · obtain ⟨t, rfl⟩ : ∃ t, e = '\\' :: t := by
        cases e with
        | nil => simp at b1
        | cons c t => simp at b1; exact ⟨t, by rw [b1]⟩
      obtain ⟨r1, a1, a2⟩ := Runs.readIntoUntil (r := r) (x := s) (y := '\\' :: t ++ (x' ++ y))
        (by rw [hr]; simp) (hplain hs) (by intro c hc; simp at hc; simp [← hc])
      have b2' : StringPiece q ('\\' :: t) (x' ++ y) ev := by
        refine b2.congr ?_
        have := stringRest_head b3
        cases x' with
        | nil => exact absurd rfl this
        | cons => rfl
      obtain ⟨r2, a3, a4⟩ := readStringEscape_eval b2' rfl a1
      obtain ⟨r3, a5, a6⟩ := stringLoop_eval hq n b3 a3 (by
        simp only [List.length_append, List.length_cons] at hn; omega)
      refine ⟨r3, a5, ?_⟩
      unfold stringLoop
      rw [List.append_assoc]
      refine Runs.bind (m := readInto2Until _) a2 ?_
      refine Runs.peek (o := some '\\') (by rw [a1]; rfl) ?_
      simp only [if_true]
      refine a4.bind (a6.map ?_)
      simp [pure_apply]

theorem readString_eval {q : Char} {x v y : Str} {r : Reader} (hq : q = '"' ∨ q = '\'')
    (h : StringRest q x v) (hr : r.rest = q :: x ++ y) :
    ∃ r', r'.rest = y ∧ Runs readString r (q :: x)
      (Token.new r.posn r'.posn (.string ⟨some (q :: x), v⟩)) r' := by
  obtain ⟨r1, a1, a2⟩ := Runs.cons (c := q) (s := x ++ y) (by simpa using hr)
  obtain ⟨r2, a3, a4⟩ := stringLoop_eval hq (r1.rest.length + 1) h a2 (by rw [a2]; simp; omega)
  refine ⟨r2, a3, ?_⟩
  unfold readString
  refine Runs.peek (o := some q) (by rw [hr]; rfl) ?_
  refine (Runs.debugAssert (r := r) rfl).bind (x2 := q :: x) ?_
  refine Runs.posn ?_
  refine (Runs.read a1).bind (x2 := x) ?_
  refine Runs.map (a := (x, v)) ⟨a4.1, a4.2⟩ rfl

end L

end Esprit
