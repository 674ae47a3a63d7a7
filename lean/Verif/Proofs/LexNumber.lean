import Verif.Proofs.LexString
import Verif.Spec.Number
import Verif.Spec.LexFault

/-! Number literals. -/

namespace Esprit

open Lex

variable {β : Type}

/-! ### The value of a literal -/

theorem decDigit_dec {c : Char} (h : c ∈ decDigits) : isEsDecDigit c = true :=
  (isEsDecDigit_iff c).2 h

theorem spanDigits_eq : ∀ {m s : Str}, (∀ d ∈ m, d ∈ decDigits) →
    (∀ c, s.head? = some c → c ∉ decDigits) → spanDigits (m ++ s) = (m, s)
  | [], [], _, _ => rfl
  | [], c :: s, _, h => by
    have : isEsDecDigit c = false := by
      rw [Bool.eq_false_iff]; exact fun h' => h c rfl ((isEsDecDigit_iff c).1 h')
    simp [spanDigits, this]
  | d :: m, s, hm, h => by
    have ih := spanDigits_eq (m := m) (s := s) (fun c hc => hm c (by simp [hc])) h
    simp [spanDigits, decDigit_dec (hm d (by simp)), ih]

theorem digitsVal_eq {s : Str} (h : ∀ d ∈ s, d ∈ decDigits) : digitsVal 10 s = numeral 10 s := by
  unfold digitsVal numeral
  suffices ∀ acc, s.foldl (fun acc c => acc * 10 + (toDigit c 10).getD 0) acc =
      s.foldl (fun acc c => acc * 10 + digitVal c) acc from this 0
  induction s with
  | nil => intro acc; rfl
  | cons d s ih =>
    intro acc
    simp only [List.foldl_cons]
    rw [ih (fun c hc => h c (by simp [hc])), (toDigit_dec (h d (by simp))).1]
    rfl

/-- The text of an exponent as it is passed to `parse`. -/
def expText : Option Exp → Str
  | none => []
  | some ⟨_, sign, ds⟩ => 'e' :: (formatSign sign ++ ds)

theorem expText_head {e : Option Exp} {c : Char} (h : (expText e).head? = some c) :
    c = 'e' := by
  cases e with
  | none => simp [expText] at h
  | some e => simpa [expText] using h.symm

theorem allDec {ds : Str} (h : Digits decDigits ds) : ds ≠ [] ∧ ds.all isEsDecDigit = true :=
  ⟨h.1, by simpa using fun c hc => decDigit_dec (h.2 c hc)⟩

theorem parseExp_eq {e : Option Exp} (h : ExpOk e) : ∃ neg ds, parseExp (expText e) = some (neg, ds) ∧
    ∀ ip fp, decimalVal ip fp neg ds = scale10 (mkRat (digitsVal 10 (ip ++ fp)) (10 ^ fp.length)) e := by
  cases e with
  | none =>
    refine ⟨false, ['0'], rfl, fun ip fp => ?_⟩
    have : digitsVal 10 ['0'] = 0 := by decide +kernel
    simp [decimalVal, scale10, this]
  | some e =>
    obtain ⟨ec, sign, ds⟩ := e
    have hd := allDec h
    have hneq : ds.head? ≠ some '-' := by
      intro hh
      obtain ⟨x, t⟩ := ds
      · simp at hh
      · simp at hh
        subst hh
        exact absurd (h.2 '-' (by simp)) (by decide)
    have plus : parseExp ('e' :: ds) = some (false, ds) := by
      unfold parseExp
      split
      · rename_i heq; simp at heq
      · rename_i ds' heq
        simp only [List.cons.injEq, true_and] at heq
        rw [heq] at hneq
        simp at hneq
      · rename_i ds' heq1 heq
        simp only [List.cons.injEq, true_and] at heq
        subst heq
        rw [if_pos hd]
      · rename_i h1 h2 h3
        exact absurd rfl (h3 ds)
    match sign with
    | none =>
      refine ⟨false, ds, plus, fun ip fp => ?_⟩
      simp [decimalVal, scale10, digitsVal_eq h.2, Rat.natCast_pow]
    | some .plus =>
      refine ⟨false, ds, plus, fun ip fp => ?_⟩
      simp [decimalVal, scale10, digitsVal_eq h.2, Rat.natCast_pow]
    | some .minus =>
      refine ⟨true, ds, ?_, fun ip fp => ?_⟩
      · show parseExp ('e' :: '-' :: ds) = _
        exact if_pos hd
      · simp [decimalVal, scale10, digitsVal_eq h.2, Rat.natCast_pow]

theorem numeral_lt_append (ip fp : Str) :
    numeral 10 (ip ++ fp) = numeral 10 ip * 10 ^ fp.length + numeral 10 fp := by
  rw [numeral, List.foldl_append, ← numeral]
  generalize numeral 10 ip = a
  induction fp generalizing a with
  | nil => simp [numeral]
  | cons d fp ih =>
    rw [List.foldl_cons, ih, numeral_cons, List.length_cons, Nat.pow_succ', Nat.add_mul,
      Nat.mul_assoc, Nat.add_assoc]

theorem pow10_ne (n : Nat) : ((10 : Rat) ^ n) ≠ 0 := by
  have : (10 : Rat) ^ n = ((10 ^ n : Nat) : Rat) := by simp [Rat.natCast_pow]
  rw [this]
  have h : 0 < 10 ^ n := Nat.pos_of_ne_zero (by simp)
  intro h0
  have : (10 ^ n : Nat) = 0 := by exact_mod_cast h0
  omega

theorem mantissa_eq {ip fp : Str} (h1 : ∀ d ∈ ip, d ∈ decDigits) (h2 : ∀ d ∈ fp, d ∈ decDigits) :
    mkRat (digitsVal 10 (ip ++ fp)) (10 ^ fp.length) =
      (numeral 10 ip : Nat) + (numeral 10 fp : Nat) / (10 : Rat) ^ fp.length := by
  rw [digitsVal_eq (by simpa [or_imp, forall_and] using ⟨h1, h2⟩), numeral_lt_append,
    Rat.mkRat_eq_div]
  have := pow10_ne fp.length
  rw [Rat.natCast_pow]
  simp only [Int.natCast_add, Int.natCast_mul, Int.natCast_pow, Rat.intCast_add, Rat.intCast_mul,
    Rat.intCast_natCast, Rat.intCast_pow, Rat.div_def, Rat.add_mul]
  rw [Rat.mul_assoc]
  simp only [Rat.natCast_ofNat]
  rw [Rat.mul_inv_cancel _ this, Rat.mul_one]

/-- What `parse::<f64>` makes of `m` followed by an exponent. -/
theorem parseF64_int {m : Str} {e : Option Exp} (hm : Digits decDigits m) (he : ExpOk e) :
    parseF64 (m ++ expText e) = some (F64.ofRat (scale10 (numeral 10 m : Nat) e)) := by
  have h1 : spanDigits (m ++ expText e) = (m, expText e) :=
    spanDigits_eq hm.2 fun c hc => by rw [expText_head hc]; decide
  obtain ⟨neg, ds, h2, h3⟩ := parseExp_eq he
  unfold parseF64
  rw [h1]
  split
  · rename_i heq
    simp only [Prod.mk.injEq] at heq
    have := expText_head (e := e) (c := '.') (by rw [heq.2]; rfl)
    exact absurd this (by decide)
  · rename_i heq
    simp only [Prod.mk.injEq] at heq
    obtain ⟨rfl, rfl⟩ := heq
    rw [if_neg hm.1, h2]
    simp only [h3]
    have := mantissa_eq (fp := []) hm.2 (by simp)
    simp only [List.append_nil, List.length_nil] at this ⊢
    rw [this]
    simp [numeral, Rat.div_def, Rat.add_zero]

theorem parseF64_float {m f : Str} {e : Option Exp} (hm : ∀ d ∈ m, d ∈ decDigits)
    (hf : ∀ d ∈ f, d ∈ decDigits) (hne : ¬ (m = [] ∧ f = [])) (he : ExpOk e) :
    parseF64 (m ++ '.' :: (f ++ expText e)) =
      some (F64.ofRat (scale10 ((numeral 10 m : Nat) +
        (numeral 10 f : Nat) / (10 : Rat) ^ f.length) e)) := by
  have h1 : spanDigits (m ++ '.' :: (f ++ expText e)) = (m, '.' :: (f ++ expText e)) :=
    spanDigits_eq hm fun c hc => by simp at hc; rw [← hc]; decide
  have h1' : spanDigits (f ++ expText e) = (f, expText e) :=
    spanDigits_eq hf fun c hc => by rw [expText_head hc]; decide
  obtain ⟨neg, ds, h2, h3⟩ := parseExp_eq he
  unfold parseF64
  rw [h1]
  simp only [h1', if_neg hne, h2, h3, mantissa_eq hm hf]

theorem radixValue_isSome {radix : Nat} {alphabet : List Char}
    (ha : ∀ c ∈ alphabet, (toDigit c radix).isSome = true) :
    ∀ {s : Str} (acc : F64), (∀ d ∈ s, d ∈ alphabet) → ∃ v, radixValue radix acc s = some v
  | [], acc, _ => ⟨acc, rfl⟩
  | d :: s, acc, h => by
    obtain ⟨k, hk⟩ := Option.isSome_iff_exists.1 (ha d (h d (by simp)))
    obtain ⟨v, hv⟩ := radixValue_isSome ha (s := s)
      (F64.mulAdd acc (F64.ofNat radix) (F64.ofNat k)) (fun c hc => h c (by simp [hc]))
    exact ⟨v, by simp [radixValue, hk, hv]⟩

/-- Decimal literals denote the double nearest to their mathematical value. -/
theorem value_decimalInt {m : Str} {e : Option Exp} (hm : Digits decDigits m) (he : ExpOk e) :
    (NumberSource.decimalInt m e).value =
      some (F64.ofRat (mathValue (.decimalInt m e))) := by
  have := parseF64_int hm he
  cases e with
  | none => simpa [NumberSource.value, expText, mathValue] using this
  | some e => simpa [NumberSource.value, expText, mathValue] using this

theorem value_float {ip : Option Str} {f : Str} {e : Option Exp}
    (hm : ∀ d ∈ ip.getD [], d ∈ decDigits)
    (hf : ∀ d ∈ f, d ∈ decDigits) (hne : ¬ (ip.getD [] = [] ∧ f = [])) (he : ExpOk e) :
    (NumberSource.float ip (some f) e).value =
      some (F64.ofRat (mathValue (.float ip (some f) e))) := by
  have := parseF64_float hm hf hne he
  cases ip with
  | none =>
    cases e with
    | none => simpa [NumberSource.value, expText, mathValue, formatInt] using this
    | some e => simpa [NumberSource.value, expText, mathValue, formatInt] using this
  | some ip =>
    cases e with
    | none => simpa [NumberSource.value, expText, mathValue, formatInt] using this
    | some e => simpa [NumberSource.value, expText, mathValue, formatInt] using this

theorem value_radix {radix : Radix} {s : Str} {alphabet : List Char}
    (ha : ∀ c ∈ alphabet, (toDigit c radix.value).isSome = true) (hs : ∀ d ∈ s, d ∈ alphabet) :
    ∃ v, (NumberSource.radixInt radix s).value = some v :=
  radixValue_isSome ha _ hs

theorem legacyOctal_digits {s : Str} (h : LegacyOctal s) : Digits octDigits s := by
  obtain ⟨t, rfl, h⟩ := h
  refine ⟨by simp, fun d hd => ?_⟩
  rcases List.mem_cons.1 hd with rfl | hd
  · decide
  · exact h.2 d hd

theorem some_of_digit {alphabet : List Char} {radix : Nat}
    (h : ∀ {c : Char}, c ∈ alphabet → toDigit c radix = some (digitVal c) ∧ digitVal c < radix) :
    ∀ c ∈ alphabet, (toDigit c radix).isSome = true := fun c hc => by rw [(h hc).1]; rfl

/-- Every number literal has a value. -/
theorem Lex.NumberOk.value {src : NumberSource} {y : Str} (h : NumberOk src y) :
    ∃ v, src.value = some v := by
  cases h with
  | decimal h1 h2 h3 h4 => exact ⟨_, value_decimalInt h1 h3⟩
  | hex h1 => exact value_radix (some_of_digit toDigit_hex) h1.2
  | oct h1 => exact value_radix (some_of_digit toDigit_oct) h1.2
  | bin h1 => exact value_radix (some_of_digit toDigit_bin) h1.2
  | legacyOctal h1 => exact value_radix (some_of_digit toDigit_oct) (legacyOctal_digits h1).2
  | point h1 h2 => exact ⟨_, value_float (by simp) h1.2 (by simp [h1.1]) h2⟩
  | float h1 h2 h3 h4 => exact ⟨_, value_float h1.2 h3 (by simp [h1.1]) h4⟩

namespace L

/-! ### Soundness -/

theorem readDecimalDigits_spec {f : Str → L β} {r : Reader} {Q : β → Reader → Prop}
    {P : Panic → Prop}
    (h : ∀ x r', Adv r x r' → (∀ c ∈ x, c ∈ decDigits) →
      (∀ c, r'.rest.head? = some c → c ∉ decDigits) → Spec (f x) r' Q P) :
    Spec (readDecimalDigits >>= f) r Q P := by
  refine Spec.readIntoUntil fun x r' h1 h2 h3 => h x r' h1 ?_ ?_
  · intro c hc
    exact (isEsDecDigit_iff c).1 (by simpa using h2 c hc)
  · intro c hc hd
    have := h3 c hc
    simp [decDigit_dec hd] at this

/-- Source text of a sign. -/
def signText : Option Sign → Str
  | none => []
  | some .plus => ['+']
  | some .minus => ['-']

theorem readExpSign_spec {r : Reader} {P : Panic → Prop} :
    Spec readExpSign r (fun sg r' => Adv r (signText sg) r') P := by
  unfold readExpSign
  refine Spec.peek ?_
  refine Spec.ite (fun hs => Spec.skip hs fun r2 h2 => h2) (fun _ => ?_)
  exact Spec.ite (fun hs => Spec.skip hs fun r2 h2 => h2) (fun _ => Adv.refl _)

theorem spellExp_some (cc : CharCase) (sg : Option Sign) (ds : Str) :
    spellExp (some ⟨cc, sg, ds⟩) =
      (match cc with | .lowerCase => 'e' | .upperCase => 'E') :: (signText sg ++ ds) := by
  rcases sg with _ | _ | _ <;> rfl

theorem readExpPart_spec {r : Reader} {P : Panic → Prop} :
    Spec readExpPart r (fun e r' => Adv r (spellExp e) r' ∧ ExpOk e ∧
      (e = none → ∀ c, r'.rest.head? = some c → c ≠ 'e' ∧ c ≠ 'E') ∧
      (e ≠ none → ∀ c, r'.rest.head? = some c → c ∉ decDigits)) P := by
  unfold readExpPart
  refine Spec.peek ?_
  refine Spec.ite (fun he => ?_) (fun he => ?_)
  · obtain ⟨ch, hch, hcase⟩ : ∃ ch, r.peek 0 = some ch ∧ (ch = 'e' ∨ ch = 'E') := by
      rcases he with he | he <;> exact ⟨_, he, by simp⟩
    refine Spec.skip hch ?_
    intro r1 h1
    refine Spec.seq (readExpSign_spec (P := P)) (fun _ h => h) ?_
    intro sg r2 h2
    refine Spec.peek ?_
    cases hp : r2.peek 0 with
    | none => exact Spec.throw
    | some d =>
      refine Spec.ite (fun _ => Spec.throw) (fun hd => ?_)
      refine readDecimalDigits_spec fun x r3 h3 h4 h5 => ?_
      have hx : x ≠ [] := by
        rintro rfl
        have he := h3.rest
        simp only [List.nil_append] at he
        refine h5 d (by rw [← he, ← peek_head, hp]) ?_
        exact (isEsDecDigit_iff d).1 (by simpa using hd)
      refine Spec.pure ⟨?_, ⟨hx, h4⟩, (fun h => by cases h), fun _ => h5⟩
      have := (h1.trans h2).trans h3
      rw [hch]
      rw [spellExp_some]
      rcases hcase with rfl | rfl <;> simpa using this
  · refine Spec.pure ⟨Adv.refl r, trivial, fun _ c hc => ?_, fun h => absurd rfl h⟩
    rw [← peek_head] at hc
    rw [hc] at he
    simpa using he

theorem intoTokenData_spec {src : NumberSource} {v : F64} {f : TokenData → L β} {r : Reader}
    {Q : β → Reader → Prop} {P : Panic → Prop} (hv : src.value = some v)
    (h : Spec (f (.number ⟨some src, v⟩)) r Q P) : Spec (intoTokenData src >>= f) r Q P := by
  unfold intoTokenData
  rw [hv]
  exact h

/-- The token of a number. -/
def NumberTok (r : Reader) (t : Token) (r' : Reader) : Prop :=
  ∃ src v, Adv r (spellNumber src) r' ∧ NumberOk src r'.rest ∧
    src.value = some v ∧ t = Token.new r.posn r'.posn (.number ⟨some src, v⟩) ∧
    ∀ c, r'.rest.head? = some c → NumberStops src c

theorem readRadixInt_spec {radix : Nat} {pred : Char → Bool} {alphabet : List Char}
    {cons : CharCase → Str → NumberSource} {missing : LexError} {r : Reader} {c : Char}
    {P : Panic → Prop} (h0 : r.peek 0 = some '0') (h1 : r.peek 1 = some c)
    (hc : c.isAlpha = true) (hpred : ∀ d, pred d = true ↔ d ∈ alphabet)
    (halpha : ∀ d ∈ alphabet, (toDigit d radix).isSome = true)
    (hspell : ∀ s, spellNumber (cons (if c.isLower then .lowerCase else .upperCase) s) =
      '0' :: c :: s)
    (hok : ∀ cc s y, Digits alphabet s → NumberOk (cons cc s) y)
    (hstop : ∀ cc s c, c ∉ alphabet → NumberStops (cons cc s) c) :
    Spec (readRadixInt radix pred cons missing) r (NumberTok r) P := by
  unfold readRadixInt
  refine Spec.peek2 ?_
  rw [h0, h1]
  refine Spec.debugAssert (by simp) (Spec.debugAssert hc (Spec.posn (Spec.skip h0 ?_)))
  intro r1 a1
  have hr1 : r1.peek 0 = some c := by
    rcases r with ⟨_ | ⟨d, s⟩, p⟩
    · simp [Reader.peek] at h0
    · simp at h1
      have := a1.rest
      simp only [List.cons_append, List.nil_append, List.cons.injEq] at this
      rw [peek_head, ← this.2, h1]
  refine Spec.read ?_ ?_
  · intro c' r2 a2
    have hcc : c' = c := by
      rw [peek_head, a2.rest] at hr1
      simpa using hr1
    subst hcc
    refine Spec.seq (readDigitInto_spec (P := P) fun d hd => halpha d ((hpred d).1 hd))
      (fun _ h => h) ?_
    rintro ⟨d, k⟩ r3 ⟨b1, b2, b3⟩
    simp only at b1 b2 b3
    refine Spec.readIntoUntil ?_
    intro s r4 c1 c2 c3
    have hds : Digits alphabet (d :: s) := by
      refine ⟨by simp, fun e he => ?_⟩
      rcases List.mem_cons.1 he with rfl | he
      · exact (hpred _).1 b2
      · exact (hpred e).1 (by simpa using c2 e he)
    obtain ⟨v, hv⟩ := (hok (if c'.isLower then .lowerCase else .upperCase) _ r4.rest hds).value
    refine intoTokenData_spec hv ?_
    refine Spec.posn (Spec.pure ⟨_, v, ?_, hok _ _ _ hds, hv, rfl, fun e he => hstop _ _ _ ?_⟩)
    · rw [hspell]
      exact a1.trans (a2.trans (b1.trans c1))
    · intro hm
      have := c3 e he
      rw [(hpred e).2 hm] at this
      cases this
  · intro h
    rw [peek_head, h] at hr1
    cases hr1

theorem readFraction_spec {r : Reader} {P : Panic → Prop} :
    Spec readFraction r (fun f r' =>
      match f with
      | some f => Adv r ('.' :: f) r' ∧ (∀ d ∈ f, d ∈ decDigits) ∧
          ∀ c, r'.rest.head? = some c → c ∉ decDigits
      | none => Adv r [] r' ∧ r'.rest.head? ≠ some '.') P := by
  unfold readFraction
  refine Spec.matches (fun _ r1 h1 => ?_) (fun h => ?_)
  · simp only [if_true]
    refine Spec.peek ?_
    cases hp : r1.peek 0 with
    | none => exact Spec.pure ⟨h1, by simp, by simp [peek_none hp]⟩
    | some ch =>
      refine Spec.ite (fun hd => ?_) (fun hd => Spec.pure ⟨h1, by simp, ?_⟩)
      · refine readDecimalDigits_spec fun x r2 h2 h3 h4 => Spec.pure ⟨h1.cons h2, h3, h4⟩
      · intro c hc hm
        rw [← peek_head, hp] at hc
        simp only [Option.some.injEq] at hc
        subst hc
        exact hd (decDigit_dec hm)
  · simp only [Bool.false_eq_true, if_false]
    exact Spec.pure ⟨Adv.refl r, by rw [← peek_head]; exact h⟩

theorem readDotNumber_spec {r : Reader} {d : Char} {P : Panic → Prop} (h0 : r.peek 0 = some '.')
    (h1 : r.peek 1 = some d) (hd : d ∈ decDigits) :
    Spec readDotNumber r (NumberTok r) P := by
  unfold readDotNumber
  refine Spec.posn (Spec.skip h0 ?_)
  intro r1 a1
  refine readDecimalDigits_spec fun x r2 b1 b2 b3 => ?_
  refine Spec.seq (readExpPart_spec (P := P)) (fun _ h => h) ?_
  rintro e r3 ⟨c1, c2, c3, c4⟩
  have hr1 : r1.peek 0 = some d := by
    rcases r with ⟨_ | ⟨d, s⟩, p⟩
    · simp [Reader.peek] at h0
    · simp at h1
      have := a1.rest
      simp only [List.cons_append, List.nil_append, List.cons.injEq] at this
      rw [peek_head, ← this.2, h1]
  have hx : x ≠ [] := by
    rintro rfl
    have he := b1.rest
    simp only [List.nil_append] at he
    exact b3 d (by rw [← he, ← peek_head, hr1]) hd
  have hok : NumberOk (.float none (some x) e) r3.rest := .point ⟨hx, b2⟩ c2
  obtain ⟨v, hv⟩ := hok.value
  refine intoTokenData_spec hv (Spec.posn (Spec.pure ⟨_, v, ?_, hok, hv, rfl, ?_⟩))
  · simpa [spellNumber] using a1.trans (b1.trans c1)
  · intro c hc
    cases e with
    | some e => exact c4 (by simp) c hc
    | none =>
      have : r3 = r2 := c1.unique (Adv.refl r2)
      exact ⟨b3 c (this ▸ hc), c3 rfl c hc⟩

theorem legacy_iff {m : Str} {ch : Char} (hm : m.head? = some ch) :
    (ch = '0' ∧ 1 < m.length ∧ (m.drop 1).all isEsOctDigit = true) ↔ LegacyOctal m := by
  cases m with
  | nil => simp at hm
  | cons d t =>
    simp only [List.head?_cons, Option.some.injEq] at hm
    subst hm
    constructor
    · rintro ⟨rfl, h2, h3⟩
      refine ⟨t, rfl, ?_, ?_⟩
      · rintro rfl; simp at h2
      · intro c hc
        simp only [List.drop_succ_cons, List.drop_zero, List.all_eq_true] at h3
        exact (isEsOctDigit_iff c).1 (h3 c hc)
    · rintro ⟨t', h, h2, h3⟩
      simp only [List.cons.injEq] at h
      obtain ⟨rfl, rfl⟩ := h
      refine ⟨rfl, ?_, ?_⟩
      · simp; exact List.length_pos_iff.2 h2
      · simp only [List.drop_succ_cons, List.drop_zero, List.all_eq_true]
        exact fun c hc => (isEsOctDigit_iff c).2 (h3 c hc)

theorem peek_one (r : Reader) : r.peek 1 = r.rest.tail.head? := by
  rcases r with ⟨_ | ⟨c, _ | ⟨d, s⟩⟩, p⟩ <;> rfl

theorem readDecNumber_spec {r : Reader} {ch : Char} {P : Panic → Prop} (h0 : r.peek 0 = some ch)
    (hd : ch ∈ decDigits) (hpre : ch = '0' → ∀ c, r.peek 1 = some c → c ∉ (c!"xXoObB" : Str)) :
    Spec (readDecNumber ch) r (NumberTok r) P := by
  unfold readDecNumber
  refine Spec.debugAssert (decDigit_dec hd) (Spec.posn ?_)
  refine readDecimalDigits_spec fun m r1 a1 a2 a3 => ?_
  have hm : m.head? = some ch := by
    have := a1.rest
    cases m with
    | nil =>
      simp only [List.nil_append] at this
      exact absurd hd (a3 ch (by rw [← this, ← peek_head, h0]))
    | cons d m =>
      rw [peek_head, this] at h0
      simpa using h0
  have hne : m ≠ [] := by rintro rfl; simp at hm
  -- the literal
  refine Spec.seq (Q := fun src r' => Adv r (spellNumber src) r' ∧ NumberOk src r'.rest ∧
      ∀ c, r'.rest.head? = some c → NumberStops src c)
    (P := P) ?_ (fun _ h => h) ?_
  · refine Spec.ite (fun hl => ?_) (fun hl => ?_)
    · exact Spec.pure ⟨by simpa [spellNumber] using a1, .legacyOctal ((legacy_iff hm).1 hl), a3⟩
    · have hl' : ¬ LegacyOctal m := fun h => hl ((legacy_iff hm).2 h)
      refine Spec.seq (readFraction_spec (P := P)) (fun _ h => h) ?_
      intro f r2 b
      refine Spec.seq (readExpPart_spec (P := P)) (fun _ h => h) ?_
      rintro e r3 ⟨c1, c2, c3, c4⟩
      cases f with
      | some f =>
        refine Spec.pure ⟨?_, .float ⟨hne, a2⟩ hl' b.2.1 c2, ?_⟩
        · simpa [spellNumber] using a1.trans (b.1.trans c1)
        · intro c hc
          cases e with
          | some e => exact c4 (by simp) c hc
          | none =>
            have : r3 = r2 := c1.unique (Adv.refl r2)
            exact ⟨b.2.2 c (this ▸ hc), c3 rfl c hc⟩
      | none =>
        have hr2 : r2 = r1 := b.1.unique (Adv.refl r1)
        refine Spec.pure ⟨?_, .decimal ⟨hne, a2⟩ hl' c2 ?_, ?_⟩
        · simpa [spellNumber] using a1.trans (b.1.trans c1)
        · rintro rfl
          have : r3 = r2 := c1.unique (Adv.refl r2)
          rw [this]
          exact b.2
        · intro c hc
          cases e with
          | some e => exact c4 (by simp) c hc
          | none =>
            have : r3 = r1 := (c1.unique (Adv.refl r2)).trans hr2
            refine ⟨a3 c (this ▸ hc), (c3 rfl c hc).1, (c3 rfl c hc).2, ?_⟩
            rintro rfl
            simp only [List.head?_cons, Option.some.injEq] at hm
            refine hpre hm.symm c ?_
            rw [peek_one, a1.rest]
            rw [this] at hc
            exact hc
  · rintro src r2 ⟨b1, b2, b3⟩
    obtain ⟨v, hv⟩ := b2.value
    exact intoTokenData_spec hv (Spec.posn (Spec.pure ⟨_, v, b1, b2, hv, rfl, b3⟩))

variable [Env]

/-- What `readNumber` expects: a digit, or a dot and a digit. -/
def NumberStart (s : Str) : Prop :=
  (∃ d, s.head? = some d ∧ d ∈ decDigits) ∨
    (s.head? = some '.' ∧ ∃ d, s.tail.head? = some d ∧ d ∈ decDigits)

omit [Env] in
theorem readNumberOf_spec {r : Reader} {P : Panic → Prop} (hs : NumberStart r.rest) :
    Spec (readNumberOf (r.peek 0, r.peek 1)) r (NumberTok r) P := by
  · unfold readNumberOf
    split
    all_goals (try
      (rename_i heq
       simp only [Prod.mk.injEq] at heq
       exact readRadixInt_spec heq.1 heq.2 (by decide) isEsHexDigit_iff
        (some_of_digit toDigit_hex) (fun s => rfl) (fun cc s y h => .hex h) (fun _ _ _ h => h)))
    all_goals (try
      (rename_i heq
       simp only [Prod.mk.injEq] at heq
       exact readRadixInt_spec heq.1 heq.2 (by decide) isEsOctDigit_iff
        (some_of_digit toDigit_oct) (fun s => rfl) (fun cc s y h => .oct h) (fun _ _ _ h => h)))
    all_goals (try
      (rename_i heq
       simp only [Prod.mk.injEq] at heq
       exact readRadixInt_spec heq.1 heq.2 (by decide) isEsBinDigit_iff
        (some_of_digit toDigit_bin) (fun s => rfl) (fun cc s y h => .bin h) (fun _ _ _ h => h)))
    · rename_i heq
      simp only [Prod.mk.injEq] at heq
      rcases hs with ⟨d, h1, h2⟩ | ⟨h1, d, h2, h3⟩
      · rw [← peek_head, heq.1] at h1
        simp only [Option.some.injEq] at h1
        subst h1
        exact absurd h2 (by decide)
      · exact readDotNumber_spec heq.1 (by rw [peek_one]; exact h2) h3
    · rename_i ch _ h1 h2 h3 h4 h5 h6 hnd heq
      simp only [Prod.mk.injEq] at heq
      refine readDecNumber_spec heq.1 ?_ ?_
      rotate_left
      · rintro rfl c hc hm
        rw [heq.2] at hc
        have : c = 'x' ∨ c = 'X' ∨ c = 'o' ∨ c = 'O' ∨ c = 'b' ∨ c = 'B' := by simpa using hm
        rcases this with rfl | rfl | rfl | rfl | rfl | rfl
        all_goals (first
          | exact h1 hc rfl
          | exact h2 hc rfl
          | exact h3 hc rfl
          | exact h4 hc rfl
          | exact h5 hc rfl
          | exact h6 hc rfl)
      rcases hs with ⟨d, h1, h2⟩ | ⟨h1, d, h2, h3⟩
      · rw [← peek_head, heq.1] at h1
        simp only [Option.some.injEq] at h1
        subst h1
        exact h2
      · rw [← peek_head, heq.1] at h1
        simp only [Option.some.injEq] at h1
        exact absurd h1 (by assumption)
    · rename_i heq
      simp only [Prod.mk.injEq] at heq
      rcases hs with ⟨d, h1, h2⟩ | ⟨h1, d, h2, h3⟩
      · rw [← peek_head, heq.1] at h1; cases h1
      · rw [← peek_head, heq.1] at h1; cases h1

theorem readNumber_spec {r : Reader} {P : Panic → Prop} (hs : NumberStart r.rest) :
    Spec readNumber r (fun t r' => NumberTok r t r' ∧ NumberEnd r'.rest) P := by
  unfold readNumber
  refine Spec.peek2 ?_
  refine Spec.seq (readNumberOf_spec (P := P) hs) (fun _ h => h) ?_
  · intro t r1 ht
    refine Spec.peek ?_
    cases hp : r1.peek 0 with
    | none =>
      refine Spec.pure ⟨ht, fun c hc => ?_⟩
      rw [← peek_head, hp] at hc
      cases hc
    | some ch =>
      refine Spec.ite (fun _ => Spec.throw) (fun h1 => ?_)
      refine Spec.ite (fun _ => Spec.throw) (fun h2 => ?_)
      refine Spec.pure ⟨ht, fun c hc => ?_⟩
      rw [← peek_head, hp] at hc
      simp only [Option.some.injEq] at hc
      subst hc
      exact ⟨fun h => h1 ((isEsIdentifierStart_iff ch).2 h), fun h => h2 (decDigit_dec h)⟩

/-! ### Completeness -/

omit [Env] in
theorem readDecimalDigits_eval {r : Reader} {x y : Str} (hr : r.rest = x ++ y)
    (hx : ∀ c ∈ x, c ∈ decDigits) (hy : ∀ c, y.head? = some c → c ∉ decDigits) :
    ∃ r', r'.rest = y ∧ Runs readDecimalDigits r x x r' := by
  refine Runs.readIntoUntil hr (fun c hc => by simp [decDigit_dec (hx c hc)]) (fun c hc => ?_)
  have : isEsDecDigit c = false := by
    rw [Bool.eq_false_iff]; exact fun h => hy c hc ((isEsDecDigit_iff c).1 h)
  simp [this]

omit [Env] in
theorem readExpPart_eval {r : Reader} {e : Option Exp} {y : Str} (hr : r.rest = spellExp e ++ y)
    (he : ExpOk e) (hy : ∀ c, y.head? = some c → c ∉ decDigits)
    (hn : e = none → ∀ c, y.head? = some c → c ≠ 'e' ∧ c ≠ 'E') :
    ∃ r', r'.rest = y ∧ Runs readExpPart r (spellExp e) e r' := by
  cases e with
  | none =>
    refine ⟨r, by simpa [spellExp] using hr, ?_⟩
    unfold readExpPart
    refine Runs.peek (o := y.head?) (by rw [hr]; rfl) ?_
    rw [if_neg]
    · exact Runs.pure _ _
    · rintro (h | h)
      · exact (hn rfl _ h).1 rfl
      · exact (hn rfl _ h).2 rfl
  | some e =>
    obtain ⟨cc, sg, ds⟩ := e
    have hds : Digits decDigits ds := he
    obtain ⟨d, t, rfl⟩ : ∃ d t, ds = d :: t := by
      cases ds with
      | nil => exact absurd rfl hds.1
      | cons d t => exact ⟨d, t, rfl⟩
    have hd := hds.2 d (by simp)
    have hd' : d ≠ '+' ∧ d ≠ '-' := by
      constructor <;> (rintro rfl; exact absurd hd (by decide))
    rw [spellExp_some] at hr ⊢
    generalize hch : (match cc with | .lowerCase => 'e' | .upperCase => 'E') = ch at hr ⊢
    have hch : ch = 'e' ∧ cc = .lowerCase ∨ ch = 'E' ∧ cc = .upperCase := by
      cases cc
      · exact .inl ⟨hch.symm, rfl⟩
      · exact .inr ⟨hch.symm, rfl⟩
    obtain ⟨r1, a1, a2⟩ := Runs.cons (by simpa using hr)
    -- the sign
    have hsign : ∃ r2, r2.rest = d :: t ++ y ∧ Runs readExpSign r1 (signText sg) sg r2 := by
      clear hr hch a1
      match sg with
      | none =>
        refine ⟨r1, a2, ?_⟩
        unfold readExpSign
        refine Runs.peek (o := some d) (by rw [a2]; rfl) ?_
        simp only [Option.some.injEq, hd'.1, hd'.2, if_false]
        exact Runs.pure _ _
      | some .plus =>
        obtain ⟨r2, b1, b2⟩ := Runs.cons a2
        refine ⟨r2, b2, ?_⟩
        unfold readExpSign
        refine Runs.peek (o := some '+') (by rw [a2]; rfl) ?_
        rw [if_pos rfl]
        exact (Runs.skip b1).map rfl
      | some .minus =>
        obtain ⟨r2, b1, b2⟩ := Runs.cons a2
        refine ⟨r2, b2, ?_⟩
        unfold readExpSign
        refine Runs.peek (o := some '-') (by rw [a2]; rfl) ?_
        rw [if_neg (by decide), if_pos rfl]
        exact (Runs.skip b1).map rfl
    obtain ⟨r2, b1, b2⟩ := hsign
    obtain ⟨r3, c1, c2⟩ := readDecimalDigits_eval b1 hds.2 hy
    refine ⟨r3, c1, ?_⟩
    unfold readExpPart
    refine Runs.peek (o := some ch) (by rw [hr]; rfl) ?_
    rw [if_pos (by rcases hch with ⟨rfl, _⟩ | ⟨rfl, _⟩ <;> simp)]
    refine (Runs.skip a1).bind (x2 := _ ++ (d :: t)) ?_
    refine b2.bind ?_
    refine Runs.peek (o := some d) (by rw [b1]; rfl) ?_
    simp only [decDigit_dec hd, Bool.not_true, Bool.false_eq_true, if_false]
    refine c2.map ?_
    rcases hch with ⟨rfl, rfl⟩ | ⟨rfl, rfl⟩ <;> rfl

omit [Env] in
theorem readRadixInt_eval {radix : Nat} {pred : Char → Bool} {alphabet : List Char}
    {cons : CharCase → Str → NumberSource} {missing : LexError} {r : Reader} {c : Char}
    {s y : Str} {v : F64} (hr : r.rest = '0' :: c :: s ++ y)
    (hc : c.isAlpha = true) (hpred : ∀ d, pred d = true ↔ d ∈ alphabet)
    (halpha : ∀ d ∈ alphabet, (toDigit d radix).isSome = true)
    (hs : Digits alphabet s) (hy : ∀ c, y.head? = some c → c ∉ alphabet)
    (hv : (cons (if c.isLower then .lowerCase else .upperCase) s).value = some v) :
    ∃ r', r'.rest = y ∧ Runs (readRadixInt radix pred cons missing) r ('0' :: c :: s)
      (Token.new r.posn r'.posn
        (.number ⟨some (cons (if c.isLower then .lowerCase else .upperCase) s), v⟩)) r' := by
  obtain ⟨d, t, rfl⟩ : ∃ d t, s = d :: t := by
    cases s with
    | nil => exact absurd rfl hs.1
    | cons d t => exact ⟨d, t, rfl⟩
  obtain ⟨r1, a1, a2⟩ := Runs.cons (by simpa using hr)
  obtain ⟨r2, b1, b2⟩ := Runs.cons a2
  obtain ⟨k, hk⟩ := Option.isSome_iff_exists.1 (halpha d (hs.2 d (by simp)))
  obtain ⟨r3, c1, c2⟩ := Runs.of_eval (x := [d]) (y := t ++ y) b2
    (fun p => readDigitInto_eval (p := p) (missing := missing)
      ((hpred d).2 (hs.2 d (by simp))) hk)
  obtain ⟨r4, d1, d2⟩ := Runs.readIntoUntil (q := fun ch => !pred ch) c1
    (fun e he => by simp [(hpred e).2 (hs.2 e (by simp [he]))])
    (fun e he => by
      have : pred e = false := by
        rw [Bool.eq_false_iff]; exact fun h => hy e he ((hpred e).1 h)
      simp [this])
  refine ⟨r4, d1, ?_⟩
  have h0 : r.peek 0 = some '0' := by rw [peek_head, hr]; rfl
  have h1 : r.peek 1 = some c := by rw [peek_one, hr]; rfl
  unfold readRadixInt
  unfold Runs
  rw [peek2_bind, h0, h1]
  show Runs _ r ([] ++ ([] ++ ('0' :: ([c] ++ ([d] ++ t))))) _ r4
  refine (Runs.debugAssert (by simp)).bind ((Runs.debugAssert hc).bind ?_)
  refine Runs.posn ?_
  refine (Runs.skip a1).bind (x2 := [c] ++ ([d] ++ t)) ?_
  refine (Runs.read b1).bind (c2.bind (d2.map ?_))
  unfold intoTokenData
  rw [hv]
  rfl

omit [Env] in
theorem readFraction_some {r : Reader} {f y : Str} (hr : r.rest = '.' :: f ++ y)
    (hf : ∀ d ∈ f, d ∈ decDigits) (hy : ∀ c, y.head? = some c → c ∉ decDigits) :
    ∃ r', r'.rest = y ∧ Runs readFraction r ('.' :: f) (some f) r' := by
  obtain ⟨r1, a1, a2⟩ := Runs.cons (by simpa using hr)
  obtain ⟨r2, b1, b2⟩ := readDecimalDigits_eval a2 hf hy
  refine ⟨r2, b1, ?_⟩
  unfold readFraction
  refine (Runs.matches_true a1).bind (x2 := f) ?_
  simp only [if_true]
  refine Runs.peek rfl ?_
  cases f with
  | nil =>
    have hr21 : r2 = r1 := b2.2.unique (Adv.refl r1)
    subst hr21
    cases hh : r2.rest.head? with
    | none => exact Runs.pure _ _
    | some c =>
      have : isEsDecDigit c = false := by
        rw [Bool.eq_false_iff]
        exact fun h => hy c (by rw [← b1, hh]) ((isEsDecDigit_iff c).1 h)
      simp only [this, Bool.false_eq_true, if_false]
      exact Runs.pure _ _
  | cons d f =>
    rw [a2]
    simp only [List.cons_append, List.head?_cons, decDigit_dec (hf d (by simp)), if_true]
    exact b2.map rfl

omit [Env] in
theorem readFraction_none {r : Reader} (hr : r.rest.head? ≠ some '.') :
    Runs readFraction r [] none r := by
  unfold readFraction
  refine (Runs.matches_false hr).bind (x2 := []) ?_
  simp only [Bool.false_eq_true, if_false]
  exact Runs.pure _ _

omit [Env] in
theorem spellExp_head {e : Option Exp} {y : Str} {c : Char} (h : (spellExp e ++ y).head? = some c) :
    c = 'e' ∨ c = 'E' ∨ (e = none ∧ y.head? = some c) := by
  cases e with
  | none => exact .inr (.inr ⟨rfl, by simpa [spellExp] using h⟩)
  | some e =>
    obtain ⟨cc, sg, ds⟩ := e
    cases cc
    · left; simpa [spellExp] using h.symm
    · right; left; simpa [spellExp] using h.symm

omit [Env] in
theorem readDecNumber_eval {r : Reader} {src : NumberSource} {m y : Str} {ch : Char} {v : F64}
    (hsrc : (∃ e, src = .decimalInt m e) ∨ src = .radixInt (.oct none) m ∨
      ∃ f e, src = .float (some m) (some f) e)
    (hm : Digits decDigits m) (hch : m.head? = some ch) (hok : NumberOk src y)
    (hend : ∀ c, y.head? = some c → NumberStops src c)
    (hr : r.rest = spellNumber src ++ y) (hv : src.value = some v) :
    ∃ r', r'.rest = y ∧ Runs (readDecNumber ch) r (spellNumber src)
      (Token.new r.posn r'.posn (.number ⟨some src, v⟩)) r' := by
  have hend' : ∀ c, y.head? = some c → c ∉ decDigits := by
    intro c hc
    have := hend c hc
    rcases hsrc with ⟨_ | e, rfl⟩ | rfl | ⟨f, _ | e, rfl⟩
    · exact this.1
    · exact this
    · exact this
    · exact this.1
    · exact this
  have hdot : ∀ {c : Char} {z : Str}, ('.' :: z : Str).head? = some c → c ∉ decDigits := by
    intro c z h
    simp at h
    rw [← h]
    decide
  have hexp : ∀ {e : Option Exp} {c : Char}, (spellExp e ++ y).head? = some c → c ∉ decDigits := by
    intro e c h
    rcases spellExp_head h with rfl | rfl | ⟨_, h⟩
    · decide
    · decide
    · exact hend' c h
  have hd : ch ∈ decDigits := hm.2 ch (List.mem_of_mem_head? hch)
  have fin : ∀ {r1 r2 : Reader} {x1 x2 : Str}, Runs readDecimalInt r x1 m r1 →
      Runs (if ch = '0' ∧ 1 < m.length ∧ (m.drop 1).all isEsOctDigit then
          Pure.pure (NumberSource.radixInt (.oct none) m)
        else do
          let frac ← readFraction
          let exp ← readExpPart
          match frac with
          | some f => Pure.pure (NumberSource.float (some m) (some f) exp)
          | none => Pure.pure (NumberSource.decimalInt m exp)) r1 x2 src r2 →
      Runs (readDecNumber ch) r (x1 ++ x2)
        (Token.new r.posn r2.posn (.number ⟨some src, v⟩)) r2 := by
    intro r1 r2 x1 x2 h1 h2
    unfold readDecNumber
    refine (Runs.debugAssert (decDigit_dec hd)).bind (x2 := x1 ++ x2) ?_
    refine Runs.posn ?_
    refine h1.bind (h2.map ?_)
    unfold intoTokenData
    rw [hv]
    rfl
  have notLegacy : ¬ LegacyOctal m → ∀ {r1 r2 : Reader} {x : Str} {frac : Option Str}
      {e : Option Exp}, (∃ r1' x1 x2, x = x1 ++ x2 ∧ Runs readFraction r1 x1 frac r1' ∧
        Runs readExpPart r1' x2 e r2) →
      src = (match frac with | some f => .float (some m) (some f) e | none => .decimalInt m e) →
      Runs (if ch = '0' ∧ 1 < m.length ∧ (m.drop 1).all isEsOctDigit then
          Pure.pure (NumberSource.radixInt (.oct none) m)
        else do
          let frac ← readFraction
          let exp ← readExpPart
          match frac with
          | some f => Pure.pure (NumberSource.float (some m) (some f) exp)
          | none => Pure.pure (NumberSource.decimalInt m exp)) r1 x src r2 := by
    rintro hl r1 r2 x frac e ⟨r1', x1, x2, rfl, h1, h2⟩ rfl
    rw [if_neg (fun h => hl ((legacy_iff hch).1 h))]
    refine h1.bind (h2.map ?_)
    cases frac <;> rfl
  rcases hsrc with ⟨e, rfl⟩ | rfl | ⟨f, e, rfl⟩
  · cases hok with
    | decimal h1 h2 h3 h4 =>
      simp only [spellNumber, List.append_assoc] at hr ⊢
      obtain ⟨r1, a1, a2⟩ := readDecimalDigits_eval hr h1.2 (fun c hc => hexp hc)
      obtain ⟨r2, b1, b2⟩ := readExpPart_eval a1 h3 hend' (by
        rintro rfl c hc
        exact ⟨(hend c hc).2.1, (hend c hc).2.2.1⟩)
      refine ⟨r2, b1, fin a2 ?_⟩
      refine notLegacy h2 (frac := none) ⟨r1, [], _, rfl, readFraction_none ?_, b2⟩ rfl
      rw [a1]
      intro h
      rcases spellExp_head h with h | h | ⟨h, h'⟩
      · exact absurd h (by decide)
      · exact absurd h (by decide)
      · exact h4 h h'
  · cases hok with
    | legacyOctal h1 =>
      simp only [spellNumber] at hr ⊢
      obtain ⟨r1, a1, a2⟩ := readDecimalDigits_eval hr hm.2 hend'
      refine ⟨r1, a1, ?_⟩
      have := fin (x2 := []) (r2 := r1) a2 ?_
      · simpa using this
      · rw [if_pos ((legacy_iff hch).2 h1)]
        exact Runs.pure _ _
  · cases hok with
    | float h1 h2 h3 h4 =>
      simp only [spellNumber, List.append_assoc] at hr ⊢
      obtain ⟨r1, a1, a2⟩ := readDecimalDigits_eval hr h1.2 (fun c hc => hdot hc)
      obtain ⟨r2, b1, b2⟩ := readFraction_some (f := f) (y := spellExp e ++ y) (by simpa using a1) h3 (fun c hc => hexp hc)
      obtain ⟨r3, c1, c2⟩ := readExpPart_eval b1 h4 hend' (by
        rintro rfl c hc
        exact (hend c hc).2)
      refine ⟨r3, c1, fin a2 ?_⟩
      exact notLegacy h2 (frac := some f) ⟨r2, _, _, by simp, b2, c2⟩ rfl

omit [Env] in
/-- Which routine reads a number. -/
theorem dispatch_dec {ch : Char} {o : Option Char} (hd : ch ∈ decDigits)
    (ho : ch = '0' → ∀ c, o = some c → c ∉ (c!"xXoObB" : Str)) :
    readNumberOf (some ch, o) = readDecNumber ch := by
  unfold readNumberOf
  split
  all_goals
    first
    | (rename_i heq
       simp only [Prod.mk.injEq, Option.some.injEq] at heq
       exact absurd (ho heq.1 _ heq.2) (by decide))
    | skip
  · rename_i heq
    simp only [Prod.mk.injEq, Option.some.injEq] at heq
    rw [heq.1] at hd
    exact absurd hd (by decide)
  · rename_i heq
    simp only [Prod.mk.injEq, Option.some.injEq] at heq
    rw [heq.1]
  · rename_i heq
    simp at heq

omit [Env] in
theorem readNumberOf_eval {r : Reader} {src : NumberSource} {y : Str} {v : F64}
    (hok : NumberOk src y) (hend : ∀ c, y.head? = some c → NumberStops src c)
    (hr : r.rest = spellNumber src ++ y) (hv : src.value = some v) :
    ∃ r', r'.rest = y ∧ Runs (readNumberOf (r.peek 0, r.peek 1)) r (spellNumber src)
      (Token.new r.posn r'.posn (.number ⟨some src, v⟩)) r' := by
  have fin : ∀ {m : L Token} {o1 o2 : Option Char} {t : Token} {r1 : Reader},
      readNumberOf (o1, o2) = m →
      r.peek 0 = o1 → r.peek 1 = o2 → r1.rest = y → Runs m r (spellNumber src) t r1 →
      Runs (readNumberOf (r.peek 0, r.peek 1)) r (spellNumber src) t r1 := by
    intro m o1 o2 t r1 h1 h2 h3 h4 h5
    rw [h2, h3, h1]
    exact h5
  have dec : ∀ {m : Str}, ((∃ e, src = .decimalInt m e) ∨ src = .radixInt (.oct none) m ∨
      ∃ f e, src = .float (some m) (some f) e) → Digits decDigits m →
      ∃ r', r'.rest = y ∧ Runs (readNumberOf (r.peek 0, r.peek 1)) r (spellNumber src)
        (Token.new r.posn r'.posn (.number ⟨some src, v⟩)) r' := by
    intro m hsrc hm
    obtain ⟨ch, t, rfl⟩ : ∃ d t, m = d :: t := by
      cases m with
      | nil => exact absurd rfl hm.1
      | cons d t => exact ⟨d, t, rfl⟩
    obtain ⟨r1, a1, a2⟩ := readDecNumber_eval hsrc hm rfl hok hend hr hv
    refine ⟨r1, a1, ?_⟩
    have hd := hm.2 ch (by simp)
    -- the text after the integer part
    obtain ⟨z, hz, hz'⟩ : ∃ z, spellNumber src ++ y = ch :: t ++ z ∧
        (ch = '0' → t = [] → ∀ c, z.head? = some c → c ∉ (c!"xXoObB" : Str)) := by
      rcases hsrc with ⟨e, rfl⟩ | rfl | ⟨f, e, rfl⟩
      · refine ⟨spellExp e ++ y, by simp [spellNumber], ?_⟩
        rintro rfl rfl c hc
        rcases spellExp_head hc with rfl | rfl | ⟨rfl, h⟩
        · decide
        · decide
        · exact (hend c h).2.2.2 rfl
      · refine ⟨y, by simp [spellNumber], ?_⟩
        rintro rfl rfl
        cases hok with
        | legacyOctal h =>
          obtain ⟨t, h1, h2, _⟩ := h
          simp at h1
          exact absurd h1.symm (by simpa using h2)
      · refine ⟨'.' :: (f ++ (spellExp e ++ y)), by simp [spellNumber], fun _ _ c hc => ?_⟩
        simp at hc
        rw [← hc]
        decide
    have h1 : r.peek 0 = some ch := by rw [peek_head, hr, hz]; rfl
    refine fin (o2 := r.peek 1) (dispatch_dec hd ?_) h1 rfl a1 a2
    intro h0 c hc
    rw [peek_one, hr, hz] at hc
    simp only [List.cons_append, List.tail_cons] at hc
    cases t with
    | nil => exact hz' h0 rfl c (by simpa using hc)
    | cons d' t =>
      simp at hc
      subst hc
      have := hm.2 d' (by simp)
      have key : ∀ d ∈ decDigits, d ∉ (c!"xXoObB" : Str) := by decide +kernel
      exact key d' this
  cases hok with
  | decimal h1 h2 h3 h4 => exact dec (.inl ⟨_, rfl⟩) h1
  | legacyOctal h1 =>
    refine dec (.inr (.inl rfl)) ?_
    have := legacyOctal_digits h1
    exact ⟨this.1, fun d hd => oct_sub_dec (this.2 d hd)⟩
  | float h1 h2 h3 h4 => exact dec (.inr (.inr ⟨_, _, rfl⟩)) h1
  | @hex cc s y h1 =>
    have hy : ∀ c, y.head? = some c → c ∉ hexDigits := hend
    cases cc with
    | lowerCase =>
      obtain ⟨r1, a1, a2⟩ := readRadixInt_eval (c := 'x') (missing := .missingHexDigits) hr
        (by decide) isEsHexDigit_iff (some_of_digit toDigit_hex) h1 hy
        (cons := fun cc s => .radixInt (.hex cc) s) hv
      exact ⟨r1, a1, fin (m := readHexInt) (o1 := some '0') (o2 := some 'x') rfl
        (by rw [peek_head, hr]; rfl) (by rw [peek_one, hr]; rfl) a1 a2⟩
    | upperCase =>
      obtain ⟨r1, a1, a2⟩ := readRadixInt_eval (c := 'X') (missing := .missingHexDigits) hr
        (by decide) isEsHexDigit_iff (some_of_digit toDigit_hex) h1 hy
        (cons := fun cc s => .radixInt (.hex cc) s) hv
      exact ⟨r1, a1, fin (m := readHexInt) (o1 := some '0') (o2 := some 'X') rfl
        (by rw [peek_head, hr]; rfl) (by rw [peek_one, hr]; rfl) a1 a2⟩
  | @oct cc s y h1 =>
    have hy : ∀ c, y.head? = some c → c ∉ octDigits := hend
    cases cc with
    | lowerCase =>
      obtain ⟨r1, a1, a2⟩ := readRadixInt_eval (c := 'o') (missing := .missingOctalDigits) hr
        (by decide) isEsOctDigit_iff (some_of_digit toDigit_oct) h1 hy
        (cons := fun cc s => .radixInt (.oct (some cc)) s) hv
      exact ⟨r1, a1, fin (m := readOctInt) (o1 := some '0') (o2 := some 'o') rfl
        (by rw [peek_head, hr]; rfl) (by rw [peek_one, hr]; rfl) a1 a2⟩
    | upperCase =>
      obtain ⟨r1, a1, a2⟩ := readRadixInt_eval (c := 'O') (missing := .missingOctalDigits) hr
        (by decide) isEsOctDigit_iff (some_of_digit toDigit_oct) h1 hy
        (cons := fun cc s => .radixInt (.oct (some cc)) s) hv
      exact ⟨r1, a1, fin (m := readOctInt) (o1 := some '0') (o2 := some 'O') rfl
        (by rw [peek_head, hr]; rfl) (by rw [peek_one, hr]; rfl) a1 a2⟩
  | @bin cc s y h1 =>
    have hy : ∀ c, y.head? = some c → c ∉ binDigits := hend
    cases cc with
    | lowerCase =>
      obtain ⟨r1, a1, a2⟩ := readRadixInt_eval (c := 'b') (missing := .missingBinaryDigits) hr
        (by decide) isEsBinDigit_iff (some_of_digit toDigit_bin) h1 hy
        (cons := fun cc s => .radixInt (.bin cc) s) hv
      exact ⟨r1, a1, fin (m := readBinInt) (o1 := some '0') (o2 := some 'b') rfl
        (by rw [peek_head, hr]; rfl) (by rw [peek_one, hr]; rfl) a1 a2⟩
    | upperCase =>
      obtain ⟨r1, a1, a2⟩ := readRadixInt_eval (c := 'B') (missing := .missingBinaryDigits) hr
        (by decide) isEsBinDigit_iff (some_of_digit toDigit_bin) h1 hy
        (cons := fun cc s => .radixInt (.bin cc) s) hv
      exact ⟨r1, a1, fin (m := readBinInt) (o1 := some '0') (o2 := some 'B') rfl
        (by rw [peek_head, hr]; rfl) (by rw [peek_one, hr]; rfl) a1 a2⟩
  | @point f y e h1 h2 =>
    have hr' : r.rest = '.' :: (f ++ (spellExp e ++ y)) := by
      rw [hr]; simp [spellNumber]
    obtain ⟨r1, a1, a2⟩ := Runs.cons hr'
    have hend' : ∀ c, y.head? = some c → c ∉ decDigits := by
      intro c hc
      cases e with
      | none => exact (hend c hc).1
      | some e => exact hend c hc
    obtain ⟨r2, b1, b2⟩ := readDecimalDigits_eval a2 h1.2 (fun c hc => by
      rcases spellExp_head hc with rfl | rfl | ⟨_, h⟩
      · decide
      · decide
      · exact hend' c h)
    obtain ⟨r3, c1, c2⟩ := readExpPart_eval b1 h2 hend' (by
      rintro rfl c hc
      exact (hend c hc).2)
    refine ⟨r3, c1, fin (m := readDotNumber) (o1 := some '.') (o2 := r.peek 1) rfl
      (by rw [peek_head, hr']; rfl) rfl c1 ?_⟩
    have : spellNumber (.float none (some f) e) = '.' :: (f ++ spellExp e) := by
      simp [spellNumber]
    rw [this]
    unfold readDotNumber
    refine Runs.posn ?_
    refine (Runs.skip a1).bind (b2.bind (c2.map ?_))
    unfold intoTokenData
    rw [hv]
    rfl

variable [LawfulEnv]

theorem letter_start {c : Char} (h : c ∈ (c!"eExXoObBabcdfACDF" : Str)) : IdStart c := by
  refine .inr (.inr ?_)
  have : c.toNat < 128 ∧ c.isAlpha = true := by revert h; revert c; decide
  rw [LawfulEnv.ascii_start c this.1, this.2]

theorem numberEnd_exp {y : Str} (h : NumberEnd y) :
    ∀ c, y.head? = some c → c ∉ decDigits ∧ c ≠ 'e' ∧ c ≠ 'E' := by
  intro c hc
  refine ⟨(h c hc).2, ?_, ?_⟩
  · rintro rfl; exact (h _ hc).1 (letter_start (by decide))
  · rintro rfl; exact (h _ hc).1 (letter_start (by decide))

theorem numberEnd_hex {y : Str} (h : NumberEnd y) : ∀ c, y.head? = some c → c ∉ hexDigits := by
  intro c hc hx
  have : c ∈ decDigits ∨ c ∈ (c!"eExXoObBabcdfACDF" : Str) := by
    clear hc; revert hx; revert c; decide +kernel
  rcases this with h' | h'
  · exact (h c hc).2 h'
  · exact (h c hc).1 (letter_start h')


theorem numberEnd_stops {src : NumberSource} {y : Str} (h : NumberEnd y) :
    ∀ c, y.head? = some c → NumberStops src c := by
  intro c hc
  have h1 := (h c hc).2
  have h2 := numberEnd_exp h c hc
  have h3 := numberEnd_hex h c hc
  have h4 : c ∉ (c!"xXoObB" : Str) := by
    intro hm
    refine (h c hc).1 (letter_start ?_)
    clear hc h1 h2 h3
    revert hm
    revert c
    decide +kernel
  match src with
  | .decimalInt m none => exact ⟨h1, h2.2.1, h2.2.2, fun _ => h4⟩
  | .decimalInt m (some _) => exact h1
  | .radixInt (.hex _) _ => exact h3
  | .radixInt (.oct (some _)) _ => exact fun h => h1 (oct_sub_dec h)
  | .radixInt (.oct none) _ => exact h1
  | .radixInt (.bin _) _ => exact fun h => h1 (bin_sub_dec h)
  | .float _ _ none => exact h2
  | .float _ _ (some _) => exact h1

theorem readNumber_eval {r : Reader} {src : NumberSource} {y : Str} {v : F64}
    (hok : NumberOk src y) (hend : NumberEnd y) (hr : r.rest = spellNumber src ++ y)
    (hv : src.value = some v) :
    ∃ r', r'.rest = y ∧ Runs readNumber r (spellNumber src)
      (Token.new r.posn r'.posn (.number ⟨some src, v⟩)) r' := by
  obtain ⟨r1, h4, h5⟩ := readNumberOf_eval hok (numberEnd_stops hend) hr hv
  refine ⟨r1, h4, ?_⟩
  unfold readNumber Runs
  rw [peek2_bind]
  show Runs _ r _ _ r1
  refine h5.map ?_
  rw [peek_bind, peek_head, h4]
  cases hh : y.head? with
  | none => rfl
  | some c =>
    have h6 : isEsIdentifierStart c = false := by
      rw [Bool.eq_false_iff]
      exact fun h => (hend c hh).1 ((isEsIdentifierStart_iff c).1 h)
    have h7 : isEsDecDigit c = false := by
      rw [Bool.eq_false_iff]
      exact fun h => (hend c hh).2 ((isEsDecDigit_iff c).1 h)
    simp [h6, h7, pure_apply]

end L

end Esprit
