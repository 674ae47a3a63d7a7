import Verif.Proofs.LexTokens
import Verif.Spec.LexFault

/-! Failures of the lexer are explained by the text (soundness). -/

namespace Esprit

open Lex

namespace L

variable {α β : Type}

/-- `Fails m r B`: a failure of `m` on `r` satisfies `B`. -/
def Fails (m : L α) (r : Reader) (B : Failure → Prop) : Prop :=
  match m r with
  | .ok _ => True
  | .err e => B (.error e)
  | .panic p => B (.panic p)
  | .fuel => True

theorem Fails.mono {m : L α} {r : Reader} {B B' : Failure → Prop} (h : Fails m r B)
    (hB : ∀ f, B f → B' f) : Fails m r B' := by
  unfold Fails at h ⊢
  cases hm : m r with
  | ok p => trivial
  | err e => rw [hm] at h; exact hB _ h
  | panic p => rw [hm] at h; exact hB _ h
  | fuel => trivial

theorem Fails.bind {m : L α} {f : α → L β} {r : Reader} {B : Failure → Prop} (h : Fails m r B)
    (hf : ∀ a r', m r = .ok (a, r') → Fails (f a) r' B) : Fails (m >>= f) r B := by
  unfold Fails at h ⊢
  rw [bind_apply]
  cases hm : m r with
  | ok p =>
    have := hf p.1 p.2 hm
    unfold Fails at this
    exact this
  | err e => rw [hm] at h; exact h
  | panic p => rw [hm] at h; exact h
  | fuel => trivial

theorem Fails.seq {m : L α} {f : α → L β} {r : Reader} {Q : α → Reader → Prop} {P : Panic → Prop}
    {B : Failure → Prop} (hs : Spec m r Q P) (h : Fails m r B)
    (hf : ∀ a r', Q a r' → Fails (f a) r' B) : Fails (m >>= f) r B :=
  h.bind fun a r' hm => hf a r' (hs.elim hm)

theorem Fails.pure {a : α} {r : Reader} {B : Failure → Prop} : Fails (Pure.pure a : L α) r B :=
  trivial

theorem Fails.throw {e : LexError} {r : Reader} {B : Failure → Prop} (h : B (.error e)) :
    Fails (L.throw e : L α) r B := h

theorem Fails.ite {c : Prop} [Decidable c] {m n : L α} {r : Reader} {B : Failure → Prop}
    (h1 : c → Fails m r B) (h2 : ¬ c → Fails n r B) : Fails (if c then m else n) r B := by
  split
  · exact h1 ‹_›
  · exact h2 ‹_›

theorem Fails.congr {m n : L α} {r : Reader} {B : Failure → Prop} (h : m r = n r)
    (hn : Fails n r B) : Fails m r B := by
  unfold Fails at hn ⊢
  rw [h]
  exact hn

theorem Fails.posn {f : Posn → L β} {r : Reader} {B : Failure → Prop}
    (h : Fails (f r.posn) r B) : Fails (L.posn >>= f) r B := h

theorem Fails.peek {f : Option Char → L β} {r : Reader} {B : Failure → Prop}
    (h : Fails (f (r.peek 0)) r B) : Fails (L.peek >>= f) r B := h

theorem Fails.peek2 {f : Option Char × Option Char → L β} {r : Reader} {B : Failure → Prop}
    (h : Fails (f (r.peek 0, r.peek 1)) r B) : Fails (L.peek2 >>= f) r B := h

theorem Fails.peekAt {n : Nat} {f : Option Char → L β} {r : Reader} {B : Failure → Prop}
    (h : Fails (f (r.peek n)) r B) : Fails (L.peekAt n >>= f) r B := h

theorem Fails.read {f : Char → L β} {r : Reader} {B : Failure → Prop}
    (h : ∀ c r', Adv r [c] r' → Fails (f c) r' B) (hP : r.rest = [] → B (.panic .readPastEnd)) :
    Fails (L.read >>= f) r B := by
  rcases r with ⟨_ | ⟨c, cs⟩, p⟩
  · exact hP rfl
  · exact h c ⟨cs, p.step c cs⟩ (Adv.one c cs p)

theorem Fails.skip {f : Unit → L β} {r : Reader} {B : Failure → Prop} {c : Char}
    (hc : r.peek 0 = some c) (h : ∀ r', Adv r [c] r' → Fails (f ()) r' B) :
    Fails (L.skip >>= f) r B := by
  rcases r with ⟨_ | ⟨d, cs⟩, p⟩
  · simp [Reader.peek] at hc
  · simp only [peek_cons, Option.some.injEq] at hc
    subst hc
    exact h ⟨cs, p.step d cs⟩ (Adv.one d cs p)

theorem Fails.reread {f : Char → L β} {r : Reader} {B : Failure → Prop} {c : Char}
    (hc : r.peek 0 = some c) (h : ∀ r', Adv r [c] r' → Fails (f c) r' B) :
    Fails (L.reread c >>= f) r B := by
  rcases r with ⟨_ | ⟨d, cs⟩, p⟩
  · simp [Reader.peek] at hc
  · simp only [peek_cons, Option.some.injEq] at hc
    subst hc
    have := h ⟨cs, p.step d cs⟩ (Adv.one d cs p)
    unfold Fails at this ⊢
    rw [bind_apply, reread_cons]
    exact this

theorem Fails.reread' {f : Char → L β} {r : Reader} {B : Failure → Prop} {c : Char}
    (hc : r.peek 0 = some c ∨ r.rest = []) (h : ∀ r', Adv r [c] r' → Fails (f c) r' B)
    (hP : r.rest = [] → B (.panic .readPastEnd)) : Fails (L.reread c >>= f) r B := by
  rcases hc with hc | hc
  · exact Fails.reread hc h
  · rcases r with ⟨rest, p⟩
    simp only at hc
    subst hc
    exact hP rfl

theorem Fails.debugAssert {b : Bool} {f : Unit → L β} {r : Reader} {B : Failure → Prop}
    (hb : b = true) (h : Fails (f ()) r B) : Fails (L.debugAssert b >>= f) r B := by
  subst hb; exact h

theorem Fails.matches {f : Bool → L β} {r : Reader} {B : Failure → Prop} {c : Char}
    (h1 : r.peek 0 = some c → ∀ r', Adv r [c] r' → Fails (f true) r' B)
    (h2 : r.peek 0 ≠ some c → Fails (f false) r B) : Fails (L.matches c >>= f) r B := by
  by_cases hc : r.peek 0 = some c
  · rcases r with ⟨_ | ⟨d, cs⟩, p⟩
    · simp [Reader.peek] at hc
    · simp only [peek_cons, Option.some.injEq] at hc
      subst hc
      have := h1 rfl ⟨cs, p.step d cs⟩ (Adv.one d cs p)
      unfold Fails at this ⊢
      rw [bind_apply, matches_cons]
      exact this
  · have := h2 hc
    rcases r with ⟨s, p⟩
    unfold Fails at this ⊢
    rw [bind_apply, matches_ne (by simpa using hc)]
    exact this

theorem Fails.readIntoUntil {q : Char → Bool} {f : Str → L β} {r : Reader} {B : Failure → Prop}
    (h : ∀ x r', Adv r x r' → (∀ c ∈ x, q c = false) → (∀ c, r'.rest.head? = some c → q c = true) →
      Fails (f x) r' B) : Fails (L.readIntoUntil q >>= f) r B := by
  have := spanWhile_spec (fun c => !q c) r.rest r.posn
  refine h _ _ this.1 (fun c hc => ?_) (fun c hc => ?_)
  · simpa using this.2.1 c hc
  · simpa using this.2.2 c hc

theorem Fails.readDecimalDigits {f : Str → L β} {r : Reader} {B : Failure → Prop}
    (h : ∀ x r', Adv r x r' → (∀ c ∈ x, c ∈ decDigits) →
      (∀ c, r'.rest.head? = some c → c ∉ decDigits) → Fails (f x) r' B) :
    Fails (L.readDecimalDigits >>= f) r B := by
  refine Fails.readIntoUntil fun x r' h1 h2 h3 => h x r' h1 ?_ ?_
  · intro c hc
    exact (isEsDecDigit_iff c).1 (by simpa using h2 c hc)
  · intro c hc hd
    have := h3 c hc
    simp [decDigit_dec hd] at this

/-- Failures of the loop of `read_until_with` happen in its body. -/
theorem untilLoop_fails {pred : Char → Bool} {body : L (List α)} (R : Str → Reader → Prop)
    (B : Failure → Prop) (r0 : Reader)
    (hstep : ∀ x r c, Adv r0 x r → R x r → r.peek 0 = some c → pred c = false →
      Fails body r B ∧ ∀ a r1, body r = .ok (a, r1) → ∃ x1, x1 ≠ [] ∧ Adv r x1 r1 ∧
        R (x ++ x1) r1) :
    ∀ (n : Nat) (x : Str) (r : Reader), Adv r0 x r → R x r → Fails (untilLoop pred body n) r B
  | 0, _, _, _, _ => trivial
  | n + 1, x, r, h0, hR => by
    unfold untilLoop
    refine Fails.peek ?_
    cases hp : r.peek 0 with
    | none => exact Fails.pure
    | some c =>
      simp only
      refine Fails.ite (fun _ => Fails.pure) (fun hpr => ?_)
      obtain ⟨h1, h2⟩ := hstep x r c h0 hR hp (by simpa using hpr)
      refine h1.bind fun a r1 hm => ?_
      obtain ⟨x1, a1, a2, a3⟩ := h2 a r1 hm
      refine Fails.bind (untilLoop_fails R B r0 hstep n (x ++ x1) r1 (h0.trans a2) a3) ?_
      intro _ _ _
      exact Fails.pure

/-! ### Digits and escapes -/

theorem readDigitInto_fails {radix : Nat} {pred : Char → Bool} {missing : LexError} {r : Reader}
    {B : Failure → Prop} (h : ∀ c, pred c = true → (toDigit c radix).isSome = true)
    (h1 : r.rest = [] → B (.error missing))
    (h2 : ∀ c s, r.rest = c :: s → pred c = false → B (.error (.invalidDigit c))) :
    Fails (readDigitInto radix pred missing) r B := by
  rcases r with ⟨_ | ⟨c, cs⟩, p⟩
  · exact h1 rfl
  · by_cases hp : pred c = true
    · obtain ⟨d, hd⟩ := Option.isSome_iff_exists.1 (h c hp)
      unfold Fails
      rw [readDigitInto_eval hp hd]
      trivial
    · unfold readDigitInto
      refine Fails.peek ?_
      simp only [peek_cons]
      exact Fails.ite (fun h => absurd h hp) (fun _ => Fails.throw (h2 c cs rfl (by simpa using hp)))

theorem readHexDigitInto_fails {r : Reader} {B : Failure → Prop}
    (h1 : r.rest = [] → B (.error .missingHexDigits))
    (h2 : ∀ c s, r.rest = c :: s → c ∉ hexDigits → B (.error (.invalidDigit c))) :
    Fails readHexDigitInto r B := by
  refine readDigitInto_fails (fun c hc => ?_) h1 (fun c s hr hp => h2 c s hr fun hc => ?_)
  · rw [(toDigit_hex ((isEsHexDigit_iff c).1 hc)).1]; rfl
  · rw [(isEsHexDigit_iff c).2 hc] at hp; cases hp

theorem fourHex_fails (n : Nat) (r0 : Reader) : ∀ (k : Nat) (ds : Str) (r : Reader)
    (place code : Nat), Adv r0 ds r → (∀ d ∈ ds, d ∈ hexDigits) → ds.length + k = n →
    Fails (fourHex k place code) r (BadHex n r0.rest)
  | 0, _, _, _, _, _, _, _ => Fails.pure
  | k + 1, ds, r, place, code, h0, hd, hk => by
    unfold fourHex
    refine Fails.seq (readHexDigitInto_spec (P := fun _ => True)) (readHexDigitInto_fails ?_ ?_) ?_
    · intro he
      have := h0.rest
      rw [he, List.append_nil] at this
      rw [this]
      exact .missing (by omega) hd
    · intro c s hr hc
      rw [h0.rest, hr]
      exact .invalid (by omega) hd hc
    · rintro ⟨c, d⟩ r1 ⟨h1, h2, h3⟩
      simp only at h1 h2 h3
      refine Fails.bind (fourHex_fails n r0 k (ds ++ [c]) r1 _ _ (h0.trans h1) ?_ ?_) ?_
      · intro e he
        rcases List.mem_append.1 he with he | he
        · exact hd e he
        · simp at he; exact he ▸ h2
      · simp; omega
      · intro _ _ _; exact Fails.pure

variable [Env]

theorem readUnicodeEscapeSeq_fails (r : Reader) :
    Fails readUnicodeEscapeSeq r (BadEscape r.rest) := by
  unfold readUnicodeEscapeSeq
  refine Fails.matches ?_ ?_
  · intro hb r0 h0
    simp only [if_true]
    refine Fails.seq (readHexDigitInto_spec (P := fun _ => True)) (readHexDigitInto_fails ?_ ?_) ?_
    · intro he
      have := h0.rest
      rw [he] at this
      rw [this]
      exact .missing
    · intro c s hr hc
      rw [h0.rest, hr]
      exact .invalid (ds := []) (by simp) hc (fun _ => rfl)
    · rintro ⟨d, v⟩ r1 ⟨h1, h2, h3⟩
      simp only at h1 h2 h3
      have hmem : ∀ {x : Str}, (∀ e ∈ x, e ∈ hexDigits) → ∀ e ∈ d :: x, e ∈ hexDigits := by
        intro x hx e he
        rcases List.mem_cons.1 he with rfl | he
        · exact h2
        · exact hx e he
      refine Fails.seq (hexRun_spec r1 (fun _ => True)) ?_ ?_
      · refine untilLoop_fails (fun x _ => ∀ e ∈ x, e ∈ hexDigits) _ r1 ?_ _ [] r1 (Adv.refl _)
          (by simp)
        intro x r2 c hadv hx hc hpred
        refine ⟨?_, ?_⟩
        · refine Fails.bind (readHexDigitInto_fails ?_ ?_) ?_
          · intro he
            rw [peek_head, he] at hc
            cases hc
          · intro c' s hr hc'
            have hcc : c' = c := by
              rw [peek_head, hr] at hc
              simpa using hc
            subst hcc
            rw [(h0.trans (h1.trans hadv)).rest, hr]
            refine .invalid (ds := d :: x) (hmem hx) hc' ?_
            rintro rfl
            simp at hpred
          · intro _ _ _; exact Fails.pure
        · intro a r3 hm
          have hs : Spec hexBody r2 (fun a r3 => ∃ x1, x1 ≠ [] ∧ Adv r2 x1 r3 ∧
              ∀ e ∈ x ++ x1, e ∈ hexDigits) (fun _ => True) := by
            refine Spec.seq (readHexDigitInto_spec (P := fun _ => True)) (fun _ h => h) ?_
            rintro ⟨e, v'⟩ r4 ⟨b1, b2, b3⟩
            refine Spec.pure ⟨[e], by simp, b1, ?_⟩
            intro e' he'
            rcases List.mem_append.1 he' with he' | he'
            · exact hx e' he'
            · simp at he'; exact he' ▸ b2
          exact hs.elim hm
      · rintro as r2 ⟨x, a1, ⟨a2, rfl⟩, a4⟩
        have hadv := h0.trans (h1.trans a1)
        have hall := hmem a2
        refine Fails.reread' ?_ ?_ ?_
        · rcases r2 with ⟨_ | ⟨c, cs⟩, q⟩
          · exact .inr rfl
          · left
            have := a4 c rfl
            simpa using this
        · intro r3 h4
          have e : List.map (fun x => x.2) ((d, v) :: List.map (fun c => (c, digitVal c)) x) =
              (d :: x).map digitVal := by simp [h3]
          rw [e]
          unfold Fails
          rw [bind_apply, addDigits_eval _ _ hall]
          by_cases hov : Env.overflowChecks = true ∧ 8 ≤ (d :: x).length
          · rw [if_pos hov, (hadv.trans h4).rest]
            have := BadEscape.overflow (ds := d :: x) (y := r3.rest) hall hov.2 hov.1
            show BadEscape _ _
            simpa using this
          · rw [if_neg hov]
            trivial
        · intro he
          rw [hadv.rest, he]
          have := BadEscape.eof (ds := d :: x) (by simp) hall
          simpa using this
  · intro hb
    simp only [Bool.false_eq_true, if_false]
    refine (fourHex_fails 4 r 4 [] r 0x1000 0 (Adv.refl r) (by simp) rfl).mono fun f hf => ?_
    exact .four (by rwa [← peek_head]) hf

/-! ### Words -/

theorem wordParts_append {x1 x2 t1 t2 : Str} {b1 b2 : Bool} (h1 : WordParts x1 b1 t1)
    (h2 : WordParts x2 b2 t2) : WordParts (x1 ++ x2) (b1 || b2) (t1 ++ t2) := by
  induction h1 with
  | nil => simpa using h2
  | plain hc hi _ ih => exact .plain hc hi ih
  | @escape u x t code c b hu hc _ ih =>
    have := WordParts.escape hu hc ih
    simpa using this

theorem readWordParts_fails (r : Reader) : Fails readWordParts r (BadWord r.rest) := by
  unfold readWordParts
  refine Fails.bind ?_ (fun _ _ _ => Fails.pure)
  refine untilLoop_fails (fun x _ => ∃ b t, WordParts x b t) _ r ?_ _ [] r (Adv.refl _)
    ⟨_, _, .nil⟩
  rintro x r1 c h0 ⟨b, t, hx⟩ hc hpred
  refine ⟨?_, ?_⟩
  · unfold readWordPart
    refine Fails.read ?_ (fun h => by rw [Reader.peek, h] at hc; simp at hc)
    intro d r2 h1
    refine Fails.ite (fun hd => ?_) (fun _ => Fails.pure)
    subst hd
    refine Fails.bind ?_ (fun _ _ _ => Fails.pure)
    unfold readWordEscape
    refine Fails.peek ?_
    have hadv := h0.trans h1
    refine Fails.ite (fun hu => ?_) (fun hu => ?_)
    · refine Fails.reread hu ?_
      intro r3 h2
      refine Fails.seq (readUnicodeEscapeSeq_spec r3) ?_ ?_
      · refine (readUnicodeEscapeSeq_fails r3).mono fun f hf => ?_
        rw [(hadv.trans h2).rest]
        have := BadWord.escape hx hf
        simpa using this
      · rintro ⟨u, code⟩ r4 ⟨h3, h4⟩
        simp only at h3 h4 ⊢
        cases hch : charFromU32 code with
        | some ch => exact Fails.pure
        | none =>
          refine Fails.throw ?_
          rw [((hadv.trans h2).trans h3).rest]
          have := BadWord.illegal (y := r4.rest) hx h4 (fun hv => by
            rw [← charFromU32_isSome, hch] at hv; cases hv)
          simpa using this
    · refine Fails.throw ?_
      rw [hadv.rest, peek_head]
      have := BadWord.incomplete (y := r2.rest) hx (by rwa [← peek_head])
      simpa using this
  · intro a r2 hm
    have hs : Spec readWordPart r1 (fun _ r2 => ∃ x1, x1 ≠ [] ∧ Adv r1 x1 r2 ∧
        ∃ b t, WordParts x1 b t) (fun _ => True) := by
      unfold readWordPart
      refine Spec.read ?_ (fun _ => trivial)
      intro d r2 h1
      have hcd : d = c := by
        have := h1.rest
        rw [Reader.peek, this] at hc
        simpa using hc
      subst hcd
      refine Spec.ite (fun hd => ?_) (fun hd => ?_)
      · subst hd
        refine Spec.bind ?_
        unfold readWordEscape
        refine Spec.peek ?_
        refine Spec.ite (fun hu => ?_) (fun _ => Spec.throw)
        refine Spec.reread hu ?_
        intro r2 h2
        refine Spec.seq (readUnicodeEscapeSeq_spec r2) (fun _ _ => trivial) ?_
        rintro ⟨u, code⟩ r3 ⟨h3, h4⟩
        simp only at h3 h4
        simp only
        cases hch : charFromU32 code with
        | none => exact Spec.throw
        | some ch =>
          refine Spec.pure (Spec.pure ⟨c!"\\u" ++ u, by simp, ?_, true, [ch], ?_⟩)
          · have := (h1.trans h2).trans h3
            simpa using this
          · have := WordParts.escape h4 (charFromU32_some hch) .nil
            simpa using this
      · refine Spec.pure ⟨[d], by simp, h1, false, [d], .plain hd ?_ .nil⟩
        rw [← isEsIdentifierContinue_iff]
        simpa [hd] using hpred
    obtain ⟨x1, a1, a2, b', t', a3⟩ := hs.elim hm
    exact ⟨x1, a1, a2, _, _, wordParts_append hx a3⟩

theorem readWord_fails [LawfulEnv] {op : Bool} (r : Reader) {c : Char} (hc : r.peek 0 = some c)
    (hs : IdStart c ∨ c = '\\') : Fails readWord r (BadToken op r.rest) := by
  have hb : (c = '\\' || isEsIdentifierStart c) = true := by
    rcases hs with hs | hs
    · rw [(isEsIdentifierStart_iff c).2 hs]; simp
    · simp [hs]
  have hhead : r.rest.head? = some c := by rw [← peek_head, hc]
  unfold readWord
  refine Fails.peek ?_
  rw [hc]
  refine Fails.debugAssert (by simpa using hb) (Fails.posn ?_)
  refine Fails.seq (readWordParts_spec r) ?_ ?_
  · exact (readWordParts_fails r).mono fun f hf => .word ⟨c, hhead, hs⟩ hf
  · rintro w r1 ⟨x, h1, h2, h3⟩
    have hx : x.head? = some c := by
      cases x with
      | nil =>
        exfalso
        have he := h1.rest
        simp only [List.nil_append] at he
        have := h3 c (by rw [← he]; exact hhead)
        rcases hs with hs | hs
        · apply this.2
          rcases hs with rfl | rfl | hs
          · exact .inl rfl
          · exact .inr (.inl rfl)
          · exact .inr (.inr (.inr (.inr (LawfulEnv.start_continue c hs))))
        · exact this.1 hs
      | cons d x =>
        rw [h1.rest] at hhead
        simpa using hhead
    have hne : w.text ≠ [] := by
      generalize w.hadEscape = b, w.text = t at h2
      cases h2 with
      | nil => simp at hx
      | plain => simp
      | escape => simp
    refine Fails.debugAssert (by simpa using hne) ?_
    refine Fails.bind ?_ (fun _ _ _ => trivial)
    obtain ⟨esc, t⟩ := w
    simp only at h2
    unfold tokenize
    simp only
    cases hr : reservedTable.lookup t with
    | some w =>
      refine Fails.ite (fun _ => Fails.pure) (fun he => Fails.throw ?_)
      have he' : esc = true := by simpa using he
      subst he'
      rw [h1.rest]
      exact .reserved ⟨c, hx, hs⟩ h2 h3 ((reserved_iff t w).1 hr)
    | none =>
      cases contextualTable.lookup t with
      | some a => exact Fails.ite (fun _ => Fails.pure) (fun _ => Fails.pure)
      | none => exact Fails.pure

/-! ### Strings -/

theorem _root_.Esprit.Lex.BadString.lift {q : Char} {p s v : Str} {f : Failure}
    (hp : StringPiece q p s v) (h : BadString q s f) : BadString q (p ++ s) f := by
  cases h with
  | eof hx => exact .eof (.piece (by simpa using hp) hx)
  | backslash hx =>
    have := BadString.backslash (.piece hp hx)
    simpa using this
  | newline hx hc =>
    have := BadString.newline (.piece hp hx) hc
    simpa using this
  | hex hx hf =>
    have := BadString.hex (.piece hp hx) hf
    simpa using this
  | unicode hx hf =>
    have := BadString.unicode (.piece hp hx) hf
    simpa using this

theorem _root_.Esprit.Lex.BadString.plain {q : Char} {x s : Str} {f : Failure}
    (hx : ∀ c ∈ x, c ≠ q ∧ c ≠ '\\' ∧ c ∉ lineTerminators) (h : BadString q s f) :
    BadString q (x ++ s) f := by
  induction x with
  | nil => exact h
  | cons c x ih =>
    obtain ⟨h1, h2, h3⟩ := hx c (by simp)
    exact BadString.lift (p := [c]) (v := [c]) (.plain h1 h2 h3)
      (ih fun d hd => hx d (by simp [hd]))

theorem _root_.Esprit.Lex.BadString.empty {q : Char} {f : Failure} (h : BadString q [] f) :
    f = .error (.unterminatedString none) := by
  generalize hs : ([] : Str) = s at h
  cases h with
  | eof _ => rfl
  | backslash _ => rfl
  | newline _ _ => simp at hs
  | hex _ _ => simp at hs
  | unicode _ _ => simp at hs

omit [Env] in
theorem octalLoop_fails {B : Failure → Prop} : ∀ (k code : Nat) (r : Reader),
    Fails (octalLoop k code) r B
  | 0, _, _ => Fails.pure
  | k + 1, code, r => by
    unfold octalLoop
    refine Fails.peek ?_
    cases hp : r.peek 0 with
    | none => exact Fails.pure
    | some ch =>
      simp only
      refine Fails.ite (fun ho => ?_) (fun _ => Fails.pure)
      simp only [(toDigit_oct ((isEsOctDigit_iff ch).1 ho)).1]
      refine Fails.ite (fun _ => Fails.pure) (fun _ => Fails.reread hp ?_)
      intro r1 _
      exact Fails.bind (octalLoop_fails k _ r1) (fun _ _ _ => Fails.pure)

omit [Env] in
theorem readNewlineInto_fails {r : Reader} {c : Char} {B : Failure → Prop}
    (hp : r.peek 0 = some c) (hc : c ∈ lineTerminators) : Fails readNewlineInto r B := by
  unfold readNewlineInto
  refine Fails.peek ?_
  rw [hp]
  refine Fails.debugAssert (by simpa using (isEsNewline_iff c).2 hc) ?_
  refine Fails.peek2 ?_
  refine Fails.ite (fun h => ?_) (fun h => ?_)
  · obtain ⟨s, hs⟩ := peek_some hp
    rcases r with ⟨_, p⟩
    simp only at hs
    subst hs
    cases s with
    | nil => simp [Reader.peek] at h
    | cons d s => trivial
  · obtain ⟨s, hs⟩ := peek_some hp
    rcases r with ⟨_, p⟩
    simp only at hs
    subst hs
    trivial

theorem readStringEscape_fails (q : Char) {r : Reader} (hc : r.peek 0 = some '\\') :
    Fails readStringEscape r (BadString q r.rest) := by
  unfold readStringEscape
  refine Fails.reread hc ?_
  intro r1 h1
  refine Fails.peek ?_
  cases hp : r1.peek 0 with
  | none => exact Fails.pure
  | some ch =>
    simp only
    refine Fails.ite (fun _ => ?_) (fun _ => ?_)
    · exact Fails.bind (octalLoop_fails _ _ _) (fun _ _ _ => Fails.pure)
    refine Fails.ite (fun hx => ?_) (fun _ => ?_)
    · subst hx
      refine Fails.reread hp ?_
      intro r2 h2
      have lift : ∀ f, BadHex 2 r2.rest f → BadString q r.rest f := by
        intro f hf
        rw [(h1.trans h2).rest]
        exact .hex (x := []) .nil hf
      refine Fails.seq (readHexDigitInto_spec (P := fun _ => True))
        (readHexDigitInto_fails ?_ ?_) ?_
      · intro he
        refine lift _ ?_
        rw [he]
        exact .missing (by simp) (by simp)
      · intro c s hr hc
        refine lift _ ?_
        rw [hr]
        exact .invalid (ds := []) (by simp) (by simp) hc
      · rintro ⟨c1, d1⟩ r3 ⟨a1, a2, a3⟩
        simp only at a1 a2 a3
        refine Fails.bind (readHexDigitInto_fails ?_ ?_) (fun _ _ _ => Fails.pure)
        · intro he
          refine lift _ ?_
          rw [a1.rest, he]
          exact .missing (by simp) (by simpa using a2)
        · intro c s hr hc
          refine lift _ ?_
          rw [a1.rest, hr]
          exact .invalid (ds := [c1]) (by simp) (by simpa using a2) hc
    refine Fails.ite (fun hu => ?_) (fun _ => ?_)
    · subst hu
      refine Fails.reread hp ?_
      intro r2 h2
      refine Fails.bind ((readUnicodeEscapeSeq_fails r2).mono fun f hf => ?_)
        (fun _ _ _ => Fails.pure)
      rw [(h1.trans h2).rest]
      exact .unicode (x := []) .nil hf
    refine Fails.ite (fun hn => ?_) (fun _ => ?_)
    · exact Fails.bind (readNewlineInto_fails hp ((isEsNewline_iff ch).1 hn))
        (fun _ _ _ => Fails.pure)
    · refine Fails.reread hp ?_
      intro r2 _
      exact Fails.pure

theorem stringLoop_fails (q : Char) : ∀ (n : Nat) (r : Reader),
    Fails (stringLoop q n) r (BadString q r.rest)
  | 0, _ => trivial
  | n + 1, r => by
    unfold stringLoop
    refine Fails.readIntoUntil ?_
    intro s r1 h1 h2 h3
    have hs : ∀ c ∈ s, c ≠ q ∧ c ≠ '\\' ∧ c ∉ lineTerminators := by
      intro c hc
      have := h2 c hc
      simp only [Bool.or_eq_false_iff, decide_eq_false_iff_not, isEsNewline_false] at this
      exact ⟨this.1.1, this.1.2, this.2⟩
    have lift : ∀ f, BadString q r1.rest f → BadString q r.rest f := by
      intro f hf
      rw [h1.rest]
      exact hf.plain hs
    refine Fails.peek ?_
    cases hp : r1.peek 0 with
    | none =>
      refine Fails.throw (lift _ ?_)
      rw [peek_none hp]
      exact .eof .nil
    | some ch =>
      simp only
      refine Fails.ite (fun hb => ?_) (fun hb => ?_)
      · subst hb
        refine Fails.seq (readStringEscape_spec q hp) ((readStringEscape_fails q hp).mono lift) ?_
        rintro ⟨es, ev⟩ r2 ⟨a1, a2, a3⟩
        simp only at a1 a2 a3
        refine Fails.bind ((stringLoop_fails q n r2).mono fun f hf => lift f ?_)
          (fun _ _ _ => Fails.pure)
        rw [a1.rest]
        rcases a3 with ⟨a3, rfl⟩ | a3
        · rw [a3] at hf ⊢
          rw [hf.empty]
          exact .backslash (x := []) .nil
        · exact BadString.lift a3 hf
      · refine Fails.ite (fun hn => Fails.throw (lift _ ?_)) (fun _ => ?_)
        · obtain ⟨s', hs'⟩ := peek_some hp
          rw [hs']
          exact .newline (x := []) .nil ((isEsNewline_iff ch).1 hn)
        · refine Fails.skip hp ?_
          intro _ _
          exact Fails.pure

theorem readString_fails {op : Bool} {r : Reader} {q : Char} (hp : r.peek 0 = some q)
    (hq : q = '"' ∨ q = '\'') : Fails readString r (BadToken op r.rest) := by
  unfold readString
  refine Fails.peek ?_
  rw [hp]
  refine Fails.debugAssert rfl (Fails.posn (Fails.read ?_ ?_))
  · intro c r1 h1
    have hcq : c = q := by
      rw [peek_head, h1.rest] at hp
      simpa using hp
    subst hcq
    refine Fails.bind ((stringLoop_fails c (r1.rest.length + 1) r1).mono fun f hf => ?_)
      (fun _ _ _ => trivial)
    rw [h1.rest]
    exact .string hq hf
  · intro he
    rw [peek_head, he] at hp
    cases hp

/-! ### Regular expressions -/

omit [Env] in
theorem readRegexpBackslash_fails {r : Reader} {B : Failure → Prop} (hc : r.peek 0 = some '\\')
    (h : ∀ y, r.rest = '\\' :: y → AtLineEnd y → B (.error (.unterminatedRegExp y.head?))) :
    Fails readRegexpBackslash r B := by
  unfold readRegexpBackslash
  refine Fails.reread hc ?_
  intro r1 h1
  refine Fails.peek ?_
  cases hp : r1.peek 0 with
  | none =>
    refine Fails.throw ?_
    have := h r1.rest h1.rest (by simp [AtLineEnd, peek_none hp])
    rwa [peek_none hp] at this
  | some ch =>
    simp only
    refine Fails.ite (fun hn => Fails.throw ?_) (fun _ => ?_)
    · obtain ⟨s, hs⟩ := peek_some hp
      have := h r1.rest h1.rest (by
        intro d hd
        rw [hs] at hd
        simp at hd
        exact hd ▸ (isEsNewline_iff ch).1 hn)
      rwa [hs] at this
    · refine Fails.reread hp ?_
      intro r2 _
      exact Fails.pure

omit [Env] in
theorem readRegexpClass_fails {r : Reader} {B : Failure → Prop} (hc : r.peek 0 = some '[')
    (h1 : ∀ k y, r.rest = '[' :: k ++ '\\' :: y → RegClass k → AtLineEnd y →
      B (.error (.unterminatedRegExp y.head?)))
    (h2 : ∀ k, r.rest = '[' :: k → RegClass k → B (.panic .readPastEnd)) :
    Fails readRegexpClass r B := by
  unfold readRegexpClass
  refine Fails.reread hc ?_
  intro r1 a1
  have ext : ∀ {x y : Str}, RegClass x → RegClass y → RegClass (x ++ y) := by
    intro x y hx hy
    induction hx with
    | nil => exact hy
    | plain c1 c2 _ ih => exact .plain c1 c2 ih
    | escape c1 _ ih => exact .escape c1 ih
  have hclass : Spec (readUntilWith (fun ch => ch = ']') readRegexpClassChar) r1
      (fun as r' => ∃ x, Adv r1 x r' ∧ ClassRun x r' as ∧ ∀ c, r'.rest.head? = some c →
        decide (c = ']') = true) (fun _ => True) := by
    refine readUntilWith_spec ClassRun (fun _ _ => True) ?_ ?_ r1
    · intro r _; exact ⟨rfl, .nil⟩
    · intro r c hc hpred
      have hne : c ≠ ']' := by simpa using hpred
      unfold readRegexpClassChar
      refine Spec.peek ?_
      rw [hc]
      simp only
      refine Spec.ite (fun hb => ?_) (fun hb => ?_)
      · subst hb
        refine (readRegexpBackslash_spec (P := fun _ => True) hc).mono ?_ (fun _ h => h)
        rintro a r' ⟨d, h1, rfl, h2⟩
        refine ⟨['\\', d], by simp, h2, ?_, fun _ h => h⟩
        rintro x2 r2 as _ ⟨rfl, hx⟩
        exact ⟨rfl, .escape h1 hx⟩
      · refine Spec.reread hc ?_
        intro r' h2
        refine Spec.pure ⟨[c], by simp, h2, ?_, fun _ h => h⟩
        rintro x2 r2 as _ ⟨rfl, hx⟩
        exact ⟨rfl, .plain hne hb hx⟩
  refine Fails.seq hclass ?_ ?_
  · refine untilLoop_fails (fun x _ => RegClass x) _ r1 ?_ _ [] r1 (Adv.refl _) .nil
    intro x r2 c hadv hx hc2 hpred
    have hne : c ≠ ']' := by simpa using hpred
    refine ⟨?_, ?_⟩
    · unfold readRegexpClassChar
      refine Fails.peek ?_
      rw [hc2]
      simp only
      refine Fails.ite (fun hb => ?_) (fun hb => ?_)
      · subst hb
        refine readRegexpBackslash_fails hc2 ?_
        intro y hy hl
        refine h1 x y ?_ hx hl
        rw [(a1.trans hadv).rest, hy]
        rfl
      · refine Fails.reread hc2 ?_
        intro _ _
        exact Fails.pure
    · intro a r3 hm
      have hs : Spec readRegexpClassChar r2 (fun _ r3 => ∃ x1, x1 ≠ [] ∧ Adv r2 x1 r3 ∧
          RegClass x1) (fun _ => True) := by
        unfold readRegexpClassChar
        refine Spec.peek ?_
        rw [hc2]
        simp only
        refine Spec.ite (fun hb => ?_) (fun hb => ?_)
        · subst hb
          refine (readRegexpBackslash_spec (P := fun _ => True) hc2).mono ?_ (fun _ h => h)
          rintro a r' ⟨d, h1, rfl, h2⟩
          exact ⟨['\\', d], by simp, h2, .escape h1 .nil⟩
        · refine Spec.reread hc2 ?_
          intro r' h2
          exact Spec.pure ⟨[c], by simp, h2, .plain hne hb .nil⟩
      obtain ⟨x1, b1, b2, b3⟩ := hs.elim hm
      exact ⟨x1, b1, b2, ext hx b3⟩
  · rintro as r2 ⟨x, a2, ⟨rfl, hx⟩, a3⟩
    refine Fails.reread' ?_ (fun _ _ => Fails.pure) ?_
    · cases hp : r2.peek 0 with
      | none => exact .inr (peek_none hp)
      | some d =>
        left
        have := a3 d (by rw [← peek_head, hp])
        simpa using this
    · intro he
      refine h2 as ?_ hx
      have := (a1.trans a2).rest
      rw [he] at this
      simpa using this

omit [Env] in
theorem regBody_append {x y : Str} (hx : RegBody x) (hy : RegBody y) : RegBody (x ++ y) := by
  induction hx with
  | nil => exact hy
  | plain c1 c2 c3 c4 _ ih => exact .plain c1 c2 c3 c4 ih
  | escape c1 _ ih => exact .escape c1 ih
  | cls c1 _ ih =>
    have := RegBody.cls c1 ih
    simpa using this

theorem readRegexp_fails {op : Bool} {r : Reader} (hop : op = false) (hc : r.peek 0 = some '/') :
    Fails readRegexp r (BadToken op r.rest) := by
  unfold readRegexp
  refine Fails.posn (Fails.reread hc ?_)
  intro r1 a1
  have lift : ∀ f, BadRegExp r1.rest f → BadToken op r.rest f := by
    intro f hf
    rw [a1.rest]
    exact .regexp hop hf
  refine Fails.seq (readRegexpBody_spec r1) ?_ ?_
  · refine untilLoop_fails (fun x _ => RegBody x) _ r1 ?_ _ [] r1 (Adv.refl _) .nil
    intro x r2 c hadv hx hc2 hpred
    have hne : c ≠ '/' := by simpa using hpred
    refine ⟨?_, ?_⟩
    · unfold readRegexpChar
      refine Fails.peek ?_
      rw [hc2]
      simp only
      refine Fails.ite (fun hb => ?_) (fun hb => ?_)
      · subst hb
        refine readRegexpBackslash_fails hc2 ?_
        intro y hy hl
        refine lift _ ?_
        rw [hadv.rest, hy]
        exact .escape hx hl
      refine Fails.ite (fun hk => ?_) (fun hk => ?_)
      · subst hk
        refine readRegexpClass_fails hc2 ?_ ?_
        · intro k y hr hk hl
          refine lift _ ?_
          rw [hadv.rest, hr]
          have := BadRegExp.clsEscape hx hk hl
          simpa using this
        · intro k hr hk
          refine lift _ ?_
          rw [hadv.rest, hr]
          exact .clsEof hx hk
      refine Fails.ite (fun hn => Fails.throw (lift _ ?_)) (fun _ => Fails.reread hc2 ?_)
      · obtain ⟨s, hs⟩ := peek_some hc2
        rw [hadv.rest, hs]
        exact .newline hx ((isEsNewline_iff c).1 hn)
      · intro _ _
        exact Fails.pure
    · intro a r3 hm
      have hs : Spec readRegexpChar r2 (fun _ r3 => ∃ x1, x1 ≠ [] ∧ Adv r2 x1 r3 ∧
          RegBody x1) (fun _ => True) := by
        unfold readRegexpChar
        refine Spec.peek ?_
        rw [hc2]
        simp only
        refine Spec.ite (fun hb => ?_) (fun hb => ?_)
        · subst hb
          refine (readRegexpBackslash_spec (P := fun _ => True) hc2).mono ?_ (fun _ h => h)
          rintro a r' ⟨d, h1, rfl, h2⟩
          exact ⟨['\\', d], by simp, h2, .escape h1 .nil⟩
        refine Spec.ite (fun hk => ?_) (fun hk => ?_)
        · subst hk
          refine (readRegexpClass_spec hc2).mono ?_ (fun _ _ => trivial)
          rintro a r' ⟨k, h1, rfl, h2⟩
          exact ⟨'[' :: k ++ c!"]", by simp, h2, .cls h1 .nil⟩
        refine Spec.ite (fun _ => Spec.throw) (fun hn => ?_)
        refine Spec.reread hc2 ?_
        intro r' h2
        exact Spec.pure ⟨[c], by simp, h2, .plain hne hb hk
          (fun h => hn ((isEsNewline_iff c).2 h)) .nil⟩
      obtain ⟨x1, b1, b2, b3⟩ := hs.elim hm
      exact ⟨x1, b1, b2, regBody_append hx b3⟩
  · rintro as r2 ⟨x, a2, ⟨rfl, hx⟩, a3⟩
    refine Fails.reread' ?_ ?_ ?_
    · cases hp : r2.peek 0 with
      | none => exact .inr (peek_none hp)
      | some d =>
        left
        have := a3 d (by rw [← peek_head, hp])
        simpa using this
    · intro r3 a4
      refine Fails.bind ((readWordParts_fails r3).mono fun f hf => lift _ ?_)
        (fun _ _ _ => trivial)
      rw [a2.rest, a4.rest]
      exact .flags hx hf
    · intro he
      refine lift _ ?_
      rw [a2.rest, he, List.append_nil]
      exact .eof hx

/-! ### Numbers -/

omit [Env] in
theorem intoTokenData_fails {src : NumberSource} {v : F64} {β : Type} {f : TokenData → L β}
    {r : Reader} {B : Failure → Prop} (hv : src.value = some v)
    (h : Fails (f (.number ⟨some src, v⟩)) r B) : Fails (intoTokenData src >>= f) r B := by
  unfold intoTokenData
  rw [hv]
  exact h

omit [Env] in
theorem readExpPart_fails {r : Reader} {B : Failure → Prop}
    (h : ∀ e sign y, e = 'e' ∨ e = 'E' → sign ∈ [[], c!"+", c!"-"] →
      (sign = [] → y.head? ≠ some '+' ∧ y.head? ≠ some '-') →
      (∀ c, y.head? = some c → c ∉ decDigits) → r.rest = e :: sign ++ y →
      B (.error (.missingExponent y.head?))) : Fails readExpPart r B := by
  unfold readExpPart
  refine Fails.peek ?_
  refine Fails.ite (fun he => ?_) (fun _ => Fails.pure)
  obtain ⟨ch, hch, hcase⟩ : ∃ ch, r.peek 0 = some ch ∧ (ch = 'e' ∨ ch = 'E') := by
    rcases he with he | he <;> exact ⟨_, he, by simp⟩
  refine Fails.skip hch ?_
  intro r1 h1
  have hsign : Spec readExpSign r1 (fun sg r2 => Adv r1 (signText sg) r2 ∧
      (sg = none → r2.rest.head? ≠ some '+' ∧ r2.rest.head? ≠ some '-')) (fun _ => True) := by
    unfold readExpSign
    refine Spec.peek ?_
    refine Spec.ite (fun hs => Spec.skip hs fun r2 h2 => ⟨h2, fun h => by cases h⟩) (fun hp => ?_)
    refine Spec.ite (fun hs => Spec.skip hs fun r2 h2 => ⟨h2, fun h => by cases h⟩) (fun hm => ?_)
    refine Spec.pure ⟨Adv.refl _, fun _ => ⟨?_, ?_⟩⟩
    · rw [← peek_head]; exact hp
    · rw [← peek_head]; exact hm
  refine Fails.seq hsign ?_ ?_
  · unfold readExpSign
    refine Fails.peek ?_
    refine Fails.ite (fun hs => Fails.skip hs fun r2 h2 => Fails.pure) (fun _ => ?_)
    exact Fails.ite (fun hs => Fails.skip hs fun r2 h2 => Fails.pure) (fun _ => Fails.pure)
  · rintro sg r2 ⟨h2, h3⟩
    have key : (∀ c, r2.rest.head? = some c → c ∉ decDigits) →
        B (.error (.missingExponent r2.rest.head?)) := by
      intro hd
      refine h ch (signText sg) r2.rest hcase ?_ ?_ hd (h1.cons h2).rest
      · rcases sg with _ | _ | _ <;> simp [signText]
      · intro hs
        refine h3 ?_
        rcases sg with _ | _ | _
        · rfl
        · simp [signText] at hs
        · simp [signText] at hs
    refine Fails.peek ?_
    cases hp : r2.peek 0 with
    | none =>
      refine Fails.throw ?_
      have := key (by simp [peek_none hp])
      rwa [peek_none hp] at this
    | some d =>
      refine Fails.ite (fun hd => Fails.throw ?_) (fun _ => ?_)
      · rw [peek_head] at hp
        have := key (by
          intro c hc hm
          rw [hp] at hc
          simp only [Option.some.injEq] at hc
          subst hc
          simp [decDigit_dec hm] at hd)
        rwa [hp] at this
      · exact Fails.readDecimalDigits fun _ _ _ _ _ => Fails.pure

omit [Env] in
theorem readRadixInt_fails {radix : Nat} {pred : Char → Bool} {alphabet : List Char}
    {cons : CharCase → Str → NumberSource} {missing : LexError} {r : Reader} {c : Char}
    {B : Failure → Prop} (h0 : r.peek 0 = some '0') (h1 : r.peek 1 = some c)
    (hc : c.isAlpha = true) (hpred : ∀ d, pred d = true ↔ d ∈ alphabet)
    (halpha : ∀ d ∈ alphabet, (toDigit d radix).isSome = true)
    (hok : ∀ cc s y, Digits alphabet s → NumberOk (cons cc s) y)
    (b1 : r.rest = ['0', c] → B (.error missing))
    (b2 : ∀ d y, r.rest = '0' :: c :: d :: y → d ∉ alphabet → B (.error (.invalidDigit d))) :
    Fails (readRadixInt radix pred cons missing) r B := by
  unfold readRadixInt
  refine Fails.peek2 ?_
  rw [h0, h1]
  refine Fails.debugAssert (by simp) (Fails.debugAssert hc (Fails.posn (Fails.skip h0 ?_)))
  intro r1 a1
  have hr1 : r1.peek 0 = some c := by
    rw [peek_one, a1.rest] at h1
    rw [peek_head]
    exact h1
  refine Fails.read ?_ ?_
  · intro c' r2 a2
    have hcc : c' = c := by
      rw [peek_head, a2.rest] at hr1
      simpa using hr1
    subst hcc
    have hr : r.rest = '0' :: c' :: r2.rest := (a1.cons a2).rest
    refine Fails.seq (readDigitInto_spec (P := fun _ => True) fun d hd => halpha d ((hpred d).1 hd))
      (readDigitInto_fails (fun d hd => halpha d ((hpred d).1 hd)) ?_ ?_) ?_
    · intro he
      exact b1 (by rw [hr, he])
    · intro d s hs hp
      exact b2 d s (by rw [hr, hs]) (fun hm => by rw [(hpred d).2 hm] at hp; cases hp)
    rintro ⟨d, k⟩ r3 ⟨c1, c2, c3⟩
    simp only at c1 c2 c3
    refine Fails.readIntoUntil ?_
    intro s r4 d1 d2 d3
    have hds : Digits alphabet (d :: s) := by
      refine ⟨by simp, fun e he => ?_⟩
      rcases List.mem_cons.1 he with rfl | he
      · exact (hpred _).1 c2
      · exact (hpred e).1 (by simpa using d2 e he)
    obtain ⟨v, hv⟩ := (hok (if c'.isLower then .lowerCase else .upperCase) _ r4.rest hds).value
    exact intoTokenData_fails hv trivial
  · intro h
    rw [peek_head, h] at hr1
    cases hr1

omit [Env] in
theorem readFraction_fails {r : Reader} {B : Failure → Prop} : Fails readFraction r B := by
  unfold readFraction
  refine Fails.matches (fun _ r1 h1 => ?_) (fun _ => Fails.pure)
  simp only [if_true]
  refine Fails.peek ?_
  cases hp : r1.peek 0 with
  | none => exact Fails.pure
  | some ch =>
    refine Fails.ite (fun _ => ?_) (fun _ => Fails.pure)
    exact Fails.readDecimalDigits fun _ _ _ _ _ => Fails.pure

theorem readDotNumber_fails {r : Reader} {d : Char} (h0 : r.peek 0 = some '.')
    (h1 : r.peek 1 = some d) (hd : d ∈ decDigits) :
    Fails readDotNumber r (BadNumber r.rest) := by
  unfold readDotNumber
  refine Fails.posn (Fails.skip h0 ?_)
  intro r1 a1
  refine Fails.readDecimalDigits fun x r2 b1 b2 b3 => ?_
  have hr1 : r1.peek 0 = some d := by
    rw [peek_one, a1.rest] at h1
    rw [peek_head]
    exact h1
  have hx : x ≠ [] := by
    rintro rfl
    have he := b1.rest
    simp only [List.nil_append] at he
    exact b3 d (by rw [← he, ← peek_head, hr1]) hd
  refine Fails.seq (readExpPart_spec (P := fun _ => True)) (readExpPart_fails ?_) ?_
  · intro e sign y he hsign hs hy hr
    have := BadNumber.exponent (src := .float none (some x) none) (y := y) (e := e) (sign := sign)
      trivial (.point ⟨hx, b2⟩ trivial) he hsign hs hy
    have e2 : r.rest = spellNumber (.float none (some x) none) ++ e :: sign ++ y := by
      rw [(a1.trans b1).rest, hr]
      simp [spellNumber, spellExp]
    rwa [e2]
  · rintro e r3 ⟨c1, c2, c3, c4⟩
    have hok : NumberOk (.float none (some x) e) r3.rest := .point ⟨hx, b2⟩ c2
    obtain ⟨v, hv⟩ := hok.value
    exact intoTokenData_fails hv trivial

theorem readDecNumber_fails {r : Reader} {ch : Char} (h0 : r.peek 0 = some ch)
    (hd : ch ∈ decDigits) : Fails (readDecNumber ch) r (BadNumber r.rest) := by
  unfold readDecNumber
  refine Fails.debugAssert (decDigit_dec hd) (Fails.posn ?_)
  refine Fails.readDecimalDigits fun m r1 a1 a2 a3 => ?_
  have hm : m.head? = some ch := by
    have := a1.rest
    cases m with
    | nil =>
      simp only [List.nil_append] at this
      exact absurd hd (a3 ch (by rw [← this, ← peek_head, h0]))
    | cons d m =>
      rw [peek_head, this] at h0
      simpa using h0
  have hne : m ≠ [] := by rintro rfl; simp at hm
  refine Fails.seq (Q := fun src r' => NumberOk src r'.rest) (P := fun _ => True) ?_ ?_ ?_
  · refine Spec.ite (fun hl => ?_) (fun hl => ?_)
    · exact Spec.pure (.legacyOctal ((legacy_iff hm).1 hl))
    · have hl' : ¬ LegacyOctal m := fun h => hl ((legacy_iff hm).2 h)
      refine Spec.seq (readFraction_spec (P := fun _ => True)) (fun _ h => h) ?_
      intro f r2 b
      refine Spec.seq (readExpPart_spec (P := fun _ => True)) (fun _ h => h) ?_
      rintro e r3 ⟨c1, c2, c3, c4⟩
      cases f with
      | some f => exact Spec.pure (.float ⟨hne, a2⟩ hl' b.2.1 c2)
      | none =>
        refine Spec.pure (.decimal ⟨hne, a2⟩ hl' c2 ?_)
        rintro rfl
        have : r3 = r2 := c1.unique (Adv.refl r2)
        rw [this]
        exact b.2
  · refine Fails.ite (fun _ => Fails.pure) (fun hl => ?_)
    have hl' : ¬ LegacyOctal m := fun h => hl ((legacy_iff hm).2 h)
    refine Fails.seq (readFraction_spec (P := fun _ => True)) readFraction_fails ?_
    intro f r2 b
    refine Fails.bind (readExpPart_fails ?_) ?_
    · intro e sign y he hsign hs hy hr
      cases f with
      | some f =>
        have := BadNumber.exponent (src := .float (some m) (some f) none) (y := y) (e := e)
          (sign := sign) trivial (.float ⟨hne, a2⟩ hl' b.2.1 trivial) he hsign hs hy
        have e2 : r.rest = spellNumber (.float (some m) (some f) none) ++ e :: sign ++ y := by
          rw [(a1.trans b.1).rest, hr]
          simp [spellNumber, spellExp]
        rwa [e2]
      | none =>
        have := BadNumber.exponent (src := .decimalInt m none) (y := y) (e := e)
          (sign := sign) trivial (.decimal ⟨hne, a2⟩ hl' trivial (by
            intro _ h
            rcases he with rfl | rfl <;> simp at h)) he hsign hs hy
        have e2 : r.rest = spellNumber (.decimalInt m none) ++ e :: sign ++ y := by
          rw [(a1.trans b.1).rest, hr]
          simp [spellNumber, spellExp]
        rwa [e2]
    · intro e r3 _
      cases f with
      | some f => exact Fails.pure
      | none => exact Fails.pure
  · intro src r2 b2
    obtain ⟨v, hv⟩ := b2.value
    exact intoTokenData_fails hv trivial

theorem readNumber_fails {r : Reader} (hs : NumberStart r.rest) :
    Fails readNumber r (BadNumber r.rest) := by
  unfold readNumber
  refine Fails.peek2 ?_
  refine Fails.seq (readNumberOf_spec (P := fun _ => True) hs) ?_ ?_
  · unfold readNumberOf
    split
    all_goals (try
      (rename_i heq
       simp only [Prod.mk.injEq] at heq
       refine readRadixInt_fails heq.1 heq.2 (by decide) isEsHexDigit_iff
        (some_of_digit toDigit_hex) (fun cc s y h => .hex h) ?_ ?_
       · intro h
         rw [h]
         exact .missing (p := ['0', _]) (digits := hexDigits) (by simp [radixPrefixes])
       · intro d y h hd
         rw [h]
         exact .invalid (p := ['0', _]) (e := .missingHexDigits) (by simp [radixPrefixes]) hd))
    all_goals (try
      (rename_i heq
       simp only [Prod.mk.injEq] at heq
       refine readRadixInt_fails heq.1 heq.2 (by decide) isEsOctDigit_iff
        (some_of_digit toDigit_oct) (fun cc s y h => .oct h) ?_ ?_
       · intro h
         rw [h]
         exact .missing (p := ['0', _]) (digits := octDigits) (by simp [radixPrefixes])
       · intro d y h hd
         rw [h]
         exact .invalid (p := ['0', _]) (e := .missingOctalDigits) (by simp [radixPrefixes]) hd))
    all_goals (try
      (rename_i heq
       simp only [Prod.mk.injEq] at heq
       refine readRadixInt_fails heq.1 heq.2 (by decide) isEsBinDigit_iff
        (some_of_digit toDigit_bin) (fun cc s y h => .bin h) ?_ ?_
       · intro h
         rw [h]
         exact .missing (p := ['0', _]) (digits := binDigits) (by simp [radixPrefixes])
       · intro d y h hd
         rw [h]
         exact .invalid (p := ['0', _]) (e := .missingBinaryDigits) (by simp [radixPrefixes]) hd))
    · rename_i heq
      simp only [Prod.mk.injEq] at heq
      rcases hs with ⟨d, h1, h2⟩ | ⟨h1, d, h2, h3⟩
      · rw [← peek_head, heq.1] at h1
        simp only [Option.some.injEq] at h1
        subst h1
        exact absurd h2 (by decide)
      · exact readDotNumber_fails heq.1 (by rw [peek_one]; exact h2) h3
    · rename_i ch _ h1 h2 h3 h4 h5 h6 hnd heq
      simp only [Prod.mk.injEq] at heq
      refine readDecNumber_fails heq.1 ?_
      rcases hs with ⟨d, h1, h2⟩ | ⟨h1, d, h2, h3⟩
      · rw [← peek_head, heq.1] at h1
        simp only [Option.some.injEq] at h1
        subst h1
        exact h2
      · rw [← peek_head, heq.1] at h1
        simp only [Option.some.injEq] at h1
        exact absurd h1 (by assumption)
    · rename_i heq
      simp only [Prod.mk.injEq] at heq
      rcases hs with ⟨d, h1, h2⟩ | ⟨h1, d, h2, h3⟩
      · rw [← peek_head, heq.1] at h1; cases h1
      · rw [← peek_head, heq.1] at h1; cases h1
  · rintro t r1 ⟨src, v, a1, a2, a3, a4, a5⟩
    refine Fails.peek ?_
    cases hp : r1.peek 0 with
    | none => exact Fails.pure
    | some ch =>
      obtain ⟨y, hy⟩ := peek_some hp
      rw [hy] at a2
      have hst := a5 ch (by rw [hy]; rfl)
      refine Fails.ite (fun hi => Fails.throw ?_) (fun _ => ?_)
      · rw [a1.rest, hy]
        exact .identifier a2 hst ((isEsIdentifierStart_iff ch).1 hi)
      · refine Fails.ite (fun hd => Fails.throw ?_) (fun _ => Fails.pure)
        rw [a1.rest, hy]
        exact .digit a2 hst ((isEsDecDigit_iff ch).1 hd)

/-! ### Tokens -/

theorem readTokenBody_fails [LawfulEnv] (op : Bool) (r : Reader) :
    Fails (readTokenBody op) r (BadToken op r.rest) := by
  cases hrest : r.rest with
  | nil =>
    have hp : r.peek 0 = none := by rw [peek_head, hrest]; rfl
    have : readTokenBody op r = .ok (Token.new r.posn r.posn .eof, r) := by
      unfold readTokenBody
      rw [peek2_bind, hp]
      rfl
    unfold Fails
    rw [this]
    trivial
  | cons c s =>
    have hp : r.peek 0 = some c := by rw [peek_head, hrest]; rfl
    have hq : r.peek 1 = s.head? := by rw [peek_one, hrest]; rfl
    have ev : readTokenBody op r = tokenOf op c s.head? r := by
      unfold readTokenBody
      rw [peek2_bind, hp, hq]
    rw [← hrest]
    have num : NumberStart r.rest → Fails readNumber r (BadToken op r.rest) := by
      intro hs
      exact (readNumber_fails hs).mono fun f hf => .number hf
    by_cases hsl : c = '/' ∧ op = false
    · obtain ⟨rfl, rfl⟩ := hsl
      refine Fails.congr ev ?_
      exact readRegexp_fails rfl hp
    by_cases hdt : c = '.' ∧ ∃ d, s.head? = some d ∧ d ∈ decDigits
    · obtain ⟨rfl, d, hd, hdd⟩ := hdt
      refine Fails.congr ev ?_
      have e1 : tokenOf op '.' s.head? = readNumber := by
        rw [hd]
        show (if isEsDecDigit d = true then readNumber else _) = _
        rw [if_pos (decDigit_dec hdd)]
      rw [e1]
      refine num (.inr ⟨by rw [hrest]; rfl, d, by rw [hrest]; exact hd, hdd⟩)
    by_cases hpu : c ∈ puncHeads
    · have h1 : c = '/' → op = true := by
        intro h
        cases op with
        | true => rfl
        | false => exact absurd ⟨h, rfl⟩ hsl
      have h2 : c = '.' → ∀ d, s.head? = some d → d ∉ decDigits :=
        fun h d hd hdd => hdt ⟨h, d, hd, hdd⟩
      obtain ⟨x, v, r', h3, _⟩ := body_punc (op := op) hrest hpu h1 h2
      unfold Fails
      rw [h3.1]
      trivial
    · refine Fails.congr ev ?_
      rw [not_punc_chain hpu]
      refine Fails.ite (fun hq => readString_fails hp hq) (fun hq => ?_)
      refine Fails.ite (fun hd => ?_) (fun hd => ?_)
      · exact num (.inl ⟨c, by rw [hrest]; rfl, (isEsDecDigit_iff c).1 hd⟩)
      refine Fails.ite (fun hi => ?_) (fun hi => ?_)
      · exact readWord_fails r hp (.inl ((isEsIdentifierStart_iff c).1 hi))
      refine Fails.ite (fun hb => readWord_fails r hp (.inr hb)) (fun hb => Fails.throw ?_)
      rw [hrest]
      refine .illegal ?_ (fun h => hq (.inl h)) (fun h => hq (.inr h))
        (fun h => hd ((isEsDecDigit_iff c).2 h)) (fun h => hi ((isEsIdentifierStart_iff c).2 h)) hb
      intro x v hx hh
      have : ∀ p ∈ punctuators, ∀ c ∈ p.1.head?, c ∈ puncHeads := by decide +kernel
      exact hpu (this _ hx c hh)

end L

/-! ### Trivia -/

/-- Every text begins with trivia, up to a token or an open comment. -/
theorem Lex.trivia_split : ∀ (n : Nat) (s : Str) (e : Bool), s.length < n → ∃ w y e', s = w ++ y ∧
    Trivia e w y e' ∧ (NoTrivia e' y ∨ ∃ b, y = c!"/*" ++ b ∧ ¬ c!"*/" <:+: b)
  | 0, _, _, h => absurd h (by omega)
  | n + 1, s, e, hn => by
    have again : ∀ {x t : Str} (e1 : Bool), s = x ++ t → x ≠ [] →
        (∀ w y e', t = w ++ y → Trivia e1 w y e' → Trivia e (x ++ w) y e') →
        ∃ w y e', s = w ++ y ∧ Trivia e w y e' ∧
          (NoTrivia e' y ∨ ∃ b, y = c!"/*" ++ b ∧ ¬ c!"*/" <:+: b) := by
      intro x t e1 hs hx h
      have : 0 < x.length := List.length_pos_iff.2 hx
      obtain ⟨w, y, e', h1, h2, h3⟩ := trivia_split n t e1 (by
        rw [hs] at hn; simp only [List.length_append] at hn; omega)
      exact ⟨x ++ w, y, e', by rw [hs, h1, List.append_assoc], h w y e' h1 h2, h3⟩
    have line : ∀ {k t : Str}, s = k ++ t → k ≠ [] → (∀ b, OneLine b → LineComment e (k ++ b)) →
        ∃ w y e', s = w ++ y ∧ Trivia e w y e' ∧
          (NoTrivia e' y ∨ ∃ b, y = c!"/*" ++ b ∧ ¬ c!"*/" <:+: b) := by
      intro k t hs hk hc
      have hsp := L.spanWhile_spec (fun c => !isEsNewline c) t Posn.origin
      generalize (L.spanWhile (fun c => !isEsNewline c) t Posn.origin).1 = b at hsp
      generalize (L.spanWhile (fun c => !isEsNewline c) t Posn.origin).2 = r at hsp
      obtain ⟨h1, h2, h3⟩ := hsp
      have ht : t = b ++ r.rest := h1.rest
      refine again (x := k ++ b) (t := r.rest) e (by rw [hs, ht, List.append_assoc])
        (by simp [hk]) ?_
      intro w y e' hw htr
      refine .line (hc b fun d hd => (isEsNewline_false d).1 (by simpa using h2 d hd)) ?_ htr
      intro d hd
      exact (isEsNewline_iff d).1 (by simpa using h3 d (by rw [hw]; exact hd))
    by_cases hsp : ∀ c, s.head? = some c → c ∉ whiteSpace ∧ c ∉ lineTerminators
    · by_cases h1 : c!"//" <+: s
      · obtain ⟨t, ht⟩ := h1
        exact line ht.symm (by simp) fun b hb => .slashes hb
      by_cases h2 : c!"/*" <+: s
      · obtain ⟨t, ht⟩ := h2
        have hb := L.blockLoop_spec t Posn.origin false
        cases hbl : L.blockLoop t Posn.origin false with
        | ok v =>
          obtain ⟨nl', r'⟩ := v
          rw [hbl] at hb
          obtain ⟨b, b1, b2, b3⟩ := hb
          refine again (x := c!"/*" ++ b ++ c!"*/") (t := r'.rest) e ?_ (by simp) ?_
          · have := b1.rest
            simp only at this
            rw [← ht, this]
            simp
          · intro w y e' _ htr
            exact .block (.mk b2) htr
        | err x =>
          rw [hbl] at hb
          exact ⟨[], s, e, rfl, .nil, .inr ⟨t, ht.symm, hb⟩⟩
        | panic x => rw [hbl] at hb; exact hb.elim
        | fuel => rw [hbl] at hb; exact hb.elim
      by_cases h3 : c!"<!--" <+: s
      · obtain ⟨t, ht⟩ := h3
        exact line ht.symm (by simp) fun b hb => .htmlOpen hb
      by_cases h4 : e = true ∧ c!"-->" <+: s
      · obtain ⟨rfl, t, ht⟩ := h4
        exact line ht.symm (by simp) fun b hb => .htmlClose hb
      exact ⟨[], s, e, rfl, .nil, .inl ⟨hsp, h1, h2, h3, fun he hp => h4 ⟨he, hp⟩⟩⟩
    · cases s with
      | nil => exact absurd (by simp) hsp
      | cons c s =>
        simp only [List.head?_cons, Option.some.injEq, forall_eq'] at hsp
        by_cases hw : c ∈ whiteSpace
        · exact again (x := [c]) (t := s) e rfl (by simp) fun w y e' _ htr => .space hw htr
        · have hl : c ∈ lineTerminators := by
            by_cases hl : c ∈ lineTerminators
            · exact hl
            · exact absurd ⟨hw, hl⟩ hsp
          exact again (x := [c]) (t := s) true rfl (by simp) fun w y e' _ htr => .newline hl htr

/-! ### The next token -/

variable [Env]

/-- The failure of a result. -/
def Res.Failed {α : Type} (r : Res LexError α) (f : Failure) : Prop :=
  r = (match f with | .error e => .err e | .panic p => .panic p)

/-- A failure to read a token is a defect of the text at that place. -/
theorem readNextToken_fails [LawfulEnv] {s : Str} {k : Nat} {e : Bool} {l : Lexer}
    (h : l.At s k e) (op : Bool) {f : Failure} (hf : (l.readNextToken op).Failed f) :
    Malformed e op (s.drop k) f := by
  unfold Lexer.readNextToken at hf
  obtain ⟨w, y, e', h1, h2, h3⟩ := trivia_split (l.reader.rest.length + 1) l.reader.rest
    l.emptyLine (Nat.lt_succ_self _)
  have hl : l.reader = ⟨w ++ y, l.reader.posn⟩ := by
    cases hh : l.reader; simp_all
  have hn : (w ++ y).length < l.reader.rest.length + 1 := by rw [h1]; exact Nat.lt_succ_self _
  rw [← h.rest, h1]
  rw [h.empty] at h2
  rcases h3 with h3 | ⟨b, rfl, h3⟩
  · have ht := L.triviaLoop_eval (l.reader.rest.length + 1) l.emptyLine false e' w y
      l.reader.posn hn (by rw [h.empty]; exact h2) h3
    rw [← hl] at ht
    rw [ht] at hf
    simp only [Res.bind] at hf
    refine .token h2 h3 ?_
    have hb := L.readTokenBody_fails op ⟨y, pos l.reader.posn w y⟩
    unfold L.Fails at hb
    unfold Res.Failed at hf
    cases hm : L.readTokenBody op ⟨y, pos l.reader.posn w y⟩ with
    | ok v => rw [hm] at hf; cases f <;> cases hf
    | err x => rw [hm] at hf hb; cases f <;> cases hf; exact hb
    | panic x => rw [hm] at hf hb; cases f <;> cases hf; exact hb
    | fuel => rw [hm] at hf; cases f <;> cases hf
  · have ht := L.triviaLoop_open (l.reader.rest.length + 1) l.emptyLine false e' w b
      l.reader.posn hn (by rw [h.empty]; exact h2) h3
    rw [← hl] at ht
    rw [ht] at hf
    unfold Res.Failed at hf
    simp only [Res.bind] at hf
    cases f with
    | error x => cases hf; exact .comment h2 h3
    | panic x => cases hf

end Esprit
