import Verif.Proofs.LexFault
import Verif.Proofs.LexSeq

/-!
The converse of `LexFault.lean`: on a malformed text the lexer fails, with the
failure that `Spec/LexFault.lean` assigns to it.
-/

namespace Esprit

open Lex

/-- The result that a failure is. -/
def Lex.Failure.res {α : Type} : Failure → Res LexError α
  | .error e => .err e
  | .panic p => .panic p

namespace L

/-- The run of `m` from `r` fails with `f`. -/
def Ends (m : L α) (r : Reader) (f : Failure) : Prop := m r = f.res

theorem Ends.bind {m : L α} {g : α → L β} {r : Reader} {f : Failure} (h : Ends m r f) :
    Ends (m >>= g) r f := by
  unfold Ends at h ⊢
  rw [bind_apply, h]
  cases f <;> rfl

theorem Ends.seq {m : L α} {g : α → L β} {r r1 : Reader} {x : Str} {a : α} {f : Failure}
    (h1 : Runs m r x a r1) (h2 : Ends (g a) r1 f) : Ends (m >>= g) r f := by
  unfold Ends at h2 ⊢
  rw [bind_apply, h1.1]
  exact h2

theorem Ends.then {m : L α} {g : α → L β} {r r1 : Reader} {a : α} {f : Failure}
    (h1 : m r = .ok (a, r1)) (h2 : Ends (g a) r1 f) : Ends (m >>= g) r f := by
  unfold Ends at h2 ⊢
  rw [bind_apply, h1]
  exact h2

theorem Ends.posn {g : Posn → L β} {r : Reader} {f : Failure} (h : Ends (g r.posn) r f) :
    Ends (L.posn >>= g) r f := h

theorem Ends.peek {g : Option Char → L β} {r : Reader} {o : Option Char} {f : Failure}
    (ho : r.rest.head? = o) (h : Ends (g o) r f) : Ends (L.peek >>= g) r f := by
  rcases r with ⟨s, p⟩
  subst ho
  have : (⟨s, p⟩ : Reader).peek 0 = s.head? := peek_zero s p
  unfold Ends
  rw [peek_bind, this]
  exact h

theorem Ends.throw {e : LexError} {r : Reader} : Ends (L.throw e : L α) r (.error e) := rfl

theorem Ends.read {r : Reader} (h : r.rest = []) : Ends L.read r (.panic .readPastEnd) := by
  rcases r with ⟨s, p⟩
  simp only at h
  subst h
  rfl

theorem Ends.reread {r : Reader} {c : Char} (h : r.rest = []) :
    Ends (L.reread c) r (.panic .readPastEnd) := by
  rcases r with ⟨s, p⟩
  simp only at h
  subst h
  rfl

theorem untilLoop_ends {α : Type} {pred : Char → Bool} {body : L (List α)} {n : Nat} {c : Char}
    {r : Reader} {f : Failure} (hr : r.rest.head? = some c) (h : pred c = false)
    (hb : Ends body r f) : Ends (untilLoop pred body (n + 1)) r f := by
  rcases r with ⟨_ | ⟨d, s⟩, p⟩
  · simp at hr
  · simp only [List.head?_cons, Option.some.injEq] at hr
    subst hr
    unfold Ends at hb ⊢
    rw [untilLoop_step h, hb]
    cases f <;> rfl

theorem untilLoop_ends_step {α : Type} {pred : Char → Bool} {body : L (List α)} {n : Nat}
    {c : Char} {r r1 : Reader} {x : Str} {a : List α} {f : Failure}
    (hr : r.rest.head? = some c) (h : pred c = false)
    (hb : Runs body r x a r1) (hl : Ends (untilLoop pred body n) r1 f) :
    Ends (untilLoop pred body (n + 1)) r f := by
  rcases r with ⟨_ | ⟨d, s⟩, p⟩
  · simp at hr
  · simp only [List.head?_cons, Option.some.injEq] at hr
    subst hr
    unfold Ends at hl ⊢
    rw [untilLoop_step h, hb.1]
    simp only [Res.bind, hl]
    cases f <;> rfl

/-! ### Hexadecimal digits -/

theorem readDigitInto_invalid {radix : Nat} {pred : Char → Bool} {missing : LexError} {c : Char}
    {r : Reader} (hr : r.rest.head? = some c) (hp : pred c = false) :
    Ends (readDigitInto radix pred missing) r (.error (.invalidDigit c)) := by
  unfold readDigitInto
  refine Ends.peek hr ?_
  simp only [hp, Bool.false_eq_true, if_false]
  exact Ends.throw

theorem readDigitInto_missing {radix : Nat} {pred : Char → Bool} {missing : LexError}
    {r : Reader} (hr : r.rest = []) :
    Ends (readDigitInto radix pred missing) r (.error missing) := by
  unfold readDigitInto
  refine Ends.peek (o := none) (by rw [hr]; rfl) ?_
  exact Ends.throw

theorem readHexDigitInto_invalid {c : Char} {r : Reader} (hr : r.rest.head? = some c)
    (hc : c ∉ hexDigits) : Ends readHexDigitInto r (.error (.invalidDigit c)) := by
  refine readDigitInto_invalid hr ?_
  rw [Bool.eq_false_iff]
  exact fun h => hc ((isEsHexDigit_iff c).1 h)

theorem readHexDigitInto_missing {r : Reader} (hr : r.rest = []) :
    Ends readHexDigitInto r (.error .missingHexDigits) := readDigitInto_missing hr

theorem readHexDigitInto_runs {c : Char} {s : Str} {r : Reader} (hr : r.rest = c :: s)
    (hc : c ∈ hexDigits) :
    ∃ r1, r1.rest = s ∧ Runs readHexDigitInto r [c] (c, digitVal c) r1 :=
  Runs.of_eval (x := [c]) (y := s) hr (fun p => readHexDigitInto_eval (p := p) hc)

theorem fourHex_ends {f : Failure} : ∀ (k place code : Nat) (s : Str) (r : Reader), r.rest = s →
    BadHex k s f → Ends (fourHex k place code) r f
  | 0, _, _, _, _, _, h => by cases h <;> rename_i h _ _ <;> exact absurd h (by omega)
  | k + 1, place, code, s, r, hr, h => by
    unfold fourHex
    cases h with
    | @invalid ds y c hn hd hc =>
      cases ds with
      | nil => exact (readHexDigitInto_invalid (by rw [hr]; rfl) hc).bind
      | cons d ds =>
        obtain ⟨r1, a1, a2⟩ := readHexDigitInto_runs hr (hd d (by simp))
        refine Ends.seq a2 (Ends.bind ?_)
        exact fourHex_ends k _ _ _ r1 a1
          (.invalid (by simp at hn; omega) (fun e he => hd e (by simp [he])) hc)
    | missing hn hd =>
      cases s with
      | nil => exact (readHexDigitInto_missing hr).bind
      | cons d ds =>
        obtain ⟨r1, a1, a2⟩ := readHexDigitInto_runs hr (hd d (by simp))
        refine Ends.seq a2 (Ends.bind ?_)
        exact fourHex_ends k _ _ _ r1 a1
          (.missing (by simp at hn; omega) (fun e he => hd e (by simp [he])))

variable [Env]

/-! ### Unicode escapes -/

omit [Env] in
theorem hexLoop_invalid : ∀ (ds y : Str) (c : Char) (n : Nat) (r : Reader), ds.length < n →
    (∀ d ∈ ds, d ∈ hexDigits) → c ∉ hexDigits → c ≠ '}' → r.rest = ds ++ c :: y →
    Ends (untilLoop (fun ch => ch = '}') hexBody n) r (.error (.invalidDigit c))
  | _, _, _, 0, _, h, _, _, _, _ => absurd h (by omega)
  | [], y, c, n + 1, r, _, _, hc, hb, hr =>
    untilLoop_ends (c := c) (by rw [hr]; rfl) (by simpa using hb)
      (Ends.bind (readHexDigitInto_invalid (by rw [hr]; rfl) hc))
  | d :: ds, y, c, n + 1, r, hn, hd, hc, hb, hr => by
    obtain ⟨r1, a1, a2⟩ := readHexDigitInto_runs hr (hd d (by simp))
    have hne : decide (d = '}') = false := by
      have := hd d (by simp)
      rw [decide_eq_false_iff_not]
      rintro rfl
      revert this
      decide
    refine untilLoop_ends_step (c := d) (by rw [hr]; rfl) hne
      (Runs.map (b := [(d, digitVal d)]) a2 rfl) ?_
    exact hexLoop_invalid ds y c n r1 (by simp at hn; omega) (fun e he => hd e (by simp [he]))
      hc hb a1

omit [Env] in
theorem hexLoop_eof : ∀ (ds : Str) (n : Nat) (r : Reader), ds.length < n →
    (∀ d ∈ ds, d ∈ hexDigits) → r.rest = ds →
    ∃ as r1, r1.rest = [] ∧ Runs (untilLoop (fun ch => ch = '}') hexBody n) r ds as r1
  | _, 0, _, h, _, _ => absurd h (by omega)
  | [], n + 1, r, _, _, hr => by
    rcases r with ⟨s, p⟩
    simp only at hr
    subst hr
    exact ⟨[], _, rfl, untilLoop_stop (by simp), Adv.refl _⟩
  | d :: ds, n + 1, r, hn, hd, hr => by
    obtain ⟨r1, a1, a2⟩ := readHexDigitInto_runs hr (hd d (by simp))
    have hne : decide (d = '}') = false := by
      have := hd d (by simp)
      rw [decide_eq_false_iff_not]
      rintro rfl
      revert this
      decide
    obtain ⟨as, r2, b1, b2⟩ := hexLoop_eof ds n r1 (by simp at hn; omega)
      (fun e he => hd e (by simp [he])) a1
    have hb : Runs hexBody r [d] [(d, digitVal d)] r1 := Runs.map a2 rfl
    refine ⟨(d, digitVal d) :: as, r2, b1, ?_, a2.2.trans b2.2⟩
    rw [(Adv.inv a2.2).1, untilLoop_step hne, ← (Adv.inv a2.2).1, hb.1]
    simp only [Res.bind, b2.1]
    rfl

theorem readUnicodeEscapeSeq_ends {s : Str} {f : Failure} {r : Reader} (h : BadEscape s f)
    (hr : r.rest = s) : Ends readUnicodeEscapeSeq r f := by
  unfold readUnicodeEscapeSeq
  have brace : ∀ {s' : Str} {g : L (Str × Nat)}, s = '{' :: s' →
      (∀ r1, r1.rest = s' → Ends g r1 f) →
      Ends (L.matches '{' >>= fun b => if b = true then g else fourHex 4 0x1000 0) r f := by
    intro s' g hs hg
    obtain ⟨r1, a1, a2⟩ := Runs.cons (c := '{') (s := s') (by rw [hr, hs])
    refine Ends.seq (Runs.matches_true a1) ?_
    simp only [if_true]
    exact hg r1 a2
  cases h with
  | four h1 h2 =>
    refine Ends.seq (Runs.matches_false (by rw [hr]; exact h1)) ?_
    simp only [Bool.false_eq_true, if_false]
    exact fourHex_ends 4 _ _ s r hr h2
  | @invalid ds y c h1 h2 h3 =>
    refine brace rfl fun r1 hr1 => ?_
    cases ds with
    | nil => exact (readHexDigitInto_invalid (by rw [hr1]; rfl) h2).bind
    | cons d ds =>
      obtain ⟨r2, a1, a2⟩ := readHexDigitInto_runs hr1 (h1 d (by simp))
      refine Ends.seq a2 (Ends.bind ?_)
      exact hexLoop_invalid ds y c (r2.rest.length + 1) r2 (by rw [a1]; simp; omega)
        (fun e he => h1 e (by simp [he])) h2 (fun h => by simpa using h3 h) a1
  | missing => exact brace rfl fun r1 hr1 => (readHexDigitInto_missing hr1).bind
  | @eof ds h1 h2 =>
    refine brace rfl fun r1 hr1 => ?_
    cases ds with
    | nil => exact absurd rfl h1
    | cons d ds =>
      obtain ⟨r2, a1, a2⟩ := readHexDigitInto_runs hr1 (h2 d (by simp))
      obtain ⟨as, r3, b1, b2⟩ := hexLoop_eof ds (r2.rest.length + 1) r2 (by rw [a1]; omega)
        (fun e he => h2 e (by simp [he])) a1
      refine Ends.seq a2 (Ends.seq (m := readUntilWith _ _) (a := as) (r1 := r3) (x := ds)
        ⟨b2.1, b2.2⟩ ?_)
      exact (Ends.reread b1).bind
  | @overflow ds y h1 h2 h3 =>
    refine brace rfl fun r1 hr1 => ?_
    cases ds with
    | nil => simp at h2
    | cons d ds =>
      obtain ⟨r2, a1, a2⟩ := readHexDigitInto_runs hr1 (h1 d (by simp))
      obtain ⟨r3, b1, b2⟩ := Runs.of_eval (x := ds) (y := '}' :: y) a1
        (fun p => hexRun_eval ds y p (r2.rest.length + 1) (by rw [a1]; simp; omega)
          (fun e he => h1 e (by simp [he])))
      obtain ⟨r4, c1, c2⟩ := Runs.cons b1
      refine Ends.seq a2 (Ends.seq (m := readUntilWith _ _) (r1 := r3) (x := ds)
        ⟨b2.1, b2.2⟩ (Ends.seq (Runs.reread c1) (Ends.bind ?_)))
      have e : List.map (fun x => x.2) ((d, digitVal d) :: List.map (fun c => (c, digitVal c)) ds) =
          (d :: ds).map digitVal := by simp
      unfold Ends
      rw [e, addDigits_eval _ _ h1, if_pos ⟨h3, h2⟩]
      rfl

/-! ### Words -/

theorem readWordParts_prefix {x t : Str} {b : Bool} {f : Failure} (h : WordParts x b t) :
    ∀ {y : Str} {r : Reader} {n : Nat}, r.rest = x ++ y → x.length < n →
      (∀ r1 m, r1.rest = y →
        Ends (untilLoop (fun ch => ch ≠ '\\' && !isEsIdentifierContinue ch) readWordPart (m + 1))
          r1 f) →
      Ends (untilLoop (fun ch => ch ≠ '\\' && !isEsIdentifierContinue ch) readWordPart n) r f := by
  induction h with
  | nil =>
    intro y r n hr hn hy
    cases n with
    | zero => simp at hn
    | succ n => exact hy r n hr
  | @plain c x t b hc hi _ ih =>
    intro y r n hr hn hy
    cases n with
    | zero => simp at hn
    | succ n =>
      obtain ⟨r1, h1, hr1⟩ := Runs.cons (c := c) (s := x ++ y) (by simpa using hr)
      have hp : (decide (c ≠ '\\') && !isEsIdentifierContinue c) = false := by
        rw [(isEsIdentifierContinue_iff c).2 hi]; simp
      have hb : Runs readWordPart r [c] [(false, c)] r1 := by
        refine (Runs.read h1).map ?_
        simp [hc, pure_apply]
      exact untilLoop_ends_step (by rw [hr]; rfl) hp hb (ih hr1 (by simp at hn; omega) hy)
  | @escape u x t code c b hu hc _ ih =>
    intro y r n hr hn hy
    cases n with
    | zero => simp at hn
    | succ n =>
      obtain ⟨r1, h1, hr1⟩ := Runs.cons (c := '\\') (s := 'u' :: (u ++ (x ++ y))) (by simpa using hr)
      obtain ⟨r2, h2, hr2⟩ := Runs.cons hr1
      obtain ⟨r3, hr3, h3⟩ := Runs.of_eval hr2 (fun p => readUnicodeEscapeSeq_eval (p := p) hu)
      have hp : (decide ('\\' ≠ '\\') && !isEsIdentifierContinue '\\') = false := by simp
      have he : Runs readWordEscape r1 ('u' :: u) c r3 := by
        unfold readWordEscape
        refine Runs.peek (o := some 'u') (by rw [hr1]; rfl) ?_
        simp only [if_true]
        refine (Runs.reread h2).bind (h3.map ?_)
        simp only [← hc, charFromU32_toNat]
        rfl
      have hb : Runs readWordPart r ('\\' :: 'u' :: u) [(true, c)] r3 := by
        unfold readWordPart
        refine (Runs.read h1).bind ?_
        simp only [if_true]
        exact he.map rfl
      exact untilLoop_ends_step (c := '\\') (by rw [hr]; rfl) hp hb
        (ih hr3 (by simp at hn; omega) hy)

theorem readWordParts_ends {s : Str} {f : Failure} {r : Reader} (h : BadWord s f)
    (hr : r.rest = s) : Ends readWordParts r f := by
  unfold readWordParts
  refine Ends.bind ?_
  have key : ∀ {x t y : Str} {b : Bool}, WordParts x b t → s = x ++ '\\' :: y →
      (∀ r1, r1.rest = y → Ends readWordEscape r1 f) →
      Ends (readUntilWith (fun ch => ch ≠ '\\' && !isEsIdentifierContinue ch) readWordPart) r f := by
    intro x t y b hx hs he
    subst hs
    refine readWordParts_prefix hx (n := r.rest.length + 1) hr (by rw [hr]; simp; omega) ?_
    intro r1 m hr1
    refine untilLoop_ends (c := '\\') (by rw [hr1]; rfl) (by simp) ?_
    obtain ⟨r2, a1, a2⟩ := Runs.cons hr1
    unfold readWordPart
    refine Ends.seq (Runs.read a1) ?_
    simp only [if_true]
    exact (he r2 a2).bind
  cases h with
  | @incomplete x t y esc h1 h2 =>
    refine key h1 rfl fun r1 hr1 => ?_
    unfold readWordEscape
    refine Ends.peek (o := y.head?) (by rw [hr1]) ?_
    simp only [h2, if_false]
    exact Ends.throw
  | @escape x t y esc f h1 h2 =>
    refine key h1 (y := 'u' :: y) (by simp) fun r1 hr1 => ?_
    obtain ⟨r2, a1, a2⟩ := Runs.cons hr1
    unfold readWordEscape
    refine Ends.peek (o := some 'u') (by rw [hr1]; rfl) ?_
    simp only [if_true]
    exact Ends.seq (Runs.reread a1) (readUnicodeEscapeSeq_ends h2 a2).bind
  | @illegal x t u y esc code h1 h2 h3 =>
    refine key h1 (y := 'u' :: (u ++ y)) (by simp) fun r1 hr1 => ?_
    obtain ⟨r2, a1, a2⟩ := Runs.cons hr1
    obtain ⟨r3, b1, b2⟩ := Runs.of_eval a2 (fun p => readUnicodeEscapeSeq_eval (p := p) h2)
    unfold readWordEscape
    refine Ends.peek (o := some 'u') (by rw [hr1]; rfl) ?_
    simp only [if_true]
    refine Ends.seq (Runs.reread a1) (Ends.seq b2 ?_)
    have : charFromU32 code = none := by simp [charFromU32, h3]
    simp only [this]
    exact Ends.throw

theorem readWord_ends {s : Str} {f : Failure} {r : Reader} {c : Char} (hc : s.head? = some c)
    (hs : IdStart c ∨ c = '\\') (h : BadWord s f) (hr : r.rest = s) : Ends readWord r f := by
  have hb : (c = '\\' || isEsIdentifierStart c) = true := by
    rcases hs with hs | hs
    · rw [(isEsIdentifierStart_iff c).2 hs]; simp
    · simp [hs]
  unfold readWord
  refine Ends.peek (o := some c) (by rw [hr, hc]) ?_
  refine Ends.seq (Runs.debugAssert (r := r) (b := (c = '\\' || isEsIdentifierStart c))
    (by simpa using hb)) ?_
  refine Ends.posn ?_
  exact (readWordParts_ends h hr).bind

theorem readWord_reserved {x y t : Str} {w : Reserved} {r : Reader} {c : Char}
    (hx : x.head? = some c) (hs : IdStart c ∨ c = '\\') (h1 : WordParts x true t)
    (h2 : WordEnd y) (h3 : (t, w) ∈ reservedWords) (hr : r.rest = x ++ y) :
    Ends readWord r (.error (.reservedWordWithEscapes w)) := by
  obtain ⟨r', h5, h6⟩ := readWordParts_eval h1 h2 hr
  have hb : (c = '\\' || isEsIdentifierStart c) = true := by
    rcases hs with hs | hs
    · rw [(isEsIdentifierStart_iff c).2 hs]; simp
    · simp [hs]
  have hne : t ≠ [] := by
    generalize hb : true = b at h1
    cases h1 with
    | nil => simp at hx
    | plain => simp_all
    | escape => simp_all
  unfold readWord
  refine Ends.peek (o := some c) (by rw [hr]; cases x <;> simp_all) ?_
  refine Ends.seq (Runs.debugAssert (r := r) (b := (c = '\\' || isEsIdentifierStart c))
    (by simpa using hb)) ?_
  refine Ends.posn ?_
  refine Ends.seq h6 ?_
  refine Ends.seq (Runs.debugAssert (by simpa using hne)) ?_
  refine Ends.bind ?_
  unfold Ends tokenize
  rw [(reserved_iff t w).2 h3]
  rfl

/-! ### Strings -/

/-- What `stringLoop` does after a run of plain characters. -/
def stringTail (quote : Char) (n : Nat) (s : Str) : L (Str × Str) := do
  match ← L.peek with
  | some ch =>
    if ch = '\\' then do
      let (es, ev) ← readStringEscape
      let (ss, sv) ← stringLoop quote n
      pure (s ++ es ++ ss, s ++ ev ++ sv)
    else if isEsNewline ch then throw (.unterminatedString (some ch))
    else do
      skip
      pure (s ++ [quote], s)
  | none => throw (.unterminatedString none)

theorem stringLoop_succ (q : Char) (n : Nat) : stringLoop q (n + 1) =
    (readInto2Until (fun ch => ch = q || ch = '\\' || isEsNewline ch) >>= stringTail q n) := rfl

/-- The plain characters at the start of an open string. -/
theorem stringOpen_split {q : Char} {x y : Str} (h : StringOpen q x y) :
    ∃ s, (∀ c ∈ s, c ≠ q ∧ c ≠ '\\' ∧ c ∉ lineTerminators) ∧
      (x = s ∨ ∃ e ev x', x = s ++ e ++ x' ∧
        e.head? = some '\\' ∧ StringPiece q e (x' ++ y) ev ∧ StringOpen q x' y) := by
  induction h with
  | nil => exact ⟨[], by simp, .inl rfl⟩
  | @piece p v x y h1 h2 ih =>
    have esc : p.head? = some '\\' → ∃ s, (∀ c ∈ s, c ≠ q ∧ c ≠ '\\' ∧ c ∉ lineTerminators) ∧
      (p ++ x = s ∨ ∃ e ev x', p ++ x = s ++ e ++ x' ∧
        e.head? = some '\\' ∧ StringPiece q e (x' ++ y) ev ∧ StringOpen q x' y) := fun hp =>
      ⟨[], by simp, .inr ⟨p, v, x, rfl, hp, h1, h2⟩⟩
    generalize hz : x ++ y = z at h1
    cases h1 with
    | @plain c y a1 a2 a3 =>
      obtain ⟨s, hs, h⟩ := ih
      refine ⟨c :: s, ?_, ?_⟩
      · intro d hd
        rcases List.mem_cons.1 hd with rfl | hd
        · exact ⟨a1, a2, a3⟩
        · exact hs d hd
      · rcases h with rfl | ⟨e, ev, x', rfl, b1, b2, b3⟩
        · exact .inl rfl
        · exact .inr ⟨e, ev, x', by simp, b1, b2, b3⟩
    | simple => exact esc rfl
    | continuation => exact esc rfl
    | continuationCRLF => exact esc rfl
    | hex => exact esc rfl
    | unicode => exact esc rfl
    | octal => exact esc rfl

theorem stringLoop_prefix {q : Char} {y : Str} {f : Failure}
    (hy : ∀ c, y.head? = some c → c = '\\' ∨ c ∈ lineTerminators)
    (hf : ∀ n s r, r.rest = y → y.length ≤ n → Ends (stringTail q n s) r f) :
    ∀ (n : Nat) {x : Str} {r : Reader}, StringOpen q x y → r.rest = x ++ y →
      (x ++ y).length < n → Ends (stringLoop q n) r f
  | 0, _, _, _, _, h => absurd h (by omega)
  | n + 1, x, r, h, hr, hn => by
    have hplain : ∀ {s : Str}, (∀ c ∈ s, c ≠ q ∧ c ≠ '\\' ∧ c ∉ lineTerminators) →
        ∀ c ∈ s, (decide (c = q) || decide (c = '\\') || isEsNewline c) = false := by
      intro s hs c hc
      obtain ⟨a1, a2, a3⟩ := hs c hc
      simp [a1, a2, (isEsNewline_false c).2 a3]
    rw [stringLoop_succ]
    obtain ⟨s, hs, rfl | ⟨e, ev, x', rfl, b1, b2, b3⟩⟩ := stringOpen_split h
    · obtain ⟨r1, a1, a2⟩ := Runs.readIntoUntil (r := r) (x := x) (y := y) hr (hplain hs) (by
        intro c hc
        rcases hy c hc with h | h
        · simp [h]
        · simp [(isEsNewline_iff c).2 h])
      refine Ends.seq (m := readInto2Until _) a2 (hf n x r1 a1 ?_)
      simp at hn
      omega
    · obtain ⟨t, rfl⟩ : ∃ t, e = '\\' :: t := by
        cases e with
        | nil => simp at b1
        | cons c t => simp at b1; exact ⟨t, by rw [b1]⟩
      obtain ⟨r1, a1, a2⟩ := Runs.readIntoUntil (r := r) (x := s) (y := '\\' :: t ++ (x' ++ y))
        (by rw [hr]; simp) (hplain hs) (by intro c hc; simp at hc; simp [← hc])
      obtain ⟨r2, a3, a4⟩ := readStringEscape_eval b2 rfl a1
      refine Ends.seq (m := readInto2Until _) a2 ?_
      unfold stringTail
      refine Ends.peek (o := some '\\') (by rw [a1]; rfl) ?_
      simp only [if_true]
      refine Ends.seq a4 (Ends.bind ?_)
      exact stringLoop_prefix hy hf n b3 a3 (by
        simp only [List.length_append, List.length_cons] at hn ⊢; omega)

theorem stringTail_escape {q : Char} {n : Nat} {s y : Str} {r : Reader} {f : Failure}
    (hr : r.rest = '\\' :: y) (h : Ends readStringEscape r f) : Ends (stringTail q n s) r f := by
  unfold stringTail
  refine Ends.peek (o := some '\\') (by rw [hr]; rfl) ?_
  simp only [if_true]
  exact h.bind

theorem stringTail_eof {q : Char} {n : Nat} {s : Str} {r : Reader} (hr : r.rest = []) :
    Ends (stringTail q n s) r (.error (.unterminatedString none)) := by
  unfold stringTail
  refine Ends.peek (o := none) (by rw [hr]; rfl) ?_
  exact Ends.throw

theorem stringLoop_ends {q : Char} {s : Str} {f : Failure} {r : Reader} {n : Nat}
    (h : BadString q s f) (hr : r.rest = s) (hn : s.length < n) : Ends (stringLoop q n) r f := by
  have e1 : isEsOctDigit 'u' = false ∧ 'u' ≠ 'x' ∧ isEsOctDigit 'x' = false := by decide
  cases h with
  | eof h =>
    refine stringLoop_prefix (y := []) (by simp) ?_ n h (by simpa using hr) (by simpa using hn)
    intro n s r1 hr1 _
    exact stringTail_eof hr1
  | @backslash x h =>
    refine stringLoop_prefix (y := ['\\']) (by simp) ?_ n h hr hn
    intro n s r1 hr1 hn
    obtain ⟨m, rfl⟩ : ∃ m, n = m + 1 := ⟨n - 1, by simp at hn; omega⟩
    obtain ⟨r2, a1, a2⟩ := Runs.cons hr1
    have hesc : Runs readStringEscape r1 ['\\'] (['\\'], []) r2 := by
      unfold readStringEscape
      refine (Runs.reread a1).bind (x2 := []) ?_
      refine Runs.peek (o := none) (by rw [a2]; rfl) ?_
      exact Runs.pure _ _
    unfold stringTail
    refine Ends.peek (o := some '\\') (by rw [hr1]; rfl) ?_
    simp only [if_true]
    refine Ends.seq hesc (Ends.bind ?_)
    exact stringLoop_prefix (x := []) (y := []) (by simp) (fun n s r hr _ => stringTail_eof hr)
      (m + 1) .nil (by simpa using a2) (by simp)
  | @newline x y c h hc =>
    refine stringLoop_prefix (by simp [hc]) ?_ n h hr hn
    intro n s r1 hr1 _
    unfold stringTail
    refine Ends.peek (o := some c) (by rw [hr1]; rfl) ?_
    have : c ≠ '\\' := by
      rintro rfl
      exact absurd hc (by decide)
    simp only [this, (isEsNewline_iff c).2 hc, if_true, if_false]
    exact Ends.throw
  | @hex x y f h hb =>
    refine stringLoop_prefix (by simp) ?_ n h hr hn
    intro n s r1 hr1 _
    refine stringTail_escape hr1 ?_
    obtain ⟨r2, a1, a2⟩ := Runs.cons (c := '\\') (s := 'x' :: y) hr1
    obtain ⟨r3, a3, a4⟩ := Runs.cons a2
    unfold readStringEscape
    refine Ends.seq (Runs.reread a1) ?_
    refine Ends.peek (o := some 'x') (by rw [a2]; rfl) ?_
    simp only [e1.2.2, Bool.false_eq_true, if_false, if_true]
    refine Ends.seq (Runs.reread a3) ?_
    cases hb with
    | @invalid ds y c b1 b2 b3 =>
      match ds, b1, b2, a4 with
      | [], _, _, a4 => exact (readHexDigitInto_invalid (by rw [a4]; rfl) b3).bind
      | [d], _, b2, a4 =>
        obtain ⟨r4, c1, c2⟩ := readHexDigitInto_runs a4 (b2 d (by simp))
        exact Ends.seq c2 (readHexDigitInto_invalid (by rw [c1]; rfl) b3).bind
      | _ :: _ :: _, b1, _, _ => simp at b1; omega
    | missing b1 b2 =>
      match y, b1, b2, a4 with
      | [], _, _, a4 => exact (readHexDigitInto_missing a4).bind
      | [d], _, b2, a4 =>
        obtain ⟨r4, c1, c2⟩ := readHexDigitInto_runs a4 (b2 d (by simp))
        exact Ends.seq c2 (readHexDigitInto_missing c1).bind
      | _ :: _ :: _, b1, _, _ => simp at b1; omega
  | @unicode x y f h hb =>
    refine stringLoop_prefix (by simp) ?_ n h hr hn
    intro n s r1 hr1 _
    refine stringTail_escape hr1 ?_
    obtain ⟨r2, a1, a2⟩ := Runs.cons (c := '\\') (s := 'u' :: y) hr1
    obtain ⟨r3, a3, a4⟩ := Runs.cons a2
    unfold readStringEscape
    refine Ends.seq (Runs.reread a1) ?_
    refine Ends.peek (o := some 'u') (by rw [a2]; rfl) ?_
    simp only [e1.1, e1.2.1, Bool.false_eq_true, if_false, if_true]
    exact Ends.seq (Runs.reread a3) (readUnicodeEscapeSeq_ends hb a4).bind

theorem readString_ends {q : Char} {s : Str} {f : Failure} {r : Reader} (h : BadString q s f)
    (hr : r.rest = q :: s) : Ends readString r f := by
  obtain ⟨r1, a1, a2⟩ := Runs.cons hr
  unfold readString
  refine Ends.peek (o := some q) (by rw [hr]; rfl) ?_
  refine Ends.seq (Runs.debugAssert (r := r) rfl) ?_
  refine Ends.posn ?_
  refine Ends.seq (Runs.read a1) (Ends.bind ?_)
  exact stringLoop_ends h a2 (by rw [a2]; omega)

/-! ### Regular expressions -/

omit [Env] in
theorem untilLoop_pass {α : Type} {pred : Char → Bool} {body : L (List α)} {n : Nat}
    {c : Char} {r r1 : Reader} {x : Str} {a : List α} (hr : r.rest.head? = some c)
    (h : pred c = false) (hb : Runs body r x a r1) :
    untilLoop pred body (n + 1) r =
      (untilLoop pred body n r1).bind fun b => .ok (a ++ b.1, b.2) := by
  rcases r with ⟨_ | ⟨d, s⟩, p⟩
  · simp at hr
  · simp only [List.head?_cons, Option.some.injEq] at hr
    subst hr
    rw [untilLoop_step h, hb.1]
    rfl

omit [Env] in
theorem pass_ends {α : Type} {m m' : L (List α)} {as : List α} {r r1 : Reader} {f : Failure}
    (h : m r = (m' r1).bind fun b => .ok (as ++ b.1, b.2)) (h' : Ends m' r1 f) : Ends m r f := by
  unfold Ends at h' ⊢
  rw [h, h']
  cases f <;> rfl

omit [Env] in
theorem pass_trans {α : Type} {m m' m'' : Reader → Res LexError (List α × Reader)}
    {as bs : List α} {r r1 r2 : Reader}
    (h : m r = (m' r1).bind fun b => .ok (as ++ b.1, b.2))
    (h' : m' r1 = (m'' r2).bind fun b => .ok (bs ++ b.1, b.2)) :
    m r = (m'' r2).bind fun b => .ok ((as ++ bs) ++ b.1, b.2) := by
  rw [h, h']
  cases m'' r2 <;> simp [Res.bind]

omit [Env] in
theorem classLoop_pass {k : Str} (h : RegClass k) : ∀ {y : Str} {r : Reader} {n : Nat},
    r.rest = k ++ y → k.length < n → ∃ as r1 m, r1.rest = y ∧
      untilLoop (fun ch => ch = ']') readRegexpClassChar n r =
        (untilLoop (fun ch => ch = ']') readRegexpClassChar (m + 1) r1).bind
          fun b => .ok (as ++ b.1, b.2) := by
  induction h with
  | nil =>
    intro y r n hr hn
    obtain ⟨n, rfl⟩ : ∃ m, n = m + 1 := ⟨n - 1, by simp at hn; omega⟩
    refine ⟨[], r, n, by simpa using hr, ?_⟩
    cases untilLoop (fun ch => ch = ']') readRegexpClassChar (n + 1) r <;> simp [Res.bind]
  | @plain c k h1 h2 _ ih =>
    intro y r n hr hn
    obtain ⟨n, rfl⟩ : ∃ m, n = m + 1 := ⟨n - 1, by simp at hn; omega⟩
    obtain ⟨r1, a1, a2⟩ := Runs.cons (c := c) (s := k ++ y) (by simpa using hr)
    obtain ⟨as, r2, m, a3, a4⟩ := ih a2 (n := n) (by simp at hn; omega)
    have hb : Runs readRegexpClassChar r [c] [c] r1 := by
      unfold readRegexpClassChar
      refine Runs.peek (o := some c) (by rw [hr]; rfl) ?_
      simp only [h2, if_false]
      exact (Runs.reread a1).map rfl
    exact ⟨_, r2, m, a3, pass_trans (untilLoop_pass (c := c) (by rw [hr]; rfl)
      (by simpa using h1) hb) a4⟩
  | @escape c k h1 _ ih =>
    intro y r n hr hn
    obtain ⟨n, rfl⟩ : ∃ m, n = m + 1 := ⟨n - 1, by simp at hn; omega⟩
    obtain ⟨r1, a1, a2⟩ := Runs.cons (c := '\\') (s := c :: (k ++ y)) (by simpa using hr)
    obtain ⟨r1', a1', a2'⟩ := Runs.cons a2
    obtain ⟨as, r2, m, a3, a4⟩ := ih a2' (n := n) (by simp at hn; omega)
    have hb : Runs readRegexpClassChar r ['\\', c] ['\\', c] r1' := by
      unfold readRegexpClassChar
      refine Runs.peek (o := some '\\') (by rw [hr]; rfl) ?_
      simp only [if_true]
      exact readRegexpBackslash_eval a1 a1' h1
    exact ⟨_, r2, m, a3, pass_trans (untilLoop_pass (c := '\\') (by rw [hr]; rfl)
      (by decide) hb) a4⟩

omit [Env] in
theorem bodyLoop_pass {b : Str} (h : RegBody b) : ∀ {y : Str} {r : Reader} {n : Nat},
    r.rest = b ++ y → b.length < n → ∃ as r1 m, r1.rest = y ∧
      untilLoop (fun ch => ch = '/') readRegexpChar n r =
        (untilLoop (fun ch => ch = '/') readRegexpChar (m + 1) r1).bind
          fun b => .ok (as ++ b.1, b.2) := by
  induction h with
  | nil =>
    intro y r n hr hn
    obtain ⟨n, rfl⟩ : ∃ m, n = m + 1 := ⟨n - 1, by simp at hn; omega⟩
    refine ⟨[], r, n, by simpa using hr, ?_⟩
    cases untilLoop (fun ch => ch = '/') readRegexpChar (n + 1) r <;> simp [Res.bind]
  | @plain c k h1 h2 h3 h4 _ ih =>
    intro y r n hr hn
    obtain ⟨n, rfl⟩ : ∃ m, n = m + 1 := ⟨n - 1, by simp at hn; omega⟩
    obtain ⟨r1, a1, a2⟩ := Runs.cons (c := c) (s := k ++ y) (by simpa using hr)
    obtain ⟨as, r2, m, a3, a4⟩ := ih a2 (n := n) (by simp at hn; omega)
    have hb : Runs readRegexpChar r [c] [c] r1 := by
      unfold readRegexpChar
      refine Runs.peek (o := some c) (by rw [hr]; rfl) ?_
      simp only [h2, h3, (isEsNewline_false c).2 h4, Bool.false_eq_true, if_false]
      exact (Runs.reread a1).map rfl
    exact ⟨_, r2, m, a3, pass_trans (untilLoop_pass (c := c) (by rw [hr]; rfl)
      (by simpa using h1) hb) a4⟩
  | @escape c k h1 _ ih =>
    intro y r n hr hn
    obtain ⟨n, rfl⟩ : ∃ m, n = m + 1 := ⟨n - 1, by simp at hn; omega⟩
    obtain ⟨r1, a1, a2⟩ := Runs.cons (c := '\\') (s := c :: (k ++ y)) (by simpa using hr)
    obtain ⟨r1', a1', a2'⟩ := Runs.cons a2
    obtain ⟨as, r2, m, a3, a4⟩ := ih a2' (n := n) (by simp at hn; omega)
    have hb : Runs readRegexpChar r ['\\', c] ['\\', c] r1' := by
      unfold readRegexpChar
      refine Runs.peek (o := some '\\') (by rw [hr]; rfl) ?_
      simp only [if_true]
      exact readRegexpBackslash_eval a1 a1' h1
    exact ⟨_, r2, m, a3, pass_trans (untilLoop_pass (c := '\\') (by rw [hr]; rfl)
      (by decide) hb) a4⟩
  | @cls k x h1 _ ih =>
    intro y r n hr hn
    obtain ⟨n, rfl⟩ : ∃ m, n = m + 1 := ⟨n - 1, by simp at hn; omega⟩
    obtain ⟨r1, a1, a2⟩ := readRegexpClass_eval (y := x ++ y) (r := r) h1
      (by rw [hr]; simp)
    obtain ⟨as, r2, m, a3, a4⟩ := ih a1 (n := n) (by simp at hn; omega)
    have hb : Runs readRegexpChar r ('[' :: k ++ c!"]") ('[' :: k ++ c!"]") r1 := by
      unfold readRegexpChar
      refine Runs.peek (o := some '[') (by rw [hr]; rfl) ?_
      simpa using a2
    exact ⟨_, r2, m, a3, pass_trans (untilLoop_pass (c := '[') (by rw [hr]; rfl)
      (by decide) hb) a4⟩

omit [Env] in
theorem readRegexpBackslash_ends {y : Str} {r : Reader} (hr : r.rest = '\\' :: y)
    (hy : AtLineEnd y) : Ends readRegexpBackslash r (.error (.unterminatedRegExp y.head?)) := by
  obtain ⟨r1, a1, a2⟩ := Runs.cons hr
  unfold readRegexpBackslash
  refine Ends.seq (Runs.reread a1) ?_
  refine Ends.peek (o := y.head?) (by rw [a2]) ?_
  cases h : y.head? with
  | none => exact Ends.throw
  | some c =>
    simp only [(isEsNewline_iff c).2 (hy c h), if_true]
    exact Ends.throw

theorem readRegexp_ends {s : Str} {f : Failure} {r : Reader} (h : BadRegExp s f)
    (hr : r.rest = '/' :: s) : Ends readRegexp r f := by
  obtain ⟨r0, z1, z2⟩ := Runs.cons hr
  unfold readRegexp
  refine Ends.posn ?_
  refine Ends.seq (Runs.reread z1) ?_
  have key : ∀ {b y : Str} {c : Char}, RegBody b → s = b ++ c :: y → c ≠ '/' →
      (∀ r1, r1.rest = c :: y → Ends readRegexpChar r1 f) →
      Ends (readUntilWith (fun ch => ch = '/') readRegexpChar) r0 f := by
    intro b y c hb hs hc he
    obtain ⟨as, r1, m, a1, a2⟩ := bodyLoop_pass hb (y := c :: y) (r := r0)
      (n := r0.rest.length + 1) (by rw [z2, hs]) (by rw [z2, hs]; simp; omega)
    refine pass_ends (m := readUntilWith _ _) a2 ?_
    exact untilLoop_ends (c := c) (by rw [a1]; rfl) (by simpa using hc) (he r1 a1)
  have hcls : ∀ {k y : Str} {r1 : Reader}, RegClass k → r1.rest = '[' :: (k ++ y) →
      (∀ (r2 : Reader) (m : Nat), r2.rest = y →
        (∃ r3, r3.rest = [] ∧
          untilLoop (fun ch => ch = ']') readRegexpClassChar (m + 1) r2 = .ok ([], r3) ∧
          f = .panic .readPastEnd) ∨
        Ends (untilLoop (fun ch => ch = ']') readRegexpClassChar (m + 1)) r2 f) →
      Ends readRegexpChar r1 f := by
    intro k y r1 hk hr1 he
    obtain ⟨r2, b1, b2⟩ := Runs.cons hr1
    obtain ⟨as, r3, m, c1, c2⟩ := classLoop_pass hk (y := y) (r := r2)
      (n := r2.rest.length + 1) b2 (by rw [b2]; simp; omega)
    have hne : '[' ≠ '\\' := by decide
    unfold readRegexpChar
    refine Ends.peek (o := some '[') (by rw [hr1]; rfl) ?_
    simp only [hne, if_false, if_true]
    unfold readRegexpClass
    refine Ends.seq (Runs.reread b1) ?_
    rcases he r3 m c1 with ⟨r4, d1, d2, rfl⟩ | he
    · have : readUntilWith (fun ch => ch = ']') readRegexpClassChar r2 = .ok (as ++ [], r4) := by
        show untilLoop _ _ _ _ = _
        rw [c2, d2]
        rfl
      exact Ends.then this (Ends.reread d1).bind
    · exact (pass_ends (m := readUntilWith _ _) c2 he).bind
  have nl_ne : ∀ {c : Char}, c ∈ lineTerminators → c ≠ '/' ∧ c ≠ '\\' ∧ c ≠ '[' := by
    intro c hc
    simp only [lineTerminators, List.mem_cons, List.not_mem_nil, or_false] at hc
    rcases hc with rfl | rfl | rfl | rfl <;> decide
  cases h with
  | @newline b y c h1 h2 =>
    refine (key h1 rfl (nl_ne h2).1 ?_).bind
    intro r1 hr1
    unfold readRegexpChar
    refine Ends.peek (o := some c) (by rw [hr1]; rfl) ?_
    simp only [(nl_ne h2).2.1, (nl_ne h2).2.2, (isEsNewline_iff c).2 h2, if_true, if_false]
    exact Ends.throw
  | @escape b y h1 h2 =>
    refine (key h1 rfl (by decide) ?_).bind
    intro r1 hr1
    unfold readRegexpChar
    refine Ends.peek (o := some '\\') (by rw [hr1]; rfl) ?_
    simp only [if_true]
    exact readRegexpBackslash_ends hr1 h2
  | @clsEscape b k y h1 h2 h3 =>
    refine (key h1 (c := '[') (y := k ++ '\\' :: y) (by simp) (by decide) ?_).bind
    intro r1 hr1
    refine hcls h2 hr1 fun r2 m hr2 => .inr ?_
    refine untilLoop_ends (c := '\\') (by rw [hr2]; rfl) (by decide) ?_
    unfold readRegexpClassChar
    refine Ends.peek (o := some '\\') (by rw [hr2]; rfl) ?_
    simp only [if_true]
    exact readRegexpBackslash_ends hr2 h3
  | eof h1 =>
    obtain ⟨as, r1, m, a1, a2⟩ := bodyLoop_pass h1 (y := []) (r := r0)
      (n := r0.rest.length + 1) (by rw [z2]; simp) (by rw [z2]; omega)
    have : readUntilWith (fun ch => ch = '/') readRegexpChar r0 = .ok (as ++ [], r1) := by
      show untilLoop _ _ _ _ = _
      rw [a2]
      rcases r1 with ⟨z, p⟩
      simp only at a1
      subst a1
      rw [untilLoop_stop (by simp)]
      rfl
    exact Ends.then this (Ends.reread a1).bind
  | @clsEof b k h1 h2 =>
    refine (key h1 (c := '[') (y := k) rfl (by decide) ?_).bind
    intro r1 hr1
    refine hcls h2 (y := []) (by simpa using hr1) fun r2 m hr2 => .inl ⟨r2, hr2, ?_, rfl⟩
    rcases r2 with ⟨z, p⟩
    simp only at hr2
    subst hr2
    rw [untilLoop_stop (by simp)]
  | @flags b y f h1 h2 =>
    obtain ⟨r1, a1, a2⟩ := bodyLoop_eval h1 z2 (n := r0.rest.length + 1) (by rw [z2]; simp; omega)
    obtain ⟨r2, b1, b2⟩ := Runs.cons a1
    refine Ends.seq (m := readUntilWith _ _) (x := b) (a := b) (r1 := r1) ⟨a2.1, a2.2⟩ ?_
    exact Ends.seq (Runs.reread b1) (readWordParts_ends h2 b2).bind

/-! ### Numbers -/

omit [Env] in
theorem readRadixInt_ends {radix : Nat} {pred : Char → Bool}
    {cons : CharCase → Str → NumberSource} {missing : LexError} {r : Reader} {c : Char}
    {y : Str} {f : Failure} (hr : r.rest = '0' :: c :: y) (hc : c.isAlpha = true)
    (h : ∀ r1, r1.rest = y → Ends (readDigitInto radix pred missing) r1 f) :
    Ends (readRadixInt radix pred cons missing) r f := by
  obtain ⟨r1, a1, a2⟩ := Runs.cons hr
  obtain ⟨r2, b1, b2⟩ := Runs.cons a2
  have h0 : r.peek 0 = some '0' := by rw [peek_head, hr]; rfl
  have h1 : r.peek 1 = some c := by rw [peek_one, hr]; rfl
  unfold readRadixInt
  unfold Ends
  rw [peek2_bind, h0, h1]
  show Ends _ r _
  refine Ends.seq (Runs.debugAssert (by simp)) (Ends.seq (Runs.debugAssert hc) ?_)
  refine Ends.posn ?_
  refine Ends.seq (Runs.skip a1) (Ends.seq (Runs.read b1) ?_)
  exact (h r2 b2).bind

omit [Env] in
theorem readExpPart_ends {r : Reader} {e : Char} {sign y : Str} (hr : r.rest = e :: sign ++ y)
    (he : e = 'e' ∨ e = 'E') (hs : sign ∈ [[], c!"+", c!"-"])
    (hn : sign = [] → y.head? ≠ some '+' ∧ y.head? ≠ some '-')
    (hy : ∀ c, y.head? = some c → c ∉ decDigits) :
    Ends readExpPart r (.error (.missingExponent y.head?)) := by
  obtain ⟨r1, a1, a2⟩ := Runs.cons (by simpa using hr)
  have hsign : ∃ r2 x sg, r2.rest = y ∧ Runs readExpSign r1 x sg r2 := by
    simp only [List.mem_cons, List.not_mem_nil, or_false] at hs
    rcases hs with rfl | rfl | rfl
    · refine ⟨r1, [], none, a2, ?_⟩
      unfold readExpSign
      refine Runs.peek (o := y.head?) (by rw [a2]; rfl) ?_
      rw [if_neg (hn rfl).1, if_neg (hn rfl).2]
      exact Runs.pure _ _
    · obtain ⟨r2, b1, b2⟩ := Runs.cons a2
      refine ⟨r2, ['+'], some .plus, b2, ?_⟩
      unfold readExpSign
      refine Runs.peek (o := some '+') (by rw [a2]; rfl) ?_
      rw [if_pos rfl]
      exact (Runs.skip b1).map rfl
    · obtain ⟨r2, b1, b2⟩ := Runs.cons a2
      refine ⟨r2, ['-'], some .minus, b2, ?_⟩
      unfold readExpSign
      refine Runs.peek (o := some '-') (by rw [a2]; rfl) ?_
      rw [if_neg (by decide), if_pos rfl]
      exact (Runs.skip b1).map rfl
  obtain ⟨r2, x, sg, b1, b2⟩ := hsign
  unfold readExpPart
  refine Ends.peek (o := some e) (by rw [hr]; rfl) ?_
  rw [if_pos (by rcases he with rfl | rfl <;> simp)]
  refine Ends.seq (Runs.skip a1) (Ends.seq b2 ?_)
  refine Ends.peek (o := y.head?) (by rw [b1]) ?_
  cases hh : y.head? with
  | none => exact Ends.throw
  | some c =>
    have : isEsDecDigit c = false := by
      rw [Bool.eq_false_iff]
      exact fun h => hy c hh ((isEsDecDigit_iff c).1 h)
    simp only [this, Bool.not_false, if_true]
    exact Ends.throw

omit [Env] in
theorem readDecNumber_ends {r : Reader} {m z : Str} {ch : Char} {f : Failure}
    (hm : Digits decDigits m) (hl : ¬ LegacyOctal m) (hch : m.head? = some ch)
    (hr : r.rest = m ++ z) (hz : ∀ c, z.head? = some c → c ∉ decDigits)
    (h : ∀ r1, r1.rest = z → ∃ r2 frac, readFraction r1 = .ok (frac, r2) ∧
      Ends readExpPart r2 f) : Ends (readDecNumber ch) r f := by
  have hd : ch ∈ decDigits := hm.2 ch (List.mem_of_mem_head? hch)
  obtain ⟨r1, a1, a2⟩ := readDecimalDigits_eval hr hm.2 hz
  obtain ⟨r2, frac, b1, b2⟩ := h r1 a1
  unfold readDecNumber
  refine Ends.seq (Runs.debugAssert (decDigit_dec hd)) (Ends.posn ?_)
  refine Ends.seq (m := readDecimalInt) a2 (Ends.bind ?_)
  rw [if_neg (fun h => hl ((legacy_iff hch).1 h))]
  exact Ends.then b1 b2.bind

omit [Env] in
theorem readNumberOf_exponent {r : Reader} {src : NumberSource} {y : Str} {e : Char} {sign : Str}
    (h0 : NoExponent src) (hok : NumberOk src (e :: sign ++ y)) (he : e = 'e' ∨ e = 'E')
    (hs : sign ∈ [[], c!"+", c!"-"])
    (hn : sign = [] → y.head? ≠ some '+' ∧ y.head? ≠ some '-')
    (hy : ∀ c, y.head? = some c → c ∉ decDigits)
    (hr : r.rest = spellNumber src ++ e :: sign ++ y) :
    Ends (readNumberOf (r.peek 0, r.peek 1)) r (.error (.missingExponent y.head?)) := by
  have he' : e ∉ decDigits ∧ e ≠ '.' ∧ e ∉ (c!"xXoObB" : Str) := by
    rcases he with rfl | rfl <;> decide
  have dec : ∀ {m z : Str}, Digits decDigits m → ¬ LegacyOctal m → r.rest = m ++ z →
      (∀ c, z.head? = some c → c ∉ decDigits ∧ c ∉ (c!"xXoObB" : Str)) →
      (∀ r1, r1.rest = z → ∃ r2 frac, readFraction r1 = .ok (frac, r2) ∧
        Ends readExpPart r2 (.error (.missingExponent y.head?))) →
      Ends (readNumberOf (r.peek 0, r.peek 1)) r (.error (.missingExponent y.head?)) := by
    intro m z hm hl hrz hz h
    obtain ⟨ch, t, rfl⟩ : ∃ d t, m = d :: t := by
      cases m with
      | nil => exact absurd rfl hm.1
      | cons d t => exact ⟨d, t, rfl⟩
    have h1 : r.peek 0 = some ch := by rw [peek_head, hrz]; rfl
    rw [h1, dispatch_dec (hm.2 ch (by simp))]
    · exact readDecNumber_ends hm hl rfl hrz (fun c hc => (hz c hc).1) h
    · intro _ c hc
      rw [peek_one, hrz] at hc
      simp only [List.cons_append, List.tail_cons] at hc
      cases t with
      | nil => exact (hz c hc).2
      | cons d' t =>
        simp at hc
        subst hc
        have key : ∀ d ∈ decDigits, d ∉ (c!"xXoObB" : Str) := by decide +kernel
        exact key d' (hm.2 d' (by simp))
  have hexp : ∀ r2 : Reader, r2.rest = e :: sign ++ y →
      Ends readExpPart r2 (.error (.missingExponent y.head?)) :=
    fun r2 hr2 => readExpPart_ends hr2 he hs hn hy
  cases hok with
  | @decimal m _ x h1 h2 h3 h4 =>
    cases x with
    | some x => exact h0.elim
    | none =>
      refine dec h1 h2 (z := e :: sign ++ y) (by rw [hr]; simp [spellNumber, spellExp]) ?_ ?_
      · intro c hc
        simp at hc
        rw [← hc]
        exact ⟨he'.1, he'.2.2⟩
      · intro r1 hr1
        refine ⟨r1, none, (readFraction_none ?_).1, hexp r1 hr1⟩
        rw [hr1]
        simp [he'.2.1]
  | hex => exact h0.elim
  | oct => exact h0.elim
  | bin => exact h0.elim
  | legacyOctal => exact h0.elim
  | @point g _ x h1 h2 =>
    cases x with
    | some x => exact h0.elim
    | none =>
      have hr' : r.rest = '.' :: (g ++ (e :: sign ++ y)) := by
        rw [hr]; simp [spellNumber, spellExp]
      obtain ⟨r1, a1, a2⟩ := Runs.cons hr'
      obtain ⟨r2, b1, b2⟩ := readDecimalDigits_eval a2 h1.2 (by
        intro c hc
        simp at hc
        rw [← hc]
        exact he'.1)
      have e1 : readNumberOf (r.peek 0, r.peek 1) = readDotNumber := by
        rw [show r.peek 0 = some '.' by rw [peek_head, hr']; rfl]
        rfl
      rw [e1]
      unfold readDotNumber
      refine Ends.posn ?_
      exact Ends.seq (Runs.skip a1) (Ends.seq b2 (hexp r2 b1).bind)
  | @float m g _ x h1 h2 h3 h4 =>
    cases x with
    | some x => exact h0.elim
    | none =>
      refine dec h1 h2 (z := '.' :: (g ++ (e :: sign ++ y)))
        (by rw [hr]; simp [spellNumber, spellExp]) ?_ ?_
      · intro c hc
        simp at hc
        rw [← hc]
        decide
      · intro r1 hr1
        obtain ⟨r2, b1, b2⟩ := readFraction_some (f := g) (y := e :: sign ++ y)
          (by simpa using hr1) h3 (by
            intro c hc
            simp at hc
            rw [← hc]
            exact he'.1)
        exact ⟨r2, some g, b2.1, hexp r2 b1⟩

theorem readNumber_of {r : Reader} {f : Failure}
    (h : Ends (readNumberOf (r.peek 0, r.peek 1)) r f) : Ends readNumber r f := by
  unfold readNumber
  unfold Ends
  rw [peek2_bind]
  exact Ends.bind h

theorem readNumber_radix {r : Reader} {f : Failure} {c : Char} {y : Str} {digits : List Char}
    {b : Nat} {pred : Char → Bool} {missing : LexError} {cons : CharCase → Str → NumberSource}
    (hr : r.rest = '0' :: c :: y)
    (hm : readNumberOf (some '0', some c) = readRadixInt b pred cons missing)
    (hc : c.isAlpha = true) (hp : ∀ d, pred d = true ↔ d ∈ digits)
    (hy : (∃ d z, y = d :: z ∧ d ∉ digits ∧ f = .error (.invalidDigit d)) ∨
      (y = [] ∧ f = .error missing)) : Ends readNumber r f := by
  apply readNumber_of
  rw [show r.peek 0 = some '0' by rw [peek_head, hr]; rfl,
    show r.peek 1 = some c by rw [peek_one, hr]; rfl, hm]
  refine readRadixInt_ends hr hc fun r1 hr1 => ?_
  rcases hy with ⟨d, z, rfl, hd, rfl⟩ | ⟨rfl, rfl⟩
  · refine readDigitInto_invalid (by rw [hr1]; rfl) ?_
    rw [Bool.eq_false_iff]
    exact fun h => hd ((hp d).1 h)
  · exact readDigitInto_missing hr1

theorem readNumber_prefix {r : Reader} {f : Failure} {p y : Str} {digits : List Char}
    {e : LexError} (h1 : (p, digits, e) ∈ radixPrefixes) (hr : r.rest = p ++ y)
    (hy : (∃ d z, y = d :: z ∧ d ∉ digits ∧ f = .error (.invalidDigit d)) ∨
      (y = [] ∧ f = .error e)) : Ends readNumber r f := by
  simp only [radixPrefixes, List.mem_cons, List.not_mem_nil, or_false, Prod.mk.injEq] at h1
  rcases h1 with ⟨rfl, rfl, rfl⟩ | ⟨rfl, rfl, rfl⟩ | ⟨rfl, rfl, rfl⟩ | ⟨rfl, rfl, rfl⟩ |
    ⟨rfl, rfl, rfl⟩ | ⟨rfl, rfl, rfl⟩
  · exact readNumber_radix (c := 'x') (b := 16) (pred := isEsHexDigit) (missing := .missingHexDigits)
      (cons := fun cc s => .radixInt (.hex cc) s) hr rfl (by decide) isEsHexDigit_iff hy
  · exact readNumber_radix (c := 'X') (b := 16) (pred := isEsHexDigit) (missing := .missingHexDigits)
      (cons := fun cc s => .radixInt (.hex cc) s) hr rfl (by decide) isEsHexDigit_iff hy
  · exact readNumber_radix (c := 'o') (b := 8) (pred := isEsOctDigit) (missing := .missingOctalDigits)
      (cons := fun cc s => .radixInt (.oct (some cc)) s) hr rfl (by decide) isEsOctDigit_iff hy
  · exact readNumber_radix (c := 'O') (b := 8) (pred := isEsOctDigit) (missing := .missingOctalDigits)
      (cons := fun cc s => .radixInt (.oct (some cc)) s) hr rfl (by decide) isEsOctDigit_iff hy
  · exact readNumber_radix (c := 'b') (b := 2) (pred := isEsBinDigit) (missing := .missingBinaryDigits)
      (cons := fun cc s => .radixInt (.bin cc) s) hr rfl (by decide) isEsBinDigit_iff hy
  · exact readNumber_radix (c := 'B') (b := 2) (pred := isEsBinDigit) (missing := .missingBinaryDigits)
      (cons := fun cc s => .radixInt (.bin cc) s) hr rfl (by decide) isEsBinDigit_iff hy

theorem readNumber_ends [LawfulEnv] {s : Str} {f : Failure} {r : Reader} (h : BadNumber s f)
    (hr : r.rest = s) : Ends readNumber r f := by
  have after : ∀ {src : NumberSource} {c : Char} {y : Str}, s = spellNumber src ++ c :: y →
      NumberOk src (c :: y) → NumberStops src c →
      (∀ t : Token, Ends (if isEsIdentifierStart c then L.throw (.idAfterNumber c)
        else if isEsDecDigit c then L.throw (.digitAfterNumber c)
        else pure t) { rest := c :: y, posn := pos r.posn (spellNumber src) (c :: y) } f) →
      Ends readNumber r f := by
    intro src c y hs hok hst he
    obtain ⟨v, hv⟩ := hok.value
    obtain ⟨r1, a1, a2⟩ := readNumberOf_eval (r := r) hok
      (by intro d hd; simp at hd; rw [← hd]; exact hst) (by rw [hr, hs]) hv
    unfold readNumber
    unfold Ends
    rw [peek2_bind]
    refine Ends.seq a2 ?_
    refine Ends.peek (o := some c) (by rw [a1]; rfl) ?_
    have : r1 = { rest := c :: y, posn := pos r.posn (spellNumber src) (c :: y) } := by
      rw [a2.2.eq, a1]
    rw [this]
    exact he _
  cases h with
  | @invalid p y digits e c h1 h2 =>
    exact readNumber_prefix h1 hr (.inl ⟨c, y, rfl, h2, rfl⟩)
  | @missing p digits e h1 =>
    exact readNumber_prefix (y := []) h1 (by simpa using hr) (.inr ⟨rfl, rfl⟩)
  | exponent h1 h2 h3 h4 h5 h6 => exact readNumber_of (readNumberOf_exponent h1 h2 h3 h4 h5 h6 hr)
  | @identifier src y c h1 h2 h3 =>
    refine after rfl h1 h2 fun t => ?_
    rw [if_pos ((isEsIdentifierStart_iff c).2 h3)]
    exact Ends.throw
  | @digit src y c h1 h2 h3 =>
    refine after rfl h1 h2 fun t => ?_
    have : isEsIdentifierStart c = false := by
      rw [Bool.eq_false_iff]
      exact fun h => (idStart_not_punc ((isEsIdentifierStart_iff c).1 h)).2.2.2 h3
    rw [this, if_neg (by simp), if_pos (decDigit_dec h3)]
    exact Ends.throw

omit [Env] in
theorem numberOk_start {src : NumberSource} {y z : Str} (h : NumberOk src y) :
    NumberStart (spellNumber src ++ z) := by
  have dig : ∀ {m w : Str}, Digits decDigits m → NumberStart (m ++ w) := by
    intro m w hm
    cases m with
    | nil => exact absurd rfl hm.1
    | cons d m => exact .inl ⟨d, rfl, hm.2 d (by simp)⟩
  cases h with
  | decimal h1 => simp only [spellNumber, List.append_assoc]; exact dig h1
  | @hex cc => cases cc <;> exact .inl ⟨'0', rfl, by decide⟩
  | @oct cc => cases cc <;> exact .inl ⟨'0', rfl, by decide⟩
  | @bin cc => cases cc <;> exact .inl ⟨'0', rfl, by decide⟩
  | legacyOctal h1 =>
    obtain ⟨t, rfl, _⟩ := h1
    exact .inl ⟨'0', rfl, by decide⟩
  | @point f y e h1 h2 =>
    cases f with
    | nil => exact absurd rfl h1.1
    | cons d f => exact .inr ⟨rfl, d, rfl, h1.2 d (by simp)⟩
  | float h1 => simp only [spellNumber, List.append_assoc]; exact dig h1

theorem badNumber_start {s : Str} {f : Failure} (h : BadNumber s f) : NumberStart s := by
  cases h with
  | invalid h1 =>
    have : ∀ p ∈ radixPrefixes, p.1.head? = some '0' := by decide +kernel
    refine .inl ⟨'0', ?_, by decide⟩
    have := this _ h1
    rw [List.head?_append, this]
    rfl
  | missing h1 =>
    have : ∀ p ∈ radixPrefixes, p.1.head? = some '0' := by decide +kernel
    exact .inl ⟨'0', this _ h1, by decide⟩
  | exponent h1 h2 =>
    rw [List.append_assoc]
    exact numberOk_start h2
  | identifier h1 => exact numberOk_start h1
  | digit h1 => exact numberOk_start h1

/-! ### Tokens -/

omit [Env] in
theorem Ends.congr {m n : L α} {r : Reader} {f : Failure} (h : m r = n r) (h' : Ends n r f) :
    Ends m r f := h.trans h'

theorem readTokenBody_ends [LawfulEnv] {op : Bool} {s : Str} {f : Failure} {r : Reader}
    (h : BadToken op s f) (hr : r.rest = s) : Ends (readTokenBody op) r f := by
  have ev : ∀ {c : Char} {s : Str}, r.rest = c :: s →
      readTokenBody op r = tokenOf op c s.head? r := by
    intro c s hrest
    have hp : r.peek 0 = some c := by rw [peek_head, hrest]; rfl
    have hq : r.peek 1 = s.head? := by rw [peek_one, hrest]; rfl
    unfold readTokenBody
    rw [peek2_bind, hp, hq]
  have word : ∀ {c : Char}, s.head? = some c → IdStart c ∨ c = '\\' →
      readTokenBody op r = readWord r := by
    intro c hc hw
    obtain ⟨t, rfl⟩ : ∃ t, s = c :: t := by
      cases s with
      | nil => simp at hc
      | cons d t => simp at hc; exact ⟨t, by rw [hc]⟩
    rw [ev hr]
    rcases hw with hw | rfl
    · obtain ⟨g1, g2, g3, g4⟩ := idStart_not_punc hw
      rw [not_punc_chain g1, if_neg (by simp [g2, g3]), if_neg (by
        intro h; exact g4 ((isEsDecDigit_iff c).1 h)), if_pos ((isEsIdentifierStart_iff c).2 hw)]
    · rw [not_punc_chain (by decide), if_neg (by decide), if_neg (by decide)]
      simp
  cases h with
  | @illegal c y h1 h2 h3 h4 h5 h6 =>
    have hp : c ∉ puncHeads := by
      intro hc
      have : ∀ c ∈ puncHeads, ∃ p ∈ punctuators, p.1.head? = some c := by decide +kernel
      obtain ⟨p, hp, hh⟩ := this c hc
      exact h1 p.1 p.2 hp hh
    refine Ends.congr (ev hr) ?_
    rw [not_punc_chain hp, if_neg (by simp [h2, h3]),
      if_neg (fun h => h4 ((isEsDecDigit_iff c).1 h)),
      if_neg (fun h => h5 ((isEsIdentifierStart_iff c).1 h)), if_neg h6]
    exact Ends.throw
  | word h1 h2 =>
    obtain ⟨c, hc, hw⟩ := h1
    exact Ends.congr (word hc hw) (readWord_ends hc hw h2 hr)
  | @reserved x y t w h1 h2 h3 h4 =>
    obtain ⟨c, hc, hw⟩ := h1
    refine Ends.congr (word (c := c) ?_ hw) (readWord_reserved hc hw h2 h3 h4 hr)
    rw [List.head?_append, hc]
    rfl
  | @string q s f h1 h2 =>
    refine Ends.congr (ev hr) ?_
    rw [not_punc_chain (by rcases h1 with rfl | rfl <;> decide), if_pos h1]
    exact readString_ends h2 hr
  | number h1 =>
    refine Ends.congr ?_ (readNumber_ends h1 hr)
    rcases badNumber_start h1 with ⟨c, hc, hd⟩ | ⟨hc, d, hd, hdd⟩
    · obtain ⟨t, rfl⟩ : ∃ t, s = c :: t := by
        cases s with
        | nil => simp at hc
        | cons d t => simp at hc; exact ⟨t, by rw [hc]⟩
      have key : ∀ d ∈ decDigits, d ∉ puncHeads ∧ ¬ (d = '"' ∨ d = '\'') := by decide +kernel
      rw [ev hr, not_punc_chain (key c hd).1, if_neg (key c hd).2, if_pos (decDigit_dec hd)]
    · obtain ⟨t, rfl⟩ : ∃ t, s = '.' :: t := by
        cases s with
        | nil => simp at hc
        | cons d t => simp at hc; exact ⟨t, by rw [hc]⟩
      rw [ev hr]
      simp only [List.tail_cons] at hd
      rw [hd]
      show (if isEsDecDigit d = true then readNumber else _) r = _
      rw [if_pos (decDigit_dec hdd)]
  | @regexp s f h1 h2 =>
    subst h1
    exact Ends.congr (n := readRegexp) (ev hr) (readRegexp_ends h2 hr)

end L

variable [Env]

/-- On a malformed text no token is read, and the failure is the specified one. -/
theorem readNextToken_ends [LawfulEnv] {s : Str} {k : Nat} {e : Bool} {l : Lexer}
    (h : l.At s k e) (op : Bool) {f : Failure} (hf : Malformed e op (s.drop k) f) :
    (l.readNextToken op).Failed f := by
  unfold Lexer.readNextToken Res.Failed
  rw [← h.rest] at hf
  generalize hrest : l.reader.rest = s' at hf
  cases hf with
  | @comment w b e' h1 h2 =>
    have hl : l.reader = ⟨w ++ (c!"/*" ++ b), l.reader.posn⟩ := by
      cases hh : l.reader; simp_all
    have ht := L.triviaLoop_open ((w ++ (c!"/*" ++ b)).length + 1) l.emptyLine false e' w b
      l.reader.posn (Nat.lt_succ_self _) (by rw [h.empty]; exact h1) h2
    rw [← hl] at ht
    rw [ht]
    rfl
  | @token w z e' f h1 h2 h3 =>
    have hl : l.reader = ⟨w ++ z, l.reader.posn⟩ := by
      cases hh : l.reader; simp_all
    have ht := L.triviaLoop_eval ((w ++ z).length + 1) l.emptyLine false e' w z
      l.reader.posn (Nat.lt_succ_self _) (by rw [h.empty]; exact h1) h2
    rw [← hl] at ht
    rw [ht]
    have hb : L.readTokenBody op ⟨z, pos l.reader.posn w z⟩ = f.res :=
      L.readTokenBody_ends h3 rfl
    simp only [Res.bind, hb]
    cases f <;> rfl

/-- Where reading a sequence of tokens fails. -/
theorem readTokens_failed [LawfulEnv] {s : Str} {ops : List Bool} {f : Failure} :
    (readTokens s ops).Failed f ↔ ∃ i op ts k, ops[i]? = some op ∧
      Tokens s 0 true (ops.take i) ts k ∧ Malformed ts.isEmpty op (s.drop k) f := by
  constructor
  · intro h
    induction hr : ops.reverse generalizing ops with
    | nil =>
      simp only [List.reverse_eq_nil_iff] at hr
      subst hr
      cases f <;> cases h
    | cons op rev ih =>
      have hops : ops = rev.reverse ++ [op] := by
        rw [← List.reverse_reverse ops, hr, List.reverse_cons]
      subst hops
      generalize hg : rev.reverse = ops at h hr ⊢
      have ih := fun h => ih (ops := ops) h (by rw [← hg, List.reverse_reverse])
      have up : (readTokens s ops).Failed f → ∃ i op' ts k, (ops ++ [op])[i]? = some op' ∧
          Tokens s 0 true ((ops ++ [op]).take i) ts k ∧
            Malformed ts.isEmpty op' (s.drop k) f := by
        intro h
        obtain ⟨i, op', ts, k, a1, a2, a3⟩ := ih h
        have hi : i < ops.length := by
          rcases Nat.lt_or_ge i ops.length with h | h
          · exact h
          · rw [List.getElem?_eq_none h] at a1; cases a1
        refine ⟨i, op', ts, k, ?_, ?_, a3⟩
        · rw [List.getElem?_append_left hi]; exact a1
        · rw [List.take_append_of_le_length (by omega)]; exact a2
      unfold Res.Failed at h up
      rw [readTokens_snoc] at h
      cases hm : readTokens s ops with
      | ok v =>
        obtain ⟨ts, l⟩ := v
        rw [hm] at h
        simp only [Res.bind] at h
        obtain ⟨h1, h2, h3, h4⟩ := readTokens_at hm
        refine ⟨ops.length, op, ts, _, by simp, by simpa using h1, ?_⟩
        refine readNextToken_fails h2 op ?_
        have e : l.readToken op = l.readNextToken op := by
          unfold Lexer.readToken
          rw [h3]
        rw [e] at h
        unfold Res.Failed
        cases hm2 : l.readNextToken op with
        | ok v => rw [hm2] at h; cases f <;> cases h
        | err => rw [hm2] at h; cases f <;> cases h; rfl
        | fuel => rw [hm2] at h; cases f <;> cases h
        | panic q => rw [hm2] at h; cases f <;> cases h; rfl
      | err => rw [hm] at h up; exact up (by cases f <;> cases h; rfl)
      | fuel => rw [hm] at h; cases f <;> cases h
      | panic q => rw [hm] at h up; exact up (by cases f <;> cases h; rfl)
  · rintro ⟨i, op, ts, k, h1, h2, h3⟩
    obtain ⟨l, hl⟩ := readAll_complete h2 (Lexer.At.new s) rfl
    obtain ⟨k', h4, h5, h6⟩ := readAll_sound (Lexer.At.new s) rfl hl
    have hlast := h2.last
    have hlast' := h4.last
    have hk : k' = k := hlast'.1.trans hlast.1.symm
    subst hk
    have he : (if ops.take i = [] then true else false) = ts.isEmpty := by
      have := hlast.2
      generalize ops.take i = os at this ⊢
      cases os <;> cases ts <;> simp_all
    rw [he] at h5
    have h7 := readNextToken_ends h5 op h3
    have hops : ops = ops.take i ++ op :: ops.drop (i + 1) := by
      have hi : i < ops.length := by
        rcases Nat.lt_or_ge i ops.length with h | h
        · exact h
        · rw [List.getElem?_eq_none h] at h1; cases h1
      rw [List.getElem?_eq_getElem hi] at h1
      cases h1
      rw [← List.drop_eq_getElem_cons hi, List.take_append_drop]
    unfold Res.Failed at h7 ⊢
    unfold readTokens
    rw [hops, Lexer.readAll_append, hl]
    simp only [Res.bind, Lexer.readAll, Lexer.readToken, h6, h7]
    cases f <;> rfl

end Esprit
