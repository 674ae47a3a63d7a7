import Verif.Model.Lexer
import Verif.Spec.Lex
import Verif.Proofs.Reader

/-! Hoare-style reasoning about lexer routines, and character classes. -/

namespace Esprit

/-- Position after reading `x`, when `y` follows. -/
def pos : Posn → Str → Str → Posn
  | p, [], _ => p
  | p, c :: x, y => pos (p.step c (x ++ y)) x y

theorem pos_append (p : Posn) (x1 x2 y : Str) :
    pos p (x1 ++ x2) y = pos (pos p x1 (x2 ++ y)) x2 y := by
  induction x1 generalizing p with
  | nil => rfl
  | cons c x1 ih => simp only [List.cons_append, pos, ih, List.append_assoc]

/-- The reader moved from `r` to `r'` over the text `x`. -/
structure Adv (r : Reader) (x : Str) (r' : Reader) : Prop where
  rest : r.rest = x ++ r'.rest
  posn : r'.posn = pos r.posn x r'.rest

theorem Adv.refl (r : Reader) : Adv r [] r := ⟨rfl, rfl⟩

theorem Adv.trans {r r1 r2 : Reader} {x1 x2 : Str} (h1 : Adv r x1 r1) (h2 : Adv r1 x2 r2) :
    Adv r (x1 ++ x2) r2 := by
  refine ⟨by rw [h1.rest, h2.rest, List.append_assoc], ?_⟩
  rw [pos_append, h2.posn, h1.posn, h2.rest]

theorem Adv.one (c : Char) (cs : Str) (p : Posn) : Adv ⟨c :: cs, p⟩ [c] ⟨cs, p.step c cs⟩ :=
  ⟨rfl, rfl⟩

theorem Adv.cons {r r1 r2 : Reader} {c : Char} {x : Str} (h1 : Adv r [c] r1) (h2 : Adv r1 x r2) :
    Adv r (c :: x) r2 := h1.trans h2

theorem Adv.eq {r r' : Reader} {x : Str} (h : Adv r x r') :
    r' = ⟨r'.rest, pos r.posn x r'.rest⟩ := by
  rw [← h.posn]

theorem Adv.of_eq {r r' : Reader} {x y : Str} (h : r = ⟨x ++ y, r.posn⟩)
    (h' : r' = ⟨y, pos r.posn x y⟩) : Adv r x r' := by
  subst h'; exact ⟨by rw [h], rfl⟩

theorem Adv.length {r r' : Reader} {x : Str} (h : Adv r x r') :
    r.rest.length = x.length + r'.rest.length := by rw [h.rest]; simp

theorem Adv.unique {r r1 r2 : Reader} {x : Str} (h1 : Adv r x r1) (h2 : Adv r x r2) : r1 = r2 := by
  have := h1.rest
  rw [h2.rest, List.append_cancel_left_eq] at this
  have e1 := h1.posn
  have e2 := h2.posn
  cases r1; cases r2
  simp_all

open ReaderSpec in
/-- Positions stay exact. -/
theorem Adv.posnAt {s : Str} {k : Nat} {r r' : Reader} {x : Str} (h : Adv r x r')
    (hr : r.rest = s.drop k) (hp : PosnAt s k r.posn) :
    r'.rest = s.drop (k + x.length) ∧ PosnAt s (k + x.length) r'.posn := by
  induction x generalizing r k with
  | nil =>
    have h1 := h.rest
    have h2 := h.posn
    simp only [List.nil_append, pos] at h1 h2
    refine ⟨by simp [← h1, hr], by simpa [h2] using hp⟩
  | cons c x ih =>
    have h1 := h.rest
    have h2 := h.posn
    simp only [List.cons_append, pos] at h1 h2
    have hd : s.drop k = c :: (x ++ r'.rest) := by rw [← hr, h1]
    have := ih (r := ⟨x ++ r'.rest, r.posn.step c (x ++ r'.rest)⟩) (k := k + 1) ⟨rfl, h2⟩
      (by have : (s.drop k).tail = s.drop (k + 1) := by simp
          rw [← this, hd]; rfl) (hp.step hd)
    simp only [List.length_cons]
    rw [show k + (x.length + 1) = k + 1 + x.length by omega]
    exact this

namespace L

variable {α β : Type}

/-- `Spec m r Q P`: on reader `r` the routine `m` does not exhaust its budget;
a value satisfies `Q`, a panic satisfies `P`, errors are allowed. -/
def Spec (m : L α) (r : Reader) (Q : α → Reader → Prop) (P : Panic → Prop) : Prop :=
  match m r with
  | .ok (a, r') => Q a r'
  | .err _ => True
  | .panic p => P p
  | .fuel => False

/-- The routine never panics. -/
abbrev NoPanic : Panic → Prop := fun _ => False

theorem bind_apply (m : L α) (f : α → L β) (r : Reader) :
    (m >>= f) r = (m r).bind fun p => f p.1 p.2 := rfl

theorem pure_apply (a : α) (r : Reader) : (pure a : L α) r = .ok (a, r) := rfl

theorem Spec.bind {m : L α} {f : α → L β} {r : Reader} {Q : β → Reader → Prop} {P : Panic → Prop}
    (h : Spec m r (fun a r' => Spec (f a) r' Q P) P) : Spec (m >>= f) r Q P := by
  unfold Spec at h ⊢
  rw [bind_apply]
  cases hm : m r with
  | ok p => rw [hm] at h; exact h
  | err e => trivial
  | panic p => rw [hm] at h; exact h
  | fuel => rw [hm] at h; exact h

theorem Spec.mono {m : L α} {r : Reader} {Q Q' : α → Reader → Prop} {P P' : Panic → Prop}
    (h : Spec m r Q P) (hQ : ∀ a r', Q a r' → Q' a r') (hP : ∀ p, P p → P' p) :
    Spec m r Q' P' := by
  unfold Spec at h ⊢
  cases hm : m r with
  | ok p => rw [hm] at h; exact hQ _ _ h
  | err e => trivial
  | panic p => rw [hm] at h; exact hP _ h
  | fuel => rw [hm] at h; exact h

theorem Spec.seq {m : L α} {f : α → L β} {r : Reader} {Q : α → Reader → Prop}
    {Q' : β → Reader → Prop} {P P' : Panic → Prop} (h : Spec m r Q P) (hP : ∀ p, P p → P' p)
    (hf : ∀ a r', Q a r' → Spec (f a) r' Q' P') : Spec (m >>= f) r Q' P' :=
  Spec.bind (h.mono hf hP)

theorem Spec.pure {a : α} {r : Reader} {Q : α → Reader → Prop} {P : Panic → Prop} (h : Q a r) :
    Spec (Pure.pure a : L α) r Q P := h

theorem Spec.throw {e : LexError} {r : Reader} {Q : α → Reader → Prop} {P : Panic → Prop} :
    Spec (L.throw e : L α) r Q P := trivial

theorem Spec.panic {p : Panic} {r : Reader} {Q : α → Reader → Prop} {P : Panic → Prop} (h : P p) :
    Spec (L.panic p : L α) r Q P := h

theorem Spec.elim {m : L α} {r r' : Reader} {a : α} {Q : α → Reader → Prop} {P : Panic → Prop}
    (h : Spec m r Q P) (hm : m r = .ok (a, r')) : Q a r' := by
  unfold Spec at h; rw [hm] at h; exact h

theorem Spec.elimPanic {m : L α} {r : Reader} {p : Panic} {Q : α → Reader → Prop}
    {P : Panic → Prop} (h : Spec m r Q P) (hm : m r = .panic p) : P p := by
  unfold Spec at h; rw [hm] at h; exact h

theorem Spec.ite {c : Prop} [Decidable c] {m n : L α} {r : Reader} {Q : α → Reader → Prop}
    {P : Panic → Prop} (h1 : c → Spec m r Q P) (h2 : ¬ c → Spec n r Q P) :
    Spec (if c then m else n) r Q P := by
  split
  · exact h1 ‹_›
  · exact h2 ‹_›

/-! ### Basic routines -/

theorem posn_bind (f : Posn → L β) (r : Reader) : (L.posn >>= f) r = f r.posn r := rfl

theorem peek_bind (f : Option Char → L β) (r : Reader) : (L.peek >>= f) r = f (r.peek 0) r := rfl

theorem peek2_bind (f : Option Char × Option Char → L β) (r : Reader) :
    (L.peek2 >>= f) r = f (r.peek 0, r.peek 1) r := rfl

theorem peekAt_bind (n : Nat) (f : Option Char → L β) (r : Reader) :
    (L.peekAt n >>= f) r = f (r.peek n) r := rfl

theorem Spec.posn {f : Posn → L β} {r : Reader} {Q : β → Reader → Prop} {P : Panic → Prop}
    (h : Spec (f r.posn) r Q P) : Spec (L.posn >>= f) r Q P := h

theorem Spec.peek {f : Option Char → L β} {r : Reader} {Q : β → Reader → Prop} {P : Panic → Prop}
    (h : Spec (f (r.peek 0)) r Q P) : Spec (L.peek >>= f) r Q P := h

theorem Spec.peek2 {f : Option Char × Option Char → L β} {r : Reader} {Q : β → Reader → Prop}
    {P : Panic → Prop} (h : Spec (f (r.peek 0, r.peek 1)) r Q P) : Spec (L.peek2 >>= f) r Q P := h

theorem Spec.peekAt {n : Nat} {f : Option Char → L β} {r : Reader} {Q : β → Reader → Prop}
    {P : Panic → Prop} (h : Spec (f (r.peek n)) r Q P) : Spec (L.peekAt n >>= f) r Q P := h

@[simp] theorem peek_cons (c : Char) (cs : Str) (p : Posn) :
    Reader.peek ⟨c :: cs, p⟩ 0 = some c := rfl

@[simp] theorem peek_zero (s : Str) (p : Posn) : Reader.peek ⟨s, p⟩ 0 = s.head? := by
  cases s <;> rfl

@[simp] theorem peek_cons_succ (c : Char) (cs : Str) (p : Posn) (n : Nat) :
    Reader.peek ⟨c :: cs, p⟩ (n + 1) = Reader.peek ⟨cs, p⟩ n := by
  simp [Reader.peek]

theorem read_cons (c : Char) (cs : Str) (p : Posn) :
    L.read ⟨c :: cs, p⟩ = .ok (c, ⟨cs, p.step c cs⟩) := rfl

theorem skip_cons (c : Char) (cs : Str) (p : Posn) :
    L.skip ⟨c :: cs, p⟩ = .ok ((), ⟨cs, p.step c cs⟩) := rfl

theorem skip2_cons (c d : Char) (cs : Str) (p : Posn) :
    L.skip2 ⟨c :: d :: cs, p⟩ = .ok ((), ⟨cs, (p.step c (d :: cs)).step d cs⟩) := rfl

theorem reread_cons (c : Char) (cs : Str) (p : Posn) :
    L.reread c ⟨c :: cs, p⟩ = .ok (c, ⟨cs, p.step c cs⟩) := by
  simp [L.reread, bind_apply, L.peek, Res.bind, debugAssert, pure_apply, skip_cons]

theorem matches_cons (c : Char) (cs : Str) (p : Posn) :
    L.matches c ⟨c :: cs, p⟩ = .ok (true, ⟨cs, p.step c cs⟩) := by
  simp [L.matches, bind_apply, L.peek, Res.bind, pure_apply, skip_cons]

theorem matches_ne {c : Char} {s : Str} {p : Posn} (h : s.head? ≠ some c) :
    L.matches c ⟨s, p⟩ = .ok (false, ⟨s, p⟩) := by
  simp [L.matches, bind_apply, L.peek, Res.bind, pure_apply, h]

/-- Reading one character. -/
theorem Spec.read {f : Char → L β} {r : Reader} {Q : β → Reader → Prop} {P : Panic → Prop}
    (h : ∀ c r', Adv r [c] r' → Spec (f c) r' Q P) (hP : r.rest = [] → P .readPastEnd) :
    Spec (L.read >>= f) r Q P := by
  rcases r with ⟨_ | ⟨c, cs⟩, p⟩
  · exact hP rfl
  · exact h c ⟨cs, p.step c cs⟩ (Adv.one c cs p)

/-- Skipping a character known to be there. -/
theorem Spec.skip {f : Unit → L β} {r : Reader} {Q : β → Reader → Prop} {P : Panic → Prop}
    {c : Char} (hc : r.peek 0 = some c) (h : ∀ r', Adv r [c] r' → Spec (f ()) r' Q P) :
    Spec (L.skip >>= f) r Q P := by
  rcases r with ⟨_ | ⟨d, cs⟩, p⟩
  · simp [Reader.peek] at hc
  · simp only [peek_cons, Option.some.injEq] at hc
    subst hc
    exact h ⟨cs, p.step d cs⟩ (Adv.one d cs p)

/-- Rereading a character known to be there. -/
theorem Spec.reread {f : Char → L β} {r : Reader} {Q : β → Reader → Prop} {P : Panic → Prop}
    {c : Char} (hc : r.peek 0 = some c) (h : ∀ r', Adv r [c] r' → Spec (f c) r' Q P) :
    Spec (L.reread c >>= f) r Q P := by
  rcases r with ⟨_ | ⟨d, cs⟩, p⟩
  · simp [Reader.peek] at hc
  · simp only [peek_cons, Option.some.injEq] at hc
    subst hc
    have := h ⟨cs, p.step d cs⟩ (Adv.one d cs p)
    unfold Spec at this ⊢
    rw [bind_apply, reread_cons]
    exact this

/-- Rereading a character that is there unless the input is at its end. -/
theorem Spec.reread' {f : Char → L β} {r : Reader} {Q : β → Reader → Prop} {P : Panic → Prop}
    {c : Char} (hc : r.peek 0 = some c ∨ r.rest = [])
    (h : ∀ r', Adv r [c] r' → Spec (f c) r' Q P) (hP : r.rest = [] → P .readPastEnd) :
    Spec (L.reread c >>= f) r Q P := by
  rcases hc with hc | hc
  · exact Spec.reread hc h
  · rcases r with ⟨rest, p⟩
    simp only at hc
    subst hc
    exact hP rfl

theorem Spec.debugAssert {b : Bool} {f : Unit → L β} {r : Reader} {Q : β → Reader → Prop}
    {P : Panic → Prop} (hb : b = true) (h : Spec (f ()) r Q P) :
    Spec (L.debugAssert b >>= f) r Q P := by subst hb; exact h

theorem Spec.matches {f : Bool → L β} {r : Reader} {Q : β → Reader → Prop} {P : Panic → Prop}
    {c : Char} (h1 : r.peek 0 = some c → ∀ r', Adv r [c] r' → Spec (f true) r' Q P)
    (h2 : r.peek 0 ≠ some c → Spec (f false) r Q P) : Spec (L.matches c >>= f) r Q P := by
  by_cases hc : r.peek 0 = some c
  · rcases r with ⟨_ | ⟨d, cs⟩, p⟩
    · simp [Reader.peek] at hc
    · simp only [peek_cons, Option.some.injEq] at hc
      subst hc
      have := h1 rfl ⟨cs, p.step d cs⟩ (Adv.one d cs p)
      unfold Spec at this ⊢
      rw [bind_apply, matches_cons]
      exact this
  · have := h2 hc
    rcases r with ⟨s, p⟩
    unfold Spec at this ⊢
    rw [bind_apply, matches_ne (by simpa using hc)]
    exact this

/-! ### Maximal runs -/

theorem spanWhile_spec (q : Char → Bool) : ∀ (s : Str) (p : Posn),
    Adv ⟨s, p⟩ (spanWhile q s p).1 (spanWhile q s p).2 ∧ (∀ c ∈ (spanWhile q s p).1, q c = true) ∧
      (∀ c, (spanWhile q s p).2.rest.head? = some c → q c = false)
  | [], p => by simp [spanWhile, Adv.refl]
  | c :: cs, p => by
    unfold spanWhile
    by_cases h : q c = true
    · have ih := spanWhile_spec q cs (p.step c cs)
      simp only [h, if_true]
      refine ⟨(Adv.one c cs p).cons ih.1, ?_, ih.2.2⟩
      intro d hd
      rcases List.mem_cons.1 hd with rfl | hd
      · exact h
      · exact ih.2.1 d hd
    · simp [h, Adv.refl]

theorem spanWhile_eval {q : Char → Bool} : ∀ {x y : Str} {p : Posn}, (∀ c ∈ x, q c = true) →
    (∀ c, y.head? = some c → q c = false) → spanWhile q (x ++ y) p = (x, ⟨y, pos p x y⟩)
  | [], [], p, _, _ => rfl
  | [], c :: y, p, _, h => by simp [spanWhile, h c rfl, pos]
  | c :: x, y, p, hx, hy => by
    have ih := spanWhile_eval (q := q) (x := x) (y := y) (p := p.step c (x ++ y))
      (fun d hd => hx d (List.mem_cons_of_mem _ hd)) hy
    simp [spanWhile, hx c (List.mem_cons_self ..), ih, pos]

theorem Spec.readIntoUntil {q : Char → Bool} {f : Str → L β} {r : Reader} {Q : β → Reader → Prop}
    {P : Panic → Prop}
    (h : ∀ x r', Adv r x r' → (∀ c ∈ x, q c = false) → (∀ c, r'.rest.head? = some c → q c = true) →
      Spec (f x) r' Q P) : Spec (L.readIntoUntil q >>= f) r Q P := by
  have := spanWhile_spec (fun c => !q c) r.rest r.posn
  refine h _ _ this.1 (fun c hc => ?_) (fun c hc => ?_)
  · simpa using this.2.1 c hc
  · simpa using this.2.2 c hc

theorem Spec.skipUntil {q : Char → Bool} {f : Unit → L β} {r : Reader} {Q : β → Reader → Prop}
    {P : Panic → Prop}
    (h : ∀ x r', Adv r x r' → (∀ c ∈ x, q c = false) → (∀ c, r'.rest.head? = some c → q c = true) →
      Spec (f ()) r' Q P) : Spec (L.skipUntil q >>= f) r Q P := by
  have := spanWhile_spec (fun c => !q c) r.rest r.posn
  refine h _ _ this.1 (fun c hc => ?_) (fun c hc => ?_)
  · simpa using this.2.1 c hc
  · simpa using this.2.2 c hc

theorem readIntoUntil_eval {q : Char → Bool} {x y : Str} {p : Posn} (hx : ∀ c ∈ x, q c = false)
    (hy : ∀ c, y.head? = some c → q c = true) :
    L.readIntoUntil q ⟨x ++ y, p⟩ = .ok (x, ⟨y, pos p x y⟩) := by
  unfold L.readIntoUntil
  rw [spanWhile_eval (by simpa using hx) (by simpa using hy)]

theorem skipUntil_eval {q : Char → Bool} {x y : Str} {p : Posn} (hx : ∀ c ∈ x, q c = false)
    (hy : ∀ c, y.head? = some c → q c = true) :
    L.skipUntil q ⟨x ++ y, p⟩ = .ok ((), ⟨y, pos p x y⟩) := by
  unfold L.skipUntil
  rw [spanWhile_eval (by simpa using hx) (by simpa using hy)]

/-! ### Successful runs -/

/-- From `r` the routine `m` reads exactly `x` and returns `a`. -/
def Runs (m : L α) (r : Reader) (x : Str) (a : α) (r' : Reader) : Prop :=
  m r = .ok (a, r') ∧ Adv r x r'

theorem Runs.bind {m : L α} {f : α → L β} {r r1 r2 : Reader} {x1 x2 : Str} {a : α} {b : β}
    (h1 : Runs m r x1 a r1) (h2 : Runs (f a) r1 x2 b r2) : Runs (m >>= f) r (x1 ++ x2) b r2 := by
  refine ⟨?_, h1.2.trans h2.2⟩
  rw [bind_apply, h1.1]
  exact h2.1

theorem Runs.pure (a : α) (r : Reader) : Runs (Pure.pure a : L α) r [] a r := ⟨rfl, Adv.refl r⟩

theorem Runs.map {m : L α} {f : α → L β} {r r1 : Reader} {x : Str} {a : α} {b : β}
    (h1 : Runs m r x a r1) (h2 : f a r1 = .ok (b, r1)) : Runs (m >>= f) r x b r1 := by
  have := h1.bind (f := f) (x2 := []) (b := b) (r2 := r1) ⟨h2, Adv.refl _⟩
  simpa using this

theorem Runs.posn {f : Posn → L β} {r r' : Reader} {x : Str} {b : β}
    (h : Runs (f r.posn) r x b r') : Runs (L.posn >>= f) r x b r' := h

theorem Runs.peek {f : Option Char → L β} {r r' : Reader} {x : Str} {b : β} {o : Option Char}
    (ho : r.rest.head? = o) (h : Runs (f o) r x b r') : Runs (L.peek >>= f) r x b r' := by
  rcases r with ⟨s, p⟩
  subst ho
  have : (⟨s, p⟩ : Reader).peek 0 = s.head? := peek_zero s p
  unfold Runs
  rw [peek_bind, this]
  exact h

theorem Runs.cons {r : Reader} {c : Char} {s : Str} (hr : r.rest = c :: s) :
    ∃ r', Adv r [c] r' ∧ r'.rest = s := by
  rcases r with ⟨_, p⟩
  simp only at hr
  subst hr
  exact ⟨⟨s, p.step c s⟩, Adv.one c s p, rfl⟩

theorem Adv.inv {r r' : Reader} {c : Char} (h : Adv r [c] r') :
    r = ⟨c :: r'.rest, r.posn⟩ ∧ r' = ⟨r'.rest, r.posn.step c r'.rest⟩ := by
  refine ⟨?_, ?_⟩
  · have := h.rest
    cases r
    simp_all
  · exact h.eq

theorem Runs.read {r r' : Reader} {c : Char} (h : Adv r [c] r') : Runs L.read r [c] c r' := by
  refine ⟨?_, h⟩
  rw [(Adv.inv h).1, (Adv.inv h).2]
  rfl

theorem Runs.skip {r r' : Reader} {c : Char} (h : Adv r [c] r') : Runs L.skip r [c] () r' := by
  refine ⟨?_, h⟩
  rw [(Adv.inv h).1, (Adv.inv h).2]
  rfl

theorem Runs.skip2 {r r1 r' : Reader} {c d : Char} (h1 : Adv r [c] r1) (h2 : Adv r1 [d] r') :
    Runs L.skip2 r [c, d] () r' := (Runs.skip h1).bind (Runs.skip h2)

theorem Runs.reread {r r' : Reader} {c : Char} (h : Adv r [c] r') :
    Runs (L.reread c) r [c] c r' := by
  refine ⟨?_, h⟩
  rw [(Adv.inv h).1, (Adv.inv h).2]
  exact reread_cons _ _ _

theorem Runs.matches_true {r r' : Reader} {c : Char} (h : Adv r [c] r') :
    Runs (L.matches c) r [c] true r' := by
  refine ⟨?_, h⟩
  rw [(Adv.inv h).1, (Adv.inv h).2]
  exact matches_cons _ _ _

theorem Runs.matches_false {r : Reader} {c : Char} (h : r.rest.head? ≠ some c) :
    Runs (L.matches c) r [] false r := by
  refine ⟨?_, Adv.refl r⟩
  exact matches_ne h

theorem Runs.debugAssert {b : Bool} {r : Reader} (h : b = true) :
    Runs (L.debugAssert b) r [] () r := by subst h; exact ⟨rfl, Adv.refl r⟩

theorem Runs.readIntoUntil {q : Char → Bool} {r : Reader} {x y : Str} (hr : r.rest = x ++ y)
    (hx : ∀ c ∈ x, q c = false) (hy : ∀ c, y.head? = some c → q c = true) :
    ∃ r', r'.rest = y ∧ Runs (L.readIntoUntil q) r x x r' := by
  rcases r with ⟨s, p⟩
  simp only at hr
  subst hr
  exact ⟨_, rfl, readIntoUntil_eval hx hy, ⟨rfl, rfl⟩⟩

/-- A reader after the text `x`. -/
theorem Adv.exists {r : Reader} {x y : Str} (hr : r.rest = x ++ y) :
    ∃ r', Adv r x r' ∧ r'.rest = y :=
  ⟨⟨y, pos r.posn x y⟩, ⟨hr, rfl⟩, rfl⟩

theorem Runs.of_eval {m : L α} {r : Reader} {x y : Str} {a : α} (hr : r.rest = x ++ y)
    (h : ∀ p, m ⟨x ++ y, p⟩ = .ok (a, ⟨y, pos p x y⟩)) :
    ∃ r', r'.rest = y ∧ Runs m r x a r' := by
  rcases r with ⟨s, p⟩
  simp only at hr
  subst hr
  exact ⟨_, rfl, h p, ⟨rfl, rfl⟩⟩

end L

/-! ### Character classes -/

open Lex

theorem isEsNewline_iff (c : Char) : isEsNewline c = true ↔ c ∈ lineTerminators := by
  simp [isEsNewline, lineTerminators, or_assoc]

theorem isEsNewline_false (c : Char) : isEsNewline c = false ↔ c ∉ lineTerminators := by
  rw [← isEsNewline_iff]; simp

theorem isEsWhitespace_iff (c : Char) : isEsWhitespace c = true ↔ c ∈ whiteSpace := by
  simp [isEsWhitespace, whiteSpace, or_assoc]

theorem isEsWhitespace_false (c : Char) : isEsWhitespace c = false ↔ c ∉ whiteSpace := by
  rw [← isEsWhitespace_iff]; simp

/-- Characters are determined by their code. -/
theorem Char.eq_of_toNat {c d : Char} (h : c.toNat = d.toNat) : c = d := by
  apply Char.ext
  exact UInt32.toNat_inj.1 h

theorem Char.le_iff (c d : Char) : c ≤ d ↔ c.toNat ≤ d.toNat := by
  exact UInt32.le_iff_toNat_le

end Esprit
