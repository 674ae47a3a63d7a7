import Verif.Model.Parser.Program
import Verif.Proofs.LexSeq
import Verif.Spec.Grammar

/-!
A calculus for the parser: `P.wp m s Q` says that running `m` in the state `s`
terminates, does not fail an internal assertion, and ends, if it succeeds, in a
result and a state that satisfy `Q`.
-/

set_option linter.unusedSectionVars false

namespace Esprit

open Lex ReaderSpec Grammar

/-- `u`: may `unimplemented!()` be reached? -/
def P.wp (u : Bool) {α : Type} (m : P α) (s : PState) (Q : α → PState → Prop) : Prop :=
  match m s with
  | .ok (a, s') => Q a s'
  | .err _ => True
  | .panic p => p = .readPastEnd ∨ p = .overflow ∨ (u = true ∧ p = .unimplemented)
  | .fuel => False

namespace P

variable {u : Bool} {α β σ : Type} {s : PState}

theorem wp.bind {m : P α} {f : α → P β} {Q : α → PState → Prop} {Q' : β → PState → Prop}
    (h : wp u m s Q) (hf : ∀ a s', Q a s' → wp u (f a) s' Q') : wp u (m >>= f) s Q' := by
  unfold wp at h ⊢
  have e : (m >>= f) s = P.bind m f s := rfl
  rw [e]
  unfold P.bind
  cases hm : m s with
  | ok v =>
    obtain ⟨a, s'⟩ := v
    rw [hm] at h
    exact hf a s' h
  | err e => trivial
  | panic p => rw [hm] at h; exact h
  | fuel => rw [hm] at h; exact h

theorem wp.mono {m : P α} {Q Q' : α → PState → Prop}
    (h : wp u m s Q) (hf : ∀ a s', Q a s' → Q' a s') : wp u m s Q' := by
  unfold wp at h ⊢
  cases hm : m s with
  | ok v => rw [hm] at h; exact hf _ _ h
  | err e => trivial
  | panic p => rw [hm] at h; exact h
  | fuel => rw [hm] at h; exact h

theorem wp.pure {a : α} {Q : α → PState → Prop} (h : Q a s) : wp u (pure a : P α) s Q := h

theorem wp.and {m : P α} {Q Q' : α → PState → Prop} (h : wp u m s Q) (h' : wp u m s Q') :
    wp u m s (fun a s' => Q a s' ∧ Q' a s') := by
  unfold wp at h h' ⊢
  cases hm : m s with
  | ok v => rw [hm] at h h'; exact ⟨h, h'⟩
  | err e => trivial
  | panic p => rw [hm] at h; exact h
  | fuel => rw [hm] at h; exact h

theorem wp.throw {e : PError} {Q : α → PState → Prop} : wp u (throw e : P α) s Q := trivial

theorem wp.get {Q : PState → PState → Prop} (h : Q s s) : wp u P.get s Q := h

theorem wp.modify {f : PState → PState} {Q : Unit → PState → Prop} (h : Q () (f s)) :
    wp u (P.modify f) s Q := h

theorem wp.posn {Q : Posn → PState → Prop} (h : Q s.lexer.reader.posn s) :
    wp u P.posn s Q := h

end P

/-! ### Measures -/

/-- How much a token counts. -/
def Token.weight (t : Token) : Nat := if t.value = .eof then 0 else 1

/-- The unread input. -/
def PState.mu (s : PState) : Nat :=
  s.lexer.reader.rest.length + (s.lexer.lookahead.map Token.weight).sum

/-- The offset up to which the input has been read. -/
abbrev PState.off (s : PState) : Nat := s.lexer.reader.posn.offset

/-- The buffered tokens. -/
abbrev PState.la (s : PState) : List Token := s.lexer.lookahead

/-- Put a token back. -/
def PState.push (t : Token) (s : PState) : PState :=
  { s with lexer := { s.lexer with lookahead := t :: s.lexer.lookahead } }

theorem P.loop_fuel (s : PState) :
    s.mu < s.lexer.reader.rest.length + s.lexer.lookahead.length + 1 := by
  have : ∀ l : List Token, (l.map Token.weight).sum ≤ l.length := by
    intro l
    induction l with
    | nil => simp
    | cons t l ih =>
      simp only [List.map_cons, List.sum_cons, List.length_cons]
      have : t.weight ≤ 1 := by unfold Token.weight; split <;> omega
      omega
  have := this s.lexer.lookahead
  unfold PState.mu
  omega

theorem P.wp.loop {u : Bool} {σ β : Type} {step : σ → P (σ ⊕ β)} {a : σ} {s : PState}
    {Q : β → PState → Prop} (I : σ → PState → Prop) (hI : I a s)
    (h : ∀ a s, I a s → wp u (step a) s fun x s' =>
      match x with | .inl a' => I a' s' ∧ s'.mu < s.mu | .inr b => Q b s') :
    wp u (P.loop step a) s Q := by
  have H : ∀ (n : Nat) (a : σ) (s : PState), s.mu < n → I a s →
      wp u (fun s => P.loopN step n a s) s Q := by
    intro n
    induction n with
    | zero => intro a s h; omega
    | succ n ih =>
      intro a s hn hI
      have h1 := h a s hI
      unfold wp at h1 ⊢
      simp only [P.loopN]
      cases hm : step a s with
      | ok v =>
        obtain ⟨x, s'⟩ := v
        rw [hm] at h1
        cases x with
        | inl a' =>
          simp only at h1 ⊢
          have := ih a' s' (by omega) h1.1
          unfold wp at this
          exact this
        | inr b => exact h1
      | err e => trivial
      | panic p => rw [hm] at h1; exact h1
      | fuel => rw [hm] at h1; exact h1
  exact H _ a s (P.loop_fuel s) hI

/-! ### Token streams -/

section Stream

variable [Env]

/-- What the parser relies on about a token. -/
structure TokOk (S : Str) (t : Token) : Prop where
  string : ∀ lit, t.value = .string lit → ∃ x, lit.source = some x ∧
    (x.head? = some '"' ∨ x.head? = some '\'')
  start : ∃ j, PosnAt S j t.location.start
  order : t.location.start.offset ≤ t.location.end.offset

/-- The token is not a regular expression. -/
def NotRegExp (t : Token) : Prop := ∀ x, t.value ≠ .regExp x

/-- The token is not a division. -/
def NotDivision (t : Token) : Prop := t.value ≠ .slash ∧ t.value ≠ .slashAssign

/-- No regular expression is buffered. -/
def Clean (s : PState) : Prop := ∀ t ∈ s.la, NotRegExp t

/-- The invariant of the parser state. -/
structure Inv (S : Str) (s : PState) : Prop where
  at_ : ∃ k e, k ≤ S.length ∧ s.lexer.At S k e
  la : s.la.length ≤ 2
  tok : ∀ t ∈ s.la, TokOk S t ∧ t.location.end.offset ≤ s.off
  last : ∀ t, s.la.getLast? = some t → s.lexer.reader.posn = t.location.end
  second : ∀ t ∈ s.la.tail, NotRegExp t

/-- `rest` are the buffered tokens followed by tokens found in the unread input. -/
def Rem (S : Str) (s : PState) (rest : List Token) : Prop :=
  ∃ k e ops new k', s.lexer.At S k e ∧ Tokens S k e ops new k' ∧ rest = s.la ++ new

/-- What every construct leaves unchanged. -/
structure Kept (s s' : PState) : Prop where
  goal : s'.goal = s.goal
  validate : s'.validate = s.validate
  ctx : s'.ctx = { s.ctx with labels := s'.ctx.labels }
  labels : ∀ n t, s'.ctx.labels.get n = some t → s.ctx.labels.get n = some t

theorem Kept.refl (s : PState) : Kept s s := ⟨rfl, rfl, rfl, fun _ _ h => h⟩

theorem Kept.trans {s s1 s2 : PState} (h : Kept s s1) (h' : Kept s1 s2) : Kept s s2 := by
  refine ⟨by rw [h'.goal, h.goal], by rw [h'.validate, h.validate], ?_,
    fun n t ht => h.labels n t (h'.labels n t ht)⟩
  rw [h'.ctx, h.ctx]

/-- The transition from `s` to `s'` consumes at least `n` tokens; `R` relates the
tokens ahead before and after. -/
structure Tr (S : Str) (n : Nat) (s s' : PState) (R : List Token → List Token → Prop) : Prop where
  inv : Inv S s'
  frame : Kept s s'
  mu : s'.mu + n ≤ s.mu
  off : s.off ≤ s'.off
  back : ∀ rest', Rem S s' rest' → ∃ rest c, Rem S s rest ∧ rest = c ++ rest' ∧
    (∀ t ∈ c, t.location.end.offset ≤ s'.off) ∧ R rest rest'

/-- Composition of relations on token lists. -/
def Comp (R R' : List Token → List Token → Prop) (a c : List Token) : Prop := ∃ b, R a b ∧ R' b c

variable {S : Str} {n m : Nat} {s s1 s2 s' : PState} {R R' : List Token → List Token → Prop}
  {t : Token}

theorem Tr.trans (h : Tr S n s s1 R) (h' : Tr S m s1 s2 R') : Tr S (n + m) s s2 (Comp R R') := by
  refine ⟨h'.inv, h.frame.trans h'.frame, ?_, Nat.le_trans h.off h'.off, fun rest' hr => ?_⟩
  · have := h.mu; have := h'.mu; omega
  · obtain ⟨r1, c1, a1, a2, a3, a4⟩ := h'.back rest' hr
    obtain ⟨r0, c0, b1, b2, b3, b4⟩ := h.back r1 a1
    refine ⟨r0, c0 ++ c1, b1, by rw [b2, a2, List.append_assoc], fun t ht => ?_, r1, b4, a4⟩
    rcases List.mem_append.1 ht with ht | ht
    · exact Nat.le_trans (b3 t ht) h'.off
    · exact a3 t ht

theorem Tr.mono (h : Tr S n s s' R) (hn : m ≤ n) (hR : ∀ a b, R a b → R' a b) :
    Tr S m s s' R' := by
  refine ⟨h.inv, h.frame, ?_, h.off, fun rest' hr => ?_⟩
  · have := h.mu; omega
  · obtain ⟨r0, c0, b1, b2, b3, b4⟩ := h.back rest' hr
    exact ⟨r0, c0, b1, b2, b3, hR _ _ b4⟩

theorem Tr.imp (h : Tr S n s s' R) (hR : ∀ a b, R a b → R' a b) : Tr S n s s' R' :=
  h.mono (Nat.le_refl n) hR

theorem Rem.congr (h : s'.lexer = s.lexer) {r : List Token} : Rem S s' r ↔ Rem S s r := by
  unfold Rem PState.la
  rw [h]

theorem Inv.congr (h : s'.lexer = s.lexer) (hs : Inv S s) : Inv S s' := by
  obtain ⟨h1, h2, h3, h4, h5⟩ := hs
  constructor
  · rw [h]; exact h1
  · simp only [PState.la, h]; exact h2
  · simp only [PState.la, PState.off, h]; exact h3
  · simp only [PState.la, h]; exact h4
  · simp only [PState.la, h]; exact h5

theorem Clean.congr (h : s'.lexer = s.lexer) (hs : Clean s) : Clean s' := by
  intro t ht
  simp only [PState.la, h] at ht
  exact hs t ht

/-- Only the first buffered token can be a regular expression. -/
theorem Inv.clean (hs : Inv S s) {tl : List Token} (hla : s.la = t :: tl) (h : NotRegExp t) :
    Clean s := by
  intro t' ht'
  rw [hla] at ht'
  rcases List.mem_cons.1 ht' with rfl | ht'
  · exact h
  · exact hs.second t' (by rw [hla]; exact ht')

theorem Clean.nil (h : s.la = []) : Clean s := by
  intro t ht
  rw [h] at ht
  cases ht

/-- A change of the state that does not touch the lexer. -/
theorem Tr.same (hs : Inv S s) (h : s'.lexer = s.lexer) (hf : Kept s s') :
    Tr S 0 s s' (fun a b => a = b) := by
  refine ⟨hs.congr h, hf, by simp [PState.mu, h], by simp [PState.off, h], fun rest' hr => ?_⟩
  exact ⟨rest', [], (Rem.congr h).1 hr, rfl, by simp, rfl⟩

theorem Tr.refl (hs : Inv S s) : Tr S 0 s s (fun a b => a = b) := .same hs rfl (.refl s)

/-- Changing the context before and after. -/
theorem Tr.inside {t' : PState} (h : Tr S n s1 s' R) (h1 : s1.lexer = s.lexer)
    (h2 : t'.lexer = s'.lexer) (hf : Kept s t') : Tr S n s t' R := by
  refine ⟨h.inv.congr h2, hf, ?_, ?_, fun rest' hr => ?_⟩
  · have := h.mu
    simp only [PState.mu, h1, h2] at this ⊢
    exact this
  · have := h.off
    simp only [PState.off, h1, h2] at this ⊢
    exact this
  · obtain ⟨r0, c0, b1, b2, b3, b4⟩ := h.back rest' ((Rem.congr h2).1 hr)
    refine ⟨r0, c0, (Rem.congr h1).1 b1, b2, ?_, b4⟩
    simp only [PState.off, h2]
    exact b3

theorem Inv.posnAt (hs : Inv S s) :
    ∃ k ≤ S.length, PosnAt S k s.lexer.reader.posn ∧ s.off = k := by
  obtain ⟨k, e, h1, h2⟩ := hs.at_
  exact ⟨k, h1, h2.posn, h2.posn.offset⟩

theorem Rem.starts.aux {k k' : Nat} {e : Bool} {ops : List Bool} {new : List Token}
    (h : Tokens S k e ops new k') : ∀ t ∈ new, k ≤ t.location.start.offset := by
  induction h with
  | nil => simp
  | cons h3 h4 ih =>
    obtain ⟨a1, a2, a3, _⟩ := h3.text
    intro t ht
    rcases List.mem_cons.1 ht with rfl | ht
    · exact a1
    · have := ih t ht
      omega

/-- Only the tokens that were buffered can start before the current offset. -/
theorem Rem.starts {rest : List Token} (hs : Inv S s) (h : Rem S s rest) :
    ∀ t ∈ rest.drop s.la.length, s.off ≤ t.location.start.offset := by
  obtain ⟨k, e, ops, new, k', h1, h2, rfl⟩ := h
  rw [List.drop_left]
  have hk : s.off = k := h1.posn.offset
  rw [hk]
  exact Rem.starts.aux h2

/-- The current position is close to the start of the tokens ahead. -/
theorem Rem.near {rest : List Token} (hs : Inv S s) (h : Rem S s rest) :
    Near S rest s.lexer.reader.posn := by
  have hst := h.starts hs
  obtain ⟨j, j0, j1, j2⟩ := hs.posnAt
  refine ⟨⟨j, j0, j1⟩, fun t ht => hst t ?_, fun t ht hle => ?_, fun t ht => ?_⟩
  · have : rest.drop 2 = (rest.drop s.la.length).drop (2 - s.la.length) := by
      rw [List.drop_drop]
      have := hs.la
      congr 1
      omega
    rw [this] at ht
    exact List.mem_of_mem_drop ht
  · obtain ⟨k, e, ops, new, k', h1, h2, rfl⟩ := h
    have hk : s.off = k := h1.posn.offset
    cases hla : s.la with
    | nil =>
      rw [hla, List.nil_append] at ht
      cases h2 with
      | nil => cases ht
      | cons h3 h4 =>
        cases ht
        obtain ⟨-, -, -, -, ⟨e', h5, -⟩, -⟩ := h3.text
        rw [← hk] at h5
        exact ⟨e, e', h5⟩
    | cons u us =>
      rw [hla, List.cons_append] at ht
      cases ht
      have hu := hs.tok t (by rw [hla]; exact List.mem_cons_self ..)
      have := hu.1.order
      have e1 : slice S s.off t.location.start.offset = [] := by
        have : t.location.start.offset - s.off = 0 := by omega
        rw [slice, this, List.take_zero]
      rw [show s.lexer.reader.posn.offset = s.off from rfl, e1]
      exact ⟨true, true, .nil⟩
  · cases hla : s.la with
    | nil =>
      rw [hla] at hst
      refine .inl (hst t ?_)
      cases rest with
      | nil => cases ht
      | cons _ _ => cases ht; exact List.mem_cons_self ..
    | cons u us =>
      refine .inr ⟨(u :: us).getLast (List.cons_ne_nil _ _), ?_, hs.last _ ?_⟩
      · obtain ⟨_, _, _, new, _, _, _, rfl⟩ := h
        have h2 := hs.la
        rw [List.take_append, hla, List.take_of_length_le (by rw [← hla]; exact h2)]
        exact List.mem_append_left _ (List.getLast_mem _)
      · rw [hla]; exact List.getLast?_eq_some_getLast _

/-- The start of the next token is close to it. -/
theorem Rem.nearTok {i : List Token} (hs : Inv S s) (h : Rem S s (t :: i)) (ht : TokOk S t)
    (he : t.location.end.offset ≤ s1.off) (hs1 : Inv S s1) :
    Near S (t :: i) t.location.start := by
  obtain ⟨j, hj⟩ := ht.start
  obtain ⟨k, k0, -, k2⟩ := hs1.posnAt
  have ho := ht.order
  refine ⟨⟨j, ?_, hj⟩, fun u hu => ?_, fun u hu _ => ?_, fun u hu => ?_⟩
  · have := hj.offset; omega
  · have hlate := (h.near hs).late u hu
    by_cases hto : t.location.start.offset ≤ s.off
    · exact Nat.le_trans hto hlate
    · obtain ⟨k, e, ops, new, k', h1, h2, h3⟩ := h
      cases hla : s.la with
      | nil =>
        rw [hla, List.nil_append] at h3
        subst h3
        cases h2 with
        | cons h4 h5 =>
          have h6 := Rem.starts.aux h5 u (List.mem_of_mem_drop (i := 1) (by simpa using hu))
          obtain ⟨-, a2, a3, -⟩ := h4.text
          omega
      | cons v vs =>
        rw [hla, List.cons_append] at h3
        cases h3
        have := (hs.tok t (by rw [hla]; exact List.mem_cons_self ..)).2
        omega
  · cases hu
    refine ⟨true, true, ?_⟩
    rw [slice, Nat.sub_self, List.take_zero]
    exact .nil
  · cases hu
    exact .inl (Nat.le_refl _)

/-- The transition as a location. -/
theorem Tr.located (hs : Inv S s) (h : Tr S n s s' R) :
    Tr S n s s' (fun a b => R a b ∧
      Located S a b (some ⟨s.lexer.reader.posn, s'.lexer.reader.posn⟩)) := by
  refine ⟨h.inv, h.frame, h.mu, h.off, fun rest' hr => ?_⟩
  obtain ⟨r0, c0, b1, b2, b3, b4⟩ := h.back rest' hr
  exact ⟨r0, c0, b1, b2, b3, b4, _, _, c0, rfl, h.off, b1.near hs, hr.near h.inv, b2, b3⟩

theorem Tr.starts (hs : Inv S s) (h : Tr S n s s' R) :
    Tr S n s s' (fun a b => R a b ∧ ∀ t ∈ a.drop 2, s.off ≤ t.location.start.offset) := by
  refine ⟨h.inv, h.frame, h.mu, h.off, fun rest' hr => ?_⟩
  obtain ⟨r0, c0, b1, b2, b3, b4⟩ := h.back rest' hr
  refine ⟨r0, c0, b1, b2, b3, b4, fun t ht => b1.starts hs t ?_⟩
  have : r0.drop 2 = (r0.drop s.la.length).drop (2 - s.la.length) := by
    rw [List.drop_drop]
    have := hs.la
    congr 1
    omega
  rw [this] at ht
  exact List.mem_of_mem_drop ht

/-- The first token. -/
def Cons (t : Token) (a b : List Token) : Prop := a = t :: b

/-- Looking at the next token. -/
def Look (t : Token) (a b : List Token) : Prop := a = b ∧ ∃ r, b = t :: r

/-- The effect of reading a token. -/
structure ReadPost (S : Str) (s : PState) (t : Token) (s1 : PState) : Prop where
  tr : Tr S t.weight s s1 (Cons t)
  tok : TokOk S t
  «end» : t.location.end.offset ≤ s1.off
  la : s1.la.length ≤ s.la.length - 1
  last : s1.la = [] → s1.lexer.reader.posn = t.location.end
  clean : Clean s1

/-- The effect of looking at a token. -/
structure PeekPost (S : Str) (s : PState) (t : Token) (s1 : PState) : Prop where
  tr : Tr S 0 s s1 (Look t)
  tok : TokOk S t
  la : ∃ tl, s1.la = t :: tl
  len : s1.la.length ≤ max 1 s.la.length

theorem PeekPost.ne {p : Prop} (h : PeekPost S s t s1) : s1.la = [] → p := by
  obtain ⟨tl, e⟩ := h.la
  rw [e]
  intro h
  cases h

theorem mu_push (t : Token) (s : PState) : (s.push t).mu = s.mu + t.weight := by
  simp only [PState.mu, PState.push, List.map_cons, List.sum_cons]
  omega

theorem Rem.push {r : List Token} (h : Rem S (s.push t) r) : ∃ r', r = t :: r' ∧ Rem S s r' := by
  obtain ⟨k, e, ops, new, k', h1, h2, rfl⟩ := h
  exact ⟨s.la ++ new, rfl, k, e, ops, new, k', ⟨h1.rest, h1.posn, h1.empty⟩, h2, rfl⟩

/-- Putting a token back after looking ahead. -/
theorem ReadPost.unread (h1 : ReadPost S s t s1) (h2 : Tr S 0 s1 s2 R) (hR : ∀ a b, R a b → a = b)
    (hla : s2.la.length ≤ 1) (hE : s2.la = [] → s2.lexer.reader.posn = t.location.end)
    (hC : Clean s2) :
    Tr S 0 s (s2.push t) (fun a b => a = b ∧ ∃ r, b = t :: r ∧ R r r) := by
  refine ⟨⟨?_, ?_, ?_, ?_, hC⟩, ?_, ?_, ?_, fun rest' hr => ?_⟩
  · obtain ⟨k, e, a1, a2⟩ := h2.inv.at_
    exact ⟨k, e, a1, ⟨a2.rest, a2.posn, a2.empty⟩⟩
  · simp only [PState.push, PState.la, List.length_cons] at hla ⊢; omega
  · intro t' ht'
    rcases List.mem_cons.1 ht' with rfl | ht'
    · exact ⟨h1.tok, Nat.le_trans h1.end h2.off⟩
    · exact h2.inv.tok t' ht'
  · intro t' ht'
    have e : (s2.push t).la = t :: s2.la := rfl
    rw [e] at ht'
    show s2.lexer.reader.posn = _
    cases hl : s2.la with
    | nil => rw [hl] at ht'; cases ht'; exact hE hl
    | cons v vs =>
      rw [hl, List.getLast?_cons_cons] at ht'
      exact h2.inv.last t' (by rw [hl]; exact ht')
  · exact h1.tr.frame.trans (h2.frame.trans ⟨rfl, rfl, rfl, fun _ _ h => h⟩)
  · rw [mu_push]; have := h1.tr.mu; have := h2.mu; omega
  · exact Nat.le_trans h1.tr.off h2.off
  · obtain ⟨r, rfl, hr'⟩ := hr.push
    obtain ⟨r1, c1, a1, a2, a3, a4⟩ := h2.back r hr'
    have e := hR _ _ a4
    subst e
    obtain ⟨r0, c0, b1, b2, b3, b4⟩ := h1.tr.back _ a1
    cases b4
    exact ⟨_, [], b1, rfl, by simp, rfl, _, rfl, a4⟩

theorem ReadPost.la1 {s1 : PState} (hs : Inv S s) (h : ReadPost S s t s1) : s1.la.length ≤ 1 := by
  have := h.la
  have := hs.la
  omega

theorem ReadPost.back (h1 : ReadPost S s t s1) (hla : s1.la.length ≤ 1) :
    PeekPost S s t (s1.push t) := by
  refine ⟨(h1.unread (.refl h1.tr.inv) (fun _ _ h => h) hla h1.last h1.clean).imp ?_, h1.tok, ⟨_, rfl⟩, ?_⟩
  · rintro a b ⟨rfl, r, h, -⟩
    exact ⟨rfl, r, h⟩
  · have := h1.la
    simp only [PState.push, PState.la, List.length_cons] at *
    omega

/-- Reading the token that is buffered. -/
theorem readPost_of_la (hs : Inv S s) {ts : List Token} (hla : s.lexer.lookahead = t :: ts) :
    ReadPost S s t { s with lexer := { s.lexer with lookahead := ts } } := by
  obtain ⟨k, e, hk, hat⟩ := hs.at_
  have hsec : ∀ t' ∈ ts, NotRegExp t' := fun t' ht' =>
    hs.second t' (by simp only [PState.la, hla]; exact ht')
  refine ⟨⟨⟨⟨k, e, hk, ⟨hat.rest, hat.posn, hat.empty⟩⟩, ?_, ?_, ?_,
      fun t' ht' => hsec t' (List.mem_of_mem_tail ht')⟩,
    ⟨rfl, rfl, rfl, fun _ _ h => h⟩, ?_, Nat.le_refl _, ?_⟩,
    ?_, ?_, ?_, ?_, hsec⟩
  · have := hs.la
    simp only [PState.la, hla, List.length_cons] at this ⊢
    omega
  · intro t' ht'
    exact hs.tok t' (by simp only [PState.la, hla]; exact List.mem_cons_of_mem _ ht')
  · intro t' ht'
    refine hs.last t' ?_
    simp only [PState.la] at ht'
    simp only [PState.la, hla]
    cases ts with
    | nil => cases ht'
    | cons v vs => rw [List.getLast?_cons_cons]; exact ht'
  · simp only [PState.mu, hla, List.map_cons, List.sum_cons]
    omega
  · rintro rest' ⟨k, e, ops, new, k', h1, h2, rfl⟩
    refine ⟨t :: (ts ++ new), [t], ⟨k, e, ops, new, k', ⟨h1.rest, h1.posn, h1.empty⟩, h2, ?_⟩,
      rfl, ?_, rfl⟩
    · simp [PState.la, hla]
    · intro t' ht'
      cases List.mem_singleton.1 ht'
      exact (hs.tok t (by simp [PState.la, hla])).2
  · exact (hs.tok t (by simp [PState.la, hla])).1
  · exact (hs.tok t (by simp [PState.la, hla])).2
  · simp [PState.la, hla]
  · intro h
    simp only [PState.la] at h
    exact hs.last t (by simp only [PState.la, hla, h]; rfl)

variable [LawfulEnv]

theorem TokOk.of_tokenAt {k k' : Nat} {e op : Bool} (h : TokenAt S k e op t k') : TokOk S t := by
  have hx := h.text
  obtain ⟨w, x, y, e', a1, a2, a3, a4, _⟩ := h
  refine ⟨?_, ⟨_, hx.2.2.2.2.2.2.2.1⟩, hx.2.1⟩
  intro lit hl
  rw [hl] at a4
  cases a4 with
  | punctuator h1 =>
    have : ∀ p ∈ punctuators, ∀ l, p.2 ≠ .string l := by
      intro p hp l h
      have : ∀ p ∈ punctuators, (match p.2 with | .string _ => false | _ => true) = true := by
        decide +kernel
      have := this p hp
      rw [h] at this
      cases this
    exact absurd rfl (this _ h1 lit)
  | word h1 h2 h3 h4 => cases h4
  | @string q x y v hq h1 =>
    exact ⟨_, rfl, by rcases hq with rfl | rfl <;> simp⟩

/-- Regular expressions are not operators. -/
theorem Lex.TokenAt.mode {k k' : Nat} {e op : Bool} (h : TokenAt S k e op t k') :
    if op then NotRegExp t else NotDivision t := by
  obtain ⟨w, x, y, e', a1, a2, a3, a4, _⟩ := h
  have hpunc : ∀ p ∈ punctuators, (match p.2 with | .regExp _ => false | _ => true) = true := by
    decide +kernel
  have hslash : ∀ p ∈ punctuators, p.2 = .slash ∨ p.2 = .slashAssign → p.1.head? = some '/' := by
    decide +kernel
  generalize hv : t.value = v at a4
  cases op with
  | true =>
    intro r hr
    rw [hv] at hr
    subst hr
    cases a4 with
    | punctuator h1 => exact absurd (hpunc _ h1) (by simp)
    | word h1 h2 h3 h4 => cases h4
    | regexp h1 => cases h1
  | false =>
    have key : ¬ (v = .slash ∨ v = .slashAssign) := by
      intro hs
      cases a4 with
      | punctuator h1 h2 h3 => cases h3 (hslash _ h1 hs)
      | word h1 h2 h3 h4 => cases h4 <;> rcases hs with h | h <;> cases h
      | _ => rcases hs with h | h <;> cases h
    exact ⟨by rw [hv]; exact fun h => key (.inl h), by rw [hv]; exact fun h => key (.inr h)⟩

theorem Token.weight_lt {k k' : Nat} {e op : Bool} (h : TokenAt S k e op t k')
    (hk : k ≤ S.length) : k + t.weight ≤ k' ∧ k' ≤ S.length := by
  obtain ⟨a1, a2, a3, a4, _, a6, _⟩ := h.text
  refine ⟨?_, by omega⟩
  unfold Token.weight
  split
  · omega
  · rename_i hne
    have : slice S t.location.start.offset t.location.end.offset ≠ [] :=
      fun hn => hne (a6.eof_iff.1.2 hn)
    have : t.location.start.offset < t.location.end.offset := by
      refine Nat.lt_of_not_le fun hle => this ?_
      rw [slice, show t.location.end.offset - t.location.start.offset = 0 by omega]
      rfl
    omega

/-- Reading a token from the input. -/
theorem readPost_of_next (hs : Inv S s) {k k' : Nat} {e op : Bool} {l : Lexer}
    (hla : s.lexer.lookahead = []) (hat : s.lexer.At S k e) (hk : k ≤ S.length)
    (ht : TokenAt S k e op t k') (hl : l.At S k' false) (hll : l.lookahead = []) :
    ReadPost S s t { s with lexer := l } := by
  obtain ⟨w1, w2⟩ := Token.weight_lt ht hk
  obtain ⟨a1, a2, a3, _, _, _, _, _, a9⟩ := ht.text
  have ho : l.reader.posn.offset = k' := hl.posn.offset
  have ho' : s.off = k := hat.posn.offset
  refine ⟨⟨⟨⟨k', false, w2, hl⟩, by simp [PState.la, hll], by simp [PState.la, hll],
    by simp [PState.la, hll], by simp [PState.la, hll]⟩,
    ⟨rfl, rfl, rfl, fun _ _ h => h⟩, ?_, ?_, ?_⟩,
    .of_tokenAt ht, ?_, by simp [PState.la, hll], fun _ => (a3 ▸ hl.posn).unique a9,
    .nil hll⟩
  · simp only [PState.mu, hl.rest, hat.rest, hla, hll, List.length_drop, List.map_nil,
      List.sum_nil]
    omega
  · simp only [PState.off, ho] at ho' ⊢
    omega
  · rintro rest' ⟨k1, e1, ops, new, k2, h1, h2, rfl⟩
    have e1 : k1 = k' := by rw [← h1.posn.offset, ← hl.posn.offset]
    have e2 := h1.empty.symm.trans hl.empty
    subst e1 e2
    refine ⟨t :: new, [t], ⟨k, e, op :: ops, t :: new, k2, hat, .cons ht h2, ?_⟩, ?_, ?_, ?_⟩
    · simp [PState.la, hla]
    · simp [PState.la, hll]
    · intro t' ht'
      cases List.mem_singleton.1 ht'
      simp only [PState.off, ho]
      omega
    · simp [Cons, PState.la, hll]
  · simp only [PState.off, ho]
    omega

end Stream

namespace P

section Prim

variable [Env] [LawfulEnv] {u : Bool} {S : Str} {s : PState} {t : Token}

theorem tokenPanic {op : Bool} {z : Str} {p : Panic} (h : TokenPanic op z p) :
    p = .readPastEnd ∨ p = .overflow ∨ (u = true ∧ p = .unimplemented) := by
  rcases h with ⟨_, h, _⟩ | ⟨_, _, _, h⟩
  · exact .inl h
  · cases h <;> first | exact .inl rfl | exact .inr (.inl rfl)

theorem wp.readToken (hs : Inv S s) (op : Bool) :
    wp u (lex (Lexer.readToken op)) s (ReadPost S s) := by
  unfold wp lex Lexer.readToken
  cases hla : s.lexer.lookahead with
  | cons t ts => exact readPost_of_la hs hla
  | nil =>
    obtain ⟨k, e, hk, hat⟩ := hs.at_
    have h := readNextToken_spec hat op
    simp only
    unfold NextSpec at h
    cases hm : s.lexer.readNextToken op with
    | ok v =>
      obtain ⟨t, l⟩ := v
      rw [hm] at h
      obtain ⟨k', h1, h2, h3⟩ := h
      exact readPost_of_next hs hla hat hk h1 h2 (by rw [h3, hla])
    | err e => trivial
    | panic p =>
      rw [hm] at h
      obtain ⟨_, _, _, _, _, h⟩ := h
      exact tokenPanic h
    | fuel => rw [hm] at h; exact h

theorem wp.peekToken (hs : Inv S s) (op : Bool) :
    wp u (lex (Lexer.peekToken op)) s (PeekPost S s) := by
  unfold wp lex Lexer.peekToken
  cases hla : s.lexer.lookahead with
  | cons t ts =>
    simp only
    have h := Tr.refl hs
    refine ⟨⟨h.inv, h.frame, h.mu, h.off, ?_⟩, ?_, ⟨ts, hla⟩, ?_⟩
    · intro rest' hr
      have hr' := hr
      obtain ⟨k, e, ops, new, k', h1, h2, rfl⟩ := hr
      exact ⟨_, [], hr', rfl, by simp, rfl, ts ++ new, by simp [PState.la, hla]⟩
    · exact (hs.tok t (by simp [PState.la, hla])).1
    · show s.la.length ≤ _
      omega
  | nil =>
    obtain ⟨k, e, hk, hat⟩ := hs.at_
    have h := readNextToken_spec hat op
    simp only
    unfold NextSpec at h
    cases hm : s.lexer.readNextToken op with
    | ok v =>
      obtain ⟨t, l⟩ := v
      rw [hm] at h
      obtain ⟨k', h1, h2, h3⟩ := h
      simp only [Res.bind]
      have h4 := readPost_of_next hs hla hat hk h1 h2 (by rw [h3, hla])
      have h5 := h4.back (by simp [PState.la, h3, hla])
      have : ({ s with lexer := l } : PState).push t =
          { s with lexer := { l with lookahead := [t] } } := by
        simp [PState.push, h3, hla]
      rw [this] at h5
      exact h5
    | err e => trivial
    | panic p =>
      rw [hm] at h
      obtain ⟨_, _, _, _, _, h⟩ := h
      exact tokenPanic h
    | fuel => rw [hm] at h; exact h

theorem wp.read (hs : Inv S s) : wp u P.read s (ReadPost S s) := wp.readToken hs false
theorem wp.readOp (hs : Inv S s) : wp u P.readOp s (ReadPost S s) := wp.readToken hs true
theorem wp.peek (hs : Inv S s) : wp u P.peek s (PeekPost S s) := wp.peekToken hs false
theorem wp.peekOp (hs : Inv S s) : wp u P.peekOp s (PeekPost S s) := wp.peekToken hs true

/-- How a token is read: from the buffer, or in the given mode. -/
theorem wp.readMode (hs : Inv S s) (op : Bool) :
    wp u (lex (Lexer.readToken op)) s (fun t s' => ReadPost S s t s' ∧ (t ∈ s.la ∨ s.la = [] ∧
      if op then NotRegExp t else NotDivision t)) := by
  refine (wp.readToken hs op).and ?_
  have h := wp.readToken (u := u) hs op
  unfold wp lex Lexer.readToken at h ⊢
  cases hla : s.lexer.lookahead with
  | cons t ts => exact .inl (by simp [PState.la, hla])
  | nil =>
    rw [hla] at h
    simp only at h ⊢
    obtain ⟨k, e, hk, hat⟩ := hs.at_
    have hn := readNextToken_spec hat op
    unfold NextSpec at hn
    cases hm : s.lexer.readNextToken op with
    | ok v =>
      obtain ⟨t, l⟩ := v
      rw [hm] at hn
      obtain ⟨k', h1, -, -⟩ := hn
      exact .inr ⟨hla, h1.mode⟩
    | err e => trivial
    | panic p => rw [hm] at h; exact h
    | fuel => rw [hm] at h; exact h

theorem wp.peekMode (hs : Inv S s) (op : Bool) :
    wp u (lex (Lexer.peekToken op)) s (fun t s' => PeekPost S s t s' ∧ (t ∈ s.la ∨ s.la = [] ∧
      if op then NotRegExp t else NotDivision t)) := by
  refine (wp.peekToken hs op).and ?_
  have h := wp.peekToken (u := u) hs op
  unfold wp lex Lexer.peekToken at h ⊢
  cases hla : s.lexer.lookahead with
  | cons t ts => exact .inl (by simp [PState.la, hla])
  | nil =>
    rw [hla] at h
    simp only at h ⊢
    obtain ⟨k, e, hk, hat⟩ := hs.at_
    have hn := readNextToken_spec hat op
    unfold NextSpec at hn
    cases hm : s.lexer.readNextToken op with
    | ok v =>
      obtain ⟨t, l⟩ := v
      rw [hm] at hn
      obtain ⟨k', h1, -, -⟩ := hn
      exact .inr ⟨hla, h1.mode⟩
    | err e => trivial
    | panic p => rw [hm] at h; exact h
    | fuel => rw [hm] at h; exact h

/-- Reading an operator. -/
theorem wp.readOpC (hs : Inv S s) :
    wp u P.readOp s (fun t s' => ReadPost S s t s' ∧ (Clean s → NotRegExp t)) := by
  refine (wp.readMode hs true).mono ?_
  rintro t s1 ⟨h, hm⟩
  refine ⟨h, fun hc => ?_⟩
  rcases hm with hm | ⟨-, hm⟩
  · exact hc t hm
  · exact hm

theorem wp.peekOpC (hs : Inv S s) :
    wp u P.peekOp s (fun t s' => PeekPost S s t s' ∧ (Clean s → NotRegExp t ∧ Clean s')) := by
  refine (wp.peekMode hs true).mono ?_
  rintro t s1 ⟨h, hm⟩
  obtain ⟨tl, hla⟩ := h.la
  refine ⟨h, fun hc => ?_⟩
  rcases hm with hm | ⟨-, hm⟩
  · exact ⟨hc t hm, h.tr.inv.clean hla (hc t hm)⟩
  · exact ⟨hm, h.tr.inv.clean hla hm⟩

theorem wp.peekC (hs : Inv S s) :
    wp u P.peek s (fun t s' => PeekPost S s t s' ∧ (s.la = [] → NotDivision t) ∧
      (NotRegExp t → Clean s')) := by
  refine (wp.peekMode hs false).mono ?_
  rintro t s1 ⟨h, hm⟩
  obtain ⟨tl, hla⟩ := h.la
  refine ⟨h, fun hc => ?_, h.tr.inv.clean hla⟩
  rcases hm with hm | ⟨-, hm⟩
  · rw [hc] at hm; cases hm
  · exact hm

theorem wp.skip (hs : Inv S s) : wp u P.skip s (fun _ s' => ∃ t, ReadPost S s t s') := by
  have h := wp.readToken (u := u) hs false
  unfold wp P.lex at h
  unfold wp P.skip P.lex Lexer.skipToken
  cases hm : s.lexer.readToken false with
  | ok v =>
    rw [hm] at h
    exact ⟨_, h⟩
  | err e => trivial
  | panic p => rw [hm] at h; exact h
  | fuel => rw [hm] at h; exact h

theorem wp.readLa (hs : Inv S s) {tl : List Token} (hla : s.la = t :: tl) :
    wp u P.read s (fun t' s' => t = t' ∧ ReadPost S s t s') := by
  unfold wp P.read P.lex Lexer.readToken
  simp only [PState.la] at hla
  rw [hla]
  exact ⟨rfl, readPost_of_la hs hla⟩

theorem wp.skipLa (hs : Inv S s) {tl : List Token} (hla : s.la = t :: tl) :
    wp u P.skip s (fun _ s' => ReadPost S s t s') := by
  unfold wp P.skip P.lex Lexer.skipToken Lexer.readToken
  simp only [PState.la] at hla
  rw [hla]
  exact readPost_of_la hs hla

theorem wp.unread {Q : Unit → PState → Prop} (hla : s.la.length ≤ 1) (h : Q () (s.push t)) :
    wp u (P.unread t) s Q := by
  unfold wp P.unread P.lex Lexer.unreadToken
  simp only [PState.la] at hla
  rw [if_pos (by omega)]
  exact h

theorem wp.rereadToken (hs : Inv S s) {tl : List Token} (hla : s.la = t :: tl) :
    wp u P.rereadToken s (fun t' s' => t = t' ∧ ReadPost S s t s') := by
  unfold wp P.rereadToken P.lex Lexer.rereadToken
  simp only [PState.la] at hla
  rw [hla]
  exact ⟨rfl, readPost_of_la hs hla⟩

/-- The values that are compared with `==` in the parser. -/
def plain : TokenData → Bool
  | .number _ | .string _ | .regExp _ => false
  | _ => true

theorem eqv_iff {v w : TokenData} (h : plain w = true) : v.eqv w = true ↔ v = w := by
  cases v <;> cases w <;> simp_all [TokenData.eqv, plain]

theorem eqv_plain {v w : TokenData} (h : plain w = true) : v.eqv w = decide (v = w) := by
  have := eqv_iff (v := v) h
  cases hb : v.eqv w
  · rw [hb] at this; simp at this; simp [this]
  · rw [hb] at this; simp at this; simp [this]

theorem wp.reread (hs : Inv S s) {v : TokenData} {tl : List Token} (hla : s.la = t :: tl)
    (hv : t.value = v) (hp : plain v = true) :
    wp u (P.reread v) s (fun t' s' => t = t' ∧ ReadPost S s t s') := by
  unfold P.reread
  have h : wp u (lex Lexer.repeekToken) s (fun t' s' => t = t' ∧ s = s') := by
    unfold wp P.lex Lexer.repeekToken
    simp only [PState.la] at hla
    rw [hla]
    exact ⟨rfl, rfl⟩
  refine h.bind ?_
  rintro t' s' ⟨rfl, rfl⟩
  have := (eqv_iff (v := t.value) hp).2 hv
  simp only [this, Bool.not_true, Bool.false_eq_true, if_false]
  exact wp.rereadToken hs hla

theorem wp.unexpected {α : Type} {Q : α → PState → Prop} (hs : Inv S s) {tl : List Token}
    (hla : s.la = t :: tl) : wp u (P.unexpected : P α) s Q := by
  unfold P.unexpected
  exact (wp.rereadToken hs hla).bind fun _ _ _ => trivial

theorem wp.expect (hs : Inv S s) {v : TokenData} (hp : plain v = true) :
    wp u (P.expect v) s (fun t s' => t.value = v ∧ ReadPost S s t s') := by
  unfold P.expect
  refine (wp.read hs).bind fun t s1 h1 => ?_
  split
  · trivial
  · rename_i h
    simp only [Bool.not_eq_true', Bool.not_eq_false] at h
    exact ⟨(eqv_iff hp).1 h, h1⟩

theorem wp.matches (hs : Inv S s) {v : TokenData} (hp : plain v = true) :
    wp u (P.«matches» v) s (fun b s' => ∃ t, (b = true ∧ t.value = v ∧ ReadPost S s t s') ∨
      (b = false ∧ t.value ≠ v ∧ PeekPost S s t s')) := by
  unfold P.«matches»
  refine (wp.read hs).bind fun t s1 h1 => ?_
  split
  · rename_i h
    simp only [Bool.not_eq_true', eqv_plain hp, decide_eq_false_iff_not] at h
    refine (wp.unread (h1.la1 hs) ?_).bind (fun _ _ h => h)
    exact ⟨t, .inr ⟨rfl, h, h1.back (h1.la1 hs)⟩⟩
  · rename_i h
    simp only [Bool.not_eq_true', Bool.not_eq_false] at h
    exact ⟨t, .inl ⟨rfl, (eqv_iff hp).1 h, h1⟩⟩

theorem wp.matchesOp (hs : Inv S s) {v : TokenData} (hp : plain v = true) :
    wp u (P.matchesOp v) s (fun b s' => ∃ t, (b = true ∧ t.value = v ∧ ReadPost S s t s') ∨
      (b = false ∧ t.value ≠ v ∧ PeekPost S s t s')) := by
  unfold P.matchesOp
  refine (wp.readOp hs).bind fun t s1 h1 => ?_
  split
  · rename_i h
    simp only [Bool.not_eq_true', eqv_plain hp, decide_eq_false_iff_not] at h
    refine (wp.unread (h1.la1 hs) ?_).bind (fun _ _ h => h)
    exact ⟨t, .inr ⟨rfl, h, h1.back (h1.la1 hs)⟩⟩
  · rename_i h
    simp only [Bool.not_eq_true', Bool.not_eq_false] at h
    exact ⟨t, .inl ⟨rfl, (eqv_iff hp).1 h, h1⟩⟩

theorem wp.matchesOpC (hs : Inv S s) (hc : Clean s) {v : TokenData} (hp : plain v = true) :
    wp u (P.matchesOp v) s (fun b s' => ∃ t, (b = true ∧ t.value = v ∧ ReadPost S s t s') ∨
      (b = false ∧ t.value ≠ v ∧ NotRegExp t ∧ PeekPost S s t s')) := by
  unfold P.matchesOp
  refine (wp.readOpC hs).bind fun t s1 h1 => ?_
  obtain ⟨h1, hx⟩ := h1
  split
  · rename_i h
    simp only [Bool.not_eq_true', eqv_plain hp, decide_eq_false_iff_not] at h
    refine (wp.unread (h1.la1 hs) ?_).bind (fun _ _ h => h)
    exact ⟨t, .inr ⟨rfl, h, hx hc, h1.back (h1.la1 hs)⟩⟩
  · rename_i h
    simp only [Bool.not_eq_true', Bool.not_eq_false] at h
    exact ⟨t, .inl ⟨rfl, (eqv_iff hp).1 h, h1⟩⟩

theorem wp.matchesToken (hs : Inv S s) {v : TokenData} (hp : plain v = true) :
    wp u (P.matchesToken v) s (fun b s' => ∃ t, (b = some t ∧ t.value = v ∧ ReadPost S s t s') ∨
      (b = none ∧ t.value ≠ v ∧ PeekPost S s t s')) := by
  unfold P.matchesToken
  refine (wp.read hs).bind fun t s1 h1 => ?_
  split
  · rename_i h
    simp only [Bool.not_eq_true', eqv_plain hp, decide_eq_false_iff_not] at h
    refine (wp.unread (h1.la1 hs) ?_).bind (fun _ _ h => h)
    exact ⟨t, .inr ⟨rfl, h, h1.back (h1.la1 hs)⟩⟩
  · rename_i h
    simp only [Bool.not_eq_true', Bool.not_eq_false] at h
    exact ⟨t, .inl ⟨rfl, (eqv_iff hp).1 h, h1⟩⟩

end Prim

end P

end Esprit
