import Verif.Proofs.LexTrivia
import Verif.Proofs.LexNumber

/-! Punctuators and the dispatch over the kinds of token. -/

namespace Esprit

open Lex

/-- No punctuator that continues the text is longer than `x`. -/
def Longest (x y : Str) : Prop :=
  ∀ x' v', (x', v') ∈ punctuators → x' <+: x ++ y → x'.length ≤ x.length

/-- The characters that continue `x` in some punctuator. -/
def puncExt (x : Str) : List Char :=
  punctuators.filterMap fun p => if x.isPrefixOf p.1 then p.1[x.length]? else none

theorem longest_of_ext {x y : Str} (h : ∀ d, y.head? = some d → d ∉ puncExt x) : Longest x y := by
  intro x' v' hm hp
  refine Nat.le_of_not_lt fun hlt => ?_
  obtain ⟨z, hz⟩ := hp
  have hx : x <+: x' := by
    refine List.prefix_of_prefix_length_le (l₃ := x ++ y) ⟨y, rfl⟩ ⟨z, hz⟩ (Nat.le_of_lt hlt)
  obtain ⟨w, rfl⟩ := hx
  cases w with
  | nil => simp at hlt
  | cons d w =>
    have hy : y = d :: w ++ z := by
      rw [List.append_assoc] at hz
      exact (List.append_cancel_left hz).symm
    refine h d (by rw [hy]; rfl) ?_
    unfold puncExt
    rw [List.mem_filterMap]
    refine ⟨(x ++ d :: w, v'), hm, ?_⟩
    have : x.isPrefixOf (x ++ d :: w) = true := List.isPrefixOf_iff_prefix.2 ⟨_, rfl⟩
    simp [this]

theorem longest_unique {x1 x2 y1 y2 : Str} {v1 v2 : TokenData} (h : x1 ++ y1 = x2 ++ y2)
    (m1 : (x1, v1) ∈ punctuators) (m2 : (x2, v2) ∈ punctuators) (l1 : Longest x1 y1)
    (l2 : Longest x2 y2) : x1 = x2 ∧ y1 = y2 ∧ v1 = v2 := by
  have a := l1 x2 v2 m2 ⟨y2, h.symm⟩
  have b := l2 x1 v1 m1 ⟨y1, h⟩
  have e := List.append_inj h (by omega)
  refine ⟨e.1, e.2, ?_⟩
  have : ∀ p ∈ punctuators, ∀ q ∈ punctuators, p.1 = q.1 → p.2 = q.2 := by decide +kernel
  exact this _ m1 _ m2 e.1

/-- The characters that start a punctuator. -/
def puncHeads : List Char := c!"{}()[].;,<>=!+-*%/&|^~?:"

namespace L

/-- `m` reads a longest punctuator. -/
def PuncOk (m : L Token) (r : Reader) : Prop :=
  ∃ x v r', Runs m r x (Token.new r.posn r'.posn v) r' ∧ (x, v) ∈ punctuators ∧ Longest x r'.rest

theorem readPunc_runs {r : Reader} {c : Char} {s : Str} (v : TokenData) (hr : r.rest = c :: s) :
    ∃ r', r'.rest = s ∧ Runs (readPunc v) r [c] (Token.new r.posn r'.posn v) r' := by
  obtain ⟨r1, a1, a2⟩ := Runs.cons hr
  exact ⟨r1, a2, Runs.posn ((Runs.skip a1).map rfl)⟩

theorem readPunc2_runs {r : Reader} {c d : Char} {s : Str} (v : TokenData)
    (hr : r.rest = c :: d :: s) :
    ∃ r', r'.rest = s ∧ Runs (readPunc2 v) r [c, d] (Token.new r.posn r'.posn v) r' := by
  obtain ⟨r1, a1, a2⟩ := Runs.cons hr
  obtain ⟨r2, b1, b2⟩ := Runs.cons a2
  exact ⟨r2, b2, Runs.posn ((Runs.skip2 a1 b1).map rfl)⟩

theorem readPunc3_runs {r : Reader} {c d e : Char} {s : Str} (v : TokenData)
    (hr : r.rest = c :: d :: e :: s) :
    ∃ r', r'.rest = s ∧ Runs (readPunc3 v) r [c, d, e] (Token.new r.posn r'.posn v) r' := by
  obtain ⟨r1, a1, a2⟩ := Runs.cons hr
  obtain ⟨r2, b1, b2⟩ := Runs.cons a2
  obtain ⟨r3, c1, c2⟩ := Runs.cons b2
  exact ⟨r3, c2, Runs.posn ((Runs.skip2 a1 b1).bind (x2 := [e]) ((Runs.skip c1).map rfl))⟩

theorem punc1 {r : Reader} {c : Char} {s : Str} {v : TokenData} (hr : r.rest = c :: s)
    (hm : ([c], v) ∈ punctuators) (hl : ∀ d, s.head? = some d → d ∉ puncExt [c]) :
    PuncOk (readPunc v) r := by
  obtain ⟨r1, a1, a2⟩ := readPunc_runs v hr
  exact ⟨_, v, r1, a2, hm, longest_of_ext (by rw [a1]; exact hl)⟩

theorem punc2 {r : Reader} {c d : Char} {s : Str} {v : TokenData} (hr : r.rest = c :: s)
    (hs : s.head? = some d) (hm : ([c, d], v) ∈ punctuators) (hl : puncExt [c, d] = []) :
    PuncOk (readPunc2 v) r := by
  obtain ⟨t, rfl⟩ : ∃ t, s = d :: t := by
    cases s with
    | nil => simp at hs
    | cons e t => simp at hs; exact ⟨t, by rw [hs]⟩
  obtain ⟨r1, a1, a2⟩ := readPunc2_runs v hr
  exact ⟨_, v, r1, a2, hm, longest_of_ext (by rw [hl]; simp)⟩

theorem punc23 {r : Reader} {c d : Char} {s : Str} {v2 v3 : TokenData} (hr : r.rest = c :: s)
    (hs : s.head? = some d) (hm2 : ([c, d], v2) ∈ punctuators)
    (hm3 : ([c, d, '='], v3) ∈ punctuators) (hl2 : puncExt [c, d] = ['='])
    (hl3 : puncExt [c, d, '='] = []) :
    PuncOk (readPunc23 '=' v2 v3) r := by
  obtain ⟨t, rfl⟩ : ∃ t, s = d :: t := by
    cases s with
    | nil => simp at hs
    | cons e t => simp at hs; exact ⟨t, by rw [hs]⟩
  obtain ⟨r1, a1, a2⟩ := Runs.cons hr
  obtain ⟨r2, b1, b2⟩ := Runs.cons a2
  by_cases ht : t.head? = some '='
  · obtain ⟨t', rfl⟩ : ∃ t', t = '=' :: t' := by
      cases t with
      | nil => simp at ht
      | cons e t => simp at ht; exact ⟨t, by rw [ht]⟩
    obtain ⟨r3, c1, c2⟩ := Runs.cons b2
    refine ⟨[c, d, '='], v3, r3, ?_, hm3, longest_of_ext (by rw [hl3]; simp)⟩
    exact Runs.posn ((Runs.skip2 a1 b1).bind (x2 := ['=']) ((Runs.matches_true c1).map rfl))
  · refine ⟨[c, d], v2, r2, ?_, hm2, longest_of_ext (by
      rw [hl2, b2]
      intro e he hmem
      simp at hmem
      exact ht (by rw [he, hmem]))⟩
    exact Runs.posn ((Runs.skip2 a1 b1).bind (x2 := [])
      ((Runs.matches_false (by rw [b2]; exact ht)).map rfl))

theorem puncShift {r : Reader} {s : Str} (hr : r.rest = '>' :: s) (hs : s.head? = some '>') :
    PuncOk readShift r := by
  obtain ⟨t, rfl⟩ : ∃ t, s = '>' :: t := by
    cases s with
    | nil => simp at hs
    | cons e t => simp at hs; exact ⟨t, by rw [hs]⟩
  obtain ⟨r1, a1, a2⟩ := Runs.cons hr
  obtain ⟨r2, b1, b2⟩ := Runs.cons a2
  have fin : ∀ {m : L TokenData} {x : Str} {v : TokenData} {r3 : Reader},
      (match (r2.peek 0, r2.peek 1) with
        | (some '>', some '=') => do skip2; Pure.pure TokenData.uRShiftAssign
        | (some '>', _) => do skip; Pure.pure TokenData.uRShift
        | (some '=', _) => do skip; Pure.pure TokenData.rShiftAssign
        | _ => Pure.pure TokenData.rShift) = m → Runs m r2 x v r3 →
      Runs readShift r (['>', '>'] ++ x) (Token.new r.posn r3.posn v) r3 := by
    intro m x v r3 hm h
    unfold readShift
    refine Runs.posn ((Runs.skip2 a1 b1).bind ?_)
    show Runs ((match (r2.peek 0, r2.peek 1) with
        | (some '>', some '=') => do skip2; Pure.pure TokenData.uRShiftAssign
        | (some '>', _) => do skip; Pure.pure TokenData.uRShift
        | (some '=', _) => do skip; Pure.pure TokenData.rShiftAssign
        | _ => Pure.pure TokenData.rShift) >>= fun value => spanEnd r.posn value) r2 x _ r3
    rw [hm]
    exact h.map rfl
  rw [peek_head, peek_one, b2] at fin
  by_cases h1 : t.head? = some '>'
  · obtain ⟨t', rfl⟩ : ∃ t', t = '>' :: t' := by
      cases t with
      | nil => simp at h1
      | cons e t => simp at h1; exact ⟨t, by rw [h1]⟩
    obtain ⟨r3, c1, c2⟩ := Runs.cons b2
    by_cases h2 : t'.head? = some '='
    · obtain ⟨t'', rfl⟩ : ∃ t'', t' = '=' :: t'' := by
        cases t' with
        | nil => simp at h2
        | cons e t => simp at h2; exact ⟨t, by rw [h2]⟩
      obtain ⟨r4, d1, d2⟩ := Runs.cons c2
      exact ⟨_, _, r4, fin rfl ((Runs.skip2 c1 d1).map rfl), by decide +kernel,
        longest_of_ext (by
          rw [show puncExt (['>', '>'] ++ ['>', '=']) = [] by decide +kernel]; simp)⟩
    · refine ⟨_, _, r3, fin (x := ['>']) (m := do skip; Pure.pure TokenData.uRShift) ?_
        ((Runs.skip c1).map rfl), by decide +kernel, longest_of_ext (by
          rw [show puncExt (['>', '>'] ++ ['>']) = ['='] by decide +kernel, c2]
          intro e he hm
          simp at hm
          exact h2 (by rw [he, hm]))⟩
      simp only [List.head?_cons, List.tail_cons]
  · by_cases h2 : t.head? = some '='
    · obtain ⟨t', rfl⟩ : ∃ t', t = '=' :: t' := by
        cases t with
        | nil => simp at h2
        | cons e t => simp at h2; exact ⟨t, by rw [h2]⟩
      obtain ⟨r3, c1, c2⟩ := Runs.cons b2
      exact ⟨_, _, r3, fin rfl ((Runs.skip c1).map rfl), by decide +kernel,
        longest_of_ext (by
          rw [show puncExt (['>', '>'] ++ ['=']) = [] by decide +kernel]; simp)⟩
    · refine ⟨_, _, r2, fin (x := []) (m := Pure.pure TokenData.rShift) ?_
        (Runs.pure _ _), by decide +kernel, longest_of_ext (by
          rw [show puncExt (['>', '>'] ++ []) = ['>', '=', '>'] by decide +kernel, b2]
          intro e he hm
          simp at hm
          rcases hm with rfl | rfl | rfl
          · exact h1 he
          · exact h2 he
          · exact h1 he)⟩
      split <;> simp_all


theorem PuncOk.ite {c : Prop} [Decidable c] {m n : L Token} {r : Reader}
    (h1 : c → PuncOk m r) (h2 : ¬ c → PuncOk n r) : PuncOk (if c then m else n) r := by
  split
  · exact h1 ‹_›
  · exact h2 ‹_›

theorem PuncOk.congr {m n : L Token} {r : Reader} (h : m r = n r) (hn : PuncOk n r) :
    PuncOk m r := by
  obtain ⟨x, v, r', ⟨h1, h2⟩, h3⟩ := hn
  exact ⟨x, v, r', ⟨h ▸ h1, h2⟩, h3⟩

theorem punc0 {r : Reader} {c : Char} {s : Str} {v : TokenData} (hr : r.rest = c :: s)
    (hm : ([c], v) ∈ punctuators) (hl : puncExt [c] = []) : PuncOk (readPunc v) r :=
  punc1 hr hm (by rw [hl]; simp)

/-- One-character punctuator that could be followed by `=`. -/
theorem puncA {r : Reader} {c : Char} {s : Str} {v v2 : TokenData} (hr : r.rest = c :: s)
    (hm : ([c], v) ∈ punctuators) (hm2 : ([c, '='], v2) ∈ punctuators)
    (hl : ∀ d ∈ puncExt [c], d = '=') (hl2 : puncExt [c, '='] = []) :
    PuncOk (if s.head? = some '=' then readPunc2 v2 else readPunc v) r :=
  .ite (fun h => punc2 hr h hm2 hl2) (fun h => punc1 hr hm fun d hd hm => by
    rw [hl d hm] at hd; exact h hd)

/-- One-character punctuator that could be followed by itself or by `=`. -/
theorem puncB {r : Reader} {c : Char} {s : Str} {v v2 v3 : TokenData} (hr : r.rest = c :: s)
    (hm : ([c], v) ∈ punctuators) (hm2 : ([c, c], v2) ∈ punctuators)
    (hm3 : ([c, '='], v3) ∈ punctuators) (hl : ∀ d ∈ puncExt [c], d = c ∨ d = '=')
    (hl2 : puncExt [c, c] = []) (hl3 : puncExt [c, '='] = []) :
    PuncOk (if s.head? = some c then readPunc2 v2 else
      if s.head? = some '=' then readPunc2 v3 else readPunc v) r :=
  .ite (fun h => punc2 hr h hm2 hl2) fun h1 =>
    .ite (fun h => punc2 hr h hm3 hl3) (fun h2 => punc1 hr hm fun d hd hm => by
      rcases hl d hm with rfl | rfl
      · exact h1 hd
      · exact h2 hd)

variable [Env]

theorem body_punc {op : Bool} {r : Reader} {c : Char} {s : Str} (hr : r.rest = c :: s)
    (hc : c ∈ puncHeads) (hslash : c = '/' → op = true)
    (hdot : c = '.' → ∀ d, s.head? = some d → d ∉ decDigits) : PuncOk (readTokenBody op) r := by
  have hp : r.peek 0 = some c := by rw [peek_head, hr]; rfl
  have hq : r.peek 1 = s.head? := by rw [peek_one, hr]; rfl
  have ev : readTokenBody op r = tokenOf op c s.head? r := by
    unfold readTokenBody
    rw [peek2_bind, hp, hq]
  simp only [puncHeads, List.mem_cons, List.not_mem_nil, or_false] at hc
  rcases hc with rfl | rfl | rfl | rfl | rfl | rfl | rfl | rfl | rfl | rfl | rfl | rfl | rfl |
    rfl | rfl | rfl | rfl | rfl | rfl | rfl | rfl | rfl | rfl | rfl
  all_goals refine PuncOk.congr ev ?_
  · exact punc0 hr (by decide +kernel) (by decide +kernel)
  · exact punc0 hr (by decide +kernel) (by decide +kernel)
  · exact punc0 hr (by decide +kernel) (by decide +kernel)
  · exact punc0 hr (by decide +kernel) (by decide +kernel)
  · exact punc0 hr (by decide +kernel) (by decide +kernel)
  · exact punc0 hr (by decide +kernel) (by decide +kernel)
  · -- '.'
    have hnd : (match s.head? with | some d => isEsDecDigit d | none => false) = false := by
      cases hh : s.head? with
      | none => rfl
      | some d =>
        simp only
        rw [Bool.eq_false_iff]
        exact fun h => hdot rfl d hh ((isEsDecDigit_iff d).1 h)
    have e1 : tokenOf op '.' s.head? = if s.head? = some '.' then (do
        let p2 ← peekAt 2
        if p2 = some '.' then readPunc3 .ellipsis else readPunc .dot) else readPunc .dot := by
      show (if (match s.head? with | some d => isEsDecDigit d | none => false) = true then readNumber
        else if s.head? = some '.' then (do
        let p2 ← peekAt 2
        if p2 = some '.' then readPunc3 .ellipsis else readPunc .dot) else readPunc .dot) = _
      rw [hnd]
      rfl
    rw [e1]
    have dot1 : ¬ (['.', '.'] <+: s) → PuncOk (readPunc .dot) r := by
      intro hn
      obtain ⟨r1, a1, a2⟩ := readPunc_runs .dot hr
      refine ⟨_, _, r1, a2, by decide +kernel, ?_⟩
      intro x' v' hm hp'
      refine Nat.le_of_not_lt fun hlt => hn ?_
      have : ∀ p ∈ punctuators, 1 < p.1.length → p.1.head? = some '.' → p.1 = ['.', '.', '.'] := by
        decide +kernel
      obtain ⟨z, hz⟩ := hp'
      have hx := this _ hm hlt (by
        cases x' with
        | nil => simp at hlt
        | cons e x' =>
          simp only [List.cons_append, List.cons.injEq] at hz
          simp [hz.1])
      simp only at hx
      subst hx
      simp only [List.cons_append, List.nil_append, List.cons.injEq, true_and, a1] at hz
      exact ⟨z, hz⟩
    refine .ite (fun h => ?_) (fun h => dot1 ?_)
    · refine PuncOk.congr (peekAt_bind 2 _ r) ?_
      have hp2 : r.peek 2 = s.tail.head? := by
        rcases r with ⟨_, p⟩
        simp only at hr
        subst hr
        rcases s with _ | ⟨a, _ | ⟨b, s⟩⟩ <;> rfl
      rw [hp2]
      obtain ⟨t, rfl⟩ : ∃ t, s = '.' :: t := by
        cases s with
        | nil => simp at h
        | cons e t => simp at h; exact ⟨t, by rw [h]⟩
      refine .ite (fun h2 => ?_) (fun h2 => dot1 ?_)
      · obtain ⟨u, rfl⟩ : ∃ u, t = '.' :: u := by
          cases t with
          | nil => simp at h2
          | cons e t => simp at h2; exact ⟨t, by rw [h2]⟩
        obtain ⟨r1, a1, a2⟩ := readPunc3_runs .ellipsis hr
        exact ⟨_, _, r1, a2, by decide +kernel, longest_of_ext (by
          rw [show puncExt ['.', '.', '.'] = [] by decide +kernel]; simp)⟩
      · rintro ⟨z, hz⟩
        simp only [List.cons_append, List.nil_append, List.cons.injEq, true_and] at hz
        rw [← hz] at h2
        exact h2 rfl
    · rintro ⟨z, rfl⟩
      exact h rfl
  · exact punc0 hr (by decide +kernel) (by decide +kernel)
  · exact punc0 hr (by decide +kernel) (by decide +kernel)
  · -- '<'
    show PuncOk (if s.head? = some '<' then readPunc23 '=' .lShift .lShiftAssign
      else if s.head? = some '=' then readPunc2 .lEq else readPunc .lAngle) r
    refine PuncOk.ite (fun h => punc23 hr h (by decide +kernel) (by decide +kernel)
      (by decide +kernel) (by decide +kernel)) fun h1 => ?_
    refine PuncOk.ite (fun h => punc2 hr h (by decide +kernel) (by decide +kernel)) fun h2 => ?_
    exact punc1 hr (by decide +kernel) (by
      rw [show puncExt ['<'] = ['=', '<', '<'] by decide +kernel]
      intro d hd hm
      simp at hm
      rcases hm with rfl | rfl
      · exact h2 hd
      · exact h1 hd)
  · -- '>'
    show PuncOk (if s.head? = some '>' then readShift
      else if s.head? = some '=' then readPunc2 .gEq else readPunc .rAngle) r
    refine PuncOk.ite (fun h => puncShift hr h) fun h1 => ?_
    refine PuncOk.ite (fun h => punc2 hr h (by decide +kernel) (by decide +kernel)) fun h2 => ?_
    exact punc1 hr (by decide +kernel) (by
      rw [show puncExt ['>'] = ['=', '>', '>', '>', '>'] by decide +kernel]
      intro d hd hm
      simp at hm
      rcases hm with rfl | rfl
      · exact h2 hd
      · exact h1 hd)
  · -- '='
    show PuncOk (if s.head? = some '=' then readPunc23 '=' .eq .strictEq else readPunc .assign) r
    refine PuncOk.ite (fun h => punc23 hr h (by decide +kernel) (by decide +kernel)
      (by decide +kernel) (by decide +kernel)) fun h1 => ?_
    exact punc1 hr (by decide +kernel) (by
      rw [show puncExt ['='] = ['=', '='] by decide +kernel]
      intro d hd hm
      simp at hm
      rcases hm with rfl | rfl <;> exact h1 hd)
  · -- '!'
    show PuncOk (if s.head? = some '=' then readPunc23 '=' .nEq .strictNEq else readPunc .bang) r
    refine PuncOk.ite (fun h => punc23 hr h (by decide +kernel) (by decide +kernel)
      (by decide +kernel) (by decide +kernel)) fun h1 => ?_
    exact punc1 hr (by decide +kernel) (by
      rw [show puncExt ['!'] = ['=', '='] by decide +kernel]
      intro d hd hm
      simp at hm
      rcases hm with rfl | rfl <;> exact h1 hd)
  · exact puncB hr (by decide +kernel) (by decide +kernel) (by decide +kernel)
      (by decide +kernel) (by decide +kernel) (by decide +kernel)
  · exact puncB hr (by decide +kernel) (by decide +kernel) (by decide +kernel)
      (by decide +kernel) (by decide +kernel) (by decide +kernel)
  · exact puncA hr (by decide +kernel) (by decide +kernel) (by decide +kernel) (by decide +kernel)
  · exact puncA hr (by decide +kernel) (by decide +kernel) (by decide +kernel) (by decide +kernel)
  · -- '/'
    obtain rfl := hslash rfl
    exact puncA hr (by decide +kernel) (by decide +kernel) (by decide +kernel) (by decide +kernel)
  · exact puncB hr (by decide +kernel) (by decide +kernel) (by decide +kernel)
      (by decide +kernel) (by decide +kernel) (by decide +kernel)
  · exact puncB hr (by decide +kernel) (by decide +kernel) (by decide +kernel)
      (by decide +kernel) (by decide +kernel) (by decide +kernel)
  · exact puncA hr (by decide +kernel) (by decide +kernel) (by decide +kernel) (by decide +kernel)
  · exact punc0 hr (by decide +kernel) (by decide +kernel)
  · exact punc0 hr (by decide +kernel) (by decide +kernel)
  · exact punc0 hr (by decide +kernel) (by decide +kernel)

/-- What is known of a token read by the dispatch. -/
def TokenOk (op : Bool) (r : Reader) (t : Token) (r' : Reader) : Prop :=
  ∃ x, Adv r x r' ∧ Lexeme op x r'.rest t.value ∧ t = Token.new r.posn r'.posn t.value

theorem PuncOk.lexeme {op : Bool} {m : L Token} {r : Reader} {c : Char} {s : Str}
    (h : PuncOk m r) (hr : r.rest = c :: s) (hslash : c = '/' → op = true)
    (hdot : c = '.' → ∀ d, s.head? = some d → d ∉ decDigits) :
    ∃ t r', m r = .ok (t, r') ∧ TokenOk op r t r' := by
  obtain ⟨x, v, r', h1, h2, h3⟩ := h
  have hne : ∀ p ∈ punctuators, p.1 ≠ [] := by decide +kernel
  have hx : x.head? = some c := by
    have := h1.2.rest
    rw [hr] at this
    cases x with
    | nil => exact absurd rfl (hne _ h2)
    | cons d x => simp at this; simp [this.1]
  refine ⟨_, r', h1.1, x, h1.2, .punctuator h2 h3 ?_ ?_, rfl⟩
  · intro h; rw [hx] at h; simp at h; exact hslash h
  · rintro rfl d hd
    have := h1.2.rest
    rw [hr] at this
    simp only [List.cons_append, List.nil_append, List.cons.injEq] at this
    exact hdot this.1 d (by rw [this.2]; exact hd)

theorem not_punc_chain {c : Char} (h : c ∉ puncHeads) (op : Bool) (p1 : Option Char) :
    tokenOf op c p1 =
      if c = '"' ∨ c = '\'' then readString
      else if isEsDecDigit c then readNumber
      else if isEsIdentifierStart c then readWord
      else if c = '\\' then readWord
      else throw (.illegalChar c) := by
  simp only [puncHeads, List.mem_cons, List.not_mem_nil, or_false, not_or] at h
  obtain ⟨h1, h2, h3, h4, h5, h6, h7, h8, h9, h10, h11, h12, h13, h14, h15, h16, h17, h18, h19,
    h20, h21, h22, h23, h24⟩ := h
  unfold tokenOf
  rw [if_neg h18, if_neg h7, if_neg h1, if_neg h2, if_neg h5, if_neg h6, if_neg h3, if_neg h4,
    if_neg h8, if_neg h24, if_neg h9, if_neg h10, if_neg h11, if_neg h12, if_neg h14, if_neg h15,
    if_neg h16, if_neg h17, if_neg h21, if_neg h19, if_neg h20, if_neg h22, if_neg h13, if_neg h23]

omit [Env] in
theorem Spec.congr {m n : L Token} {r : Reader} {Q : Token → Reader → Prop} {P : Panic → Prop}
    (h : m r = n r) (hn : Spec n r Q P) : Spec m r Q P := by
  unfold Spec at hn ⊢
  rw [h]
  exact hn

theorem readTokenBody_spec [LawfulEnv] (op : Bool) (r : Reader) :
    Spec (readTokenBody op) r (TokenOk op r) (TokenPanic op r.rest) := by
  cases hrest : r.rest with
  | nil =>
    have hp : r.peek 0 = none := by rw [peek_head, hrest]; rfl
    have : readTokenBody op r = .ok (Token.new r.posn r.posn .eof, r) := by
      unfold readTokenBody
      rw [peek2_bind, hp]
      rfl
    unfold Spec
    rw [this]
    refine ⟨[], Adv.refl r, ?_, rfl⟩
    rw [hrest]
    exact .eof
  | cons c s =>
    have hp : r.peek 0 = some c := by rw [peek_head, hrest]; rfl
    have hq : r.peek 1 = s.head? := by rw [peek_one, hrest]; rfl
    have ev : readTokenBody op r = tokenOf op c s.head? r := by
      unfold readTokenBody
      rw [peek2_bind, hp, hq]
    rw [← hrest]
    have num : NumberStart r.rest → Spec readNumber r (TokenOk op r) (TokenPanic op r.rest) := by
      intro hs
      refine (readNumber_spec (P := NoPanic) hs).mono ?_ (fun _ h => h.elim)
      rintro t r' ⟨⟨src, v, h1, h2, h3, rfl, _⟩, h4⟩
      exact ⟨_, h1, .number h2 h4 h3, rfl⟩
    by_cases hsl : c = '/' ∧ op = false
    · obtain ⟨rfl, rfl⟩ := hsl
      refine Spec.congr ev ?_
      refine Spec.mono (readRegexp_spec hp) ?_ ?_
      · rintro t r' ⟨p, f, esc, flags, h1, h2, h3, h4, rfl⟩
        exact ⟨_, h1, .regexp rfl h2 h3 h4, rfl⟩
      · rintro p (⟨rfl, h⟩ | h)
        · exact .inl ⟨rfl, rfl, h⟩
        · exact .inr h
    by_cases hdt : c = '.' ∧ ∃ d, s.head? = some d ∧ d ∈ decDigits
    · obtain ⟨rfl, d, hd, hdd⟩ := hdt
      refine Spec.congr ev ?_
      have e1 : tokenOf op '.' s.head? = readNumber := by
        rw [hd]
        show (if isEsDecDigit d = true then readNumber else _) = _
        rw [if_pos (decDigit_dec hdd)]
      rw [e1]
      refine num (.inr ⟨by rw [hrest]; rfl, d, by rw [hrest]; exact hd, hdd⟩)
    by_cases hpu : c ∈ puncHeads
    · have h1 : c = '/' → op = true := by
        intro h
        cases op with
        | true => rfl
        | false => exact absurd ⟨h, rfl⟩ hsl
      have h2 : c = '.' → ∀ d, s.head? = some d → d ∉ decDigits :=
        fun h d hd hdd => hdt ⟨h, d, hd, hdd⟩
      obtain ⟨t, r', h3, h4⟩ := (body_punc hrest hpu h1 h2).lexeme hrest h1 h2
      unfold Spec
      rw [h3]
      exact h4
    · refine Spec.congr ev ?_
      rw [not_punc_chain hpu]
      refine Spec.ite (fun hq => ?_) (fun _ => ?_)
      · refine (readString_spec hp).mono ?_ (fun _ h => .inr h)
        rintro t r' ⟨x, v, h1, h2, rfl⟩
        exact ⟨_, h1, .string hq h2, rfl⟩
      refine Spec.ite (fun hd => ?_) (fun _ => ?_)
      · exact num (.inl ⟨c, by rw [hrest]; rfl, (isEsDecDigit_iff c).1 hd⟩)
      have word : IdStart c ∨ c = '\\' → Spec readWord r (TokenOk op r) (TokenPanic op r.rest) := by
        intro hw
        refine (readWord_spec r hp hw).mono ?_ (fun _ h => .inr h)
        rintro t r' ⟨x, esc, w, h1, h2, h3, h4, h5, h6⟩
        exact ⟨_, h1, .word ⟨c, h2, hw⟩ h3 h4 h5, h6⟩
      refine Spec.ite (fun hi => word (.inl ((isEsIdentifierStart_iff c).1 hi))) (fun _ => ?_)
      exact Spec.ite (fun hb => word (.inr hb)) (fun _ => Spec.throw)

variable [LawfulEnv]

omit [LawfulEnv] [Env] in
theorem Runs.congr {α : Type} {m n : L α} {r r' : Reader} {x : Str} {a : α} (h : m r = n r)
    (hn : Runs n r x a r') : Runs m r x a r' := ⟨h ▸ hn.1, hn.2⟩

theorem idStart_not_punc {c : Char} (h : IdStart c) :
    c ∉ puncHeads ∧ c ≠ '"' ∧ c ≠ '\'' ∧ c ∉ decDigits := by
  have key : ∀ d ∈ (puncHeads ++ ['"', '\''] ++ decDigits), d.toNat < 128 ∧ d.isAlpha = false ∧
      d ≠ '$' ∧ d ≠ '_' := by decide +kernel
  have : c ∉ (puncHeads ++ ['"', '\''] ++ decDigits) := by
    intro hm
    obtain ⟨h1, h2, h3, h4⟩ := key c hm
    rcases h with h | h | h
    · exact h3 h
    · exact h4 h
    · rw [LawfulEnv.ascii_start c h1, h2] at h; cases h
  simp only [List.mem_append, List.mem_cons, List.not_mem_nil, or_false, not_or] at this
  exact ⟨this.1.1, this.1.2.1, this.1.2.2, this.2⟩

theorem readTokenBody_eval {op : Bool} {x y : Str} {v : TokenData} {r : Reader}
    (h : Lexeme op x y v) (hr : r.rest = x ++ y) :
    ∃ r', r'.rest = y ∧ Runs (readTokenBody op) r x (Token.new r.posn r'.posn v) r' := by
  have ev : ∀ {c : Char} {s : Str}, r.rest = c :: s →
      readTokenBody op r = tokenOf op c s.head? r := by
    intro c s hrest
    have hp : r.peek 0 = some c := by rw [peek_head, hrest]; rfl
    have hq : r.peek 1 = s.head? := by rw [peek_one, hrest]; rfl
    unfold readTokenBody
    rw [peek2_bind, hp, hq]
  cases h with
  | eof =>
    refine ⟨r, hr, ?_⟩
    have hp : r.peek 0 = none := by rw [peek_head, hr]; rfl
    refine Runs.congr (n := Pure.pure (Token.new r.posn r.posn .eof)) ?_ (Runs.pure _ _)
    unfold readTokenBody
    rw [peek2_bind, hp]
    rfl
  | punctuator h1 h2 h3 h4 =>
    obtain ⟨c, t, rfl⟩ : ∃ c t, x = c :: t := by
      have hne : ∀ p ∈ punctuators, p.1 ≠ [] := by decide +kernel
      cases x with
      | nil => exact absurd rfl (hne _ h1)
      | cons d x => exact ⟨d, x, rfl⟩
    have hpu : c ∈ puncHeads := by
      have : ∀ p ∈ punctuators, ∀ c ∈ p.1.head?, c ∈ puncHeads := by decide +kernel
      exact this _ h1 c rfl
    have hd : c = '.' → ∀ d, (t ++ y).head? = some d → d ∉ decDigits := by
      rintro rfl d hd
      have : ∀ p ∈ punctuators, p.1.head? = some '.' → p.1 = ['.'] ∨ p.1 = ['.', '.', '.'] := by
        decide +kernel
      rcases this _ h1 rfl with h | h
      · simp only [List.cons.injEq, true_and] at h
        subst h
        exact h4 rfl d hd
      · simp only [List.cons.injEq, true_and] at h
        subst h
        simp at hd
        rw [← hd]
        decide
    obtain ⟨x', v', r', b1, b2, b3⟩ := body_punc (op := op) (s := t ++ y) (by simpa using hr) hpu
      (fun h => h3 (by rw [h]; rfl)) hd
    have := b1.2.rest
    rw [hr] at this
    obtain ⟨rfl, rfl, rfl⟩ := longest_unique this h1 b2 h2 b3
    exact ⟨r', rfl, b1⟩
  | word h1 h2 h3 h4 =>
    obtain ⟨c, hc, hw⟩ := h1
    obtain ⟨r', a1, a2⟩ := readWord_eval hc hw h2 h3 h4 hr
    refine ⟨r', a1, ?_⟩
    obtain ⟨t, rfl⟩ : ∃ t, x = c :: t := by
      cases x with
      | nil => simp at hc
      | cons d t => simp at hc; exact ⟨t, by rw [hc]⟩
    refine Runs.congr (n := readWord) ?_ a2
    rw [ev (by simpa using hr)]
    rcases hw with hw | rfl
    · obtain ⟨g1, g2, g3, g4⟩ := idStart_not_punc hw
      rw [not_punc_chain g1, if_neg (by simp [g2, g3]), if_neg (by
        intro h; exact g4 ((isEsDecDigit_iff c).1 h)), if_pos ((isEsIdentifierStart_iff c).2 hw)]
    · rw [not_punc_chain (by decide), if_neg (by decide), if_neg (by decide)]
      simp
  | @string q x y v hq h2 =>
    obtain ⟨r', a1, a2⟩ := readString_eval hq h2 hr
    refine ⟨r', a1, ?_⟩
    refine Runs.congr (n := readString) ?_ a2
    rw [ev (by simpa using hr), not_punc_chain (by rcases hq with rfl | rfl <;> decide), if_pos hq]
  | @number src y v h1 h2 h3 =>
    obtain ⟨r', a1, a2⟩ := readNumber_eval h1 h2 hr h3
    refine ⟨r', a1, ?_⟩
    refine Runs.congr (n := readNumber) ?_ a2
    -- how a number starts
    have dec : ∀ {c : Char} {s : Str}, r.rest = c :: s → c ∈ decDigits →
        readTokenBody op r = readNumber r := by
      intro c s h hc
      have key : ∀ d ∈ decDigits, d ∉ puncHeads ∧ ¬ (d = '"' ∨ d = '\'') := by decide +kernel
      rw [ev h, not_punc_chain (key c hc).1, if_neg (key c hc).2, if_pos (decDigit_dec hc)]
    have dig : ∀ {m z : Str}, Digits decDigits m → r.rest = m ++ z →
        readTokenBody op r = readNumber r := by
      intro m z hm hz
      cases m with
      | nil => exact absurd rfl hm.1
      | cons d m => exact dec (by simpa using hz) (hm.2 d (by simp))
    cases h1 with
    | decimal g1 g2 g3 g4 => exact dig g1 (by rw [hr]; simp [spellNumber]; rfl)
    | @hex cc s y g1 =>
      cases cc <;> exact dec (c := '0') (by rw [hr]; rfl) (by decide)
    | @oct cc s y g1 =>
      cases cc <;> exact dec (c := '0') (by rw [hr]; rfl) (by decide)
    | @bin cc s y g1 =>
      cases cc <;> exact dec (c := '0') (by rw [hr]; rfl) (by decide)
    | legacyOctal g1 =>
      obtain ⟨t, rfl, _⟩ := g1
      exact dec (c := '0') (by rw [hr]; rfl) (by decide)
    | float g1 g2 g3 g4 => exact dig g1 (by rw [hr]; simp [spellNumber]; rfl)
    | @point f y e g1 g2 =>
      have hr' : r.rest = '.' :: (f ++ (spellExp e ++ y)) := by rw [hr]; simp [spellNumber]
      rw [ev hr']
      cases f with
      | nil => exact absurd rfl g1.1
      | cons d f =>
        show (if isEsDecDigit d = true then readNumber else _) r = _
        rw [if_pos (decDigit_dec (g1.2 d (by simp)))]
  | @regexp p f y flags esc hop h1 h2 h3 =>
    subst hop
    obtain ⟨r', a1, a2⟩ := readRegexp_eval h1 h2 h3 hr
    exact ⟨r', a1, Runs.congr (n := readRegexp) (ev (c := '/') (s := p ++ '/' :: (f ++ y)) (by simpa using hr)) a2⟩

end L

end Esprit
