import Verif.Proofs.LexSep

/-! Replacing the text between two tokens. -/

namespace Esprit

open Lex ReaderSpec

variable [Env] [LawfulEnv]

omit [LawfulEnv] in
theorem tokens_split_at {s : Str} {k k' : Nat} {e : Bool} {ops : List Bool} {ts : List Token}
    (h : Tokens s k e ops ts k') : ∀ {i : Nat}, i ≤ ts.length →
    ∃ km, Tokens s k e (ops.take i) (ts.take i) km ∧
      Tokens s km (e && (i == 0)) (ops.drop i) (ts.drop i) k' ∧
      km = (match i with | 0 => k | i + 1 => prevEnd ts (i + 1)) := by
  induction h with
  | nil => intro i hi; simp at hi; subst hi; exact ⟨_, .nil, by simpa using .nil, rfl⟩
  | @cons k k1 k2 e op ops t ts h1 h2 ih =>
    intro i hi
    cases i with
    | zero => exact ⟨k, .nil, by simpa using .cons h1 h2, rfl⟩
    | succ i =>
      obtain ⟨km, a1, a2, a3⟩ := ih (i := i) (by simpa using hi)
      refine ⟨km, by simpa using .cons h1 a1, by simpa using a2, ?_⟩
      rw [a3]
      cases i with
      | zero => simp [prevEnd, h1.end_offset]
      | succ j => simp [prevEnd]

omit [Env] [LawfulEnv] in
theorem trivia_sepHead {w y : Str} {e' : Bool} {c : Char}
    (h : Trivia false (c :: w) y e') : SepHead c := by
  generalize hv : c :: w = v at h
  generalize he : false = e at h
  cases h with
  | nil => cases hv
  | space h1 => cases hv; exact .inl h1
  | newline h1 => cases hv; exact .inr (.inl h1)
  | line h1 =>
    cases h1 with
    | slashes => simp at hv; exact .inr (.inr (.inl hv.1))
    | htmlOpen => simp at hv; exact .inr (.inr (.inr (.inl hv.1)))
    | htmlClose => cases he
  | block h1 =>
    cases h1
    simp at hv; exact .inr (.inr (.inl hv.1))

/-- Replace the text between the `i`-th token and the token before it by other separators `w`. -/
theorem separators_tokens (s : Str) (ops : List Bool) (ts : List Token) (l : Lexer)
    (h : readTokens s ops = .ok (ts, l)) (i : Nat) (t : Token) (ht : ts[i]? = some t)
    (heof : ∀ p ∈ ts.take i, p.value ≠ .eof)
    (w : Str) (e' : Bool) (hne : w ≠ [])
    (hw : Trivia (i == 0) w (s.drop t.location.start.offset) e')
    (hclose : e' = true → ¬ c!"-->" <+: s.drop t.location.start.offset)
    (hprev : ∀ p, (ts.take i).getLast? = some p →
      (p.value = .slash → w.head? ≠ some '/') ∧ (p.value = .lAngle → w.head? ≠ some '<')) :
    ∃ ts' k', Tokens (s.take (prevEnd ts i) ++ w ++ s.drop t.location.start.offset) 0 true ops ts' k' ∧
      ts'.map flags = (ts.map flags).set i (hasNewline w, t.value) ∧
      (s.take (prevEnd ts i) ++ w ++ s.drop t.location.start.offset).drop k' =
        s.drop (prevEnd ts ts.length) := by
  obtain ⟨h1, _, _, hlen⟩ := readTokens_at h
  have hi : i < ts.length := by
    rcases Nat.lt_or_ge i ts.length with h | h
    · exact h
    · rw [List.getElem?_eq_none h] at ht; cases ht
  obtain ⟨km, a1, a2, a3⟩ := tokens_split_at h1 (Nat.le_of_lt hi)
  have hkm : km = prevEnd ts i := by rw [a3]; cases i <;> rfl
  have hdrop : ts.drop i = t :: ts.drop (i + 1) := by
    rw [List.drop_eq_getElem_cons hi]
    rw [List.getElem?_eq_getElem hi] at ht
    simp only [Option.some.injEq] at ht
    rw [ht]
  rw [hdrop] at a2
  have hb := (h1.bounded (Nat.zero_le _)).2
  generalize hops : ops.drop i = ops2 at a2
  generalize hts : ts.drop (i + 1) = ts2 at a2 hdrop
  cases a2 with
  | @cons _ k1 _ _ op ops2 _ _ b1 b2 =>
    have b2' := b2.lexes
    obtain ⟨w0, x, y, e0, c1, c2, c3, c4, c5, c6, c7, rfl⟩ := b1
    have hoff := c6.offset
    have hxy : s.drop t.location.start.offset = x ++ y := by
      rw [hoff, ← List.drop_drop, c1, List.drop_left]
    have hy : s.drop (km + w0.length + x.length) = y := by
      rw [← List.drop_drop, ← List.drop_drop, c1, List.drop_left, List.drop_left]
    rw [hy] at b2'
    rw [hxy] at hw hclose
    have hn : NoTrivia e' (x ++ y) := ⟨c3.space, c3.slashes, c3.block, c3.htmlOpen, hclose⟩
    have key : Lexes true ops (s.take (prevEnd ts i) ++ w ++ s.drop t.location.start.offset)
        ((ts.take i).map flags ++ (hasNewline w, t.value) :: ts2.map flags)
        (s.drop (prevEnd ts ts.length)) := by
      have second : Lexes (i == 0) (op :: ops2) (w ++ (x ++ y))
          ((hasNewline w, t.value) :: ts2.map flags) (s.drop (prevEnd ts ts.length)) :=
        .cons hw hn c4 b2'
      rw [hxy, ← List.take_append_drop i ops, hops]
      cases i with
      | zero => simpa [prevEnd] using second
      | succ i =>
        have first := a1.lexes
        cases w with
        | nil => exact absurd rfl hne
        | cons c w =>
          obtain ⟨a, d1, d2, _⟩ := first.change (z' := w ++ (x ++ y)) (trivia_sepHead hw)
            (by
              intro p hp
              obtain ⟨q, hq, rfl⟩ := List.mem_map.1 hp
              exact heof q hq)
            (by
              intro p hp
              rw [List.getLast?_map] at hp
              cases hq : (ts.take (i + 1)).getLast? with
              | none => rw [hq] at hp; cases hp
              | some q =>
                rw [hq] at hp
                simp only [Option.map_some, Option.some.injEq] at hp
                subst hp
                obtain ⟨g1, g2⟩ := hprev q hq
                exact ⟨fun h h' => g1 h (by simp [h']), fun h h' => g2 h (by simp [h'])⟩)
          have ha : s.take (prevEnd ts (i + 1)) = a := by
            rw [← hkm]
            have hl := congrArg List.length d1
            simp only [List.drop_zero, List.length_append, List.length_drop] at hl
            have hk : km ≤ s.length := (a1.bounded (Nat.zero_le _)).2
            have : km = a.length := by omega
            rw [this]
            calc s.take a.length = (s.drop 0).take a.length := by rw [List.drop_zero]
              _ = a := by rw [d1, List.take_left]
          rw [ha]
          have := d2.append (ops' := op :: ops2) (by
            have hne : (ops.take (i + 1)).isEmpty = false := by
              cases ops with
              | nil => rw [← hlen] at hi; simp at hi
              | cons => rfl
            rw [hne]
            simpa using second)
          simpa using this
    obtain ⟨ts', k', e1, e2, e3, _⟩ := key.tokens (k := 0) (Nat.zero_le _) rfl
    refine ⟨ts', k', e1, ?_, e3⟩
    rw [e2, ← List.take_append_drop i ts, hdrop]
    simp only [List.map_append, List.map_cons]
    have hl : ((ts.take i).map flags).length = i := by simp; omega
    rw [List.set_append, if_neg (by omega), hl, Nat.sub_self, List.set_cons_zero, List.take_left' (by simpa using hl)]

end Esprit
