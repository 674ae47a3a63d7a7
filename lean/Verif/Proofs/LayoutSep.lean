import Verif.Proofs.LexSwap
import Verif.Props.LexFault
import Verif.Spec.Layout

/-! Other separators between two tokens leave the tokens the same. -/

namespace Esprit

open Lex ReaderSpec

variable [Env] [LawfulEnv]

theorem readTokens_take {s : Str} {ops : List Bool} {ts : List Token} {l : Lexer}
    (h : readTokens s ops = .ok (ts, l)) (i : Nat) :
    ∃ l', readTokens s (ops.take i) = .ok (ts.take i, l') := by
  obtain ⟨h1, _, _, hlen⟩ := readTokens_at h
  rcases Nat.le_total i ts.length with hi | hi
  · obtain ⟨km, a1, _, _⟩ := tokens_split_at h1 hi
    exact readAll_complete a1 (Lexer.At.new s) rfl
  · rw [List.take_of_length_le hi, List.take_of_length_le (hlen ▸ hi)]
    exact ⟨l, h⟩

omit [Env] [LawfulEnv] in
theorem blur_of_flags {ts ts' : List Token} (h : ts'.map flags = ts.map flags) :
    ts.map Token.blur = ts'.map Token.blur := by
  have h0 : ∀ ts : List Token,
      ts.map Token.blur = (ts.map flags).map fun x => Token.mk .zero x.1 x.2 := by
    intro ts
    rw [List.map_map]
    rfl
  rw [h0, h0, h]

omit [Env] [LawfulEnv] in
theorem set_flags {ts : List Token} {i : Nat} {t : Token} (ht : ts[i]? = some t) :
    (ts.map flags).set i (t.newline, t.value) = ts.map flags := by
  refine List.ext_getElem? fun j => ?_
  rw [List.getElem?_set]
  split
  · rename_i hj
    subst hj
    rw [List.getElem?_map, ht]
    have hi : i < ts.length := by
      rcases Nat.lt_or_ge i ts.length with h | h
      · exact h
      · rw [List.getElem?_eq_none h] at ht; cases ht
    rw [if_pos (by rw [List.length_map]; exact hi)]
    rfl
  · rfl

omit [LawfulEnv] [Env] in
theorem prevEnd_take (ts : List Token) {i n : Nat} (h : i ≤ n) :
    prevEnd (ts.take n) i = prevEnd ts i := by
  cases i with
  | zero => rfl
  | succ i =>
    show (match (ts.take n)[i]? with | some t => _ | none => 0) = _
    rw [List.getElem?_take_of_lt (by omega)]
    rfl

theorem sameTokens_separators (s : Str) (ops : List Bool) (n : Nat) (ts : List Token) (l : Lexer)
    (h : readTokens s (ops.take n) = .ok (ts, l)) (i : Nat) (t : Token) (ht : ts[i]? = some t)
    (heof : ∀ p ∈ ts.take i, p.value ≠ .eof)
    (w : Str) (e' : Bool) (hne : w ≠ [])
    (hw : Trivia (i == 0) w (s.drop t.location.start.offset) e')
    (hnl : hasNewline w = t.newline)
    (hclose : e' = true → ¬ c!"-->" <+: s.drop t.location.start.offset)
    (hprev : ∀ p, (ts.take i).getLast? = some p →
      (p.value = .slash → w.head? ≠ some '/') ∧ (p.value = .lAngle → w.head? ≠ some '<')) :
    SameTokens ops s (reseparate s ts i t w) := by
  have hi : i < ts.length := by
    rcases Nat.lt_or_ge i ts.length with h | h
    · exact h
    · rw [List.getElem?_eq_none h] at ht; cases ht
  have hlen : (ops.take n).length = ts.length := (readTokens_at h).2.2.2
  -- the tokens of any longer prefix
  have key : ∀ m ts' l', n ≤ m → readTokens s (ops.take m) = .ok (ts', l') →
      ∃ ts2 k2, Tokens (reseparate s ts i t w) 0 true (ops.take m) ts2 k2 ∧
        ts2.map flags = ts'.map flags ∧
        (reseparate s ts i t w).drop k2 = s.drop (prevEnd ts' ts'.length) := by
    intro m ts' l' hm h'
    obtain ⟨l1, h1⟩ := readTokens_take h' n
    rw [List.take_take, Nat.min_eq_left hm, h] at h1
    injection h1 with h1
    injection h1 with h1 _
    have hin : i < n := by
      have := List.length_take_le n ops
      omega
    have ht' : ts'[i]? = some t := by
      rw [h1, List.getElem?_take_of_lt hin] at ht
      exact ht
    have htake : ts'.take i = ts.take i := by
      rw [h1, List.take_take, Nat.min_eq_left (by omega)]
    have hpe : prevEnd ts' i = prevEnd ts i := by
      rw [h1, prevEnd_take _ (by omega)]
    have := separators_tokens s (ops.take m) ts' l' h' i t ht' (by rw [htake]; exact heof) w e' hne hw
      hclose (by rw [htake]; exact hprev)
    rw [hnl, set_flags ht', hpe] at this
    exact this
  -- a prefix that can be read
  have good : ∀ m ts' l', readTokens s (ops.take m) = .ok (ts', l') →
      ∃ ts2 l2, readTokens (reseparate s ts i t w) (ops.take m) = .ok (ts2, l2) ∧
        ts2.map flags = ts'.map flags := by
    intro m ts' l' h'
    rcases Nat.le_total n m with hm | hm
    · obtain ⟨ts2, k2, a1, a2, _⟩ := key m ts' l' hm h'
      obtain ⟨l2, a4⟩ := readAll_complete a1 (Lexer.At.new _) rfl
      exact ⟨ts2, l2, a4, a2⟩
    · obtain ⟨ts2, k2, a1, a2, _⟩ := key n ts l (Nat.le_refl _) h
      obtain ⟨l2, a4⟩ := readAll_complete a1 (Lexer.At.new _) rfl
      obtain ⟨l3, a5⟩ := readTokens_take (show readTokens _ _ = _ from a4) m
      obtain ⟨l4, a6⟩ := readTokens_take h m
      rw [List.take_take, Nat.min_eq_left hm] at a5 a6
      rw [h'] at a6
      injection a6 with a6
      injection a6 with a6 _
      exact ⟨_, _, a5, by rw [a6, List.map_take, List.map_take, a2]⟩
  -- a prefix that cannot be read
  have bad : ∀ m f, (∃ j op ts' k, (ops.take m)[j]? = some op ∧
      Tokens s 0 true ((ops.take m).take j) ts' k ∧ Malformed ts'.isEmpty op (s.drop k) f) →
      ∃ j op ts' k, (ops.take m)[j]? = some op ∧
      Tokens (reseparate s ts i t w) 0 true ((ops.take m).take j) ts' k ∧
        Malformed ts'.isEmpty op ((reseparate s ts i t w).drop k) f := by
    rintro m f ⟨j, op, ts', k, h1, h2, h3⟩
    have hjm : j < m ∧ ops[j]? = some op := by
      rw [List.getElem?_take] at h1
      split at h1
      · exact ⟨by assumption, h1⟩
      · cases h1
    have hmin : (ops.take m).take j = ops.take j := by
      rw [List.take_take, Nat.min_eq_left (by omega)]
    rw [hmin] at h2
    obtain ⟨l1, h4⟩ := readAll_complete h2 (Lexer.At.new s) rfl
    have h4 : readTokens s (ops.take j) = .ok (ts', l1) := h4
    have hk : k = prevEnd ts' ts'.length := by
      have := h2.last.1
      rw [this]
      split
      · rename_i h5; rw [h5]; rfl
      · rfl
    have hnj : n ≤ j := by
      rcases Nat.lt_or_ge j n with hlt | hge
      · exfalso
        obtain ⟨l6, h6⟩ := readTokens_take h (j + 1)
        rw [List.take_take, Nat.min_eq_left hlt] at h6
        have h7 : ∃ i op ts k, (ops.take (j + 1))[i]? = some op ∧
            Tokens s 0 true ((ops.take (j + 1)).take i) ts k ∧
              Malformed ts.isEmpty op (s.drop k) f := by
          refine ⟨j, op, ts', k, ?_, ?_, h3⟩
          · rw [List.getElem?_take_of_lt (by omega)]; exact hjm.2
          · rw [List.take_take, Nat.min_eq_left (by omega)]; exact h2
        cases f with
        | error e => rw [(C54_errors_exact s _ e).2 h7] at h6; cases h6
        | panic e => rw [(C54_panics_exact s _ e).2 h7] at h6; cases h6
      · exact hge
    obtain ⟨ts2, k2, a1, a2, a3⟩ := key j ts' l1 hnj h4
    refine ⟨j, op, ts2, k2, h1, hmin ▸ a1, ?_⟩
    have he : ts2.isEmpty = ts'.isEmpty := by
      cases ts2 <;> cases ts' <;> simp_all
    rw [a3, ← hk, he]
    exact h3
  intro m
  cases hr : readTokens s (ops.take m) with
  | ok v =>
    obtain ⟨ts2, l2, a1, a2⟩ := good m v.1 v.2 hr
    rw [a1]
    exact blur_of_flags a2
  | err e =>
    rw [(C54_errors_exact _ _ e).2 (bad m _ ((C54_errors_exact s _ e).1 hr))]
    exact rfl
  | panic p =>
    rw [(C54_panics_exact _ _ p).2 (bad m _ ((C54_panics_exact s _ p).1 hr))]
    exact rfl
  | fuel => exact absurd hr (readTokens_no_fuel _ _)

end Esprit
