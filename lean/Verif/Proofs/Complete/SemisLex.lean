import Verif.Proofs.Complete.Join
import Verif.Proofs.Complete.Semis
import Verif.Proofs.SemisText

/-! Texts in which the inserted semicolons are written out. -/

set_option linter.unusedSectionVars false

namespace Esprit

open Lex ReaderSpec Grammar

namespace Semis

/-- The tokens before `r` are not the end of the source. -/
def Eats (i r : List Token) : Prop := ∃ c, i = c ++ r ∧ ∀ t ∈ c, t.value ≠ .eof

theorem Eats.refl (i : List Token) : Eats i i := ⟨[], rfl, nofun⟩

theorem Eats.cons {t : Token} {i r : List Token} (h : t.value ≠ .eof) (h1 : Eats i r) : Eats (t :: i) r := by
  obtain ⟨c, rfl, hc⟩ := h1
  refine ⟨t :: c, rfl, fun u hu => ?_⟩
  rcases List.mem_cons.1 hu with rfl | hu
  · exact h
  · exact hc u hu

theorem Eats.trans {i j r : List Token} (h : Eats i j) (h1 : Eats j r) : Eats i r := by
  obtain ⟨c, rfl, hc⟩ := h
  obtain ⟨d, rfl, hd⟩ := h1
  refine ⟨c ++ d, by simp, fun u hu => ?_⟩
  rcases List.mem_append.1 hu with hu | hu
  · exact hc u hu
  · exact hd u hu

theorem Eats.term {b : Bool} {i r : List Token} {s : Semi} (h : Term b i r s) : Eats i r := by
  cases h with
  | explicit h => exact .cons (by rw [h]; nofun) (.refl _)
  | inserted => exact .refl _

/-- Goals `Eats a b`. -/
syntax "eats" : tactic
macro_rules
  | `(tactic| eats) => `(tactic|
      first
      | exact Eats.refl _
      | assumption
      | (refine Eats.cons (by ne0) ?_; eats)
      | (refine Eats.trans ‹Eats _ _› ?_; eats)
      | (refine Eats.trans (Eats.term ‹Term _ _ _ _›) ?_; eats))

theorem Eats.derives [Env] {L : LocSpec} {c : Cat} {env : Scope} {nt : NT c} {inp rest : List Token}
    {x : Ast c} (h : Derives L env nt inp rest x) : Eats inp rest := by
  induction h <;> eats

/-- Lists of statements. -/
def stmts : {c : Cat} → NT c → Bool
  | _, .items | _, .modItems => true
  | _, .prologue nt | _, .body nt => isItems nt
  | _, _ => false

theorem isItems_stmts {c : Cat} {nt : NT c} (h : isItems nt = true) : stmts nt = true := by
  cases nt <;> first | rfl | cases h

theorem not_followsItems {v : TokenData} (h : stmtStart v = true) : v ∉ followsItems := by
  simp only [followsItems, List.mem_cons, List.not_mem_nil, or_false, not_or]
  refine ⟨?_, ?_, ?_, ?_⟩ <;> (rintro rfl; revert h; decide)

/-- What follows a list of statements; and there are no semicolons in it if there are no tokens. -/
theorem ends [Env] {L : LocSpec} {c : Cat} {env : Scope} {nt : NT c} {inp rest : List Token}
    {x : Ast c} (h : Derives L env nt inp rest x) : stmts nt = true →
    ∃ t r, rest = t :: r ∧ t.value ∈ followsItems ∧ (inp = rest → x.missing = 0) := by
  induction h <;> intro hn
  all_goals first
    | (cases hn; done)
    | skip
  case itemsNil h1 => exact ⟨_, _, rfl, h1, fun _ => rfl⟩
  case modItemsNil h1 => exact ⟨_, _, rfl, by rw [h1]; decide, fun _ => rfl⟩
  case itemsCons h1 h2 _ ih =>
    obtain ⟨t, r, rfl, h3, _⟩ := ih rfl
    refine ⟨t, r, rfl, h3, fun e => ?_⟩
    subst e
    obtain ⟨_, _, e, h4⟩ := h1.first
    cases e
    exact absurd h3 (not_followsItems h4)
  case modItemsCons h1 h2 _ ih =>
    obtain ⟨t, r, rfl, h3, _⟩ := ih rfl
    refine ⟨t, r, rfl, h3, fun e => ?_⟩
    subst e
    obtain ⟨_, _, e, h4⟩ := h1.first
    cases e
    exact absurd h3 (not_followsItems h4)
  case directive h1 h2 h3 h4 h5 ih =>
    obtain ⟨t, r, rfl, h6, _⟩ := ih hn
    refine ⟨t, r, rfl, h6, fun e => ?_⟩
    have h7 := h5.suffix.length_le
    have h8 := h3.suffix.length_le
    have h9 := congrArg List.length e
    simp only [List.length_cons] at h7 h9
    omega
  case prologueEnd h1 h2 h3 ih =>
    obtain ⟨t, r, rfl, h6, h7⟩ := ih (isItems_stmts hn)
    exact ⟨t, r, rfl, h6, fun e => by simp [Ast.missing, h7 e]⟩
  case body h1 h2 ih =>
    obtain ⟨t, r, rfl, h6, h7⟩ := ih hn
    exact ⟨t, r, rfl, h6, h7⟩

/-! ### Tokens -/

theorem Ins.length {i j : List Token} (h : Ins i j) : i.length ≤ j.length := by
  induction h with
  | nil => exact Nat.le_refl _
  | cons _ ih => simpa using ih
  | semi _ _ _ ih => exact Nat.le_succ_of_le ih

theorem Ins.added {i j : List Token} (h : Ins i j) : SemisAdded (j.length - i.length) i j := by
  induction h with
  | nil => exact .nil
  | @cons t i j h ih => simpa using SemisAdded.keep rfl rfl ih
  | @semi t i j h1 h2 h ih =>
    have := h.length
    rw [List.length_cons, Nat.sub_add_comm this]
    exact .add h1 h2 ih

theorem Ins.nil_iff {j : List Token} : Ins [] j ↔ ∀ t ∈ j, t.value = .semi ∧ t.newline = false := by
  induction j with
  | nil => exact ⟨fun _ => nofun, fun _ => .nil⟩
  | cons u j ih =>
    constructor
    · intro h t ht
      cases h with
      | semi h1 h2 h =>
        rcases List.mem_cons.1 ht with rfl | ht
        · exact ⟨h1, h2⟩
        · exact ih.1 h t ht
    · intro h
      have := h u (by simp)
      exact .semi this.1 this.2 (ih.2 fun t ht => h t (by simp [ht]))

/-- The last token of both lists. -/
theorem Ins.cancel1 {t : Token} {i j : List Token} : Ins (i ++ [t]) (j ++ [t]) → Ins i j := by
  generalize hk : i ++ [t] = k
  generalize hl : j ++ [t] = l
  intro h
  induction h generalizing i j with
  | nil => cases i <;> cases hk
  | @cons u k l h ih =>
    cases i with
    | nil =>
      cases hk
      cases j with
      | nil => cases hl; exact .nil
      | cons b j =>
        injection hl with e1 e2
        subst e1 e2
        have h := Ins.nil_iff.1 h
        refine Ins.nil_iff.2 fun u hu => h u ?_
        rcases List.mem_cons.1 hu with rfl | hu
        · simp
        · simp [hu]
    | cons a i =>
      injection hk with e1 e2
      subst e1 e2
      cases j with
      | nil =>
        cases hl
        have := h.length
        simp at this
      | cons b j =>
        injection hl with e1 e2
        subst e1
        exact .cons (ih rfl e2)
  | @semi u k l h1 h2 h ih =>
    subst hk
    cases j with
    | nil =>
      cases hl
      have := h.length
      simp at this
    | cons b j =>
      injection hl with e1 e2
      subst e1
      exact .semi h1 h2 (ih rfl e2)

theorem Ins.cancel {r : List Token} : ∀ {i j : List Token}, Ins (i ++ r) (j ++ r) → Ins i j := by
  induction r with
  | nil => intro i j h; simpa using h
  | cons t r ih =>
    intro i j h
    rw [List.append_cons i, List.append_cons j] at h
    exact (ih h).cancel1

/-- The first token is kept. -/
theorem Same.cancel {t : Token} {c c' r : List Token} (h : Same (t :: c ++ r) (c' ++ r)) :
    ∃ c1, c' = t :: c1 ∧ Ins c c1 := by
  obtain ⟨u, i, j, h1, h2, h3⟩ := h
  injection h1 with e1 e2
  subst e1 e2
  cases c' with
  | nil =>
    have : (c ++ r).length ≤ j.length := h3.length
    change r = _ at h2
    rw [h2] at this
    simp only [List.length_append, List.length_cons] at this
    omega
  | cons b c' =>
    injection h2 with e1 e2
    subst e1 e2
    exact ⟨c', rfl, h3.cancel⟩

/-! ### Texts -/

section Text

variable [Env] [LawfulEnv]

theorem lexes_split {vs vs' : List (Bool × TokenData)} : ∀ {ops : List Bool} {r z : Str},
    Lexes false ops r (vs ++ vs') z →
    ∃ ops1 ops2 m, Lexes false ops1 r vs m ∧ Lexes false ops2 m vs' z := by
  induction vs with
  | nil => exact fun h => ⟨[], _, _, .nil, h⟩
  | cons v vs ih =>
    intro ops r z h
    cases h with
    | cons h1 h2 h3 h4 =>
      obtain ⟨o1, o2, m, h5, h6⟩ := ih h4
      exact ⟨_, o2, m, .cons h1 h2 h3 h5, h6⟩

/-- The text of the tokens with more semicolons. -/
theorem Ins.text {i j : List Token} (h : Ins i j) : ∀ {ops : List Bool} {r z : Str},
    Lexes false ops r (i.map flags) z → (∀ t ∈ i, t.value ≠ .eof) →
    ∃ n ops' r', SemisWritten n r r' ∧ Lexes false ops' r' (j.map flags) z ∧ i.length + n = j.length := by
  induction h with
  | nil => exact fun h _ => ⟨0, _, _, .refl _, h, rfl⟩
  | @cons t i j h ih =>
    intro ops r z hl hn
    rw [List.map_cons, flags] at hl
    generalize hb : t.newline = b at hl
    cases hl with
    | @cons _ _ op _ w x y _ _ _ h1 h2 h3 h4 =>
      obtain ⟨n, ops', y', g1, g2, g3⟩ := ih h4 fun u hu => hn u (by simp [hu])
      refine ⟨n, op :: ops', w ++ (x ++ y'), .append _ (.append _ g1), ?_, by simp; omega⟩
      rw [List.map_cons, flags, hb]
      exact Lexes.grow h1 h2 h3 (hn t (by simp)) g1 g2
  | @semi t i j a b h ih =>
    intro ops r z hl hn
    obtain ⟨n, ops', r', g1, g2, g3⟩ := ih hl hn
    refine ⟨n + 1, true :: ops', ';' :: r', .add g1, ?_, by simp; omega⟩
    rw [List.map_cons, flags, a, b]
    exact Lexes.cons (w := []) (x := c!";") .nil (.semi _ _) (.semi _) g2

/-- The text of the tokens of a program with more semicolons. -/
theorem text {s : Str} {ops : List Bool} {k : Nat} {t : Token} {c c' rest : List Token}
    (h : Tokens s 0 true ops (t :: c ++ rest) k) (hs : Same (t :: c ++ rest) (c' ++ rest))
    (hn : ∀ u ∈ t :: c, u.value ≠ .eof) :
    ∃ n s' ops' ts' k', SemisWritten n s s' ∧ Tokens s' 0 true ops' ts' k' ∧
      ts'.map flags = (c' ++ rest).map flags ∧ (t :: c ++ rest).length + n = (c' ++ rest).length := by
  obtain ⟨c1, rfl, hi⟩ := hs.cancel
  have hl := Tokens.lexes h
  rw [List.drop_zero, List.cons_append, List.map_cons, flags, List.map_append] at hl
  generalize hb : t.newline = b at hl
  generalize s.drop k = z at hl
  generalize hs' : s = s0 at hl
  cases hl with
  | @cons _ _ op _ w x y _ _ _ h1 h2 h3 h4 =>
    obtain ⟨o1, o2, m, h5, h6⟩ := lexes_split h4
    obtain ⟨n, ops', y', g1, g2, g3⟩ := hi.text h5 fun u hu => hn u (by simp [hu])
    have g4 : Lexes true (op :: (ops' ++ o2)) (w ++ (x ++ y')) ((hasNewline w, t.value) ::
        (c1.map flags ++ rest.map flags)) z :=
      Lexes.grow h1 h2 h3 (hn t (by simp)) g1 (g2.append h6)
    obtain ⟨ts', k', g5, g6, _⟩ := g4.tokens (s := w ++ (x ++ y')) (k := 0) (Nat.zero_le _) rfl
    refine ⟨n, w ++ (x ++ y'), _, ts', k', hs' ▸ .append _ (.append _ g1), g5, ?_, by simp; omega⟩
    rw [g6, ← hb]
    simp [flags]

end Text

end Semis

end Esprit
