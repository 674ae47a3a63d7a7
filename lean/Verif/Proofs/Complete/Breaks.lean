import Verif.Spec.Breaks
import Verif.Proofs.Complete.ClosingLex
import Verif.Proofs.Complete.SameTokens

/-! Texts with more line breaks. -/

set_option linter.unusedSectionVars false

namespace Esprit

open Lex ReaderSpec Grammar

namespace Breaks

variable {P : Nat → Bool}

theorem cons (c : Char) (s : Str) (k : Nat) : breakLines P k (c :: s) =
    if P k then '\n' :: c :: breakLines P (k + 1) s else c :: breakLines P (k + 1) s := rfl

/-- The first line break. -/
theorem first : (s : Str) → (k : Nat) → breakLines P k s = s ∨
    ∃ u z z', s = u ++ z ∧ breakLines P k s = u ++ '\n' :: z'
  | [], _ => .inl rfl
  | c :: s, k => by
    unfold breakLines
    split
    · exact .inr ⟨[], c :: s, _, rfl, rfl⟩
    · rcases first s (k + 1) with h | ⟨u, z, z', rfl, h⟩
      · exact .inl (by rw [h])
      · exact .inr ⟨c :: u, z, z', rfl, by rw [h]; rfl⟩

/-- There are no line breaks in `w`. -/
theorem append : (w y : Str) → (k : Nat) → (∀ n, k ≤ n → n < k + w.length → P n = false) →
    breakLines P k (w ++ y) = w ++ breakLines P (k + w.length) y
  | [], _, _, _ => rfl
  | c :: w, y, k, h => by
    have h0 : P k = false := h k (Nat.le_refl _) (by simp)
    rw [List.cons_append, cons, h0, append w y (k + 1) fun n h1 h2 => h n (by omega) (by simp; omega)]
    simp [Nat.add_comm, Nat.add_left_comm]

/-- There is at most a line break before `x`. -/
theorem token (x y : Str) (k : Nat) (hx : x ≠ []) (h : ∀ n, k < n → n < k + x.length → P n = false) :
    breakLines P k (x ++ y) = (if P k then c!"\n" else []) ++ (x ++ breakLines P (k + x.length) y) := by
  cases x with
  | nil => exact absurd rfl hx
  | cons c x =>
    rw [List.cons_append, cons, append x y (k + 1) fun n h1 h2 => h n (by omega) (by simp; omega)]
    split <;> simp [Nat.add_comm, Nat.add_left_comm]

section Text

variable [Env] [LawfulEnv]

theorem trivia {e e' : Bool} {w z : Str} (h : Trivia e w z e')
    (hz : ∃ c, z.head? = some c ∧ c ∉ lineTerminators) : Trivia e (w ++ c!"\n") z true := by
  induction h with
  | nil => exact .newline (by decide) .nil
  | space h1 _ ih => exact .space h1 (ih hz)
  | newline h1 _ ih => exact .newline h1 (ih hz)
  | @line e e' k w y h1 h2 _ ih =>
    rw [List.append_assoc]
    refine .line h1 ?_ (ih hz)
    intro c hc
    cases w with
    | nil => cases hc; decide
    | cons d w => exact h2 c hc
  | block h1 _ ih =>
    rw [List.append_assoc]
    exact .block h1 (ih hz)

theorem dec_text : ∀ p ∈ punctuators, c!"--" <+: p.1 → p.2 = .dec := by decide +kernel

theorem minus_start : ¬ IdStart '-' := by
  have hc : Env.idContinue '-' = false := by rw [LawfulEnv.ascii_continue '-' (by decide)]; decide
  rintro (h | h | h)
  · cases h
  · cases h
  · rw [LawfulEnv.start_continue '-' h] at hc
    cases hc

theorem number_head {src : NumberSource} {y z : Str} (h : NumberOk src y) : spellNumber src ++ y ≠ '-' :: z := by
  have key : ∀ {m q : Str}, Digits decDigits m → m ++ q ≠ '-' :: z := by
    intro m q hm h
    cases m with
    | nil => exact hm.1 rfl
    | cons d m =>
      have := hm.2 d (by simp)
      rw [(List.cons.inj h).1] at this
      revert this; decide
  intro hz
  cases h with
  | decimal g1 =>
    rw [spellNumber, List.append_assoc] at hz
    exact key g1 hz
  | @hex cc => cases cc <;> cases hz
  | @oct cc => cases cc <;> cases hz
  | @bin cc => cases cc <;> cases hz
  | legacyOctal g1 =>
    obtain ⟨t, rfl, _⟩ := g1
    cases hz
  | point => cases hz
  | float g1 =>
    simp only [spellNumber, List.append_assoc] at hz
    exact key g1 hz

/-- Only `--` begins like the comment `-->`. -/
theorem arrow {op : Bool} {x y : Str} {v : TokenData} (h : Lexeme op x y v) (hv : v ≠ .dec) :
    ¬ c!"-->" <+: x ++ y := by
  rintro ⟨z, hz⟩
  cases h with
  | eof => cases hz
  | punctuator h1 h2 h3 h4 =>
    have h5 := h2 c!"--" .dec (by decide) ⟨'>' :: z, by rw [← hz]; rfl⟩
    refine hv (dec_text _ h1 ?_)
    refine List.prefix_of_prefix_length_le ⟨'>' :: z, ?_⟩ (List.prefix_append x y) h5
    rw [← hz]; rfl
  | word h1 h2 h3 h4 =>
    obtain ⟨c, h5, h6⟩ := h1
    cases x with
    | nil => cases h5
    | cons d x =>
      cases h5
      rw [← (List.cons.inj hz).1] at h6
      rcases h6 with h6 | h6
      · exact minus_start h6
      · cases h6
  | string h1 h2 =>
    have := (List.cons.inj hz).1
    rcases h1 with rfl | rfl <;> cases this
  | number h1 h2 h3 => exact number_head h1 hz.symm
  | regexp => cases (List.cons.inj hz).1

theorem noTrivia {op e : Bool} {x y : Str} {v : TokenData} (h : NoTrivia e (x ++ y)) (hx : Lexeme op x y v)
    (hv : v ≠ .dec) : NoTrivia true (x ++ y) :=
  ⟨h.space, h.slashes, h.block, h.htmlOpen, fun _ => arrow hx hv⟩

/-- The rest of the text can have line breaks. -/
theorem grow {k : Nat} {e e' op : Bool} {w x y : Str} {v : TokenData}
    (h1 : Trivia e w (x ++ y) e') (h2 : NoTrivia e' (x ++ y))
    (h3 : Lexeme op x y v) (hv : v ≠ .eof) :
    Trivia e w (x ++ breakLines P k y) e' ∧ NoTrivia e' (x ++ breakLines P k y) ∧
      Lexeme op x (breakLines P k y) v := by
  rcases first (P := P) y k with h | ⟨u, z, z', rfl, h⟩
  · rw [h]; exact ⟨h1, h2, h3⟩
  rw [h]
  have hx : x ≠ [] := fun h => hv (h3.eof_iff.1.2 h)
  have hc : SepHead '\n' := .inr (.inl (by decide))
  refine ⟨h1.next ?_, ?_, h3.change hv hc (fun _ _ => by decide)⟩
  · cases x with
    | nil => exact absurd rfl hx
    | cons d x => rfl
  · rw [← List.append_assoc] at h2 ⊢
    exact h2.change (by simp [hx]) hc (fun _ => by decide)

/-- The flags of a token after the line breaks are added. -/
def broken (P : Nat → Bool) (t : Token) : Bool × TokenData :=
  (t.newline || P t.location.start.offset, t.value)

theorem text {s : Str} {k k' : Nat} {e : Bool} {ops : List Bool} {ts : List Token}
    (h : Tokens s k e ops ts k') :
    (∀ n, k ≤ n → P n = true → ∃ t ∈ ts, t.location.start.offset = n ∧ t.value ∉ [.inc, .dec, .eof]) →
    ∃ z, Lexes e ops (breakLines P k (s.drop k)) (ts.map (broken P)) z := by
  induction h with
  | nil => exact fun _ => ⟨_, .nil⟩
  | @cons k k1 k2 e op ops t ts h1 h2 ih =>
    intro hP
    have hs := Closing.starts h2
    have hlt := Closing.start_lt h1
    obtain ⟨w, x, y, e', a1, a2, a3, a4, a5, a6, a7, rfl⟩ := h1
    have ho : t.location.start.offset = k + w.length := a6.offset
    have d : s.drop (k + w.length + x.length) = y := by
      rw [← List.drop_drop, ← List.drop_drop, a1, List.drop_left, List.drop_left]
    obtain ⟨z, hz⟩ := ih (by
      intro n h3 h4
      obtain ⟨u, hu, h5, h6⟩ := hP n (by omega) h4
      rcases List.mem_cons.1 hu with rfl | hu
      · have := hlt (by simp at h6; exact h6.2.2)
        omega
      · exact ⟨u, hu, h5, h6⟩)
    have b1 : ∀ n, k ≤ n → n < k + w.length → P n = false := by
      intro n h3 h4
      cases hn : P n with
      | false => rfl
      | true =>
        obtain ⟨u, hu, h5, h6⟩ := hP n h3 hn
        rcases List.mem_cons.1 hu with rfl | hu
        · omega
        · have := hs u hu
          omega
    have b2 : ∀ n, k + w.length < n → n < k + w.length + x.length → P n = false := by
      intro n h3 h4
      cases hn : P n with
      | false => rfl
      | true =>
        obtain ⟨u, hu, h5, h6⟩ := hP n (by omega) hn
        rcases List.mem_cons.1 hu with rfl | hu
        · omega
        · have := hs u hu
          omega
    rw [d] at hz
    by_cases ht : t.value = .eof
    · have hx := a4.eof_iff.1.1 ht
      have hy := a4.eof_iff.2 hx
      subst hx hy
      have b3 : P (k + w.length) = false := by
        cases hn : P (k + w.length) with
        | false => rfl
        | true =>
          exfalso
          obtain ⟨u, hu, h5, h6⟩ := hP _ (by omega) hn
          rcases List.mem_cons.1 hu with rfl | hu
          · simp [ht] at h6
          · have hl := Tokens.lexes h2
            rw [d] at hl
            have := Closing.lexes_nil hl (flags u) (List.mem_map_of_mem hu)
            simp only [flags] at this
            simp [this] at h6
      refine ⟨z, ?_⟩
      rw [a1, append w _ k b1, List.map_cons, broken, ho, b3, Bool.or_false, a5]
      exact .cons a2 a3 a4 hz
    · have hx : x ≠ [] := fun h => ht (a4.eof_iff.1.2 h)
      obtain ⟨c1, c2, c3⟩ := grow (P := P) (k := k + w.length + x.length) a2 a3 a4 ht
      refine ⟨z, ?_⟩
      rw [a1, append w _ k b1, token x y _ hx b2, List.map_cons, broken, ho, a5]
      cases hn : P (k + w.length) with
      | false =>
        rw [Bool.or_false, if_neg Bool.false_ne_true, List.nil_append]
        exact .cons c1 c2 c3 hz
      | true =>
        have hd : t.value ≠ .dec := by
          obtain ⟨u, hu, h5, h6⟩ := hP _ (by omega) hn
          rcases List.mem_cons.1 hu with rfl | hu
          · simp at h6
            exact h6.2.1
          · have := hs u hu
            have := List.length_pos_iff.2 hx
            omega
        have c4 := trivia c1 (by
          cases x with
          | nil => exact absurd rfl hx
          | cons c x => exact ⟨c, rfl, (c2.space c rfl).2⟩)
        have : (hasNewline w || true) = hasNewline (w ++ c!"\n") := by
          simp [hasNewline]; exact .inr (by decide)
        rw [this, if_pos rfl, ← List.append_assoc]
        exact .cons c4 (noTrivia c2 c3 hd) c3 hz

/-- What is known of a token with a line break before it. -/
theorem known {s : Str} {k k' : Nat} {e : Bool} {ops : List Bool} {ts : List Token}
    (h : Tokens s k e ops ts k') (hP : ∀ n, P n = true → MayBreak ts n) {t : Token} {r : List Token}
    (hs : (t :: r) <:+ ts) (ht : P t.location.start.offset = true) : t.value ∉ [.inc, .dec, .eof] ∧
      ∀ a, (a :: t :: r) <:+ ts → a.value ∈ Rename.restricted → t.value = .semi ∨ t.value = .rBrace := by
  obtain ⟨a, t', r', h1, h2, h3, h4⟩ := hP _ ht
  have := Closing.unique h ((List.suffix_cons _ _).trans h1) hs (fun h => h3 (by simp [h])) h2
  cases this
  refine ⟨h3, fun a' h5 h6 => ?_⟩
  have := (List.suffix_of_suffix_length_le h1 h5 (by simp)).eq_of_length (by simp)
  cases this
  exact h4 h6

theorem rel {ts : List Token} (hP : ∀ t r, (t :: r) <:+ ts → P t.location.start.offset = true →
      t.value ∉ [.inc, .dec, .eof] ∧
      ∀ a, (a :: t :: r) <:+ ts → a.value ∈ Rename.restricted → t.value = .semi ∨ t.value = .rBrace) :
    ∀ {ts' : List Token}, ts'.map flags = ts.map (broken P) → Rename.Rel Rename.noRenaming false ts ts' := by
  induction ts with
  | nil =>
    intro ts' h
    cases ts' with
    | nil => exact .nil
    | cons => cases h
  | cons t ts ih =>
    intro ts' h
    cases ts' with
    | nil => cases h
    | cons t' ts' =>
      obtain ⟨h1, h2⟩ := List.cons.inj h
      simp only [flags, broken, Prod.mk.injEq] at h1
      refine .cons ⟨h1.2.trans (Rename.token_rename _).symm, fun _ h => by rw [h1.1, h, Bool.true_or], fun hv => ?_⟩
        (fun hr => ?_) (ih (fun u r hs hu => ?_) h2)
      · cases hn : P t.location.start.offset with
        | false => rw [h1.1, hn, Bool.or_false]
        | true =>
          have := (hP t ts (List.suffix_refl _) hn).1
          simp at this
          rcases hv with hv | hv
          · exact absurd hv this.1
          · exact absurd hv this.2.1
      · rintro u r u' r' rfl rfl hs hb
        have h3 := congrArg Prod.fst (List.cons.inj h2).1
        simp only [flags, broken] at h3
        cases hn : P u.location.start.offset with
        | false => rw [h3, hn, Bool.or_false]
        | true =>
          rcases (hP u r (List.suffix_cons _ _) hn).2 t (List.suffix_refl _) hr with h | h
          · exact absurd h hs
          · exact absurd h hb
      · obtain ⟨h3, h4⟩ := hP u r (hs.trans (List.suffix_cons _ _)) hu
        exact ⟨h3, fun a ha => h4 a (ha.trans (List.suffix_cons _ _))⟩

theorem rel_same {ts ts' : List Token} (h : SameButBreaks ts ts') :
    Rename.Rel Rename.noRenaming true ts ts' := by
  induction h with
  | nil => exact .nil
  | cons h1 h2 h3 _ ih =>
    exact .cons ⟨h1.trans (Rename.token_rename _).symm, nofun, h2⟩ h3 ih

/-- The tokens of the text with line breaks. -/
theorem tokens {s : Str} {k : Nat} {ops : List Bool} {ts : List Token}
    (h : Tokens s 0 true ops ts k) (hP : ∀ n, P n = true → MayBreak ts n) :
    ∃ ts' k', Tokens (breakLines P 0 s) 0 true ops ts' k' ∧ Rename.Rel Rename.noRenaming false ts ts' := by
  obtain ⟨z, hz⟩ := text (P := P) h (by
    intro n _ hn
    obtain ⟨a, t, r, h1, h2, h3, h4⟩ := hP n hn
    exact ⟨t, h1.subset (by simp), h2, h3⟩)
  rw [List.drop_zero] at hz
  obtain ⟨ts', k', h1, h2, _⟩ := hz.tokens (s := breakLines P 0 s) (k := 0) (Nat.zero_le _) rfl
  exact ⟨ts', k', h1, rel (fun t r => known h hP) h2⟩

end Text

end Breaks

end Esprit
