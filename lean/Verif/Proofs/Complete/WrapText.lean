import Verif.Spec.Join
import Verif.Spec.Wrap
import Verif.Proofs.Complete.Wrap
import Verif.Props.Exact
import Verif.Props.Layout

/-!
The tokens of a program between two other texts, and what is derived from them.
-/

set_option linter.unusedSectionVars false

namespace Esprit

open Lex ReaderSpec Grammar

namespace Wrap

variable [Env] [LawfulEnv] {h s t : Str}

theorem map_cons_ne {ops : List Bool} {ts : List Token} {k : Nat} {s : Str} {e : Bool} {vs : List TokenData}
    (h : Tokens s 0 e ops ts k) (hv : ts.map Token.value = vs ++ [.eof]) :
    ∃ op ops', ops = op :: ops' := by
  cases h with
  | nil => simp at hv
  | cons => exact ⟨_, _, rfl⟩

theorem join_values {R : List Token} : ∀ {vs : List TokenData} {ts : List Token},
    ts.map Token.value = vs ++ [.eof] → (∀ v ∈ vs, v ≠ .eof) →
    ∃ as, as.map Token.value = vs ∧ Join.join R ts = as ++ R
  | [], ts, h, _ => by
    obtain ⟨a, ts, rfl, h1, h2⟩ := List.map_eq_cons_iff.1 h
    exact ⟨[], rfl, Join.join_eof h1⟩
  | v :: vs, ts, h, hn => by
    obtain ⟨a, ts, rfl, h1, h2⟩ := List.map_eq_cons_iff.1 h
    obtain ⟨as, h3, h4⟩ := join_values (R := R) h2 fun v hv => hn v (List.mem_cons_of_mem _ hv)
    refine ⟨a :: as, by rw [List.map_cons, h1, h3], ?_⟩
    rw [Join.join_cons (by rw [h1]; exact hn v (by simp)), h4]
    rfl

theorem join_ne {b u : Token} {R ts : List Token} (h : u ∈ ts) :
    Join.join (b :: R) ts ≠ [] := by
  cases ts with
  | nil => cases h
  | cons t ts => rcases Join.head_cases (b :: R) t ts with ⟨_, e⟩ | ⟨_, e⟩ <;> rw [e] <;> nofun

/-- What is found out about a program between two texts. -/
theorem setup {vs ws : List TokenData} (hh : HasTokens h vs)
    (hvs : ∀ v ∈ vs, v ≠ .eof) {w : TokenData} (hw : w ∈ [.rBrace, .rParen, .rBrack])
    (ht : HasTokens ('\n' :: t) (w :: ws)) {c : List Check} {x : Script}
    (hp : program ('\n' :: s) = .ok (.ambiguous c x))
    (hd : DistinctLabels x)
    (hcr1 : h.getLast? ≠ some '\r') (hcr2 : s.getLast? ≠ some '\r') :
    ∃ as b bs ts rest y S ops k, as.map Token.value = vs ∧
      (b :: bs).map Token.value = w :: ws ++ [.eof] ∧
      Tokens (h ++ '\n' :: (s ++ '\n' :: t)) 0 true ops (as ++ Join.join (b :: bs) ts) k ∧
      Derives (Located S) { Scope.script false with plain := true } (.body .items) ts rest y ∧
      NextIs rest .eof ∧ y.blur = x.blur ∧ Join.Fresh b ∧ Join.LetSafe b ts ∧
      ∀ i r l, Located S i r l → StartsBefore l (b :: bs) := by
  obtain ⟨_, _, e0, ops0, ts0, k0, rest0, ht0, hD0, he0⟩ := C34_program _ _ hp
  cases e0
  have hne0 : ts0 ≠ [] := by
    rintro rfl
    obtain ⟨u, r, rfl, _⟩ := he0
    have := hD0.suffix.subset (List.mem_cons_self (a := u) (l := r))
    cases this
  have hany : ∀ op, ∃ u k, TokenAt ('\n' :: s) 0 true op u k := by
    intro op
    cases ht0 with
    | nil => exact absurd rfl hne0
    | @cons _ _ _ _ _ _ u us h1 h2 =>
      obtain ⟨a1, a2⟩ := Join.body_slash hD0 he0
      exact Join.tokenAt_any h1 a1 a2 op
  have hb := Join.outcome_blank h (C55_program_separators ('\n' :: s)) hany
  rw [hp] at hb
  cases hq : program (h.map Join.blank ++ '\n' :: s) with
  | err _ | panic _ | fuel => rw [hq] at hb; exact hb.elim
  | ok p =>
    rw [hq] at hb
    obtain ⟨c3, y2, e3, ops2, ts2, k2, rest2, ht2, hD2, he2⟩ := C34_program _ _ hq
    subst e3
    have hblur : y2.blur = x.blur := by
      have : Program.blur _ = Program.blur _ := hb
      simp only [Program.blur, Program.ambiguous.injEq] at this
      exact this.2.symm
    have hsim : Ast.Similar y2 x := Ast.similar_of_blur hblur
    -- the tokens of the program, with blanks for the text before it
    have hP := derives_plain ht2 hD2 rfl (distinctLabels_similar hsim hd)
    -- the tokens of the text after it, with blanks for everything before
    obtain ⟨opsT, tsT, kT, hT, hTv⟩ := ht
    obtain ⟨op, opsT', rfl⟩ := map_cons_ne hT hTv
    obtain ⟨bs, kb, hB, hBf⟩ := Wrap.tokens_blank (h.map Join.blank ++ '\n' :: s) hT
    have hBv : bs.map Token.value = w :: ws ++ [.eof] := by
      have := congrArg (List.map Prod.snd) hBf
      rw [List.map_map, List.map_map] at this
      exact this.trans hTv
    obtain ⟨b1, bs, rfl, hb1, hbv⟩ := List.map_eq_cons_iff.1 hBv
    cases hB with
    | cons hB1 hB2 =>
      obtain ⟨g1, g2, g3⟩ := Join.first_start hB1
      have hcr3 : (h.map Join.blank ++ '\n' :: s).getLast? ≠ some '\r' := by
        rw [List.getLast?_append]
        cases s with
        | nil => simp
        | cons c s => simpa [List.getLast?_cons_cons] using hcr2
      obtain ⟨u, hu, hue⟩ : ∃ u ∈ ts2, u.value = .eof := by
        obtain ⟨u, r, rfl, hv⟩ := he2
        exact ⟨u, hD2.suffix.subset (by simp), hv⟩
      obtain ⟨opsM, hM⟩ := Join.tokens_join hcr3 hB1 hB2 ht2 (Nat.zero_le _) ⟨u, hu, hue⟩
      rw [List.append_assoc, List.cons_append] at hM
      have hne : ∀ v, v ∉ [.rBrace, .rParen, .rBrack] → b1.value ≠ v := by
        rintro v hv rfl
        exact hv (by rw [hb1]; exact hw)
      have hfresh : Join.Fresh b1 :=
        { newline := g1
          start := .inr (by rw [hb1]; exact hw)
          punctuator := by
            have key : ∀ v ∈ [TokenData.rBrace, .rParen, .rBrack], v ∉ [TokenData.lParen, .lBrack, .plus, .minus, .semi] := by
              decide
            exact key _ (by rw [hb1]; exact hw)
          string := fun _ => hne _ (by simp)
          regExp := fun _ => hne _ (by simp) }
      have hlet : Join.LetSafe b1 ts2 := by
        rintro a b r _ _ _ (h | h | ⟨n, h⟩)
        · exact hne _ (by simp) h
        · exact hne _ (by simp) h
        · exact hne _ (by simp) h
      have hL : ∀ i r l, Located (h.map Join.blank ++ '\n' :: s) i r l → StartsBefore l (b1 :: bs) := by
        rintro i r l ⟨p, q, c, rfl, _, ⟨⟨j, hj, hp⟩, _, _, _⟩, _⟩ sp hsp u hu
        cases hsp
        have : (h.map Join.blank ++ '\n' :: s).length ≤ u.location.start.offset := by
          rcases List.mem_cons.1 hu with rfl | hu
          · omega
          · have := Join.tokens_start hB2 u hu
            omega
        rw [hp.offset]
        omega
      obtain ⟨opsH, tsH, kH, hH, hHv⟩ := hh
      generalize hj : Join.join (b1 :: bs) ts2 = j at hM
      cases hM with
      | nil => exact absurd hj (join_ne hu)
      | @cons _ _ _ _ _ _ t0 R' hM1 hM2 =>
        obtain ⟨ops, hall⟩ := Join.tokens_join hcr1 hM1 hM2 hH (Nat.zero_le _) (by
          have : TokenData.eof ∈ tsH.map Token.value := by rw [hHv]; simp
          obtain ⟨v, hv, hv2⟩ := List.mem_map.1 this
          exact ⟨v, hv, hv2⟩)
        obtain ⟨as, ha1, ha2⟩ := join_values (R := t0 :: R') hHv hvs
        rw [ha2] at hall
        exact ⟨as, b1, bs, ts2, rest2, y2, _, ops, _, ha1, hBv, by rw [hj]; exact hall, hP, he2, hblur,
          hfresh, hlet, hL⟩

end Wrap

end Esprit
