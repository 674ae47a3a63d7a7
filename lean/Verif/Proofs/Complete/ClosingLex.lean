import Verif.Proofs.Complete.Closing
import Verif.Proofs.LexTokens
import Verif.Proofs.LexValue

/-! Texts in which semicolons before closing braces and before the end are replaced by spaces. -/

set_option linter.unusedSectionVars false

namespace Esprit

open Lex ReaderSpec Grammar

theorem blankAt_append (Q : Nat → Bool) : (k : Nat) → (s t : Str) →
    blankAt Q k (s ++ t) = blankAt Q k s ++ blankAt Q (k + s.length) t
  | k, [], t => rfl
  | k, c :: s, t => by
    have := blankAt_append Q (k + 1) s t
    simp only [List.cons_append, blankAt, this, List.length_cons, Nat.add_assoc, Nat.add_comm 1]

theorem blankAt_id {Q : Nat → Bool} : (k : Nat) → (s : Str) → (∀ n, k ≤ n → n < k + s.length → Q n = false) →
    blankAt Q k s = s
  | _, [], _ => rfl
  | k, c :: s, h => by
    rw [blankAt, h k (Nat.le_refl _) (by simp), blankAt_id (k + 1) s fun n h1 h2 => h n (by omega) (by simp; omega)]
    rfl

/-- The first replaced character. -/
theorem blankAt_first (Q : Nat → Bool) : (k : Nat) → (s : Str) →
    blankAt Q k s = s ∨ ∃ u z z', s = u ++ z ∧ blankAt Q k s = u ++ ' ' :: z'
  | _, [] => .inl rfl
  | k, c :: s => by
    rw [blankAt]
    cases Q k with
    | true => exact .inr ⟨[], _, _, rfl, rfl⟩
    | false =>
      rcases blankAt_first Q (k + 1) s with h | ⟨u, z, z', h1, h2⟩
      · exact .inl (by rw [h]; rfl)
      · exact .inr ⟨c :: u, z, z', by rw [h1]; rfl, by rw [h2]; rfl⟩

namespace Closing

/-! ### Texts -/

section Text

variable [Env] [LawfulEnv]

/-- Trivia before a semicolon on the same line, and trivia after it. -/
theorem trivia_blank {e e' : Bool} {w y : Str} (h : Trivia e w (';' :: y) e') (hn : hasNewline w = false)
    {e2 : Bool} {w2 y2 : Str} (h2 : Trivia e w2 y2 e2) : Trivia e (w ++ ' ' :: w2) y2 e2 := by
  generalize hz : ';' :: y = z at h
  induction h with
  | nil => exact .space (by decide) h2
  | space h1 _ ih => exact .space h1 (ih (by simp_all [hasNewline]) h2 hz)
  | newline h1 => simp [hasNewline, h1] at hn
  | @line e e' k w z h1 h3 _ ih =>
    exfalso
    cases w with
    | nil =>
      subst hz
      exact absurd (h3 ';' rfl) (by decide)
    | cons d w =>
      have := h3 d rfl
      simp [hasNewline, this] at hn
  | @block e e' k w z h1 _ ih =>
    have : hasNewline w = false := by
      simp only [hasNewline, List.any_append, Bool.or_eq_false_iff] at hn
      exact hn.2
    rw [List.append_assoc]
    exact .block h1 (ih this h2 hz)

/-- Characters can be replaced after a token. -/
theorem grow {Q : Nat → Bool} {k : Nat} {e e' op : Bool} {w x y : Str} {v : TokenData}
    (h1 : Trivia e w (x ++ y) e') (h2 : NoTrivia e' (x ++ y)) (h3 : Lexeme op x y v) :
    Trivia e w (x ++ blankAt Q k y) e' ∧ NoTrivia e' (x ++ blankAt Q k y) ∧ Lexeme op x (blankAt Q k y) v := by
  by_cases hv : v = .eof
  · obtain rfl := h3.eof_iff.2 (h3.eof_iff.1.1 hv)
    exact ⟨h1, h2, h3⟩
  rcases blankAt_first Q k y with h | ⟨u, r, r', rfl, h⟩
  · rw [h]
    exact ⟨h1, h2, h3⟩
  rw [h]
  have hx : x ≠ [] := fun h => hv (h3.eof_iff.1.2 h)
  have hc : SepHead ' ' := .inl (by decide)
  refine ⟨h1.next ?_, ?_, h3.change hv hc (fun _ _ => by decide)⟩
  · cases x with
    | nil => exact absurd rfl hx
    | cons d x => rfl
  · rw [← List.append_assoc] at h2 ⊢
    exact h2.change (by simp [hx]) hc (fun _ => by decide)

theorem lexes_nil {vs : List (Bool × TokenData)} : ∀ {ops : List Bool} {z : Str},
    Lexes false ops [] vs z → ∀ p ∈ vs, p.2 = .eof := by
  induction vs with
  | nil => exact fun _ => nofun
  | cons v vs ih =>
    intro ops z h
    generalize hr : ([] : Str) = r at h
    cases h with
    | @cons _ _ _ _ w x y _ _ _ h1 h2 h3 h4 =>
      obtain ⟨rfl, hxy⟩ := List.append_eq_nil_iff.1 hr.symm
      obtain ⟨rfl, rfl⟩ := List.append_eq_nil_iff.1 hxy
      intro p hp
      rcases List.mem_cons.1 hp with rfl | hp
      · exact h3.eof_iff.1.2 rfl
      · exact ih h4 p hp

theorem semi_text : ∀ p ∈ punctuators, p.2 = .semi → p.1 = c!";" := by decide +kernel

theorem lexeme_semi {op : Bool} {x y : Str} {v : TokenData} (h : Lexeme op x y v) (hv : v = .semi) :
    x = c!";" := by
  have h1 := h.spelled
  rw [hv] at h1
  exact semi_text _ h1 rfl

/-! ### Positions -/

theorem starts {s : Str} {k k' : Nat} {e : Bool} {ops : List Bool} {ts : List Token}
    (h : Tokens s k e ops ts k') : ∀ t ∈ ts, k ≤ t.location.start.offset := by
  induction h with
  | nil => nofun
  | cons h1 _ ih =>
    obtain ⟨g1, g2, g3, _⟩ := h1.text
    intro t ht
    rcases List.mem_cons.1 ht with rfl | ht
    · exact g1
    · have := ih t ht
      omega

/-- A token that is not the end of the source has characters. -/
theorem start_lt {s : Str} {k k' : Nat} {e op : Bool} {t : Token} (h : TokenAt s k e op t k')
    (ht : t.value ≠ .eof) : t.location.start.offset < k' := by
  obtain ⟨w, x, y, e', a1, a2, a3, a4, a5, a6, a7, rfl⟩ := h
  have hx : x ≠ [] := fun h => ht (a4.eof_iff.1.2 h)
  have := List.length_pos_iff.2 hx
  have := a6.offset
  omega

/-- A token that is not the end of the source is the only one at its position. -/
theorem unique {s : Str} {k k' : Nat} {e : Bool} {ops : List Bool} {ts : List Token}
    (h : Tokens s k e ops ts k') : ∀ {u u' : Token} {r r' : List Token}, (u :: r) <:+ ts → (u' :: r') <:+ ts →
      u.value ≠ .eof → u.location.start.offset = u'.location.start.offset → u' :: r' = u :: r := by
  induction h with
  | nil => exact fun h => nomatch List.suffix_nil.1 h
  | @cons k k1 k2 e op ops t ts h1 h2 ih =>
    intro u u' r r' hs hs' hu hp
    rcases List.suffix_cons_iff.1 hs with he | hm
    · obtain ⟨rfl, rfl⟩ := List.cons.inj he
      rcases List.suffix_cons_iff.1 hs' with he | hs'
      · exact he
      · have g1 := start_lt h1 hu
        have g2 := starts h2 u' (hs'.subset (by simp))
        rw [hp] at g1
        omega
    · rcases List.suffix_cons_iff.1 hs' with he | hs'
      · obtain ⟨rfl, rfl⟩ := List.cons.inj he
        have hm := hm.subset (List.mem_cons_self (a := u))
        have hn : u'.value ≠ .eof := by
          intro ht
          have hl := Tokens.lexes h2
          obtain ⟨w, x, y, e', a1, a2, a3, a4, a5, a6, a7, rfl⟩ := h1
          have hx := a4.eof_iff.1.1 ht
          have hy := a4.eof_iff.2 hx
          subst hx hy
          have d : s.drop (k + w.length + ([] : Str).length) = [] := by
            rw [← List.drop_drop, ← List.drop_drop, a1, List.drop_left]
            rfl
          rw [d] at hl
          exact hu (lexes_nil hl (flags u) (List.mem_map_of_mem hm))
        have g1 := start_lt h1 hn
        have g2 := starts h2 u hm
        rw [hp] at g2
        omega
      · exact ih hm hs' hu hp

/-- The tokens at offsets in `Q` have different offsets. -/
theorem nodup {Q : Nat → Bool} {s : Str} {k k' : Nat} {e : Bool} {ops : List Bool} {ts : List Token}
    (h : Tokens s k e ops ts k') (hQ : ∀ t ∈ ts, Q t.location.start.offset = true → t.value ≠ .eof) :
    ((ts.filter fun t => Q t.location.start.offset).map fun t => t.location.start.offset).Nodup := by
  induction h with
  | nil => exact List.Pairwise.nil
  | @cons k k1 k2 e op ops t ts h1 h2 ih =>
    have ih := ih fun u hu => hQ u (by simp [hu])
    by_cases ht : Q t.location.start.offset = true
    · rw [List.filter_cons_of_pos (by exact ht), List.map_cons, List.nodup_cons]
      refine ⟨fun hm => ?_, ih⟩
      obtain ⟨u, hu, he⟩ := List.mem_map.1 hm
      have g1 := start_lt h1 (hQ t (by simp) ht)
      have g2 := starts h2 u (List.mem_filter.1 hu).1
      omega
    · rw [List.filter_cons_of_neg (by exact ht)]
      exact ih

/-- A token that is kept. -/
theorem lexes_keep {Q : Nat → Bool} {s : Str} {k k' : Nat} {e op : Bool} {t : Token}
    (h : TokenAt s k e op t k') (hQ : ∀ n, k ≤ n → Q n = true → n = t.location.start.offset ∨ k' ≤ n)
    (ht : Q t.location.start.offset = false) {ops' : List Bool} {vs : List (Bool × TokenData)} {z : Str}
    (hl : Lexes false ops' (blankAt Q k' (s.drop k')) vs z) :
    Lexes e (op :: ops') (blankAt Q k (s.drop k)) (flags t :: vs) z := by
  obtain ⟨w, x, y, e', a1, a2, a3, a4, a5, a6, a7, rfl⟩ := h
  have hd : s.drop (k + w.length + x.length) = y := by
    rw [← List.drop_drop, ← List.drop_drop, a1, List.drop_left, List.drop_left]
  have ho := a6.offset
  rw [hd] at hl
  have hw : blankAt Q k (w ++ (x ++ y)) = w ++ (x ++ blankAt Q (k + w.length + x.length) y) := by
    rw [blankAt_append, blankAt_append, blankAt_id k w, blankAt_id (k + w.length) x]
    · intro n h1 h2
      refine Bool.eq_false_iff.2 fun hn => ?_
      rcases hQ n (by omega) hn with h | h
      · rw [h, ht] at hn; cases hn
      · omega
    · intro n h1 h2
      refine Bool.eq_false_iff.2 fun hn => ?_
      rcases hQ n (by omega) hn with h | h
      · rw [h, ht] at hn; cases hn
      · omega
  rw [a1, hw, flags, a5]
  obtain ⟨g4, g5, g6⟩ := grow a2 a3 a4
  exact .cons g4 g5 g6 hl

/-- A semicolon that is replaced, and the token after it. -/
theorem lexes_drop {Q : Nat → Bool} {s : Str} {k k' : Nat} {op : Bool} {t : Token}
    (h : TokenAt s k false op t k') (hQ : ∀ n, k ≤ n → Q n = true → n = t.location.start.offset ∨ k' ≤ n)
    (ht : Q t.location.start.offset = true) (hv : t.value = .semi) (hn : t.newline = false)
    {ops' : List Bool} {v : Bool × TokenData} {vs : List (Bool × TokenData)} {z : Str}
    (hl : Lexes false ops' (blankAt Q k' (s.drop k')) (v :: vs) z) :
    Lexes false ops' (blankAt Q k (s.drop k)) (v :: vs) z := by
  obtain ⟨w, x, y, e', a1, a2, a3, a4, a5, a6, a7, rfl⟩ := h
  have hd : s.drop (k + w.length + x.length) = y := by
    rw [← List.drop_drop, ← List.drop_drop, a1, List.drop_left, List.drop_left]
  have ho := a6.offset
  obtain rfl := lexeme_semi a4 hv
  rw [hd] at hl
  have hw : blankAt Q k (w ++ (c!";" ++ y)) = w ++ ' ' :: blankAt Q (k + w.length + 1) y := by
    rw [blankAt_append, blankAt_id k w]
    · rw [ho] at ht
      show w ++ (if Q (k + w.length) = true then ' ' else ';') :: _ = _
      rw [if_pos ht]
      rfl
    · intro n h1 h2
      refine Bool.eq_false_iff.2 fun hn => ?_
      rcases hQ n (by omega) hn with h | h <;> omega
  rw [a1, hw]
  rw [hn] at a5
  generalize hy : blankAt Q (k + w.length + (c!";").length) y = y1 at hl
  cases hl with
  | @cons _ _ op _ w2 x2 y2 _ _ _ b1 b2 b3 b4 =>
    have hw2 : hasNewline w2 = hasNewline (w ++ ' ' :: w2) := by
      simp only [hasNewline, List.any_append, List.any_cons] at a5 ⊢
      rw [← a5]
      rfl
    rw [hw2]
    have := Lexes.cons (trivia_blank a2 a5.symm b1) b2 b3 b4
    simpa using this

/-- The text with spaces for semicolons. -/
theorem text_from {Q : Nat → Bool} {s : Str} {k k' : Nat} {e : Bool} {ops : List Bool} {ts : List Token}
    (h : Tokens s k e ops ts k')
    (h1 : ∀ n, k ≤ n → Q n = true → ∃ u ∈ ts, u.value ≠ .eof ∧ u.location.start.offset = n)
    (h2 : ∀ u r, (u :: r) <:+ ts → Q u.location.start.offset = true → u.value = .semi ∧ u.newline = false ∧
      ∃ b r', r = b :: r' ∧ Q b.location.start.offset = false)
    (h3 : ∀ u r, ts = u :: r → e = true → Q u.location.start.offset = false) :
    ∃ ops' z, Lexes e ops' (blankAt Q k (s.drop k))
      ((ts.filter fun t => !Q t.location.start.offset).map flags) z := by
  induction h with
  | nil => exact ⟨_, _, .nil⟩
  | @cons k k1 k2 e op ops t ts a1 a2 ih =>
    have hk : ∀ n, k ≤ n → Q n = true → n = t.location.start.offset ∨ k1 ≤ n := by
      intro n hn hq
      obtain ⟨u, hu, _, he⟩ := h1 n hn hq
      rcases List.mem_cons.1 hu with rfl | hu
      · exact .inl he.symm
      · exact .inr (he ▸ starts a2 u hu)
    have hk1 : k ≤ k1 := by
      obtain ⟨w, x, y, e', _, _, _, _, _, _, _, rfl⟩ := a1
      omega
    obtain ⟨ops', z, ih⟩ := ih (fun n hn hq => by
        obtain ⟨u, hu, hv, he⟩ := h1 n (by omega) hq
        rcases List.mem_cons.1 hu with rfl | hu
        · have := start_lt a1 hv
          omega
        · exact ⟨u, hu, hv, he⟩)
      (fun u r hs => h2 u r (hs.trans (List.suffix_cons _ _))) nofun
    cases ht : Q t.location.start.offset with
    | false =>
      rw [List.filter_cons_of_pos (by simp [ht]), List.map_cons]
      exact ⟨_, _, lexes_keep a1 hk ht ih⟩
    | true =>
      obtain ⟨g1, g2, b, r, rfl, g3⟩ := h2 t ts (List.suffix_refl _) ht
      rw [List.filter_cons_of_neg (by simp [ht])]
      have he : e = false := by
        cases e
        · rfl
        · rw [h3 t _ rfl rfl] at ht; cases ht
      subst he
      rw [List.filter_cons_of_pos (by simp [g3]), List.map_cons] at ih ⊢
      exact ⟨_, _, lexes_drop a1 hk ht g1 g2 ih⟩

/-! ### All semicolons at the offsets are left out -/

theorem closing_split {P P1 P2 : Posn → Bool} (h : ∀ p, (P p).toNat = (P1 p).toNat + (P2 p).toNat) {c : Cat}
    (x : Ast c) : x.closing P = x.closing P1 + x.closing P2 := by
  have hs : ∀ s : Semi, s.closing P = s.closing P1 + s.closing P2 := by
    intro s
    unfold Semi.closing
    split
    · exact h _
    · rfl
  have hl : ∀ ds : List Dir, (ds.map fun d => d.semi.closing P).sum =
      (ds.map fun d => d.semi.closing P1).sum + (ds.map fun d => d.semi.closing P2).sum := by
    intro ds
    induction ds with
    | nil => rfl
    | cons d ds ih =>
      rw [List.map_cons, List.map_cons, List.map_cons, List.sum_cons, List.sum_cons, List.sum_cons, ih, hs]
      omega
  induction x <;> simp only [Ast.closing, hl] <;> (try simp only [*]) <;> omega

theorem count_le {c : Cat} {x : Ast c} : {ns : List Nat} → {Q : Nat → Bool} → ns.Nodup →
    (∀ n ∈ ns, Q n = true ∧ x.endsAt n = true) → ns.length ≤ x.closing fun p => Q p.offset
  | [], _, _, _ => Nat.zero_le _
  | n :: ns, Q, hd, h => by
    obtain ⟨hd, hd'⟩ := List.nodup_cons.1 hd
    have ih := count_le (ns := ns) (Q := fun m => Q m && m != n) hd' fun m hm => by
      have := h m (by simp [hm])
      refine ⟨?_, this.2⟩
      have : m ≠ n := fun e => hd (e ▸ hm)
      simp [*]
    have hn := h n (by simp)
    have h1 : 0 < x.closing fun p => p.offset == n := of_decide_eq_true hn.2
    rw [closing_split (P1 := fun p => p.offset == n) (P2 := fun p => Q p.offset && p.offset != n)]
    · simp only [List.length_cons]
      omega
    · intro p
      show (Q p.offset).toNat = (p.offset == n).toNat + (Q p.offset && p.offset != n).toNat
      by_cases hp : p.offset = n
      · simp [hp, hn.1]
      · have : (p.offset == n) = false := by simp [hp]
        simp [this, bne]

theorem Cut.full {Q : Nat → Bool} {i j : List Token} (h : Cut (fun p => Q p.offset) i j) :
    i.length ≤ j.length + (i.filter fun t => Q t.location.start.offset).length ∧
    (j.length + (i.filter fun t => Q t.location.start.offset).length ≤ i.length →
      j = i.filter fun t => !Q t.location.start.offset) := by
  induction h with
  | nil => exact ⟨Nat.le_refl _, fun _ => rfl⟩
  | @cons t i j h ih =>
    cases ht : Q t.location.start.offset with
    | true =>
      simp only [List.filter_cons, ht, List.length_cons, if_true]
      exact ⟨by omega, fun h => by omega⟩
    | false =>
      simp only [List.filter_cons, ht, List.length_cons, Bool.not_false, if_true]
      exact ⟨by simp; omega, fun h => congrArg _ (ih.2 (by simp at h; omega))⟩
  | @drop u b i j h1 h2 h3 h4 h ih =>
    replace h4 : Q u.location.start.offset = true := h4
    cases hb : Q b.location.start.offset with
    | true =>
      simp only [List.filter_cons, h4, hb, List.length_cons, if_true]
      exact ⟨by omega, fun h => by omega⟩
    | false =>
      simp only [List.filter_cons, h4, hb, List.length_cons, Bool.not_false, Bool.not_true, if_true]
      exact ⟨by simp; omega, fun h => by simpa using ih.2 (by simp at h; omega)⟩

/-! ### The semicolons that can be left out -/

/-- `Q` are offsets of semicolons that can be left out. -/
structure Free (Q : Nat → Bool) (ts : List Token) : Prop where
  some : ∀ n, Q n = true → ∃ t b r, (t :: b :: r) <:+ ts ∧ t.value = .semi ∧ t.location.start.offset = n ∧
    t.newline = false ∧ Closes b.value
  jump : ∀ a u b r, (a :: u :: b :: r) <:+ ts → a.value ∈ jumps → u.value = .semi →
    Q u.location.start.offset = true → b.value = .rBrace

section Free

variable {Q : Nat → Bool} {s : Str} {k k' : Nat} {e : Bool} {ops : List Bool} {ts : List Token}

theorem Free.at (hQ : Free Q ts) (h : Tokens s k e ops ts k') {u : Token} {r : List Token}
    (hs : (u :: r) <:+ ts) (hu : Q u.location.start.offset = true) :
    u.value = .semi ∧ u.newline = false ∧ ∃ b r', r = b :: r' ∧ Closes b.value := by
  obtain ⟨t, b, r', h1, h2, h3, h4, h5⟩ := hQ.some _ hu
  have := unique h h1 hs (by rw [h2]; nofun) h3
  cases this
  exact ⟨h2, h4, b, r', rfl, h5⟩

theorem Free.fits (hQ : Free Q ts) (h : Tokens s k e ops ts k') : Fits (fun p => Q p.offset) ts :=
  ⟨fun u b r hs _ hP => by
    obtain ⟨_, h2, _, _, he, h3⟩ := hQ.at h hs hP
    cases he
    exact ⟨h2, h3⟩, hQ.jump⟩

/-- The tokens and the text without the semicolons. -/
theorem Free.text (hQ : Free Q ts) (h : Tokens s 0 true ops ts k') {c : Cat} {x : Ast c}
    (hx : ∀ n, Q n = true → x.endsAt n = true) {ts1 : List Token} (h1 : Same (fun p => Q p.offset) ts ts1)
    (h2 : ts.length = ts1.length + x.closing fun p => Q p.offset) :
    ∃ ops' ts' k', Tokens (blankAt Q 0 s) 0 true ops' ts' k' ∧ ts'.map flags = ts1.map flags := by
  have g1 : ∀ t ∈ ts, Q t.location.start.offset = true → t.value ≠ .eof := by
    intro t ht hq
    obtain ⟨a, b, rfl⟩ := List.append_of_mem ht
    rw [(hQ.at h (List.suffix_append _ _) hq).1]
    nofun
  have g2 := count_le (x := x) (nodup h g1) (Q := Q) fun n hn => by
    obtain ⟨t, ht, rfl⟩ := List.mem_map.1 hn
    have := (List.mem_filter.1 ht).2
    exact ⟨this, hx _ this⟩
  rw [List.length_map] at g2
  have g3 := h1.ins.full.2 (by omega)
  obtain ⟨ops', z, g4⟩ := text_from (Q := Q) h
    (fun n _ hq => by
      obtain ⟨t, b, r, a1, a2, a3, _⟩ := hQ.some n hq
      exact ⟨t, a1.subset (by simp), by rw [a2]; nofun, a3⟩)
    (fun u r hs hq => by
      obtain ⟨a1, a2, b, r', rfl, a3⟩ := hQ.at h hs hq
      refine ⟨a1, a2, b, r', rfl, Bool.eq_false_iff.2 fun hb => ?_⟩
      have := (hQ.at h ((List.suffix_cons _ _).trans hs) hb).1
      rw [this] at a3
      rcases a3 with a3 | a3 <;> cases a3)
    (fun u r hu _ => by
      obtain ⟨t, i, j, e1, e2, _⟩ := h1
      rw [hu] at e1
      cases e1
      rw [e2] at g3
      have : u ∈ ts.filter fun t => !Q t.location.start.offset := g3 ▸ List.mem_cons_self
      simpa using (List.mem_filter.1 this).2)
  rw [List.drop_zero] at g4
  obtain ⟨ts', k', g8, g9, _⟩ := g4.tokens (s := blankAt Q 0 s) (k := 0) (Nat.zero_le _) rfl
  refine ⟨_, ts', k', g8, ?_⟩
  rw [g3, ← g9]

theorem beforeBrace_iff {n : Nat} : {ts : List Token} → beforeBrace ts n = true → ∃ t b r,
    (t :: b :: r) <:+ ts ∧ t.value = .semi ∧ t.location.start.offset = n ∧ t.newline = false ∧ b.value = .rBrace
  | [], h | [_], h => nomatch h
  | t :: b :: ts, h => by
    rw [beforeBrace, Bool.or_eq_true, decide_eq_true_eq] at h
    rcases h with h | h
    · exact ⟨t, b, ts, List.suffix_refl _, h⟩
    · obtain ⟨t', b', r, h1, h2⟩ := beforeBrace_iff h
      exact ⟨t', b', r, h1.trans (List.suffix_cons _ _), h2⟩

theorem beforeEnd_iff {n : Nat} : {ts : List Token} → beforeEnd ts n = true → ∃ a t b r,
    (a :: t :: b :: r) <:+ ts ∧ a.value ∉ jumps ∧ t.value = .semi ∧ t.location.start.offset = n ∧
      t.newline = false ∧ b.value = .eof
  | [], h | [_], h | [_, _], h => nomatch h
  | a :: t :: b :: ts, h => by
    rw [beforeEnd, Bool.or_eq_true, decide_eq_true_eq] at h
    rcases h with h | h
    · exact ⟨a, t, b, ts, List.suffix_refl _, h⟩
    · obtain ⟨a', t', b', r, h1, h2⟩ := beforeEnd_iff h
      exact ⟨a', t', b', r, h1.trans (List.suffix_cons _ _), h2⟩

theorem free (h : Tokens s k e ops ts k') (hQ : ∀ n, Q n = true → beforeBrace ts n = true) : Free Q ts := by
  constructor
  · intro n hn
    obtain ⟨t, b, r, h1, h2, h3, h4, h5⟩ := beforeBrace_iff (hQ n hn)
    exact ⟨t, b, r, h1, h2, h3, h4, .inl h5⟩
  · intro a u b r hs _ hu hq
    obtain ⟨t, b', r', h1, h2, h3, h4, h5⟩ := beforeBrace_iff (hQ _ hq)
    have := unique h h1 ((List.suffix_cons _ _).trans hs) (by rw [h2]; nofun) h3
    cases this
    exact h5

theorem free_end (h : Tokens s k e ops ts k') (hQ : ∀ n, Q n = true → beforeEnd ts n = true) : Free Q ts := by
  constructor
  · intro n hn
    obtain ⟨a, t, b, r, h1, _, h2, h3, h4, h5⟩ := beforeEnd_iff (hQ n hn)
    exact ⟨t, b, r, (List.suffix_cons _ _).trans h1, h2, h3, h4, .inr h5⟩
  · intro a u b r hs ha hu hq
    obtain ⟨a', t, b', r', h1, h2, h3, h4, h5, h6⟩ := beforeEnd_iff (hQ _ hq)
    have := unique h ((List.suffix_cons _ _).trans h1) ((List.suffix_cons _ _).trans hs) (by rw [h3]; nofun) h4
    cases this
    have := (List.suffix_of_suffix_length_le hs h1 (by simp)).eq_of_length (by simp)
    cases this
    exact absurd ha h2

end Free

end Text

end Closing

end Esprit
