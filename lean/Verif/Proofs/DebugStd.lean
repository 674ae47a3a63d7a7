import Verif.Spec.Debug
import Verif.Proofs.Text
import Verif.Proofs.AstSame

/-! The texts of characters and strings can be told from what follows them. -/

namespace Esprit

private theorem brace_split {n n' r r' : Str} (h : '}' ∉ n) (h' : '}' ∉ n')
    (he : n ++ '}' :: r = n' ++ '}' :: r') : n = n' ∧ r = r' := by
  induction n generalizing n' with
  | nil =>
    cases n' with
    | nil => simpa using he
    | cons c t => simp at he; exact absurd (he.1 ▸ List.mem_cons_self) h'
  | cons c t ih =>
    cases n' with
    | nil => simp at he; exact absurd (he.1 ▸ List.mem_cons_self) h
    | cons c' t' =>
      simp only [List.cons_append, List.cons.injEq] at he
      simp only [List.mem_cons, not_or] at h h'
      obtain ⟨rfl, rfl⟩ := ih h.2 h'.2 he.2
      exact ⟨by rw [he.1], rfl⟩

private theorem hex_brace (n : Nat) : '}' ∉ Nat.toDigits 16 n := by
  have digit : ∀ d : Fin 16, '}' ≠ d.val.digitChar := by decide
  induction n using Nat.strongRecOn with
  | ind n ih =>
    rcases Nat.lt_or_ge n 16 with h | h
    · rw [Nat.toDigits_of_lt_base h, List.mem_singleton]
      exact digit ⟨n, h⟩
    · rw [Nat.toDigits_of_base_le (by omega) h, List.mem_append, List.mem_singleton, not_or]
      exact ⟨ih (n / 16) (by omega), digit ⟨n % 16, Nat.mod_lt _ (by omega)⟩⟩

private theorem toNat_injective {c d : Char} (h : c.toNat = d.toNat) : c = d := by
  have := congrArg Char.ofNat h
  rwa [Char.ofNat_toNat, Char.ofNat_toNat] at this

theorem escape_code (printable : Char → Bool) {c d : Char} {r s : Str}
    (h : escapeDebug printable c ++ r = escapeDebug printable d ++ s) : c = d ∧ r = s := by
  have hex (h : c!"\\u{" ++ Nat.toDigits 16 c.toNat ++ c!"}" ++ r =
      c!"\\u{" ++ Nat.toDigits 16 d.toNat ++ c!"}" ++ s) : c = d ∧ r = s := by
    simp only [List.append_assoc, List.cons_append, List.nil_append, List.cons.injEq, true_and] at h
    obtain ⟨h1, h2⟩ := brace_split (hex_brace _) (hex_brace _) h
    have := congrArg hexNum h1
    rw [hexNum_toDigits, hexNum_toDigits] at this
    exact ⟨toNat_injective this, h2⟩
  unfold escapeDebug at h
  split at h <;> rename_i hc1
  · subst hc1
    split at h <;> rename_i hd1
    · subst hd1; simpa using h
    split at h <;> rename_i hd2
    · simp at h
    split at h <;> rename_i hd3
    · simp at h
    split at h <;> rename_i hd4
    · rcases hd4 with rfl | rfl | rfl <;> simp at h
    split at h
    · simp only [List.cons_append, List.nil_append, List.cons.injEq] at h
      exact absurd (.inl h.1.symm) hd4
    · simp at h
  split at h <;> rename_i hc2
  · subst hc2
    split at h <;> rename_i hd1
    · simp at h
    split at h <;> rename_i hd2
    · subst hd2; simpa using h
    split at h <;> rename_i hd3
    · simp at h
    split at h <;> rename_i hd4
    · rcases hd4 with rfl | rfl | rfl <;> simp at h
    split at h
    · simp only [List.cons_append, List.nil_append, List.cons.injEq] at h
      exact absurd (.inl h.1.symm) hd4
    · simp at h
  split at h <;> rename_i hc3
  · subst hc3
    split at h <;> rename_i hd1
    · simp at h
    split at h <;> rename_i hd2
    · simp at h
    split at h <;> rename_i hd3
    · subst hd3; simpa using h
    split at h <;> rename_i hd4
    · rcases hd4 with rfl | rfl | rfl <;> simp at h
    split at h
    · simp only [List.cons_append, List.nil_append, List.cons.injEq] at h
      exact absurd (.inl h.1.symm) hd4
    · simp at h
  split at h <;> rename_i hc4
  · split at h <;> rename_i hd1
    · rcases hc4 with rfl | rfl | rfl <;> simp at h
    split at h <;> rename_i hd2
    · rcases hc4 with rfl | rfl | rfl <;> simp at h
    split at h <;> rename_i hd3
    · rcases hc4 with rfl | rfl | rfl <;> simp at h
    split at h <;> rename_i hd4
    · simpa using h
    split at h
    · simp only [List.cons_append, List.nil_append, List.cons.injEq] at h
      exact absurd (.inl h.1.symm) hd4
    · rcases hc4 with rfl | rfl | rfl <;> simp at h
  have bs : c ≠ '\\' := fun h => hc4 (.inl h)
  split at h <;> rename_i hc5
  · split at h
    · simp only [List.cons_append, List.nil_append, List.cons.injEq] at h
      exact absurd h.1 bs
    split at h
    · simp only [List.cons_append, List.nil_append, List.cons.injEq] at h
      exact absurd h.1 bs
    split at h
    · simp only [List.cons_append, List.nil_append, List.cons.injEq] at h
      exact absurd h.1 bs
    split at h
    · simp only [List.cons_append, List.nil_append, List.cons.injEq] at h
      exact absurd h.1 bs
    split at h
    · simpa using h
    · simp only [List.cons_append, List.nil_append, List.cons.injEq] at h
      exact absurd h.1 bs
  · split at h
    · simp at h
    split at h
    · simp at h
    split at h
    · simp at h
    split at h <;> rename_i hd4
    · rcases hd4 with rfl | rfl | rfl <;> simp at h
    split at h
    · simp only [List.cons_append, List.nil_append, List.cons.injEq] at h
      exact absurd (.inl h.1.symm) hd4
    · exact hex h

/-- An escape does not begin with a double quote. -/
theorem escape_head (printable : Char → Bool) (c : Char) :
    ∃ a t, escapeDebug printable c = a :: t ∧ a ≠ '"' := by
  unfold escapeDebug
  repeat' split
  all_goals first
    | exact ⟨_, _, rfl, by decide⟩
    | (rename_i h _; exact ⟨_, _, rfl, fun h' => h (.inr (.inr h'))⟩)

theorem debugChar_code (printable : Char → Bool) {c d : Char} {r s : Str}
    (h : debugChar printable c ++ r = debugChar printable d ++ s) : c = d ∧ r = s := by
  simp only [debugChar, List.cons_append, List.append_assoc, List.cons.injEq, true_and] at h
  obtain ⟨h1, h2⟩ := escape_code printable h
  exact ⟨h1, by simpa using h2⟩

theorem debugStr_code (printable : Char → Bool) {x y r s : Str}
    (h : debugStr printable x ++ r = debugStr printable y ++ s) : x = y ∧ r = s := by
  simp only [debugStr, List.cons_append, List.append_assoc, List.cons.injEq, true_and,
    List.nil_append] at h
  induction x generalizing y with
  | nil =>
    cases y with
    | nil => simpa using h
    | cons d y =>
      obtain ⟨a, t, ha, hne⟩ := escape_head printable d
      rw [List.flatMap_cons, ha] at h
      simp only [List.flatMap_nil, List.nil_append, List.cons_append, List.cons.injEq] at h
      exact absurd h.1.symm hne
  | cons c x ih =>
    cases y with
    | nil =>
      obtain ⟨a, t, ha, hne⟩ := escape_head printable c
      rw [List.flatMap_cons, ha] at h
      simp only [List.flatMap_nil, List.nil_append, List.cons_append, List.cons.injEq] at h
      exact absurd h.1 hne
    | cons d y =>
      rw [List.flatMap_cons, List.flatMap_cons, List.append_assoc, List.append_assoc] at h
      obtain ⟨rfl, h'⟩ := escape_code printable h
      obtain ⟨rfl, hr⟩ := ih h'
      exact ⟨rfl, hr⟩

/-! ### Numbers: an example of texts -/

/-- A text for numbers: the fraction. -/
def fractionText : F64 → Str
  | .nan => c!"NaN"
  | .inf neg => if neg then c!"-inf" else c!"inf"
  | .num neg m =>
    let q : Rat := if neg then -m else m
    (if q.num < 0 then c!"-" else []) ++ Nat.toDigits 10 q.num.natAbs ++ c!"/" ++ Nat.toDigits 10 q.den

private def ratText (q : Rat) : Str :=
  (if q.num < 0 then c!"-" else []) ++ Nat.toDigits 10 q.num.natAbs ++ c!"/" ++ Nat.toDigits 10 q.den

private theorem fractionText_num {x : F64} {q : Rat} (h : x.toRat? = some q) : fractionText x = ratText q := by
  cases x <;> cases h
  rfl

private theorem digits_cons (n : Nat) : ∃ a t, Nat.toDigits 10 n = a :: t ∧ a.isDigit = true := by
  cases h : Nat.toDigits 10 n with
  | nil => exact absurd h Nat.toDigits_ne_nil
  | cons a t => exact ⟨a, t, rfl, decimal_digit (n := n) (by rw [h]; exact List.mem_cons_self)⟩

private theorem ratText_injective {p q : Rat} (h : ratText p = ratText q) : p = q := by
  have hs : (p.num < 0) ↔ (q.num < 0) := by
    obtain ⟨a, t, ha, hda⟩ := digits_cons p.num.natAbs
    obtain ⟨b, u, hb, hdb⟩ := digits_cons q.num.natAbs
    unfold ratText at h
    rw [ha, hb] at h
    constructor
    · intro hp
      apply Classical.byContradiction
      intro hq
      rw [if_pos hp, if_neg hq] at h
      simp only [List.cons_append, List.nil_append, List.cons.injEq] at h
      rw [← h.1] at hdb
      exact absurd hdb (by decide)
    · intro hq
      apply Classical.byContradiction
      intro hp
      rw [if_neg hp, if_pos hq] at h
      simp only [List.cons_append, List.nil_append, List.cons.injEq] at h
      rw [h.1] at hda
      exact absurd hda (by decide)
  have key : Nat.toDigits 10 p.num.natAbs ++ '/' :: Nat.toDigits 10 p.den =
      Nat.toDigits 10 q.num.natAbs ++ '/' :: Nat.toDigits 10 q.den := by
    unfold ratText at h
    by_cases hp : p.num < 0
    · rw [if_pos hp, if_pos (hs.1 hp)] at h
      simpa using h
    · rw [if_neg hp, if_neg (fun hq => hp (hs.2 hq))] at h
      simpa using h
  obtain ⟨h1, h2⟩ := digits_append (fun _ => decimal_digit) (fun _ => decimal_digit) (by decide)
    (by decide) key
  have h1 := decimal_injective h1
  have h2 := decimal_injective h2
  refine Rat.ext ?_ h2
  omega

private theorem digit_delimiter {c : Char} (h : c.isDigit = true) : ¬Delimiter c := by
  intro hd
  simp only [Delimiter, List.mem_cons, List.not_mem_nil, or_false] at hd
  rcases hd with (rfl | rfl | rfl | rfl | rfl | rfl | rfl | rfl | rfl | rfl) <;> exact absurd h (by decide)

private theorem ratText_chars (q : Rat) : ∀ c ∈ ratText q, ¬Delimiter c := by
  intro c hc
  simp only [ratText, List.mem_append, List.mem_cons, List.not_mem_nil, or_false] at hc
  rcases hc with ((hc | hc) | rfl) | hc
  · split at hc
    · rw [List.mem_singleton] at hc; subst hc; decide
    · cases hc
  · exact digit_delimiter (decimal_digit hc)
  · decide
  · exact digit_delimiter (decimal_digit hc)

private theorem ratText_slash (q : Rat) : '/' ∈ ratText q := by simp [ratText]

theorem fraction_ne (x : F64) : fractionText x ≠ [] := by
  cases x with
  | nan => decide
  | inf neg => cases neg <;> decide
  | num neg m =>
    rw [fractionText_num (q := if neg then -m else m) rfl]
    intro h
    have := ratText_slash (if neg then -m else m)
    rw [h] at this
    cases this

theorem fraction_chars (x : F64) : ∀ c ∈ fractionText x, ¬Delimiter c := by
  cases x with
  | nan => decide
  | inf neg => cases neg <;> decide
  | num neg m =>
    rw [fractionText_num (q := if neg then -m else m) rfl]
    exact ratText_chars _

theorem fraction_differ {x y : F64} (h : fractionText x = fractionText y) (hx : x ≠ .nan) :
    SameNumber x y := by
  have hnum {neg : Bool} {m : Rat} : '/' ∈ fractionText (.num neg m) := by
    rw [fractionText_num (q := if neg then -m else m) rfl]; exact ratText_slash _
  have hinf {neg : Bool} : '/' ∉ fractionText (.inf neg) := by cases neg <;> decide
  have hnan : '/' ∉ fractionText .nan := by decide
  cases x with
  | nan => exact absurd rfl hx
  | inf a =>
    cases y with
    | nan => cases a <;> exact absurd h (by decide)
    | inf b => cases a <;> cases b <;> first | exact .inf | exact absurd h (by decide)
    | num => exact absurd (h ▸ hnum) hinf
  | num a m =>
    cases y with
    | nan => exact absurd (h ▸ hnum) hnan
    | inf b => exact absurd (h ▸ hnum) hinf
    | num b k =>
      refine .num (q := if a then -m else m) rfl ?_
      rw [fractionText_num (q := if a then -m else m) rfl,
        fractionText_num (q := if b then -k else k) rfl] at h
      rw [ratText_injective h]
      rfl

theorem fraction_equal {x y : F64} (h : SameNumber x y) : fractionText x = fractionText y := by
  cases h with
  | inf => rfl
  | num h1 h2 => rw [fractionText_num h1, fractionText_num h2]

/-- Rust's texts for characters and strings, with lawful texts for numbers. -/
@[instance_reducible]
def rustStd (printable : Char → Bool) (num : F64 → Str) (num_ne : ∀ x, num x ≠ [])
    (num_chars : ∀ x, ∀ c ∈ num x, ¬Delimiter c)
    (num_differ : ∀ {x y : F64}, num x = num y → x ≠ .nan → SameNumber x y)
    (num_equal : ∀ {x y : F64}, SameNumber x y → x.toRat? ≠ some 0 → num x = num y) :
    LawfulDebugStd where
  char := debugChar printable
  str := debugStr printable
  num := num
  char_head _ := rfl
  char_code := debugChar_code printable
  str_head _ := rfl
  str_code := debugStr_code printable
  num_ne := num_ne
  num_chars := num_chars
  num_differ := num_differ
  num_equal := num_equal

/-- Rust's texts for characters and strings, with fractions for numbers. -/
@[instance_reducible]
def fractionStd (printable : Char → Bool) : LawfulDebugStd :=
  rustStd printable fractionText fraction_ne fraction_chars fraction_differ
    fun h _ => fraction_equal h

end Esprit
