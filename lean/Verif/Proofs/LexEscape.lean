import Verif.Proofs.LexTrivia

/-! Digits and unicode escapes. -/

namespace Esprit

open Lex

/-! ### Digits -/

theorem isEsBinDigit_iff (c : Char) : isEsBinDigit c = true ↔ c ∈ binDigits := by
  simp [isEsBinDigit, binDigits]

theorem isEsOctDigit_iff (c : Char) : isEsOctDigit c = true ↔ c ∈ octDigits := by
  constructor
  · intro h
    simp only [isEsOctDigit, Bool.and_eq_true, decide_eq_true_eq, Char.le_iff] at h
    have h1 : 48 ≤ c.toNat := h.1
    have h2 : c.toNat ≤ 55 := h.2
    have : c.toNat = 48 ∨ c.toNat = 49 ∨ c.toNat = 50 ∨ c.toNat = 51 ∨ c.toNat = 52 ∨
      c.toNat = 53 ∨ c.toNat = 54 ∨ c.toNat = 55 := by omega
    rcases this with h | h | h | h | h | h | h | h
    · rw [Char.eq_of_toNat (d := '0') h]; decide
    · rw [Char.eq_of_toNat (d := '1') h]; decide
    · rw [Char.eq_of_toNat (d := '2') h]; decide
    · rw [Char.eq_of_toNat (d := '3') h]; decide
    · rw [Char.eq_of_toNat (d := '4') h]; decide
    · rw [Char.eq_of_toNat (d := '5') h]; decide
    · rw [Char.eq_of_toNat (d := '6') h]; decide
    · rw [Char.eq_of_toNat (d := '7') h]; decide
  · intro h
    simp only [octDigits, List.mem_cons, List.not_mem_nil, or_false] at h
    rcases h with rfl | rfl | rfl | rfl | rfl | rfl | rfl | rfl <;> decide

theorem isEsDecDigit_iff (c : Char) : isEsDecDigit c = true ↔ c ∈ decDigits := by
  constructor
  · intro h
    simp only [isEsDecDigit, Bool.and_eq_true, decide_eq_true_eq, Char.le_iff] at h
    have h1 : 48 ≤ c.toNat := h.1
    have h2 : c.toNat ≤ 57 := h.2
    have : (48 ≤ c.toNat ∧ c.toNat ≤ 55) ∨ c.toNat = 56 ∨ c.toNat = 57 := by omega
    rcases this with h | h | h
    · have : isEsOctDigit c = true := by
        simp only [isEsOctDigit, Bool.and_eq_true, decide_eq_true_eq, Char.le_iff]
        exact h
      have := (isEsOctDigit_iff c).1 this
      simp only [octDigits, List.mem_cons, List.not_mem_nil, or_false] at this
      rcases this with rfl | rfl | rfl | rfl | rfl | rfl | rfl | rfl <;> decide
    · rw [Char.eq_of_toNat (d := '8') h]; decide
    · rw [Char.eq_of_toNat (d := '9') h]; decide
  · intro h
    simp only [decDigits, List.mem_cons, List.not_mem_nil, or_false] at h
    rcases h with rfl | rfl | rfl | rfl | rfl | rfl | rfl | rfl | rfl | rfl <;> decide

theorem isEsHexDigit_iff (c : Char) : isEsHexDigit c = true ↔ c ∈ hexDigits := by
  constructor
  · intro h
    simp only [isEsHexDigit, Bool.or_eq_true, Bool.and_eq_true, decide_eq_true_eq,
      Char.le_iff] at h
    rcases h with (h | h) | h
    · have : isEsDecDigit c = true := by
        simp only [isEsDecDigit, Bool.and_eq_true, decide_eq_true_eq, Char.le_iff]
        exact h
      have := (isEsDecDigit_iff c).1 this
      simp only [decDigits, List.mem_cons, List.not_mem_nil, or_false] at this
      rcases this with rfl | rfl | rfl | rfl | rfl | rfl | rfl | rfl | rfl | rfl <;> decide
    · have h1 : 97 ≤ c.toNat := h.1
      have h2 : c.toNat ≤ 102 := h.2
      have : c.toNat = 97 ∨ c.toNat = 98 ∨ c.toNat = 99 ∨ c.toNat = 100 ∨ c.toNat = 101 ∨
        c.toNat = 102 := by omega
      rcases this with h | h | h | h | h | h
      · rw [Char.eq_of_toNat (d := 'a') h]; decide
      · rw [Char.eq_of_toNat (d := 'b') h]; decide
      · rw [Char.eq_of_toNat (d := 'c') h]; decide
      · rw [Char.eq_of_toNat (d := 'd') h]; decide
      · rw [Char.eq_of_toNat (d := 'e') h]; decide
      · rw [Char.eq_of_toNat (d := 'f') h]; decide
    · have h1 : 65 ≤ c.toNat := h.1
      have h2 : c.toNat ≤ 70 := h.2
      have : c.toNat = 65 ∨ c.toNat = 66 ∨ c.toNat = 67 ∨ c.toNat = 68 ∨ c.toNat = 69 ∨
        c.toNat = 70 := by omega
      rcases this with h | h | h | h | h | h
      · rw [Char.eq_of_toNat (d := 'A') h]; decide
      · rw [Char.eq_of_toNat (d := 'B') h]; decide
      · rw [Char.eq_of_toNat (d := 'C') h]; decide
      · rw [Char.eq_of_toNat (d := 'D') h]; decide
      · rw [Char.eq_of_toNat (d := 'E') h]; decide
      · rw [Char.eq_of_toNat (d := 'F') h]; decide
  · intro h
    simp only [hexDigits, List.mem_cons, List.not_mem_nil, or_false] at h
    rcases h with rfl | rfl | rfl | rfl | rfl | rfl | rfl | rfl | rfl | rfl | rfl | rfl | rfl |
      rfl | rfl | rfl | rfl | rfl | rfl | rfl | rfl | rfl <;> decide

theorem hex_all {p : Char → Prop} (h : ∀ c ∈ hexDigits, p c) {c : Char} (hc : c ∈ hexDigits) :
    p c := h c hc

theorem toDigit_hex {c : Char} (hc : c ∈ hexDigits) :
    toDigit c 16 = some (digitVal c) ∧ digitVal c < 16 := by
  revert hc; revert c; decide +kernel

theorem toDigit_dec {c : Char} (hc : c ∈ decDigits) :
    toDigit c 10 = some (digitVal c) ∧ digitVal c < 10 := by
  revert hc; revert c; decide +kernel

theorem toDigit_oct {c : Char} (hc : c ∈ octDigits) :
    toDigit c 8 = some (digitVal c) ∧ digitVal c < 8 := by
  revert hc; revert c; decide +kernel

theorem toDigit_bin {c : Char} (hc : c ∈ binDigits) :
    toDigit c 2 = some (digitVal c) ∧ digitVal c < 2 := by
  revert hc; revert c; decide +kernel

theorem oct_sub_dec {c : Char} (hc : c ∈ octDigits) : c ∈ decDigits := by
  revert hc; revert c; decide +kernel

theorem bin_sub_dec {c : Char} (hc : c ∈ binDigits) : c ∈ decDigits := by
  revert hc; revert c; decide +kernel

theorem dec_sub_hex {c : Char} (hc : c ∈ decDigits) : c ∈ hexDigits := by
  revert hc; revert c; decide +kernel

theorem numeral_append (b : Nat) (s : Str) (d : Char) :
    numeral b (s ++ [d]) = numeral b s * b + digitVal d := by simp [numeral]

theorem numeral_from (b : Nat) (s : Str) (a : Nat) :
    s.foldl (fun n d => n * b + digitVal d) a = a * b ^ s.length + numeral b s := by
  induction s generalizing a with
  | nil => simp [numeral]
  | cons c s ih =>
    simp only [numeral, List.foldl_cons, List.length_cons]
    rw [ih, ih (0 * b + digitVal c), Nat.zero_mul, Nat.zero_add, Nat.add_mul, Nat.mul_assoc,
      ← Nat.pow_succ', Nat.add_assoc]

theorem numeral_cons (b : Nat) (d : Char) (s : Str) :
    numeral b (d :: s) = digitVal d * b ^ s.length + numeral b s := by
  have := numeral_from b s (0 * b + digitVal d)
  rw [Nat.zero_mul, Nat.zero_add] at this
  rw [← this]
  simp [numeral]

/-! ### `read_until_with` -/

namespace L

/-- Soundness of the loop of `read_until_with`. -/
theorem untilLoop_spec {α : Type} {pred : Char → Bool} {body : L (List α)}
    (R : Str → Reader → List α → Prop) (P : Reader → Panic → Prop)
    (hnil : ∀ r, (∀ c, r.rest.head? = some c → pred c = true) → R [] r [])
    (hstep : ∀ r c, r.peek 0 = some c → pred c = false →
      Spec body r (fun a r1 => ∃ x, x ≠ [] ∧ Adv r x r1 ∧
        (∀ x2 r2 as, Adv r1 x2 r2 → R x2 r2 as → R (x ++ x2) r2 (a ++ as)) ∧
        ∀ p, P r1 p → P r p) (P r)) :
    ∀ (n : Nat) (r : Reader), r.rest.length < n → Spec (untilLoop pred body n) r
      (fun as r' => ∃ x, Adv r x r' ∧ R x r' as ∧ ∀ c, r'.rest.head? = some c → pred c = true)
      (P r)
  | 0, _, h => absurd h (by omega)
  | n + 1, r, hn => by
    unfold untilLoop
    refine Spec.peek ?_
    rcases r with ⟨_ | ⟨c, cs⟩, q⟩
    · refine Spec.pure ⟨[], Adv.refl _, hnil _ (by simp), by simp⟩
    · simp only [peek_cons]
      refine Spec.ite (fun hp => ?_) (fun hp => ?_)
      · have : ∀ d, (c :: cs).head? = some d → pred d = true := by
          intro d hd
          simp only [List.head?_cons, Option.some.injEq] at hd
          exact hd ▸ hp
        exact Spec.pure ⟨[], Adv.refl _, hnil _ this, this⟩
      · refine Spec.seq (hstep _ c rfl (by simpa using hp)) (fun _ h => h) ?_
        rintro a r1 ⟨x, hne, hadv, hR, hP⟩
        have hl := hadv.length
        have : 0 < x.length := List.length_pos_iff.2 hne
        refine Spec.seq (untilLoop_spec R P hnil hstep n r1 (by simp only at hl hn; omega)) hP ?_
        rintro as r2 ⟨x2, h1, h2, h3⟩
        exact Spec.pure ⟨x ++ x2, hadv.trans h1, hR x2 r2 as h1 h2, h3⟩

theorem readUntilWith_spec {α : Type} {pred : Char → Bool} {body : L (List α)}
    (R : Str → Reader → List α → Prop) (P : Reader → Panic → Prop)
    (hnil : ∀ r, (∀ c, r.rest.head? = some c → pred c = true) → R [] r [])
    (hstep : ∀ r c, r.peek 0 = some c → pred c = false →
      Spec body r (fun a r1 => ∃ x, x ≠ [] ∧ Adv r x r1 ∧
        (∀ x2 r2 as, Adv r1 x2 r2 → R x2 r2 as → R (x ++ x2) r2 (a ++ as)) ∧
        ∀ p, P r1 p → P r p) (P r)) (r : Reader) :
    Spec (readUntilWith pred body) r
      (fun as r' => ∃ x, Adv r x r' ∧ R x r' as ∧ ∀ c, r'.rest.head? = some c → pred c = true)
      (P r) :=
  untilLoop_spec R P hnil hstep (r.rest.length + 1) r (Nat.lt_succ_self _)

theorem untilLoop_stop {α : Type} {pred : Char → Bool} {body : L (List α)} {n : Nat} {y : Str}
    {p : Posn} (h : ∀ c, y.head? = some c → pred c = true) :
    untilLoop pred body (n + 1) ⟨y, p⟩ = .ok ([], ⟨y, p⟩) := by
  unfold untilLoop
  rw [peek_bind]
  cases y with
  | nil => rfl
  | cons c y => simp [h c rfl, pure_apply]

theorem untilLoop_step {α : Type} {pred : Char → Bool} {body : L (List α)} {n : Nat} {c : Char}
    {s : Str} {p : Posn} (h : pred c = false) :
    untilLoop pred body (n + 1) ⟨c :: s, p⟩ =
      (body ⟨c :: s, p⟩).bind fun a => (untilLoop pred body n a.2).bind fun b =>
        .ok (a.1 ++ b.1, b.2) := by
  conv => lhs; unfold untilLoop
  rw [peek_bind]
  simp only [peek_cons, h, Bool.false_eq_true, if_false]
  rfl

/-! ### Single digits -/

theorem readDigitInto_eval {radix : Nat} {pred : Char → Bool} {missing : LexError} {c : Char}
    {s : Str} {p : Posn} {d : Nat} (hp : pred c = true) (hd : toDigit c radix = some d) :
    readDigitInto radix pred missing ⟨c :: s, p⟩ = .ok ((c, d), ⟨s, p.step c s⟩) := by
  unfold readDigitInto
  rw [peek_bind]
  simp only [peek_cons, hp, if_true, bind_apply, reread_cons, Res.bind, hd]
  rfl

/-- A digit is read or an error is reported. -/
theorem readDigitInto_spec {radix : Nat} {pred : Char → Bool} {missing : LexError} {r : Reader}
    {P : Panic → Prop} (h : ∀ c, pred c = true → (toDigit c radix).isSome = true) :
    Spec (readDigitInto radix pred missing) r
      (fun v r' => Adv r [v.1] r' ∧ pred v.1 = true ∧ toDigit v.1 radix = some v.2) P := by
  rcases r with ⟨_ | ⟨c, cs⟩, p⟩
  · exact trivial
  · by_cases hp : pred c = true
    · obtain ⟨d, hd⟩ := Option.isSome_iff_exists.1 (h c hp)
      unfold Spec
      rw [readDigitInto_eval hp hd]
      exact ⟨Adv.one c cs p, hp, hd⟩
    · unfold readDigitInto
      refine Spec.peek ?_
      simp only [peek_cons]
      refine Spec.ite (fun h => absurd h hp) (fun _ => Spec.throw)

theorem readHexDigitInto_eval {c : Char} {s : Str} {p : Posn} (hc : c ∈ hexDigits) :
    readHexDigitInto ⟨c :: s, p⟩ = .ok ((c, digitVal c), ⟨s, p.step c s⟩) :=
  readDigitInto_eval ((isEsHexDigit_iff c).2 hc) (toDigit_hex hc).1

theorem readHexDigitInto_spec {r : Reader} {P : Panic → Prop} :
    Spec readHexDigitInto r (fun v r' => Adv r [v.1] r' ∧ v.1 ∈ hexDigits ∧ v.2 = digitVal v.1)
      P := by
  refine (readDigitInto_spec (P := P) (fun c hc => ?_)).mono ?_ (fun _ h => h)
  · rw [(toDigit_hex ((isEsHexDigit_iff c).1 hc)).1]; rfl
  · rintro ⟨c, d⟩ r' ⟨h1, h2, h3⟩
    have hc := (isEsHexDigit_iff c).1 h2
    refine ⟨h1, hc, ?_⟩
    rw [(toDigit_hex hc).1] at h3
    exact (Option.some.inj h3).symm

/-! ### 32-bit arithmetic -/

variable [Env]

/-- Value of reversed digits. -/
def revVal (radix : Nat) : List Nat → Nat
  | [] => 0
  | d :: ds => d + radix * revVal radix ds

theorem revVal_append (b : Nat) (l : List Nat) (d : Nat) :
    revVal b (l ++ [d]) = revVal b l + d * b ^ l.length := by
  induction l with
  | nil => simp [revVal]
  | cons a l ih =>
    simp only [List.cons_append, revVal, ih, List.length_cons, Nat.pow_succ]
    rw [Nat.mul_add, ← Nat.add_assoc, Nat.mul_comm b (d * b ^ l.length), Nat.mul_assoc]

theorem revVal_numeral (b : Nat) (ds : Str) :
    revVal b (ds.map digitVal).reverse = numeral b ds := by
  induction ds with
  | nil => rfl
  | cons d ds ih =>
    rw [List.map_cons, List.reverse_cons, revVal_append, ih, numeral_cons]
    simp [Nat.add_comm]

theorem addDigitsLoop_wrap (radix : Nat) (hc : Env.overflowChecks = false) :
    ∀ (ds : List Nat) (place sum : Nat) (r : Reader), sum < 2 ^ 32 →
      addDigitsLoop radix ds place sum r =
        .ok ((sum + place * revVal radix ds) % 2 ^ 32, r)
  | [], place, sum, r, h => by
    simp only [addDigitsLoop, pure_apply, revVal, Nat.mul_zero, Nat.add_zero, Nat.mod_eq_of_lt h]
  | d :: ds, place, sum, r, h => by
    have hu : ∀ n, L.u32 n r = .ok (n % 2 ^ 32, r) := by
      intro n
      unfold L.u32
      by_cases hn : n < 2 ^ 32
      · rw [if_pos hn, Nat.mod_eq_of_lt hn]; rfl
      · rw [if_neg hn, hc]; rfl
    simp only [addDigitsLoop, bind_apply, hu, Res.bind]
    rw [addDigitsLoop_wrap radix hc ds _ _ r (Nat.mod_lt _ (by decide))]
    congr 2
    simp only [revVal]
    rw [Nat.mul_add, ← Nat.mul_assoc]
    generalize revVal radix ds = v
    rw [Nat.mod_add_mod, ← Nat.add_mod_mod, Nat.mod_mul_mod, Nat.add_mod_mod, Nat.add_right_comm,
      Nat.add_mod_mod, Nat.mul_comm d place, Nat.add_right_comm, Nat.add_assoc]

theorem addDigitsLoop_fits (ds : List Nat) : ∀ (place sum : Nat) (r : Reader), sum < place →
    (∀ d ∈ ds, d < 16) → place * 16 ^ ds.length < 2 ^ 32 →
      addDigitsLoop 16 ds place sum r = .ok (sum + place * revVal 16 ds, r) ∧
        sum + place * revVal 16 ds < 2 ^ 32 := by
  induction ds with
  | nil =>
    intro place sum r h _ h2
    simp only [List.length_nil, Nat.pow_zero, Nat.mul_one] at h2
    simp only [addDigitsLoop, pure_apply, revVal, Nat.mul_zero, Nat.add_zero, true_and]
    omega
  | cons d ds ih =>
    intro place sum r h hd h2
    have hd0 : d < 16 := hd d (by simp)
    rw [List.length_cons, Nat.pow_succ, Nat.mul_comm (16 ^ _) 16, ← Nat.mul_assoc] at h2
    have hp : 1 ≤ 16 ^ ds.length := Nat.one_le_pow _ _ (by decide)
    have h3 : place * 16 < 2 ^ 32 := by
      have := Nat.mul_le_mul_left (place * 16) hp
      omega
    have h4 : d * place ≤ 15 * place := Nat.mul_le_mul_right _ (by omega)
    have hu : ∀ n, n < 2 ^ 32 → L.u32 n r = .ok (n, r) := by
      intro n hn
      unfold L.u32
      rw [if_pos hn]; rfl
    simp only [addDigitsLoop, bind_apply]
    rw [hu _ (by omega)]
    simp only [Res.bind, bind_apply]
    rw [hu _ (by omega)]
    simp only [Res.bind, bind_apply]
    rw [hu _ (by omega)]
    simp only [Res.bind]
    have := ih (place * 16) (sum + d * place) r (by omega)
      (fun e he => hd e (by simp [he])) h2
    simp only [revVal]
    rw [Nat.mul_add, ← Nat.mul_assoc, Nat.mul_comm place d, ← Nat.add_assoc]
    exact this

theorem addDigitsLoop_overflow (hc : Env.overflowChecks = true) (ds : List Nat) :
    ∀ (k sum : Nat) (r : Reader), k ≤ 7 → sum < 16 ^ k → (∀ d ∈ ds, d < 16) →
      8 ≤ k + ds.length → addDigitsLoop 16 ds (16 ^ k) sum r = .panic .overflow := by
  induction ds with
  | nil => intro k sum r h1 _ _ h2; simp at h2; omega
  | cons d ds ih =>
    intro k sum r hk hs hd hl
    have hd0 : d < 16 := hd d (by simp)
    have h4 : d * 16 ^ k ≤ 15 * 16 ^ k := Nat.mul_le_mul_right _ (by omega)
    have h5 : 16 ^ k * 16 ≤ 2 ^ 32 := by
      rw [← Nat.pow_succ]
      calc 16 ^ (k + 1) ≤ 16 ^ 8 := Nat.pow_le_pow_right (by decide) (by omega)
        _ = 2 ^ 32 := by decide
    have hu : ∀ n, n < 2 ^ 32 → L.u32 n r = .ok (n, r) := by
      intro n hn
      unfold L.u32
      rw [if_pos hn]; rfl
    simp only [addDigitsLoop, bind_apply]
    rw [hu _ (by omega)]
    simp only [Res.bind, bind_apply]
    rw [hu _ (by omega)]
    simp only [Res.bind, bind_apply]
    by_cases h7 : k = 7
    · subst h7
      have : L.u32 (16 ^ 7 * 16) r = .panic .overflow := by
        unfold L.u32
        rw [if_neg (by decide), hc]; rfl
      rw [this]
    · rw [hu _ (by
        rw [← Nat.pow_succ]
        calc 16 ^ (k + 1) ≤ 16 ^ 7 := Nat.pow_le_pow_right (by decide) (by omega)
          _ < 2 ^ 32 := by decide)]
      simp only
      rw [← Nat.pow_succ]
      refine ih (k + 1) _ r (by omega) (by rw [Nat.pow_succ]; omega)
        (fun e he => hd e (by simp [he])) ?_
      simp only [List.length_cons] at hl
      omega

/-- `add_digits` on hexadecimal digits. -/
theorem addDigits_eval (ds : Str) (r : Reader) (hd : ∀ d ∈ ds, d ∈ hexDigits) :
    addDigits (ds.map digitVal) 16 r =
      if Env.overflowChecks = true ∧ 8 ≤ ds.length then .panic .overflow
      else .ok (numeral 16 ds % 2 ^ 32, r) := by
  unfold addDigits
  have hd' : ∀ d ∈ (ds.map digitVal).reverse, d < 16 := by
    intro d h
    simp only [List.mem_reverse, List.mem_map] at h
    obtain ⟨c, hc, rfl⟩ := h
    exact (toDigit_hex (hd c hc)).2
  split
  · rename_i h
    exact addDigitsLoop_overflow h.1 _ 0 0 r (by omega) (by simp) hd' (by simpa using h.2)
  · rename_i h
    rw [← revVal_numeral]
    by_cases hl : 8 ≤ ds.length
    · have hc : Env.overflowChecks = false := by
        cases hq : (Env.overflowChecks : Bool) with
        | false => rfl
        | true => exact absurd ⟨hq, hl⟩ h
      rw [addDigitsLoop_wrap 16 hc _ _ _ _ (by decide)]
      simp
    · have := addDigitsLoop_fits (ds.map digitVal).reverse 1 0 r (by omega) hd' (by
        simp only [List.length_reverse, List.length_map, Nat.one_mul]
        calc 16 ^ ds.length ≤ 16 ^ 7 := Nat.pow_le_pow_right (by decide) (by omega)
          _ < 2 ^ 32 := by decide)
      simp only [Nat.zero_add, Nat.one_mul] at this
      rw [this.1, Nat.mod_eq_of_lt this.2]

/-! ### Unicode escapes -/

theorem fourHex_spec {P : Panic → Prop} : ∀ (k code : Nat) (r : Reader) (place : Nat),
    16 * place = 16 ^ k → Spec (fourHex k place code) r
      (fun v r' => Adv r v.1 r' ∧ v.1.length = k ∧ (∀ d ∈ v.1, d ∈ hexDigits) ∧
        v.2 = code + numeral 16 v.1) P
  | 0, code, r, place, _ => Spec.pure ⟨Adv.refl r, rfl, by simp, by simp [numeral]⟩
  | k + 1, code, r, place, hp => by
    unfold fourHex
    refine Spec.seq (readHexDigitInto_spec (P := P)) (fun _ h => h) ?_
    rintro ⟨c, d⟩ r1 ⟨h1, h2, h3⟩
    simp only at h1 h2 h3
    have hp' : place = 16 ^ k := by rw [Nat.pow_succ] at hp; omega
    have hrec : ∀ Q : (Str × Nat) → Reader → Prop,
        (∀ v r', Adv r1 v.1 r' → v.1.length = k → (∀ d ∈ v.1, d ∈ hexDigits) →
          v.2 = code + d * place + numeral 16 v.1 → Q v r') →
        Spec (fourHex k (place / 16) (code + d * place)) r1 Q P := by
      intro Q hQ
      cases k with
      | zero =>
        refine Spec.pure (hQ _ _ (Adv.refl r1) rfl (by simp) (by simp [numeral]))
      | succ k =>
        refine (fourHex_spec (k + 1) (code + d * place) r1 (place / 16) ?_).mono ?_
          (fun _ h => h)
        · rw [hp', Nat.pow_succ]; omega
        · rintro v r' ⟨a1, a2, a3, a4⟩
          exact hQ v r' a1 a2 a3 a4
    refine Spec.bind (hrec _ ?_)
    rintro ⟨s, v⟩ r2 a1 a2 a3 a4
    simp only at a1 a2 a3 a4
    refine Spec.pure ⟨h1.cons a1, by simp [a2], ?_, ?_⟩
    · intro e he
      rcases List.mem_cons.1 he with rfl | he
      · exact h2
      · exact a3 e he
    · simp only [a4, numeral_cons, h3, hp', a2, Nat.add_assoc]

theorem fourHex_eval : ∀ (ds y : Str) (code : Nat) (p : Posn) (place : Nat),
    16 * place = 16 ^ ds.length → (∀ d ∈ ds, d ∈ hexDigits) →
    fourHex ds.length place code ⟨ds ++ y, p⟩ =
      .ok ((ds, code + numeral 16 ds), ⟨y, pos p ds y⟩)
  | [], y, code, p, place, _, _ => by simp [fourHex, pure_apply, numeral, pos]
  | d :: ds, y, code, p, place, hp, hd => by
    have hp' : place = 16 ^ ds.length := by
      rw [List.length_cons, Nat.pow_succ] at hp; omega
    have hrec : fourHex ds.length (place / 16) (code + digitVal d * place)
        ⟨ds ++ y, p.step d (ds ++ y)⟩ =
        .ok ((ds, code + digitVal d * place + numeral 16 ds), ⟨y, pos (p.step d (ds ++ y)) ds y⟩) := by
      cases ds with
      | nil => simp [fourHex, pure_apply, numeral, pos]
      | cons e ds =>
        refine fourHex_eval (e :: ds) y _ _ _ ?_ (fun a ha => hd a (by simp [ha]))
        rw [hp', List.length_cons, Nat.pow_succ]; omega
    simp only [List.length_cons, fourHex, bind_apply, List.cons_append]
    rw [readHexDigitInto_eval (hd d (by simp))]
    simp only [Res.bind, hrec, pure_apply]
    rw [numeral_cons, hp', Nat.add_assoc]
    rfl

/-- The body of the loop over the digits of a braced escape. -/
abbrev hexBody : L (List (Char × Nat)) := do
  let d ← readHexDigitInto
  pure [d]

/-- The digits of a braced escape. -/
def HexRun (x : Str) (_ : Reader) (as : List (Char × Nat)) : Prop :=
  (∀ d ∈ x, d ∈ hexDigits) ∧ as = x.map fun c => (c, digitVal c)

theorem hexRun_spec (r : Reader) (P : Panic → Prop) :
    Spec (readUntilWith (fun ch => ch = '}') hexBody) r
      (fun as r' => ∃ x, Adv r x r' ∧ HexRun x r' as ∧
        ∀ c, r'.rest.head? = some c → decide (c = '}') = true) P := by
  refine readUntilWith_spec HexRun (fun _ p => P p) ?_ ?_ r
  · intro r _; exact ⟨by simp, rfl⟩
  · intro r c hc _
    refine Spec.seq (readHexDigitInto_spec (P := P)) (fun _ h => h) ?_
    rintro ⟨d, v⟩ r1 ⟨h1, h2, h3⟩
    refine Spec.pure ⟨[d], by simp, h1, ?_, fun _ h => h⟩
    rintro x2 r2 as _ ⟨a1, a2⟩
    refine ⟨?_, by simp only at h3; simp [a2, h3]⟩
    intro e he
    simp only [List.cons_append, List.nil_append, List.mem_cons] at he
    rcases he with rfl | he
    · exact h2
    · exact a1 e he

theorem hexRun_eval : ∀ (ds y : Str) (p : Posn) (n : Nat), ds.length < n →
    (∀ d ∈ ds, d ∈ hexDigits) →
    untilLoop (fun ch => ch = '}') hexBody n ⟨ds ++ '}' :: y, p⟩ =
      .ok (ds.map fun c => (c, digitVal c), ⟨'}' :: y, pos p ds ('}' :: y)⟩)
  | ds, y, p, 0, h, _ => absurd h (by omega)
  | [], y, p, n + 1, _, _ => by
    rw [List.nil_append, untilLoop_stop]
    · rfl
    · intro c hc
      simp only [List.head?_cons, Option.some.injEq] at hc
      simp [← hc]
  | d :: ds, y, p, n + 1, h, hd => by
    have hne : decide (d = '}') = false := by
      have := hd d (by simp)
      rw [decide_eq_false_iff_not]
      rintro rfl
      revert this
      decide
    rw [List.cons_append, untilLoop_step hne]
    have hb : ∀ s q, hexBody ⟨d :: s, q⟩ = .ok ([(d, digitVal d)], ⟨s, q.step d s⟩) := by
      intro s q
      unfold hexBody
      rw [bind_apply, readHexDigitInto_eval (hd d (by simp))]
      rfl
    rw [hb]
    simp only [Res.bind]
    rw [hexRun_eval ds y _ n (by simp at h; omega) (fun e he => hd e (by simp [he]))]
    simp [pos]

theorem readUnicodeEscapeSeq_spec (r : Reader) :
    Spec readUnicodeEscapeSeq r (fun v r' => Adv r v.1 r' ∧ UnicodeEscape v.1 v.2)
      (BracePanic r.rest) := by
  unfold readUnicodeEscapeSeq
  refine Spec.matches ?_ ?_
  · intro hb r0 h0
    simp only [if_true]
    refine Spec.seq (readHexDigitInto_spec (P := BracePanic r.rest)) (fun _ h => h) ?_
    rintro ⟨d, v⟩ r1 ⟨h1, h2, h3⟩
    simp only at h1 h2 h3
    refine Spec.seq (hexRun_spec r1 (BracePanic r.rest)) (fun _ h => h) ?_
    rintro as r2 ⟨x, a1, ⟨a2, rfl⟩, a4⟩
    have hall : ∀ e ∈ d :: x, e ∈ hexDigits := by
      intro e he
      rcases List.mem_cons.1 he with rfl | he
      · exact h2
      · exact a2 e he
    have hadv := (h0.cons (h1.cons a1))
    refine Spec.reread' ?_ ?_ ?_
    · rcases r2 with ⟨_ | ⟨c, cs⟩, q⟩
      · exact .inr rfl
      · left
        have := a4 c rfl
        simpa using this
    · intro r3 h4
      have e : List.map (fun x => x.2) ((d, v) :: List.map (fun c => (c, digitVal c)) x) =
          (d :: x).map digitVal := by simp [h3]
      have e1 : List.map (fun x => x.1) ((d, v) :: List.map (fun c => (c, digitVal c)) x) =
          d :: x := by simp [Function.comp_def]
      rw [e, e1]
      unfold Spec
      rw [bind_apply, addDigits_eval _ _ hall]
      by_cases hov : Env.overflowChecks = true ∧ 8 ≤ (d :: x).length
      · rw [if_pos hov]
        refine BracePanic.overflow (ds := d :: x) (y := r3.rest) ?_ hall hov.2 hov.1
        have := (hadv.trans h4).rest
        simpa using this
      · rw [if_neg hov]
        refine ⟨?_, UnicodeEscape.braced (ds := d :: x) (by simp) hall ?_⟩
        · simpa using hadv.trans h4
        · intro hc
          by_cases hl : 8 ≤ (d :: x).length
          · exact absurd ⟨hc, hl⟩ hov
          · omega
    · intro he
      refine .eof (ds := d :: x) ?_ (by simp) hall
      have := hadv.rest
      rw [he] at this
      simpa using this
  · intro hb
    refine (fourHex_spec (P := BracePanic r.rest) 4 0 r 0x1000 (by decide)).mono ?_ (fun _ h => h)
    rintro ⟨s, v⟩ r' ⟨h1, h2, h3, h4⟩
    refine ⟨h1, ?_⟩
    simp only at h2 h3 h4
    rw [h4, Nat.zero_add]
    exact .four h2 h3

theorem readUnicodeEscapeSeq_eval {u y : Str} {code : Nat} {p : Posn} (h : UnicodeEscape u code) :
    readUnicodeEscapeSeq ⟨u ++ y, p⟩ = .ok ((u, code), ⟨y, pos p u y⟩) := by
  cases h with
  | four h1 h2 =>
    unfold readUnicodeEscapeSeq
    rw [bind_apply, matches_ne]
    · have := fourHex_eval u y 0 p 0x1000 (by rw [h1]) h2
      rw [h1] at this
      simp only [Res.bind, Bool.false_eq_true, if_false, this]
      simp
    · cases u with
      | nil => simp at h1
      | cons c u =>
        intro hc
        simp only [List.cons_append, List.head?_cons, Option.some.injEq] at hc
        have := h2 c (by simp)
        rw [hc] at this
        revert this; decide
  | @braced ds h1 h2 h3 =>
    cases ds with
    | nil => exact absurd rfl h1
    | cons d ds =>
      unfold readUnicodeEscapeSeq
      simp only [List.cons_append, List.append_assoc]
      rw [bind_apply, matches_cons]
      simp only [Res.bind, if_true]
      rw [bind_apply, readHexDigitInto_eval (h2 d (by simp))]
      simp only [Res.bind]
      rw [bind_apply]
      unfold readUntilWith
      rw [show ds ++ '}' :: ([] ++ y) = ds ++ '}' :: y from rfl]
      rw [hexRun_eval ds y _ _ (by simp; omega) (fun e he => h2 e (by simp [he]))]
      simp only [Res.bind]
      rw [bind_apply, reread_cons]
      simp only [Res.bind]
      have e : List.map (fun x => x.2) ((d, digitVal d) :: List.map (fun c => (c, digitVal c)) ds) =
          (d :: ds).map digitVal := by simp
      have e1 : List.map (fun x => x.1) ((d, digitVal d) :: List.map (fun c => (c, digitVal c)) ds) =
          d :: ds := by simp [Function.comp_def]
      rw [e, e1, bind_apply, addDigits_eval _ _ h2, if_neg]
      · simp only [Res.bind, pure_apply, List.cons_append, pos, List.append_assoc,
          List.nil_append]
        rw [show ∀ q : Posn, pos q (ds ++ c!"}") y = (pos q ds ('}' :: y)).step '}' y from
          fun q => by rw [pos_append]; rfl]
      · rintro ⟨a, b⟩
        have := h3 a
        omega

end L

end Esprit
