import Verif.Spec.Double
import Mathlib.Tactic.Linarith
import Mathlib.Tactic.FieldSimp
import Mathlib.Tactic.Ring
import Mathlib.Tactic.NormNum
import Mathlib.Tactic.Positivity
import Mathlib.Algebra.Order.Field.Rat
import Mathlib.Algebra.Order.Field.Power

/-! Rounding to doubles. -/

namespace Esprit

namespace F64

theorem zpow_toNat {e : ℤ} (h : 0 ≤ e) : ((2 ^ e.toNat : ℕ) : ℚ) = (2 : ℚ) ^ e := by
  rw [Nat.cast_pow, Nat.cast_ofNat, ← zpow_natCast, Int.toNat_of_nonneg h]

theorem zpow_neg_toNat {e : ℤ} (h : e ≤ 0) : ((2 ^ (-e).toNat : ℕ) : ℚ) = ((2 : ℚ) ^ e)⁻¹ := by
  rw [zpow_toNat (by omega), zpow_neg]

theorem two_zpow_pos (e : ℤ) : (0 : ℚ) < 2 ^ e := by positivity

theorem ilog2_spec {n d : ℕ} (hn : n ≠ 0) (hd : d ≠ 0) :
    (2 : ℚ) ^ (ilog2 n d) ≤ n / d ∧ (n : ℚ) / d < 2 ^ (ilog2 n d + 1) := by
  have hd' : (0 : ℚ) < d := by positivity
  have n1 : (2 : ℚ) ^ (n.log2 : ℤ) ≤ n := by
    rw [zpow_natCast]; exact_mod_cast Nat.log2_self_le hn
  have n2 : (n : ℚ) < 2 ^ ((n.log2 : ℤ) + 1) := by
    have : n < 2 ^ (n.log2 + 1) := Nat.lt_log2_self
    have h : (n : ℚ) < (2 : ℚ) ^ (n.log2 + 1) := by exact_mod_cast this
    exact_mod_cast h
  have d1 : (2 : ℚ) ^ (d.log2 : ℤ) ≤ d := by
    rw [zpow_natCast]; exact_mod_cast Nat.log2_self_le hd
  have d2 : (d : ℚ) < 2 ^ ((d.log2 : ℤ) + 1) := by
    have : d < 2 ^ (d.log2 + 1) := Nat.lt_log2_self
    have h : (d : ℚ) < (2 : ℚ) ^ (d.log2 + 1) := by exact_mod_cast this
    exact_mod_cast h
  have up : (n : ℚ) / d < 2 ^ ((n.log2 : ℤ) - d.log2 + 1) := by
    rw [div_lt_iff₀ hd']
    calc (n : ℚ) < 2 ^ ((n.log2 : ℤ) + 1) := n2
      _ = 2 ^ ((n.log2 : ℤ) - d.log2 + 1) * 2 ^ (d.log2 : ℤ) := by
        rw [← zpow_add₀ (by norm_num)]; congr 1; ring
      _ ≤ _ := by
        apply mul_le_mul_of_nonneg_left d1 (le_of_lt (two_zpow_pos _))
  have lo : (2 : ℚ) ^ ((n.log2 : ℤ) - d.log2 - 1) ≤ n / d := by
    rw [le_div_iff₀ hd']
    calc (2 : ℚ) ^ ((n.log2 : ℤ) - d.log2 - 1) * d
        ≤ 2 ^ ((n.log2 : ℤ) - d.log2 - 1) * 2 ^ ((d.log2 : ℤ) + 1) :=
        mul_le_mul_of_nonneg_left (le_of_lt d2) (le_of_lt (two_zpow_pos _))
      _ = 2 ^ (n.log2 : ℤ) := by rw [← zpow_add₀ (by norm_num)]; congr 1; ring
      _ ≤ n := n1
  unfold ilog2
  generalize (n.log2 : ℤ) - d.log2 = e at *
  have key : (2 : ℚ) ^ e ≤ n / d ∨ (n : ℚ) / d < 2 ^ e := le_or_gt _ _
  simp only
  split
  · rename_i he
    have hc : d * 2 ^ e.toNat ≤ n ↔ (2 : ℚ) ^ e ≤ n / d := by
      rw [le_div_iff₀ hd', ← zpow_toNat he, mul_comm]
      exact_mod_cast Iff.rfl
    split
    · rename_i h; exact ⟨hc.1 h, up⟩
    · rename_i h
      exact ⟨lo, by rw [sub_add_cancel]; exact lt_of_not_ge fun h' => h (hc.2 h')⟩
  · rename_i he
    have hc : d ≤ n * 2 ^ (-e).toNat ↔ (2 : ℚ) ^ e ≤ n / d := by
      rw [le_div_iff₀ hd', ← @Nat.cast_le ℚ, Nat.cast_mul, zpow_neg_toNat (by omega),
        ← div_eq_mul_inv, le_div_iff₀ (two_zpow_pos e), mul_comm]
    split
    · rename_i h; exact ⟨hc.1 h, up⟩
    · rename_i h
      exact ⟨lo, by rw [sub_add_cancel]; exact lt_of_not_ge fun h' => h (hc.2 h')⟩

theorem divRoundEven_spec (n : ℕ) {d : ℕ} (hd : d ≠ 0) :
    |(n : ℚ) / d - divRoundEven n d| ≤ 1 / 2 ∧
      (|(n : ℚ) / d - divRoundEven n d| = 1 / 2 → divRoundEven n d % 2 = 0) := by
  have hd' : (0 : ℚ) < d := by positivity
  have hdm : (n : ℚ) = d * (n / d : ℕ) + (n % d : ℕ) := by exact_mod_cast (Nat.div_add_mod n d).symm
  have hx : (n : ℚ) / d = (n / d : ℕ) + (n % d : ℕ) / d := by
    rw [eq_comm, ← sub_eq_zero]
    field_simp
    linarith
  have hr : n % d < d := Nat.mod_lt _ (Nat.pos_of_ne_zero hd)
  have hr0 : (0 : ℚ) ≤ (n % d : ℕ) / d := by positivity
  unfold divRoundEven
  simp only
  generalize n / d = q at *
  generalize n % d = r at *
  rw [hx]
  split
  · rename_i h
    have h' : (r : ℚ) / d < 1 / 2 := by
      rw [div_lt_div_iff₀ hd' (by norm_num)]
      have : ((2 * r : ℕ) : ℚ) < d := by exact_mod_cast h
      push_cast at this
      linarith
    rw [add_sub_cancel_left, abs_of_nonneg hr0]
    exact ⟨le_of_lt h', fun h => absurd h (ne_of_lt h')⟩
  · rename_i h
    split
    · rename_i h2
      have h' : (1 : ℚ) / 2 < (r : ℚ) / d := by
        rw [div_lt_div_iff₀ (by norm_num) hd']
        have : (d : ℚ) < ((2 * r : ℕ) : ℚ) := by exact_mod_cast h2
        push_cast at this
        linarith
      have h1 : (r : ℚ) / d < 1 := by
        rw [div_lt_one hd']; exact_mod_cast hr
      have e : (q : ℚ) + r / d - ((q + 1 : ℕ) : ℚ) = -(1 - r / d) := by push_cast; ring
      rw [e, abs_neg, abs_of_nonneg (by linarith)]
      exact ⟨by linarith, fun h => by linarith⟩
    · rename_i h2
      have h' : (r : ℚ) / d = 1 / 2 := by
        rw [div_eq_div_iff (ne_of_gt hd') (by norm_num)]
        have : ((2 * r : ℕ) : ℚ) = d := by exact_mod_cast (by omega : 2 * r = d)
        push_cast at this
        linarith
      rw [h']
      split
      · rename_i h3
        rw [add_sub_cancel_left, abs_of_nonneg (by norm_num)]
        exact ⟨le_refl _, fun _ => h3⟩
      · rename_i h3
        have e : (q : ℚ) + 1 / 2 - ((q + 1 : ℕ) : ℚ) = -(1 / 2) := by push_cast; ring
        rw [e, abs_neg, abs_of_nonneg (by norm_num)]
        exact ⟨le_refl _, fun _ => by omega⟩

/-- The exponent of the last place, and the significand, of the rounded `n / d`. -/
theorem roundNat_spec {n d : ℕ} (hn : n ≠ 0) (hd : d ≠ 0) : ∃ (e : ℤ) (m : ℕ),
    -1074 ≤ e ∧ (n : ℚ) / d < 2 ^ (e + 53) ∧ (e = -1074 ∨ (2 : ℚ) ^ (e + 52) ≤ n / d) ∧
    |(n : ℚ) / d / 2 ^ e - m| ≤ 1 / 2 ∧ (|(n : ℚ) / d / 2 ^ e - m| = 1 / 2 → m % 2 = 0) ∧
    roundNat n d = if (0 ≤ e ∧ (2 : ℚ) ^ 1024 ≤ m * 2 ^ e) then .inf false
      else .num false (m * 2 ^ e) := by
  have hl := ilog2_spec hn hd
  refine ⟨max (ilog2 n d - 52) (-1074), if 0 ≤ max (ilog2 n d - 52) (-1074) then
      divRoundEven n (d * 2 ^ (max (ilog2 n d - 52) (-1074)).toNat)
    else divRoundEven (n * 2 ^ (-max (ilog2 n d - 52) (-1074)).toNat) d, le_max_right _ _, ?_⟩
  unfold roundNat
  rw [if_neg hn]
  simp only
  have h1 : ilog2 n d + 1 ≤ max (ilog2 n d - 52) (-1074) + 53 := by
    have := le_max_left (ilog2 n d - 52) (-1074)
    omega
  have h2 : max (ilog2 n d - 52) (-1074) = -1074 ∨ max (ilog2 n d - 52) (-1074) + 52 = ilog2 n d := by
    omega
  generalize max (ilog2 n d - 52) (-1074) = e at *
  have hd' : (0 : ℚ) < d := by positivity
  have hs := two_zpow_pos e
  refine ⟨lt_of_lt_of_le hl.2 (zpow_le_zpow_right₀ (by norm_num) h1), ?_, ?_⟩
  · rcases h2 with h2 | h2
    · exact .inl h2
    · exact .inr (h2 ▸ hl.1)
  by_cases he : 0 ≤ e
  · have hq : (n : ℚ) / d / 2 ^ e = n / (d * 2 ^ e.toNat : ℕ) := by
      rw [Nat.cast_mul, zpow_toNat he, div_div]
    have := divRoundEven_spec n (d := d * 2 ^ e.toNat) (by positivity)
    rw [← hq] at this
    simp only [he, if_true, true_and]
    refine ⟨this.1, this.2, ?_⟩
    have hc : (2 ^ 1024 ≤ divRoundEven n (d * 2 ^ e.toNat) * 2 ^ e.toNat) ↔
        (2 : ℚ) ^ 1024 ≤ (divRoundEven n (d * 2 ^ e.toNat) : ℚ) * 2 ^ e := by
      rw [← zpow_toNat he]
      exact_mod_cast Iff.rfl
    by_cases h : 2 ^ 1024 ≤ divRoundEven n (d * 2 ^ e.toNat) * 2 ^ e.toNat
    · rw [if_pos h, if_pos (hc.1 h)]
    · rw [if_neg h, if_neg (fun h' => h (hc.2 h')), Nat.cast_mul, zpow_toNat he]
  · have hq : (n : ℚ) / d / 2 ^ e = (n * 2 ^ (-e).toNat : ℕ) / d := by
      rw [Nat.cast_mul, zpow_neg_toNat (by omega)]
      field_simp
    have := divRoundEven_spec (n * 2 ^ (-e).toNat) hd
    rw [← hq] at this
    simp only [he, if_false, false_and]
    refine ⟨this.1, this.2, ?_⟩
    congr 1
    rw [Rat.mkRat_eq_div, zpow_neg_toNat (by omega)]
    field_simp
    exact Int.cast_natCast _

theorem isDouble_iff (v : ℚ) : IsDouble v ↔ ∃ (m : ℕ) (e : ℤ), m < 2 ^ 53 ∧ -1074 ≤ e ∧ e ≤ 971 ∧
    v = m * 2 ^ e := by
  constructor
  · rintro ⟨m, a, b, h1, h2, h3, rfl⟩
    refine ⟨m, (a : ℤ) - b, h1, by omega, by omega, ?_⟩
    rw [zpow_sub₀ (by norm_num), zpow_natCast, zpow_natCast, mul_div_assoc]
  · rintro ⟨m, e, h1, h2, h3, rfl⟩
    refine ⟨m, e.toNat, (-e).toNat, h1, by omega, by omega, ?_⟩
    by_cases he : 0 ≤ e
    · have : (-e).toNat = 0 := by omega
      rw [this, ← zpow_toNat he]; simp
    · have : e.toNat = 0 := by omega
      rw [this]
      have := zpow_neg_toNat (e := e) (by omega)
      push_cast at this
      rw [this]; simp

theorem evenDouble_of {m : ℕ} {e : ℤ} (h1 : m < 2 ^ 53) (h2 : -1074 ≤ e) (h3 : e ≤ 971)
    (h4 : m % 2 = 0) (h5 : 2 ^ 52 ≤ m ∨ e = -1074) : EvenDouble (m * 2 ^ e) := by
  refine ⟨m, e.toNat, (-e).toNat, h1, by omega, by omega, ?_, h4, by omega⟩
  by_cases he : 0 ≤ e
  · have : (-e).toNat = 0 := by omega
    rw [this, ← zpow_toNat he]; simp
  · have : e.toNat = 0 := by omega
    rw [this]
    have := zpow_neg_toNat (e := e) (by omega)
    push_cast at this
    rw [this]; simp

theorem ratDist_eq (p q : ℚ) : ratDist p q = |p - q| := by
  unfold ratDist
  split
  · rename_i h
    rw [abs_of_nonpos (by linarith)]; ring
  · rename_i h
    rw [abs_of_pos (by linarith)]

theorem nearest_int {y : ℚ} {m : ℕ} (h : |y - m| ≤ 1 / 2) {k : ℕ} (hk : k ≠ m) :
    1 / 2 ≤ |y - k| := by
  have h1 : (1 : ℚ) ≤ |(k : ℚ) - m| := by
    rcases Nat.lt_or_gt_of_ne hk with h | h
    · have : (k : ℚ) + 1 ≤ m := by exact_mod_cast h
      rw [abs_of_nonpos (by linarith)]; linarith
    · have : (m : ℚ) + 1 ≤ k := by exact_mod_cast h
      rw [abs_of_nonneg (by linarith)]; linarith
  have h2 : |(k : ℚ) - m| ≤ |y - m| + |y - k| := by
    have := abs_sub (y - m) (y - k)
    have e : (y - m) - (y - k) = k - m := by ring
    rw [e] at this
    exact this
  linarith

/-- The last place of the largest doubles. -/
def topPlace : ℚ := 2 ^ (971 : ℤ)

theorem topPlace_pos : 0 < topPlace := two_zpow_pos 971

theorem pow1024 : (2 : ℚ) ^ 1024 = 2 ^ 53 * topPlace := by
  unfold topPlace
  rw [show (971 : ℤ) = ((971 : ℕ) : ℤ) from rfl, zpow_natCast, ← pow_add]

theorem pow970 : (2 : ℚ) ^ 970 = topPlace / 2 := by
  unfold topPlace
  rw [eq_div_iff (by norm_num), show (971 : ℤ) = ((971 : ℕ) : ℤ) from rfl, zpow_natCast,
    ← pow_succ]

theorem zpow970 : (2 : ℚ) ^ (970 : ℤ) = topPlace / 2 := by
  rw [← pow970]; rfl

theorem scale_abs (x : ℚ) (k : ℕ) (e : ℤ) : |x - k * 2 ^ e| = |x / 2 ^ e - k| * 2 ^ e := by
  have hs := two_zpow_pos e
  rw [← abs_of_pos hs, ← abs_mul, abs_of_pos hs, sub_mul, div_mul_cancel₀ _ (ne_of_gt hs)]

theorem roundNat_nearest (n : ℕ) {d : ℕ} (hd : d ≠ 0) : Nearest ((n : ℚ) / d) (roundNat n d) := by
  have hd' : (0 : ℚ) < d := by positivity
  have hM := topPlace_pos
  by_cases hn : n = 0
  · subst hn
    have : roundNat 0 d = .num false 0 := rfl
    rw [this]
    have hz : ((0 : ℕ) : ℚ) / d = 0 := by simp
    rw [hz]
    refine ⟨rfl, ?_, ⟨0, 0, 0, by norm_num, by norm_num, by norm_num, by simp⟩, fun w hw hne => .inl ?_⟩
    · rw [pow1024, pow970]; linarith
    · rw [ratDist_eq, ratDist_eq]
      simp only [sub_zero, abs_zero, zero_sub, abs_neg]
      exact abs_pos.2 hne
  obtain ⟨e, m, h1, h2, h3, h4, h5, h6⟩ := roundNat_spec hn hd
  generalize (n : ℚ) / d = x at *
  have hs := two_zpow_pos e
  have hxs : x / 2 ^ e < 2 ^ 53 := by
    rw [div_lt_iff₀ hs]
    rw [zpow_add₀ (by norm_num)] at h2
    calc x < 2 ^ e * 2 ^ (53 : ℤ) := h2
      _ = _ := by rw [mul_comm]; rfl
  have hm : m ≤ 2 ^ 53 := by
    have := (abs_le.1 h4).1
    have h : (m : ℚ) < 2 ^ 53 + 1 := by linarith
    have h' : m < 2 ^ 53 + 1 := by exact_mod_cast h
    omega
  have hlow : e ≠ -1074 → (2 : ℚ) ^ 52 ≤ x / 2 ^ e := by
    intro he
    rcases h3 with h3 | h3
    · exact absurd h3 he
    · rw [le_div_iff₀ hs]
      rw [zpow_add₀ (by norm_num)] at h3
      calc (2 : ℚ) ^ 52 * 2 ^ e = 2 ^ e * 2 ^ (52 : ℤ) := by rw [mul_comm]; rfl
        _ ≤ x := h3
  have hmlow : e ≠ -1074 → 2 ^ 52 ≤ m := by
    intro he
    have h := hlow he
    have := (abs_le.1 h4).2
    have h : (2 : ℚ) ^ 52 < (m : ℚ) + 1 := by linarith
    have h' : 2 ^ 52 < m + 1 := by exact_mod_cast h
    omega
  rw [h6]
  have mono : ∀ {a b : ℤ}, a ≤ b → (2 : ℚ) ^ a ≤ 2 ^ b := fun h =>
    zpow_le_zpow_right₀ (by norm_num) h
  have big : 972 ≤ e → (2 : ℚ) ^ 1024 ≤ 2 ^ 52 * 2 ^ e := by
    intro he
    have := mono he
    have h972 : (2 : ℚ) ^ (972 : ℤ) = topPlace * 2 := by
      unfold topPlace
      rw [show (972 : ℤ) = 971 + 1 from rfl, zpow_add₀ (by norm_num), zpow_one]
    rw [pow1024]
    calc (2 : ℚ) ^ 53 * topPlace = 2 ^ 52 * (topPlace * 2) := by ring
      _ ≤ 2 ^ 52 * 2 ^ e := by
        rw [← h972]
        exact mul_le_mul_of_nonneg_left this (by norm_num)
  split
  · rename_i hov
    obtain ⟨he, hov⟩ := hov
    refine ⟨rfl, ?_⟩
    by_cases hbig : 972 ≤ e
    · have hl := hlow (by omega)
      rw [le_div_iff₀ hs] at hl
      have := big hbig
      rw [pow1024] at this ⊢
      rw [pow970]
      linarith
    · have hmq : (m : ℚ) ≤ 2 ^ 53 := by exact_mod_cast hm
      have he971 : e = 971 := by
        by_contra hne
        have h := mono (show e ≤ 970 by omega)
        have : (m : ℚ) * 2 ^ e ≤ 2 ^ 53 * (topPlace / 2) := by
          rw [← zpow970]
          exact mul_le_mul hmq h (le_of_lt hs) (by norm_num)
        rw [pow1024] at hov
        clear h
        linarith
      have hse : (2 : ℚ) ^ e = topPlace := by rw [he971]; rfl
      rw [hse] at hov hs h4
      rw [pow1024] at hov ⊢
      rw [pow970]
      have h53 := le_of_mul_le_mul_right hov hs
      have := (abs_le.1 h4).1
      have hx : (2 : ℚ) ^ 53 - 1 / 2 ≤ x / topPlace := by linarith
      rw [le_div_iff₀ hs] at hx
      linarith
  · rename_i hov
    have he971 : e ≤ 971 := by
      by_contra hbig
      refine hov ⟨by omega, le_trans (big (by omega)) ?_⟩
      have : (2 : ℚ) ^ 52 ≤ m := by exact_mod_cast hmlow (by omega)
      exact mul_le_mul_of_nonneg_right this (le_of_lt hs)
    have hm971 : e = 971 → m < 2 ^ 53 := by
      intro he
      by_contra hlt
      have hmm : m = 2 ^ 53 := by omega
      refine hov ⟨by omega, ?_⟩
      have hse : (2 : ℚ) ^ e = topPlace := by rw [he]; rfl
      rw [pow1024, hmm, hse]
      push_cast
      exact le_refl _
    have hcanon : ∃ (m' : ℕ) (e' : ℤ), m' < 2 ^ 53 ∧ -1074 ≤ e' ∧ e' ≤ 971 ∧
        (m : ℚ) * 2 ^ e = m' * 2 ^ e' ∧ (m % 2 = 0 → m' % 2 = 0) ∧ (2 ^ 52 ≤ m' ∨ e' = -1074) := by
      by_cases hlt : m < 2 ^ 53
      · refine ⟨m, e, hlt, h1, he971, rfl, id, ?_⟩
        by_cases he : e = -1074
        · exact .inr he
        · exact .inl (hmlow he)
      · have hmm : m = 2 ^ 53 := by omega
        have : e ≠ 971 := fun h => hlt (hm971 h)
        refine ⟨2 ^ 52, e + 1, by norm_num, by omega, by omega, ?_, fun _ => by norm_num,
          .inl (le_refl _)⟩
        rw [hmm, zpow_add₀ (by norm_num)]
        push_cast
        ring
    obtain ⟨m', e', c1, c2, c3, c4, c5, c6⟩ := hcanon
    refine ⟨rfl, ?_, (isDouble_iff _).2 ⟨m', e', c1, c2, c3, c4⟩, ?_⟩
    · by_contra hge
      rw [not_lt, pow1024, pow970] at hge
      have he : e = 971 := by
        by_contra hne
        have h := mono (show e ≤ 970 by omega)
        rw [div_lt_iff₀ hs] at hxs
        have : (2 : ℚ) ^ 53 * 2 ^ e ≤ 2 ^ 53 * (topPlace / 2) := by
          rw [← zpow970]
          exact mul_le_mul_of_nonneg_left h (by norm_num)
        clear h
        linarith
      have hlt := hm971 he
      have hse : (2 : ℚ) ^ e = topPlace := by rw [he]; rfl
      rw [hse] at hs h4 h5
      have hx : (2 : ℚ) ^ 53 - 1 / 2 ≤ x / topPlace := by
        rw [le_div_iff₀ hs]; linarith
      have h53 : (m : ℚ) ≤ 2 ^ 53 - 1 := by
        have : m + 1 ≤ 2 ^ 53 := hlt
        have : (m : ℚ) + 1 ≤ 2 ^ 53 := by exact_mod_cast this
        linarith
      have := (abs_le.1 h4).2
      have hmeq : (m : ℚ) = 2 ^ 53 - 1 := by linarith
      have hmeq' : m = 2 ^ 53 - 1 := by
        have : (m : ℚ) + 1 = 2 ^ 53 := by linarith
        have : m + 1 = 2 ^ 53 := by exact_mod_cast this
        omega
      have heq : |x / topPlace - m| = 1 / 2 := by
        apply le_antisymm h4
        have := le_abs_self (x / topPlace - m)
        linarith
      have := h5 heq
      omega
    · intro w hw hne
      rw [ratDist_eq, ratDist_eq]
      have hnear : ∀ k : ℕ, |x / 2 ^ e - m| ≤ |x / 2 ^ e - k| := by
        intro k
        by_cases hk : k = m
        · rw [hk]
        · exact le_trans h4 (nearest_int h4 hk)
      obtain ⟨mw, ew, w1, w2, w3, rfl⟩ := (isDouble_iff w).1 hw
      by_cases hle : e ≤ ew
      · have hk : (mw : ℚ) * 2 ^ ew = (mw * 2 ^ (ew - e).toNat : ℕ) * 2 ^ e := by
          rw [Nat.cast_mul, zpow_toNat (by omega), mul_assoc, ← zpow_add₀ (by norm_num)]
          rw [show ew - e + e = ew by ring]
        rw [hk] at hne ⊢
        obtain ⟨k, hk'⟩ : ∃ k, mw * 2 ^ (ew - e).toNat = k := ⟨_, rfl⟩
        rw [hk'] at hne ⊢
        have hkm : k ≠ m := fun h => hne (by rw [h])
        have h := nearest_int h4 hkm
        rw [scale_abs, scale_abs]
        rcases lt_or_eq_of_le h with h | h
        · exact .inl (mul_lt_mul_of_pos_right (lt_of_le_of_lt h4 h) hs)
        · rcases lt_or_eq_of_le h4 with h4 | h4
          · exact .inl (mul_lt_mul_of_pos_right (h ▸ h4) hs)
          · refine .inr ⟨by rw [← h, h4], ?_⟩
            rw [c4]
            exact evenDouble_of c1 c2 c3 (c5 (h5 h4)) c6
      · left
        have hx := hlow (by omega)
        have hw' : (mw : ℚ) * 2 ^ ew < 2 ^ 52 * 2 ^ e := by
          have h := mono (show ew ≤ e - 1 by omega)
          have he1 : (2 : ℚ) ^ (e - 1) = 2 ^ e / 2 := by
            rw [zpow_sub₀ (by norm_num)]; norm_num
          have hmw : (mw : ℚ) < 2 ^ 53 := by exact_mod_cast w1
          calc (mw : ℚ) * 2 ^ ew < 2 ^ 53 * 2 ^ ew :=
                mul_lt_mul_of_pos_right hmw (two_zpow_pos ew)
            _ ≤ 2 ^ 53 * (2 ^ e / 2) := by
                rw [← he1]; exact mul_le_mul_of_nonneg_left h (by norm_num)
            _ = 2 ^ 52 * 2 ^ e := by ring
        have hxs' : (2 : ℚ) ^ 52 * 2 ^ e ≤ x := by rwa [le_div_iff₀ hs] at hx
        have h := hnear (2 ^ 52)
        calc |x - m * 2 ^ e| = |x / 2 ^ e - m| * 2 ^ e := scale_abs x m e
          _ ≤ |x / 2 ^ e - (2 ^ 52 : ℕ)| * 2 ^ e := mul_le_mul_of_nonneg_right h (le_of_lt hs)
          _ = |x - (2 ^ 52 : ℕ) * 2 ^ e| := (scale_abs x _ e).symm
          _ = x - 2 ^ 52 * 2 ^ e := by
              rw [Nat.cast_pow, Nat.cast_ofNat, abs_of_nonneg (by linarith)]
          _ < x - mw * 2 ^ ew := by linarith
          _ = |x - mw * 2 ^ ew| := by rw [abs_of_nonneg (by linarith)]

end F64

end Esprit
