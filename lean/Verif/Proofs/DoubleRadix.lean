import Verif.Proofs.Double
import Verif.Proofs.LexNumber

/-! Values of numeric literals. -/

namespace Esprit

open Lex

namespace F64

theorem ofRat_nearest {q : ℚ} (hq : 0 ≤ q) : Nearest q (ofRat q) := by
  have h := roundNat_nearest q.num.natAbs q.den_ne_zero
  have h1 : ((q.num.natAbs : ℕ) : ℚ) / q.den = q := by
    have : ((q.num.natAbs : ℕ) : ℚ) = (q.num : ℚ) := by
      have : ((q.num.natAbs : ℕ) : ℤ) = q.num := Int.natAbs_of_nonneg (Rat.num_nonneg.2 hq)
      rw [← Int.cast_natCast, this]
    rw [this, Rat.num_div_den]
  rw [h1] at h
  unfold ofRat
  have hd : decide (q < 0) = false := by simpa using hq
  rw [hd]
  generalize roundNat q.num.natAbs q.den = y at h
  match y, h with
  | .num b v, h => exact ⟨rfl, h.2⟩
  | .inf b, h => exact ⟨rfl, h.2⟩

theorem isDouble_nonneg {w : ℚ} (h : IsDouble w) : 0 ≤ w := by
  obtain ⟨m, a, b, _, _, _, rfl⟩ := h
  positivity

theorem isDouble_le {w : ℚ} (h : IsDouble w) : w ≤ (2 ^ 53 - 1) * topPlace := by
  obtain ⟨m, e, h1, h2, h3, rfl⟩ := (isDouble_iff w).1 h
  have hm : (m : ℚ) ≤ 2 ^ 53 - 1 := by
    have : m + 1 ≤ 2 ^ 53 := h1
    have : (m : ℚ) + 1 ≤ 2 ^ 53 := by exact_mod_cast this
    linarith
  have ht : (2 : ℚ) ^ e ≤ topPlace := by
    unfold topPlace
    exact zpow_le_zpow_right₀ (by norm_num) h3
  exact mul_le_mul hm ht (le_of_lt (two_zpow_pos e)) (by norm_num)

theorem isDouble_lt_threshold {w : ℚ} (h : IsDouble w) : w < 2 ^ 1024 - 2 ^ 970 := by
  rw [pow1024, pow970]
  have := isDouble_le h
  have := topPlace_pos
  linarith

/-- Only the number itself is nearest to a double. -/
theorem Nearest.exact {q : ℚ} {y : F64} (h : Nearest q y) (hq : IsDouble q) :
    y = .num false q := by
  match y, h with
  | .num b v, ⟨h1, _, _, h3⟩ =>
    subst h1
    by_cases hv : q = v
    · rw [hv]
    · exfalso
      have h0 : ratDist q q = 0 := by rw [ratDist_eq]; simp
      have hp : 0 ≤ ratDist q v := by rw [ratDist_eq]; exact abs_nonneg _
      rcases h3 q hq hv with h | ⟨h, _⟩
      · linarith
      · rw [h0, ratDist_eq, abs_eq_zero, sub_eq_zero] at h
        exact hv h
  | .inf b, ⟨_, h⟩ => exact absurd (isDouble_lt_threshold hq) (by linarith)

theorem Nearest.adjacent {q : ℚ} {y : F64} (h : Nearest q y) : Adjacent q y := by
  match y, h with
  | .num b v, ⟨h1, _, h2, h3⟩ =>
    refine ⟨h1, h2, ?_⟩
    rcases le_total v q with hv | hv
    · refine .inl ⟨hv, fun w hw hlt => ?_⟩
      by_contra hc
      have := h3 w hw (ne_of_gt hlt)
      rw [ratDist_eq, ratDist_eq, abs_of_nonneg (by linarith), abs_of_nonneg (by linarith)] at this
      rcases this with h | ⟨h, _⟩ <;> linarith
    · refine .inr ⟨hv, fun w hw hlt => ?_⟩
      by_contra hc
      have := h3 w hw (ne_of_lt hlt)
      rw [ratDist_eq, ratDist_eq, abs_of_nonpos (by linarith), abs_of_nonpos (by linarith)] at this
      rcases this with h | ⟨h, _⟩ <;> linarith
  | .inf b, ⟨h1, h2⟩ => exact ⟨h1, fun w hw => lt_of_lt_of_le (isDouble_lt_threshold hw) h2⟩

theorem Adjacent.exact {q : ℚ} {y : F64} (h : Adjacent q y) (hq : IsDouble q) :
    y = .num false q := by
  match y, h with
  | .num b v, ⟨h1, _, h3⟩ =>
    subst h1
    rcases h3 with ⟨h3, h4⟩ | ⟨h3, h4⟩
    · rcases lt_or_eq_of_le h3 with h | h
      · exact absurd (h4 q hq h) (lt_irrefl _)
      · rw [h]
    · rcases lt_or_eq_of_le h3 with h | h
      · exact absurd (h4 q hq h) (lt_irrefl _)
      · rw [h]
  | .inf b, ⟨_, h⟩ => exact absurd (h q hq) (lt_irrefl _)

theorem isDouble_nat {n : ℕ} (h : n ≤ 2 ^ 53) : IsDouble n := by
  rcases Nat.lt_or_eq_of_le h with h | rfl
  · exact ⟨n, 0, 0, h, by omega, by omega, by simp⟩
  · exact ⟨2 ^ 52, 1, 0, by norm_num, by omega, by omega, by norm_num⟩

theorem ofNat_exact {n : ℕ} (h : n ≤ 2 ^ 53) : F64.ofNat n = .num false n := by
  exact Nearest.exact (ofRat_nearest (by positivity)) (isDouble_nat h)

/-- From `2^53` on, doubles are even integers. -/
theorem isDouble_even {w : ℚ} (h : IsDouble w) (hw : 2 ^ 53 ≤ w) : ∃ n : ℕ, w = 2 * n := by
  obtain ⟨m, e, h1, h2, h3, rfl⟩ := (isDouble_iff w).1 h
  have he : 1 ≤ e := by
    by_contra hc
    have h4 : (2 : ℚ) ^ e ≤ 1 := zpow_le_one_of_nonpos₀ (by norm_num) (by omega)
    have h5 : (m : ℚ) < 2 ^ 53 := by exact_mod_cast h1
    have : (m : ℚ) * 2 ^ e ≤ m * 1 := mul_le_mul_of_nonneg_left h4 (by positivity)
    linarith
  refine ⟨m * 2 ^ (e - 1).toNat, ?_⟩
  rw [Nat.cast_mul, zpow_toNat (by omega), show e = 1 + (e - 1) by ring,
    zpow_add₀ (by norm_num), zpow_one, show 1 + (e - 1) - 1 = e - 1 by ring]
  ring

/-- Large doubles can be divided by powers of two. -/
theorem isDouble_div {u : ℚ} {k : ℕ} (h : IsDouble u) (hu : 2 ^ 53 * 2 ^ k ≤ u) :
    IsDouble (u / 2 ^ k) := by
  obtain ⟨m, e, h1, h2, h3, rfl⟩ := (isDouble_iff u).1 h
  have he : (k : ℤ) ≤ e := by
    by_contra hc
    have h4 : (2 : ℚ) ^ e ≤ 2 ^ (k : ℤ) := zpow_le_zpow_right₀ (by norm_num) (by omega)
    rw [zpow_natCast] at h4
    have h5 : (m : ℚ) < 2 ^ 53 := by exact_mod_cast h1
    have : (m : ℚ) * 2 ^ e ≤ m * 2 ^ k := mul_le_mul_of_nonneg_left h4 (by positivity)
    have : (m : ℚ) * 2 ^ k < 2 ^ 53 * 2 ^ k := mul_lt_mul_of_pos_right h5 (by positivity)
    linarith
  refine (isDouble_iff _).2 ⟨m, e - k, h1, by omega, by omega, ?_⟩
  rw [zpow_sub₀ (by norm_num), zpow_natCast, mul_div_assoc]

/-- Large doubles can be multiplied by powers of two, unless there is an overflow. -/
theorem isDouble_mul {w : ℚ} {k : ℕ} (h : IsDouble w) (hw : w * 2 ^ k < 2 ^ 53 * topPlace) :
    IsDouble (w * 2 ^ k) := by
  obtain ⟨m, e, h1, h2, h3, rfl⟩ := (isDouble_iff w).1 h
  have hk : (m : ℚ) * 2 ^ e * 2 ^ k = m * 2 ^ (e + k) := by
    rw [zpow_add₀ (by norm_num), zpow_natCast, mul_assoc]
  rw [hk] at hw ⊢
  by_cases he : e + k ≤ 971
  · exact (isDouble_iff _).2 ⟨m, e + k, h1, by omega, he, rfl⟩
  · have hs : (2 : ℚ) ^ (e + k) = (2 ^ (e + k - 971).toNat : ℕ) * topPlace := by
      rw [zpow_toNat (by omega)]
      unfold topPlace
      rw [← zpow_add₀ (by norm_num)]
      rw [show e + k - 971 + 971 = e + k by ring]
    rw [hs, ← mul_assoc] at hw ⊢
    have hlt := lt_of_mul_lt_mul_right hw (le_of_lt topPlace_pos)
    refine (isDouble_iff _).2 ⟨m * 2 ^ (e + k - 971).toNat, 971, by exact_mod_cast hlt, by norm_num,
      le_refl _, ?_⟩
    rw [Nat.cast_mul]
    rfl

/-- The nearest double to `w r + d` is `w r`. -/
theorem nearest_shift {w : ℚ} {k d : ℕ} {y : F64} (hw : IsDouble w) (h53 : 2 ^ 53 ≤ w)
    (hd : d < 2 ^ k) (h : Nearest (w * 2 ^ k + d) y) :
    (IsDouble (w * 2 ^ k) ∧ y = .num false (w * 2 ^ k)) ∨
      (y = .inf false ∧ 2 ^ 53 * topPlace ≤ w * 2 ^ k) := by
  have hk : (0 : ℚ) < 2 ^ k := by positivity
  have hdq : (d : ℚ) < 2 ^ k := by exact_mod_cast hd
  have hd0 : (0 : ℚ) ≤ d := by positivity
  have hbig : 2 ^ 53 * 2 ^ k ≤ w * 2 ^ k := mul_le_mul_of_nonneg_right h53 (le_of_lt hk)
  by_cases hlt : w * 2 ^ k < 2 ^ 53 * topPlace
  · left
    have hx := isDouble_mul hw hlt
    refine ⟨hx, ?_⟩
    have far : ∀ u, IsDouble u → u ≠ w * 2 ^ k →
        (d : ℚ) < |w * 2 ^ k + d - u| := by
      intro u hu hne
      rcases lt_or_gt_of_ne hne with hlt | hgt
      · exact lt_of_lt_of_le (by linarith) (le_abs_self _)
      · have h1 := isDouble_div hu (le_trans hbig (le_of_lt hgt))
        have h2 : w < u / 2 ^ k := by rwa [lt_div_iff₀ hk]
        obtain ⟨n1, hn1⟩ := isDouble_even h1 (by linarith)
        obtain ⟨n2, hn2⟩ := isDouble_even hw h53
        have h3 : n2 + 1 ≤ n1 := by
          rw [hn1, hn2] at h2
          have : (n2 : ℚ) < n1 := by linarith
          exact_mod_cast this
        have h3' : (n2 : ℚ) + 1 ≤ n1 := by exact_mod_cast h3
        have h4 : w + 2 ≤ u / 2 ^ k := by rw [hn1, hn2]; linarith
        rw [le_div_iff₀ hk] at h4
        refine lt_of_lt_of_le ?_ (neg_le_abs _)
        linarith
    match y, h with
    | .num b v, ⟨h1, _, h2, h3⟩ =>
      subst h1
      by_cases hv : v = w * 2 ^ k
      · rw [hv]
      · exfalso
        have := far v h2 hv
        have h0 : ratDist (w * 2 ^ k + d) (w * 2 ^ k) = d := by
          rw [ratDist_eq, show w * 2 ^ k + d - w * 2 ^ k = (d : ℚ) by ring, abs_of_nonneg hd0]
        rcases h3 _ hx (Ne.symm hv) with h | ⟨h, _⟩ <;> rw [h0, ratDist_eq] at h <;> linarith
    | .inf b, ⟨_, h⟩ =>
      exfalso
      rw [pow1024, pow970] at h
      have h1 := isDouble_le hx
      have h2 : 2 ^ k * 2 ≤ topPlace := by
        by_contra hc
        have : w * 2 ^ k < 2 ^ 53 * (2 ^ k * 2) := by
          refine lt_trans hlt ?_
          exact mul_lt_mul_of_pos_left (by linarith) (by norm_num)
        have h4 : 2 ^ 53 * topPlace < 2 ^ 53 * (2 ^ k * 2) :=
          mul_lt_mul_of_pos_left (by linarith) (by norm_num)
        have h3 : 2 ^ k * 2 ≤ w * 2 ^ k := by
          refine le_trans ?_ hbig
          have : (2 : ℚ) ≤ 2 ^ 53 := by norm_num
          nlinarith
        obtain ⟨j, hj⟩ : ∃ j, 2 ^ k = j := ⟨_, rfl⟩
        -- `2 ^ k` is at most `2 ^ 971`, hence equal to it
        have h5 : 2 ^ 53 * 2 ^ k < 2 ^ 53 * topPlace := lt_of_le_of_lt hbig hlt
        have h6 : (2 : ℚ) ^ k < topPlace := lt_of_mul_lt_mul_left h5 (by norm_num)
        unfold topPlace at h6
        rw [← zpow_natCast, zpow_lt_zpow_iff_right₀ (by norm_num)] at h6
        apply hc
        unfold topPlace
        rw [← zpow_natCast, ← zpow_add_one₀ (by norm_num)]
        exact zpow_le_zpow_right₀ (by norm_num) (by omega)
      have := topPlace_pos
      linarith
  · right
    have hge : 2 ^ 53 * topPlace ≤ w * 2 ^ k := by linarith
    refine ⟨?_, hge⟩
    match y, h with
    | .num b v, ⟨h1, h2, _, _⟩ =>
      exfalso
      rw [pow1024, pow970] at h2
      have := topPlace_pos
      linarith
    | .inf b, ⟨h1, _⟩ => rw [h1]

theorem isDouble_53 : IsDouble (2 ^ 53) := by
  have := isDouble_nat (n := 2 ^ 53) (le_refl _)
  rwa [Nat.cast_pow, Nat.cast_ofNat] at this

/-- One more digit. -/
theorem Adjacent.step {P : ℕ} {k d : ℕ} {acc y : F64} (h : Adjacent P acc) (hd : d < 2 ^ k)
    (hk : k ≤ 53) (hy : y = mulAdd acc (F64.ofNat (2 ^ k)) (F64.ofNat d)) :
    Adjacent ((P * 2 ^ k + d : ℕ) : ℚ) y := by
  have hk53 : (2 : ℕ) ^ k ≤ 2 ^ 53 := Nat.pow_le_pow_right (by norm_num) hk
  rw [ofNat_exact hk53, ofNat_exact (by omega)] at hy
  have hkp : (0 : ℚ) < 2 ^ k := by positivity
  have hdq : (d : ℚ) < 2 ^ k := by exact_mod_cast hd
  have hd0 : (0 : ℚ) ≤ d := by positivity
  have hP0 : (0 : ℚ) ≤ P := by positivity
  rw [Nat.cast_add, Nat.cast_mul, Nat.cast_pow, Nat.cast_ofNat]
  match acc, h with
  | .inf b, ⟨hb, h⟩ =>
    subst hb
    have : y = .inf false := by
      rw [hy]; simp [mulAdd]
    rw [this]
    refine ⟨rfl, fun u hu => lt_of_lt_of_le (h u hu) ?_⟩
    have : (1 : ℚ) ≤ 2 ^ k := one_le_pow₀ (by norm_num)
    nlinarith
  | .num b w, ⟨hb, hw, h⟩ =>
    subst hb
    have hw0 := isDouble_nonneg hw
    have hy' : y = ofRat (w * 2 ^ k + d) := by
      rw [hy]; simp [mulAdd, toRat?]
    have hn : Nearest (w * 2 ^ k + d) y := hy' ▸ ofRat_nearest (by positivity)
    by_cases hwP : w = P
    · rw [hwP] at hn; exact Nearest.adjacent hn
    have hP53 : 2 ^ 53 ≤ (P : ℚ) := by
      by_contra hc
      have hc' : P < 2 ^ 53 := by
        have : (P : ℚ) < 2 ^ 53 := by linarith
        exact_mod_cast this
      have := Adjacent.exact (y := .num false w) ⟨rfl, hw, h⟩ (isDouble_nat (le_of_lt hc'))
      simp only [num.injEq, true_and] at this
      exact hwP this
    have hPb : 2 ^ 53 * 2 ^ k ≤ (P : ℚ) * 2 ^ k := mul_le_mul_of_nonneg_right hP53 (le_of_lt hkp)
    rcases h with ⟨h1, h2⟩ | ⟨h1, h2⟩
    · have h53 : 2 ^ 53 ≤ w := by
        by_contra hc
        have := h2 _ isDouble_53 (by linarith)
        linarith
      have hwb : 2 ^ 53 * 2 ^ k ≤ w * 2 ^ k := mul_le_mul_of_nonneg_right h53 (le_of_lt hkp)
      have hle : w * 2 ^ k ≤ P * 2 ^ k := mul_le_mul_of_nonneg_right h1 (le_of_lt hkp)
      rcases nearest_shift hw h53 hd hn with ⟨h3, rfl⟩ | ⟨rfl, h3⟩
      · refine ⟨rfl, h3, .inl ⟨by linarith, fun u hu hlt => ?_⟩⟩
        have h4 := isDouble_div hu (le_trans hwb (le_of_lt hlt))
        have h5 : w < u / 2 ^ k := by rwa [lt_div_iff₀ hkp]
        have h6 := h2 _ h4 h5
        obtain ⟨n, hn⟩ := isDouble_even h4 (by linarith)
        have h7 : P + 1 ≤ 2 * n := by
          rw [hn] at h6
          have h6' : P < 2 * n := by exact_mod_cast h6
          omega
        have h7' : (P : ℚ) + 1 ≤ u / 2 ^ k := by rw [hn]; exact_mod_cast h7
        rw [le_div_iff₀ hkp] at h7'
        linarith
      · refine ⟨rfl, fun u hu => ?_⟩
        have := isDouble_le hu
        have := topPlace_pos
        linarith
    · have h53 : 2 ^ 53 ≤ w := by linarith
      have hsmall : ∀ u, IsDouble u → u < w * 2 ^ k → u < P * 2 ^ k + d := by
        intro u hu hlt
        by_cases hu' : u < 2 ^ 53 * 2 ^ k
        · linarith
        · have h4 := isDouble_div hu (by linarith)
          have h5 : u / 2 ^ k < w := by rwa [div_lt_iff₀ hkp]
          have h6 := h2 _ h4 h5
          rw [div_lt_iff₀ hkp] at h6
          linarith
      rcases nearest_shift hw h53 hd hn with ⟨h3, rfl⟩ | ⟨rfl, h3⟩
      · refine ⟨rfl, h3, .inr ⟨?_, hsmall⟩⟩
        obtain ⟨n, hn⟩ := isDouble_even hw h53
        have h7 : P + 1 ≤ 2 * n := by
          have : P < 2 * n := by
            have : (P : ℚ) < 2 * n := by
              rw [← hn]; exact lt_of_le_of_ne h1 (Ne.symm hwP)
            exact_mod_cast this
          omega
        have h7' : (P : ℚ) + 1 ≤ w := by rw [hn]; exact_mod_cast h7
        have := mul_le_mul_of_nonneg_right h7' (le_of_lt hkp)
        linarith
      · refine ⟨rfl, fun u hu => hsmall u hu ?_⟩
        have := isDouble_le hu
        have := topPlace_pos
        linarith

theorem radixValue_adjacent {k : ℕ} {alphabet : List Char} (hk : k ≤ 53)
    (ha : ∀ {c : Char}, c ∈ alphabet →
      toDigit c (2 ^ k) = some (digitVal c) ∧ digitVal c < 2 ^ k) :
    ∀ {s : Str} {acc v : F64} {P : ℕ}, (∀ d ∈ s, d ∈ alphabet) → Adjacent P acc →
      radixValue (2 ^ k) acc s = some v →
      Adjacent ((s.foldl (fun n d => n * 2 ^ k + digitVal d) P : ℕ) : ℚ) v
  | [], acc, v, P, _, h, hv => by
    simp only [radixValue, Option.some.injEq] at hv
    subst hv
    exact h
  | c :: s, acc, v, P, hs, h, hv => by
    obtain ⟨h1, h2⟩ := ha (hs c (by simp))
    rw [radixValue, h1] at hv
    have := radixValue_adjacent hk ha (s := s) (fun d hd => hs d (by simp [hd]))
      (Adjacent.step h h2 hk rfl) hv
    simpa only [List.foldl_cons] using this

theorem evenDouble_iff {v : ℚ} (h : EvenDouble v) : ∃ (m : ℕ) (e : ℤ), m < 2 ^ 53 ∧ -1074 ≤ e ∧
    e ≤ 971 ∧ v = m * 2 ^ e ∧ m % 2 = 0 ∧ (2 ^ 52 ≤ m ∨ e = -1074) := by
  obtain ⟨m, a, b, h1, h2, h3, rfl, h4, h5⟩ := h
  refine ⟨m, (a : ℤ) - b, h1, by omega, by omega, ?_, h4, by omega⟩
  rw [zpow_sub₀ (by norm_num), zpow_natCast, zpow_natCast, mul_div_assoc]

/-- No double lies between a double and the next multiple of its last place. -/
theorem next_double {m : ℕ} {e : ℤ} (h1 : m < 2 ^ 53) (h5 : 2 ^ 52 ≤ m ∨ e = -1074) {w : ℚ}
    (hw : IsDouble w) (hlt : (m : ℚ) * 2 ^ e < w) : ((m + 1 : ℕ) : ℚ) * 2 ^ e ≤ w := by
  obtain ⟨mw, ew, w1, w2, w3, rfl⟩ := (isDouble_iff w).1 hw
  have he : e ≤ ew := by
    by_contra hc
    rcases h5 with h5 | h5
    · have h6 : (2 : ℚ) ^ ew ≤ 2 ^ (e - 1) := zpow_le_zpow_right₀ (by norm_num) (by omega)
      have he1 : (2 : ℚ) ^ (e - 1) = 2 ^ e / 2 := by
        rw [zpow_sub₀ (by norm_num)]; norm_num
      rw [he1] at h6
      have h7 : (mw : ℚ) < 2 ^ 53 := by exact_mod_cast w1
      have h8 : (2 : ℚ) ^ 52 ≤ m := by exact_mod_cast h5
      have hp := two_zpow_pos e
      have h9 : (mw : ℚ) * 2 ^ ew ≤ 2 ^ 53 * (2 ^ e / 2) :=
        mul_le_mul (le_of_lt h7) h6 (le_of_lt (two_zpow_pos ew)) (by norm_num)
      have h10 : (2 : ℚ) ^ 52 * 2 ^ e ≤ m * 2 ^ e := mul_le_mul_of_nonneg_right h8 (le_of_lt hp)
      have : (2 : ℚ) ^ 53 * (2 ^ e / 2) = 2 ^ 52 * 2 ^ e := by ring
      linarith
    · omega
  have hk : (mw : ℚ) * 2 ^ ew = (mw * 2 ^ (ew - e).toNat : ℕ) * 2 ^ e := by
    rw [Nat.cast_mul, zpow_toNat (by omega), mul_assoc, ← zpow_add₀ (by norm_num)]
    rw [show ew - e + e = ew by ring]
  rw [hk] at hlt ⊢
  have := lt_of_mul_lt_mul_right hlt (le_of_lt (two_zpow_pos e))
  have h : m < mw * 2 ^ (ew - e).toNat := by exact_mod_cast this
  refine mul_le_mul_of_nonneg_right ?_ (le_of_lt (two_zpow_pos e))
  exact_mod_cast h

theorem nearest_unique_aux {q v w : ℚ} (hv : IsDouble v) (hw : IsDouble w) (hlt : v < w)
    (h1 : ratDist q v < ratDist q w ∨ (ratDist q v = ratDist q w ∧ EvenDouble v))
    (h2 : ratDist q w < ratDist q v ∨ (ratDist q w = ratDist q v ∧ EvenDouble w))
    (h3 : ∀ u, IsDouble u → u ≠ v → ratDist q v < ratDist q u ∨
        (ratDist q v = ratDist q u ∧ EvenDouble v)) : False := by
  have hd : ratDist q v = ratDist q w := by
    rcases h1 with h1 | ⟨h1, _⟩
    · rcases h2 with h2 | ⟨h2, _⟩ <;> linarith
    · exact h1
  have ev : EvenDouble v := by
    rcases h1 with h1 | ⟨_, h1⟩
    · linarith
    · exact h1
  have ew : EvenDouble w := by
    rcases h2 with h2 | ⟨_, h2⟩
    · linarith
    · exact h2
  -- `q` is the middle
  have hq : v ≤ q ∧ q - v = w - q := by
    rw [ratDist_eq, ratDist_eq] at hd
    rcases le_total v q with a | a
    · refine ⟨a, ?_⟩
      rw [abs_of_nonneg (by linarith)] at hd
      rcases le_total q w with b | b
      · rw [abs_of_nonpos (by linarith)] at hd; linarith
      · rw [abs_of_nonneg (by linarith)] at hd; linarith
    · rw [abs_of_nonpos (by linarith), abs_of_nonpos (by linarith)] at hd
      linarith
  obtain ⟨m, e, a1, a2, a3, rfl, a4, a5⟩ := evenDouble_iff ev
  obtain ⟨n, f, b1, b2, b3, rfl, b4, b5⟩ := evenDouble_iff ew
  have hp := two_zpow_pos e
  have hnext := next_double a1 a5 hw hlt
  have hm1 : m + 1 < 2 ^ 53 := by omega
  have hu : IsDouble (((m + 1 : ℕ) : ℚ) * 2 ^ e) := (isDouble_iff _).2 ⟨m + 1, e, hm1, a2, a3, rfl⟩
  have hstep : ((m + 1 : ℕ) : ℚ) * 2 ^ e = m * 2 ^ e + 2 ^ e := by
    rw [Nat.cast_add, Nat.cast_one]; ring
  rcases lt_or_eq_of_le hnext with hn | hn
  · -- the next double is nearer
    have := h3 _ hu (by rw [hstep]; linarith)
    rw [ratDist_eq, ratDist_eq, abs_of_nonneg (by linarith)] at this
    rcases le_total q (((m + 1 : ℕ) : ℚ) * 2 ^ e) with b | b
    · rw [abs_of_nonpos (by linarith)] at this
      rcases this with t | ⟨t, _⟩ <;> linarith
    · rw [abs_of_nonneg (by linarith)] at this
      rcases this with t | ⟨t, _⟩ <;> linarith
  · -- the next double is odd
    have hef : f = e := by
      by_contra hne
      rcases lt_or_gt_of_ne hne with hlt' | hgt
      · -- `f < e`: then `n ≥ 2^52` fails or is too small
        have h6 : (2 : ℚ) ^ f ≤ 2 ^ (e - 1) := zpow_le_zpow_right₀ (by norm_num) (by omega)
        have he1 : (2 : ℚ) ^ (e - 1) = 2 ^ e / 2 := by
          rw [zpow_sub₀ (by norm_num)]; norm_num
        rw [he1] at h6
        have h7 : (n : ℚ) < 2 ^ 53 := by exact_mod_cast b1
        have h8 : (2 : ℚ) ^ 52 ≤ m := by
          rcases a5 with a5 | a5
          · exact_mod_cast a5
          · omega
        have h9 : (n : ℚ) * 2 ^ f ≤ 2 ^ 53 * (2 ^ e / 2) :=
          mul_le_mul (le_of_lt h7) h6 (le_of_lt (two_zpow_pos f)) (by norm_num)
        have h10 : (2 : ℚ) ^ 52 * 2 ^ e ≤ m * 2 ^ e := mul_le_mul_of_nonneg_right h8 (le_of_lt hp)
        have : (2 : ℚ) ^ 53 * (2 ^ e / 2) = 2 ^ 52 * 2 ^ e := by ring
        linarith
      · have hk : (n : ℚ) * 2 ^ f = (n * 2 ^ (f - e).toNat : ℕ) * 2 ^ e := by
          rw [Nat.cast_mul, zpow_toNat (by omega), mul_assoc, ← zpow_add₀ (by norm_num)]
          rw [show f - e + e = f by ring]
        rw [hk] at hn
        have := mul_right_cancel₀ (ne_of_gt hp) hn
        have h : m + 1 = n * 2 ^ (f - e).toNat := by exact_mod_cast this
        obtain ⟨j, hj⟩ : ∃ j, (f - e).toNat = j + 1 := ⟨(f - e).toNat - 1, by omega⟩
        rw [hj, Nat.pow_succ, ← Nat.mul_assoc] at h
        omega
    rw [hef] at hn
    have := mul_right_cancel₀ (ne_of_gt hp) hn
    have h : m + 1 = n := by exact_mod_cast this
    omega

/-- There is only one nearest double. -/
theorem Nearest.unique {q : ℚ} {x y : F64} (hx : Nearest q x) (hy : Nearest q y) : x = y := by
  match x, hx, y, hy with
  | .num a v, ⟨a1, a2, a3, a4⟩, .num b w, ⟨b1, b2, b3, b4⟩ =>
    subst a1; subst b1
    by_cases h : v = w
    · rw [h]
    · exfalso
      have h1 := a4 w b3 (Ne.symm h)
      have h2 := b4 v a3 h
      rcases lt_or_gt_of_ne h with hlt | hlt
      · exact nearest_unique_aux a3 b3 hlt h1 h2 a4
      · exact nearest_unique_aux b3 a3 hlt h2 h1 b4
  | .num a v, ⟨a1, a2, a3, a4⟩, .inf b, ⟨b1, b2⟩ => exact absurd a2 (by linarith)
  | .inf b, ⟨b1, b2⟩, .num a v, ⟨a1, a2, a3, a4⟩ => exact absurd a2 (by linarith)
  | .inf a, ⟨a1, _⟩, .inf b, ⟨b1, _⟩ => rw [a1, b1]

theorem adjacent_zero : Adjacent ((0 : ℕ) : ℚ) (.num false 0) :=
  ⟨rfl, by simpa using isDouble_nat (n := 0) (by omega), .inl ⟨by simp, fun w _ h => by simpa using h⟩⟩

end F64

end Esprit
