import Verif.Spec.Reader

/-! Lemmas about the character reader. -/

namespace Esprit

open ReaderSpec

/-- The buffered reader `b` is at the flat cursor `r`. -/
def BufReader.At (b : BufReader) (r : Reader) : Prop :=
  b.ahead ++ b.chars = r.rest ∧ b.currPosn = r.posn

theorem BufReader.fill_spec (k : Nat) : ∀ (b : BufReader),
    (b.fill k).2.ahead ++ (b.fill k).2.chars = b.ahead ++ b.chars ∧
    (b.fill k).2.currPosn = b.currPosn ∧
    ((b.fill k).1 = true → (b.fill k).2.ahead.length = b.ahead.length + k) ∧
    ((b.fill k).1 = false → (b.ahead ++ b.chars).length < b.ahead.length + k) := by
  induction k with
  | zero => intro b; simp [BufReader.fill]
  | succ k ih =>
    intro b
    rcases b with ⟨chars, ahead, p⟩
    cases chars with
    | nil => simp [BufReader.fill]
    | cons c cs =>
      have := ih ⟨cs, ahead ++ [c], p⟩
      simp only [BufReader.fill, List.append_assoc, List.singleton_append, List.length_append,
        List.length_cons, List.length_nil] at this ⊢
      refine ⟨this.1, this.2.1, fun h => ?_, fun h => ?_⟩
      · have := this.2.2.1 h; omega
      · have := this.2.2.2 h; omega

theorem BufReader.peek_spec (b : BufReader) (n : Nat) :
    (b.peek n).1 = (b.ahead ++ b.chars)[n]? ∧
    (b.peek n).2.ahead ++ (b.peek n).2.chars = b.ahead ++ b.chars ∧
    (b.peek n).2.currPosn = b.currPosn := by
  have h := BufReader.fill_spec (n + 1 - b.ahead.length) b
  unfold BufReader.peek
  generalize hf : b.fill (n + 1 - b.ahead.length) = f at h
  obtain ⟨ok, b'⟩ := f
  simp only at h
  obtain ⟨h1, h2, h3, h4⟩ := h
  cases ok with
  | true =>
    refine ⟨?_, h1, h2⟩
    have := h3 rfl
    simp only
    rw [← h1, List.getElem?_append_left (by omega)]
  | false =>
    refine ⟨?_, h1, h2⟩
    have := h4 rfl
    simp only
    rw [List.getElem?_eq_none (by simp only [List.length_append] at this ⊢; omega)]

theorem BufReader.pop_spec (b : BufReader) :
    (b.pop).1 = (b.ahead ++ b.chars).head? ∧
    (b.pop).2.ahead ++ (b.pop).2.chars = (b.ahead ++ b.chars).tail ∧
    (b.pop).2.currPosn = b.currPosn := by
  rcases b with ⟨chars, ahead, p⟩
  cases ahead <;> cases chars <;> simp [BufReader.pop]

theorem BufReader.next_spec (b : BufReader) :
    (b.next).1 = (b.ahead ++ b.chars).head? ∧
    (b.next).2.ahead ++ (b.next).2.chars = (b.ahead ++ b.chars).tail ∧
    (∀ c cs, b.ahead ++ b.chars = c :: cs → (b.next).2.currPosn = b.currPosn.step c cs) := by
  have hp := BufReader.pop_spec b
  generalize hq : b.pop = q at hp
  obtain ⟨c, b1⟩ := q
  simp only at hp
  obtain ⟨h1, h2, h3⟩ := hp
  have hk := BufReader.peek_spec b1 0
  unfold BufReader.next
  simp only [hq]
  by_cases hr : c = some '\r'
  · simp only [hr, if_true]
    refine ⟨by rw [← h1, hr], by rw [hk.2.1, h2], fun d ds hd => ?_⟩
    rw [hd] at h1 h2
    simp only [List.head?_cons, List.tail_cons] at h1 h2
    rw [hr] at h1
    cases h1
    simp only [hk.2.2, hk.1, h2, h3, Posn.step, ← List.head?_eq_getElem?]
    by_cases hn : ds.head? = some '\n' <;> simp [hn]
  · simp only [hr, if_false]
    refine ⟨h1, h2, fun d ds hd => ?_⟩
    rw [hd] at h1
    simp only [List.head?_cons] at h1
    cases h1
    have hr' : d ≠ '\r' := fun e => hr (by rw [e])
    simp only [h3, Posn.step, hr']
    simp only [Bool.false_eq_true, false_or, false_and, Option.some.injEq]
    split <;> rfl

theorem BufReader.At.peek {b : BufReader} {r : Reader} (h : b.At r) (n : Nat) :
    (b.peek n).1 = r.peek n ∧ (b.peek n).2.At r := by
  have := BufReader.peek_spec b n
  refine ⟨by rw [this.1, h.1]; rfl, by rw [this.2.1, h.1], by rw [this.2.2, h.2]⟩

theorem BufReader.At.next {b : BufReader} {r r' : Reader} {c : Char} (h : b.At r)
    (hn : r.next? = some (c, r')) : (b.next).1 = some c ∧ (b.next).2.At r' := by
  have := BufReader.next_spec b
  rcases r with ⟨rest, p⟩
  cases rest with
  | nil => simp [Reader.next?] at hn
  | cons d ds =>
    simp only [Reader.next?, Option.some.injEq, Prod.mk.injEq] at hn
    obtain ⟨rfl, rfl⟩ := hn
    have h1 := h.1
    simp only at h1
    refine ⟨by rw [this.1, h1]; rfl, by rw [this.2.1, h1]; rfl, ?_⟩
    rw [this.2.2 _ _ h1, h.2]

theorem BufReader.At.next_none {b : BufReader} {r : Reader} (h : b.At r)
    (hn : r.next? = none) : (b.next).1 = none := by
  have := BufReader.next_spec b
  rcases r with ⟨rest, p⟩
  cases rest with
  | nil => rw [this.1, h.1]; rfl
  | cons d ds => simp [Reader.next?] at hn

theorem BufReader.run_results (s : Str) : ∀ (ops : List ReaderOp) (k : Nat) (b : BufReader),
    b.ahead ++ b.chars = s.drop k → (b.run ops).1 = results s k ops ∧
      (b.run ops).2.ahead ++ (b.run ops).2.chars = s.drop (k + reads ops)
  | [], k, b, h => by simp [BufReader.run, results, reads, h]
  | .peek n :: ops, k, b, h => by
    have hp := BufReader.peek_spec b n
    have ih := BufReader.run_results s ops k (b.peek n).2 (by rw [hp.2.1, h])
    simp only [BufReader.run, results, reads]
    refine ⟨?_, ih.2⟩
    rw [hp.1, h, ih.1]
    simp
  | .read :: ops, k, b, h => by
    have hp := BufReader.next_spec b
    have ih := BufReader.run_results s ops (k + 1) (b.next).2 (by rw [hp.2.1, h]; simp)
    simp only [BufReader.run, results, reads]
    refine ⟨?_, ?_⟩
    · rw [hp.1, h, ih.1]; simp
    · rw [ih.2]; congr 1; omega

/-- Position after the first `k` characters of `s`, by stepping. -/
def posnFrom : Posn → Str → Nat → Posn
  | p, _, 0 => p
  | p, [], _ + 1 => p
  | p, c :: cs, k + 1 => posnFrom (p.step c cs) cs k

theorem posnFrom_succ : ∀ (k : Nat) (p : Posn) (s : Str) (c : Char) (cs : Str), s.drop k = c :: cs →
    posnFrom p s (k + 1) = (posnFrom p s k).step c cs
  | 0, p, s, c, cs, h => by
    simp only [List.drop_zero] at h
    subst h
    simp [posnFrom]
  | k + 1, p, [], c, cs, h => by simp at h
  | k + 1, p, d :: ds, c, cs, h => by
    simp only [List.drop_succ_cons] at h
    simp only [posnFrom]
    exact posnFrom_succ k _ ds c cs h

theorem ReaderSpec.PosnAt.origin (s : Str) : PosnAt s 0 Posn.origin :=
  ⟨rfl, rfl, 0, Nat.le_refl _, rfl, Or.inl rfl, fun _ _ h => absurd h (by omega)⟩

theorem endsLine_iff {s : Str} {k : Nat} {c : Char} {cs : Str} (h : s.drop k = c :: cs) :
    endsLine s k = true ↔
      ((c = '\r' ∧ cs.head? ≠ some '\n') ∨ c = '\n' ∨ c = '\u2028' ∨ c = '\u2029') := by
  have h1 : s[k]? = some c := by
    have : (s.drop k)[0]? = some c := by rw [h]; rfl
    simpa using this
  have h2 : s[k + 1]? = cs.head? := by
    have : (s.drop k)[1]? = cs.head? := by rw [h]; cases cs <;> rfl
    simpa using this
  simp only [endsLine, h1, h2]
  by_cases h3 : c = '\r' <;> simp [h3, or_assoc]

theorem ReaderSpec.PosnAt.step {s : Str} {k : Nat} {p : Posn} {c : Char} {cs : Str} (hp : PosnAt s k p)
    (h : s.drop k = c :: cs) : PosnAt s (k + 1) (p.step c cs) := by
  have he := endsLine_iff h
  obtain ⟨ho, hl, j, hj, hc, hj1, hj2⟩ := hp
  unfold Posn.step
  split
  · rename_i hx
    have hx := he.2 hx
    refine ⟨by simp [ho], ?_, k + 1, Nat.le_refl _, by simp, Or.inr (by simpa using hx), ?_⟩
    · simp [List.range_succ, hx, hl]
    · intro i h1 h2; omega
  · rename_i hx
    have hx : endsLine s k = false := by
      cases hq : endsLine s k with
      | false => rfl
      | true => exact absurd (he.1 hq) hx
    refine ⟨by simp [ho], ?_, j, by omega, ?_, hj1, ?_⟩
    · simp [List.range_succ, hx, hl]
    · simp only [hc]; omega
    · intro i h1 h2
      by_cases hi : i = k
      · rw [hi]; exact hx
      · exact hj2 i h1 (by omega)

theorem ReaderSpec.PosnAt.unique {s : Str} {k : Nat} {p q : Posn} (hp : PosnAt s k p) (hq : PosnAt s k q) :
    p = q := by
  obtain ⟨a1, a2, j, a3, a4, a5, a6⟩ := hp
  obtain ⟨b1, b2, i, b3, b4, b5, b6⟩ := hq
  have : i = j := by
    rcases Nat.lt_trichotomy i j with h | h | h
    · rcases a5 with rfl | a5
      · omega
      · have := b6 (j - 1) (by omega) (by omega); rw [this] at a5; cases a5
    · exact h
    · rcases b5 with rfl | b5
      · omega
      · have := a6 (i - 1) (by omega) (by omega); rw [this] at b5; cases b5
  subst this
  cases p; cases q
  simp_all

theorem posnFrom_spec (s : Str) : ∀ k, k ≤ s.length → PosnAt s k (posnFrom Posn.origin s k)
  | 0, _ => by simpa [posnFrom] using PosnAt.origin s
  | k + 1, h => by
    have ih := posnFrom_spec s k (by omega)
    cases hd : s.drop k with
    | nil => simp at hd; omega
    | cons c cs =>
      rw [posnFrom_succ k _ s c cs hd]
      exact ih.step hd

theorem BufReader.run_posn (s : Str) : ∀ (ops : List ReaderOp) (k : Nat) (b : BufReader),
    b.ahead ++ b.chars = s.drop k → PosnAt s k b.currPosn → k + reads ops ≤ s.length →
      PosnAt s (k + reads ops) (b.run ops).2.currPosn
  | [], k, b, _, h, _ => by simpa [BufReader.run, reads] using h
  | .peek n :: ops, k, b, h, hp, hk => by
    have hs := BufReader.peek_spec b n
    exact BufReader.run_posn s ops k (b.peek n).2 (by rw [hs.2.1, h]) (by rw [hs.2.2]; exact hp) hk
  | .read :: ops, k, b, h, hp, hk => by
    have hs := BufReader.next_spec b
    simp only [reads] at hk
    cases hd : s.drop k with
    | nil => simp at hd; omega
    | cons c cs =>
      have := BufReader.run_posn s ops (k + 1) (b.next).2 (by rw [hs.2.1, h]; simp)
        (by rw [hs.2.2 c cs (by rw [h, hd])]; exact hp.step hd) (by omega)
      simp only [BufReader.run, reads]
      rw [show k + (reads ops + 1) = k + 1 + reads ops by omega]
      exact this

end Esprit
