import Verif.Proofs.Reader

/-! Properties of the character reader: C01, C02. -/

namespace Esprit

open ReaderSpec

/-- C01.  For every input and every sequence of peeks and reads, the calls
return what indexing into the input gives: no character is lost, duplicated or
reordered, and `peek n` foretells the `n+1`-th following read. -/
theorem C01_lookahead_transparent (s : Str) (ops : List ReaderOp) :
    ((BufReader.new s).run ops).1 = results s 0 ops :=
  (BufReader.run_results s ops 0 (BufReader.new s) (by simp [BufReader.new])).1

/-- C01, second reading: a peek at `n` followed by `n + 1` reads, after any
earlier calls: the last read returns what the peek returned. -/
theorem C01_peek_foretells_read (s : Str) (before : List ReaderOp) (n : Nat) :
    let out := ((BufReader.new s).run (before ++ .peek n :: List.replicate (n + 1) .read)).1
    out[before.length]? = out[before.length + n + 1]? := by
  have key : ∀ (ops : List ReaderOp) (k : Nat) (tl : List ReaderOp),
      (results s k (ops ++ tl)).drop ops.length = results s (k + reads ops) tl := by
    intro ops
    induction ops with
    | nil => intro k tl; simp [reads]
    | cons o ops ih =>
      intro k tl
      cases o with
      | peek m => simpa [results, reads] using ih k tl
      | read =>
        simp only [List.cons_append, results, List.length_cons, List.drop_succ_cons, reads, ih]
        congr 1; omega
  have rep : ∀ (m k : Nat), (results s k (List.replicate (m + 1) .read))[m]? = some s[k + m]? := by
    intro m
    induction m with
    | zero => intro k; rfl
    | succ m ih =>
      intro k
      rw [List.replicate_succ]
      simp only [results, List.getElem?_cons_succ, ih]
      congr 2; omega
  have get : ∀ (l : List (Option Char)) (i j : Nat), l[i + j]? = (l.drop i)[j]? := by
    intro l i j; simp
  simp only [C01_lookahead_transparent]
  rw [show before.length = before.length + 0 from rfl, get, Nat.add_assoc, Nat.add_assoc, get, key]
  simp only [results]
  rw [show 0 + (n + 1) = n + 1 by omega, List.getElem?_cons_succ, rep]
  rfl

/-- The calls of C01 are not trivial: lookahead past the end and a CR LF. -/
example : ((BufReader.new c!"a\r\nb").run [.peek 2, .read, .peek 3, .read, .read, .read, .read]).1
    = [some '\n', some 'a', none, some '\r', some '\n', some 'b', none] := by decide

/-- C02.  After any sequence of calls with `k` reads, `k` at most the length of
the input, the position is that of the first `k` characters: the offset counts
characters, the line counts completed line terminators (CR LF once), the column
counts characters since the last one. -/
theorem C02_positions_exact (s : Str) (ops : List ReaderOp) (h : reads ops ≤ s.length) :
    PosnAt s (reads ops) ((BufReader.new s).run ops).2.currPosn := by
  have := BufReader.run_posn s ops 0 (BufReader.new s) (by simp [BufReader.new])
    (PosnAt.origin s) (by omega)
  simpa using this

/-- C02: the specification determines the position. -/
theorem C02_position_unique (s : Str) (k : Nat) (p q : Posn) (hp : PosnAt s k p)
    (hq : PosnAt s k q) : p = q := hp.unique hq

/-- A case of C02 with a CR LF, an LS and peeks in between. -/
example : reads [.read, .peek 1, .read, .read, .read] ≤ (c!"a\r\nb\u2028c").length ∧
    ((BufReader.new c!"a\r\nb\u2028c").run [.read, .peek 1, .read, .read, .read]).2.currPosn
      = ⟨4, 1, 1⟩ := by decide

/-- The flat cursor used by the lexer model is a faithful abstraction of the
reader as written: every operation gives the same result and keeps the two in
step. -/
theorem reader_refinement (b : BufReader) (r : Reader) (h : b.At r) :
    (∀ n, (b.peek n).1 = r.peek n ∧ (b.peek n).2.At r) ∧
    (∀ c r', r.next? = some (c, r') → (b.next).1 = some c ∧ (b.next).2.At r') ∧
    (r.next? = none → (b.next).1 = none) :=
  ⟨fun n => h.peek n, fun _ _ hn => h.next hn, h.next_none⟩

example : (BufReader.new c!"ab").At (Reader.new c!"ab") := ⟨rfl, rfl⟩

end Esprit
