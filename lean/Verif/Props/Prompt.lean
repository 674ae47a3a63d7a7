import Verif.Proofs.Parser.LayoutKnot
import Verif.Proofs.LayoutSep
import Verif.Props.Blame
import Verif.Proofs.Parser.Locations
import Verif.Spec.Prompt

/-!
Promptness: C66.  The parser reports an error as soon as it has read the tokens that show it.
-/

namespace Esprit

open Lex ReaderSpec

section Theorems

variable [Env] [LawfulEnv]

omit [LawfulEnv] in
private theorem stops {α : Type} {s : Str} {ops : List Bool} {e : PError} {st mo : Bool}
    (h : Reads True s ops (.err e : Res PError α)) (hb : e.Blames s st mo) : StopsAt s ops e := by
  rcases h with ⟨ts, l, h1, h2⟩ | ⟨le, op, ops', h1, h2, h3, ts, l, h4⟩
  · refine .inl ⟨ts, l, h1, ?_⟩
    have h2 := h2 trivial
    cases e <;> first
      | exact h2
      | exact h2.elim
      | (obtain ⟨t, _, _, h3⟩ := hb
         obtain ⟨t', h4, h5⟩ := h2 _ h3
         exact ⟨t', h4, by rw [h5]; exact h3⟩)
  · exact .inr ⟨le, op, ops', ts, l, h1, h2, h4, h3⟩

omit [Env] [LawfulEnv] in
private theorem same_err {α : Type} {blur : α → α} {e : PError} {x : Res PError α}
    (h : SameOutcome blur (.err e) x) : ∃ e', x = .err e' ∧ e'.blur = e.blur := by
  cases x <;> first | exact (h : False).elim | exact ⟨_, rfl, h.symm⟩

/-- C66: an error of `script` is reported as soon as the tokens that show it have been read.  There
are lexer modes `ops` such that the tokens read in these modes end with the one that the error is
about (at most one more is looked at), and every source that has the same tokens in these modes,
whatever follows them, makes `script` fail with the same error up to positions. -/
theorem C66_script (s : Str) (e : PError) (h : script s = .err e) : ∃ ops, StopsAt s ops e ∧
    ∀ s', SameTokens ops s s' → ∃ e', script s' = .err e' ∧ e'.blur = e.blur := by
  letI : Prompt := ⟨True⟩
  obtain ⟨ops, h1, h2⟩ := reads_outcome (p := fun r => P.parseScript r false)
    (fun hr => lay_parseScript _ hr) (fun hr => le_parseScript _ hr)
    (fun s => (C23_terminates s).1) s
  rw [show outcome (P.parseScript (P.recOf (recFuel s)) false (.fromChars s)) = .err e from h] at h1 h2
  exact ⟨ops, stops h1 (C52_script s e h), fun s' hs => same_err (h2 s' hs)⟩

/-- C66 for `strict`. -/
theorem C66_strict (s : Str) (e : PError) (h : strict s = .err e) : ∃ ops, StopsAt s ops e ∧
    ∀ s', SameTokens ops s s' → ∃ e', strict s' = .err e' ∧ e'.blur = e.blur := by
  letI : Prompt := ⟨True⟩
  obtain ⟨ops, h1, h2⟩ := reads_outcome (p := fun r => P.parseScript r true)
    (fun hr => lay_parseScript _ hr) (fun hr => le_parseScript _ hr)
    (fun s => (C23_terminates s).2.1) s
  rw [show outcome (P.parseScript (P.recOf (recFuel s)) true (.fromChars s)) = .err e from h] at h1 h2
  exact ⟨ops, stops h1 (C52_strict s e h), fun s' hs => same_err (h2 s' hs)⟩

/-- C66 for `module`. -/
theorem C66_module (s : Str) (e : PError) (h : parseModule s = .err e) : ∃ ops, StopsAt s ops e ∧
    ∀ s', SameTokens ops s s' → ∃ e', parseModule s' = .err e' ∧ e'.blur = e.blur := by
  letI : Prompt := ⟨True⟩
  obtain ⟨ops, h1, h2⟩ := reads_outcome (p := P.parseModule) (fun hr => lay_parseModule hr)
    (fun hr => le_parseModule hr) (fun s => (C23_terminates s).2.2.1) s
  rw [show outcome (P.parseModule (P.recOf (recFuel s)) (.fromChars s)) = .err e from h] at h1 h2
  exact ⟨ops, stops h1 (C52_module s e h), fun s' hs => same_err (h2 s' hs)⟩

/-- The tokens of a text do not change if what comes after them is replaced. -/
theorem sameTokens_after {s : Str} {ops : List Bool} {ts : List Token} {l : Lexer}
    (h : readTokens s ops = .ok (ts, l)) (heof : ∀ t ∈ ts, t.value ≠ .eof) {c : Char} (z : Str)
    (hc : c ∈ whiteSpace ∨ c ∈ lineTerminators) :
    SameTokens ops s (s.take (prevEnd ts ts.length) ++ c :: z) := by
  obtain ⟨h1, _⟩ := readTokens_at h
  have hsep : SepHead c := hc.elim .inl fun h => .inr (.inl h)
  have hne : c ≠ '/' ∧ c ≠ '<' := by
    have : ∀ d ∈ whiteSpace ++ lineTerminators, d ≠ '/' ∧ d ≠ '<' := by decide +kernel
    exact this c (by rcases hc with h | h <;> simp [h])
  obtain ⟨a, ha, hl, _⟩ := h1.lexes.change (c := c) (z' := z) hsep (fun p hp => by
    obtain ⟨t, ht, rfl⟩ := List.mem_map.1 hp
    exact heof t ht) fun p _ => ⟨fun _ => hne.1, fun _ => hne.2⟩
  have hk : s.take (prevEnd ts ts.length) = a := by
    have hb := (h1.bounded (Nat.zero_le _)).2
    have ha : s = a ++ s.drop (prevEnd ts ts.length) := ha
    have hla := congrArg List.length ha
    rw [List.length_append, List.length_drop] at hla
    have : a.length = prevEnd ts ts.length := by omega
    rw [← this]
    conv => lhs; rw [ha, this]
    rw [← this, List.take_left]
  rw [hk]
  obtain ⟨ts', k', b1, b2, _⟩ := hl.tokens (s := a ++ c :: z) (k := 0) (Nat.zero_le _) rfl
  obtain ⟨l', b4⟩ := readAll_complete b1 (Lexer.At.new _) rfl
  have b4 : readTokens (a ++ c :: z) ops = .ok (ts', l') := b4
  intro i
  obtain ⟨l1, c1⟩ := readTokens_take h i
  obtain ⟨l2, c2⟩ := readTokens_take b4 i
  rw [c1, c2]
  exact blur_of_flags (by rw [List.map_take, List.map_take, b2])

private theorem hopeless {α : Type} {f : Str → Res PError α} {s : Str} {ops : List Bool} {e : PError}
    (hl : ∀ le, e ≠ .lexError le) (h : StopsAt s ops e)
    (hs : ∀ s', SameTokens ops s s' → ∃ e', f s' = .err e' ∧ e'.blur = e.blur) :
    ∃ ts l, readTokens s ops = .ok (ts, l) ∧ e.At ts ∧
      ((∀ t ∈ ts, t.value ≠ .eof) → Hopeless f (s.take (prevEnd ts ts.length)) e) := by
  rcases h with ⟨ts, l, h1, h2⟩ | ⟨le, _, _, _, _, h1, _⟩
  · exact ⟨ts, l, h1, h2, fun h3 c z hc => hs _ (sameTokens_after h1 h3 z hc)⟩
  · exact (hl le h1).elim

/-- C66: the text up to the point where an error of `script` is noticed cannot be continued.  The
tokens read from it end with the one that the error is about; and unless the end of the source is
among them, every source that begins like this, up to the end of the last of these tokens and with
white space behind it, makes `script` fail with the same error up to positions. -/
theorem C66_script_prefix (s : Str) (e : PError) (h : script s = .err e)
    (hl : ∀ le, e ≠ .lexError le) : ∃ ops ts l, readTokens s ops = .ok (ts, l) ∧ e.At ts ∧
      ((∀ t ∈ ts, t.value ≠ .eof) → Hopeless script (s.take (prevEnd ts ts.length)) e) := by
  obtain ⟨ops, h1, h2⟩ := C66_script s e h
  exact ⟨ops, hopeless hl h1 h2⟩

/-- C66: the text before an error of `strict` cannot be continued. -/
theorem C66_strict_prefix (s : Str) (e : PError) (h : strict s = .err e)
    (hl : ∀ le, e ≠ .lexError le) : ∃ ops ts l, readTokens s ops = .ok (ts, l) ∧ e.At ts ∧
      ((∀ t ∈ ts, t.value ≠ .eof) → Hopeless strict (s.take (prevEnd ts ts.length)) e) := by
  obtain ⟨ops, h1, h2⟩ := C66_strict s e h
  exact ⟨ops, hopeless hl h1 h2⟩

/-- C66: the text before an error of `module` cannot be continued. -/
theorem C66_module_prefix (s : Str) (e : PError) (h : parseModule s = .err e)
    (hl : ∀ le, e ≠ .lexError le) : ∃ ops ts l, readTokens s ops = .ok (ts, l) ∧ e.At ts ∧
      ((∀ t ∈ ts, t.value ≠ .eof) → Hopeless parseModule (s.take (prevEnd ts ts.length)) e) := by
  obtain ⟨ops, h1, h2⟩ := C66_module s e h
  exact ⟨ops, hopeless hl h1 h2⟩

end Theorems

section Examples

local instance promptEnv : Env := asciiEnv true
local instance promptEnvLawful : LawfulEnv := asciiEnv_lawful true

/-- An error in the middle of a source: `)` where an expression should begin. -/
example : (match script c!"a = b + ) ; x" with
    | .err (.unexpectedToken t) => decide (t = ⟨⟨⟨8, 0, 8⟩, ⟨9, 0, 9⟩⟩, false, .rParen⟩)
    | _ => false) = true := by
  decide +kernel

/-- The parser has read the tokens up to this one. -/
example : StopsAt c!"a = b + ) ; x" [false, true, false, true, false]
    (.unexpectedToken ⟨⟨⟨8, 0, 8⟩, ⟨9, 0, 9⟩⟩, false, .rParen⟩) := by
  refine .inl ⟨_, _, rfl, ?_⟩
  show _ ∈ lastTwo _
  decide +kernel

/-- So nothing that begins with `a = b + )` is a program. -/
example : (match script c!"a = b + ) + (2" with
    | .err (.unexpectedToken t) => decide (t = ⟨⟨⟨8, 0, 8⟩, ⟨9, 0, 9⟩⟩, false, .rParen⟩)
    | _ => false) = true := by
  decide +kernel

/-- A label that does not exist: the error is about the last but one of the tokens read. -/
example : (match script c!"while (a) break b ;" with
    | .err (.invalidLabel i) => decide (i = ⟨some ⟨⟨16, 0, 16⟩, ⟨17, 0, 17⟩⟩, .string c!"b"⟩)
    | _ => false) = true := by
  decide +kernel

/-- An error of the lexer. -/
example : (match script c!"a = #" with
    | .err (.lexError e) => decide (e = .illegalChar '#')
    | _ => false) = true := by
  decide +kernel

private def lateSource : Str := c!"yield;;import"

private def lateSpan : Span := ⟨⟨0, 0, 0⟩, ⟨5, 0, 5⟩⟩

private theorem sameRead {x y : Res LexError (List Token × Lexer)}
    (h : x.map (·.1.map Token.blur) = y.map (·.1.map Token.blur)) (hx : x ≠ .fuel) :
    SameRead x y := by
  cases x <;> cases y <;> simp_all [Res.map, SameRead]

private theorem sameTokens {ops : List Bool} {s s' : Str}
    (h : ∀ i ∈ List.range (ops.length + 1), (readTokens s (ops.take i)).map (·.1.map Token.blur) =
      (readTokens s' (ops.take i)).map (·.1.map Token.blur)) : SameTokens ops s s' := by
  intro i
  rcases Nat.le_total i ops.length with hi | hi
  · exact sameRead (h i (by simp; omega)) (readTokens_no_fuel _ _)
  · have := h ops.length (by simp)
    rw [List.take_of_length_le hi, List.take_of_length_le (Nat.le_refl _)] at *
    exact sameRead this (readTokens_no_fuel _ _)

/-- C66 does not hold for `program`, by design: it finds out that a source is a module when it comes
to an `import` or `export`, and only then reports the words that are reserved in modules. -/
theorem C66_program_fails : program lateSource = .err (.contextualKeyword lateSpan .yield) ∧
    ¬ ∃ ops, StopsAt lateSource ops (.contextualKeyword lateSpan .yield) ∧
      ∀ s', SameTokens ops lateSource s' → ∃ e', program s' = .err e' := by
  constructor
  · have : (match program lateSource with
      | .err (.contextualKeyword l a) => decide (l = lateSpan ∧ a = .yield) | _ => false) = true := by
      decide +kernel
    split at this
    · rename_i h
      obtain ⟨rfl, rfl⟩ := of_decide_eq_true this
      exact h
    · cases this
  · rintro ⟨ops, h1, h2⟩
    rcases h1 with ⟨ts, l, h1, t, ht, hl⟩ | ⟨_, _, _, _, _, h1, _⟩
    · have hlen := (readTokens_at h1).2.2.2
      match ops, hlen with
      | [], hlen =>
        rw [List.eq_nil_of_length_eq_zero hlen.symm] at ht
        cases ht
      | [a], _ =>
        obtain ⟨e', he⟩ := h2 c!"yield" (sameTokens (by cases a <;> decide +kernel))
        have : (match program c!"yield" with | .err _ => true | _ => false) = false := by decide +kernel
        rw [he] at this
        cases this
      | [a, b], _ =>
        obtain ⟨e', he⟩ := h2 c!"yield;" (sameTokens (by cases a <;> cases b <;> decide +kernel))
        have : (match program c!"yield;" with | .err _ => true | _ => false) = false := by decide +kernel
        rw [he] at this
        cases this
      | a :: b :: c :: ops, hlen =>
        match ts, hlen with
        | t0 :: t1 :: t2 :: ts, _ =>
          obtain ⟨l1, h3⟩ := readTokens_take h1 1
          have h4 : (readTokens lateSource [a]).map (·.1.map (·.location.end.offset)) = .ok [5] := by
            cases a <;> decide +kernel
          rw [show readTokens lateSource [a] = .ok ([t0], l1) from h3] at h4
          injection h4 with h4
          injection h4 with h4 _
          have hmem : t ∈ t1 :: t2 :: ts := by
            rw [lastTwo, show (t0 :: t1 :: t2 :: ts).length - 2 = ts.length + 1 by simp] at ht
            exact List.mem_of_mem_drop ht
          cases ((readTokens_at h1).1.ordered (Nat.zero_le _)).1 with
          | cons _ h5 _ =>
            have h6 := h5 t hmem
            rw [hl, show t0.location.end.offset = 5 from h4] at h6
            exact absurd h6 (by decide +kernel)
    · cases h1

end Examples

end Esprit
