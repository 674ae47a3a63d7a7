import Verif.Proofs.Text
import Verif.Props.Source

/-! C57: the texts of errors and locations. -/

namespace Esprit

open ReaderSpec

/-- The text of an error tells its kind, whatever it is wrapped in, and nothing else. -/
theorem C57_error_text (a b : PError) : a.display = b.display ↔ a.kind = b.kind := by
  unfold PError.display
  rw [a.description_eq, b.description_eq]
  exact ⟨ErrorKind.text_injective, congrArg _⟩

/-- The cause of an error is the error of the lexer or of the conversion to patterns
that it wraps; it has no cause itself, and gives the error its text and kind. -/
theorem C57_error_cause (e : PError) :
    (∀ x, e.cause = some (.lex x) ↔ e = .lexError x) ∧
    (∀ x, e.cause = some (.cover x) ↔ ∃ l, e = .invalidLHS l x) ∧
    (∀ c, e.cause = some c → c.cause = none ∧ e.display = c.description) := by
  refine ⟨fun x => ?_, fun x => ?_, fun c h => ⟨rfl, ?_⟩⟩
  · cases e <;> simp [PError.cause]
  · cases e <;> simp [PError.cause]
  · cases e <;> simp only [PError.cause, reduceCtorEq, Option.some.injEq] at h <;>
      (subst h; rfl)

private theorem prefix_inj {a b x y : Str} {c : Char} (ha : c ∉ a) (hb : c ∉ b)
    (h : a ++ c :: x = b ++ c :: y) : a = b ∧ x = y := by
  induction a generalizing b with
  | nil =>
    cases b with
    | nil => exact ⟨rfl, (List.cons.inj h).2⟩
    | cons e b => injection h with h1 h2; subst h1; exact absurd List.mem_cons_self hb
  | cons e a ih =>
    cases b with
    | nil => injection h with h1 h2; subst h1; exact absurd List.mem_cons_self ha
    | cons f b =>
      injection h with h1 h2
      subst h1
      obtain ⟨rfl, h⟩ := ih (fun h => ha (List.mem_cons_of_mem _ h))
        (fun h => hb (List.mem_cons_of_mem _ h)) h2
      exact ⟨rfl, h⟩

private theorem kind_colon (k : ErrorKind) : ':' ∉ k.text := by cases k <;> decide +kernel

/-- The text of the detail. -/
private def detailText [DebugChar] : Detail → Str
  | .none => []
  | .char c => c!" " ++ DebugChar.text c
  | .unit n => c!" \\u{" ++ hex4 n ++ c!"}"
  | .word r => c!" " ++ r.debug

private theorem display_eq [DebugChar] (e : LexError) :
    e.display = e.kind.text ++ if e.detail = .none then [] else ':' :: detailText e.detail := by
  cases e <;> simp [LexError.display, LexError.detail, LexError.kind, LexError.description,
    ErrorKind.text, detailText]

private theorem reserved_debug {a b : Reserved} (h : a.debug = b.debug) : a = b := by
  have : ∀ r : Reserved, (match (Lex.reservedWords.find? fun p => p.2.debug = r.debug) with
      | some p => decide (p.2 = r) | none => false) = true := by
    intro r; cases r <;> decide +kernel
  have h1 := this a
  have h2 := this b
  rw [h] at h1
  split at h1
  · rename_i p hp
    rw [hp] at h2
    exact (of_decide_eq_true h1).symm.trans (of_decide_eq_true h2)
  · cases h1

/-- The text of an error of the lexer tells its kind and the character, code unit or
reserved word that it is about, if it shows one. -/
theorem C57_lexer_text [DebugChar] (a b : LexError) :
    a.display = b.display ↔ a.kind = b.kind ∧ a.detail = b.detail := by
  constructor
  · intro h
    rw [display_eq, display_eq] at h
    have hk : a.kind = b.kind ∧ detailText a.detail = detailText b.detail := by
      by_cases h1 : a.detail = .none <;> by_cases h2 : b.detail = .none
      · rw [if_pos h1, if_pos h2, List.append_nil, List.append_nil] at h
        exact ⟨ErrorKind.text_injective h, by rw [h1, h2]⟩
      · rw [if_pos h1, if_neg h2, List.append_nil] at h
        exact absurd (h ▸ List.mem_append_right _ List.mem_cons_self) (kind_colon a.kind)
      · rw [if_neg h1, if_pos h2, List.append_nil] at h
        exact absurd (h ▸ List.mem_append_right _ List.mem_cons_self) (kind_colon b.kind)
      · rw [if_neg h1, if_neg h2] at h
        obtain ⟨h3, h4⟩ := prefix_inj (kind_colon _) (kind_colon _) h
        exact ⟨ErrorKind.text_injective h3, h4⟩
    refine ⟨hk.1, ?_⟩
    obtain ⟨h1, h2⟩ := hk
    cases a <;> cases b <;> first
      | (cases h1; done)
      | rfl
      | (simp only [LexError.detail, detailText, List.append_cancel_left_eq,
          List.append_cancel_right_eq, List.append_assoc] at h2 ⊢
         first
          | rw [DebugChar.injective _ _ h2]
          | rw [hex4_injective h2]
          | rw [reserved_debug h2])
  · rintro ⟨h1, h2⟩
    rw [display_eq, display_eq, h1, h2]

/-- The text of a location tells the location: two locations of nodes of trees of the
same source with the same text are the same. -/
theorem C57_location_text [Env] [LawfulEnv] {s : Str} {st mo st' mo' : Bool} {tree tree' : Node}
    {v v' : Place} {x y : Node} {a b : Span} (h : Returned s st mo tree)
    (h' : Returned s st' mo' tree') (hx : Occurs .top tree v x) (hy : Occurs .top tree' v' y)
    (ha : some a ∈ x.2.ownLocs) (hb : some b ∈ y.2.ownLocs) : a.debug = b.debug ↔ a = b := by
  refine ⟨fun hd => ?_, fun h => by rw [h]⟩
  obtain ⟨p, q, h1, -, -, h2, h3⟩ := C38_locations h hx _ ha
  obtain ⟨p', q', h1', -, -, h2', h3'⟩ := C38_locations h' hy _ hb
  cases h1
  cases h1'
  obtain ⟨e1, e2⟩ := Span.debug_injective hd
  rw [PosnAt_text h2 h2' e1, PosnAt_text h3 h3' e2]

section Examples

local instance textEnv : Env := asciiEnv true

/-- An injective text of characters. -/
local instance textChar : DebugChar := ⟨fun c => [c], fun _ _ h => (List.cons.inj h).1⟩

/-- Errors with different texts; the second is wrapped, and has a cause. -/
example : (match script c!"break; a", script c!"a; @" with
    | .err a, .err b => decide (a.display = c!"illegal break" ∧ a.cause = none ∧
        b.display = c!"illegal character" ∧ b.cause = some (.lex (.illegalChar '@')))
    | _, _ => false) = true := by
  decide +kernel

/-- The text of the parser's error does not show the character, that of the lexer's
does. -/
example : (PError.lexError (.illegalChar '@')).display = (PError.lexError (.illegalChar '#')).display ∧
    (LexError.illegalChar '@').display = c!"illegal character: @" ∧
    (LexError.illegalUnicode 0xabc).display = c!"illegal code unit: \\u{0abc}" := by
  decide +kernel

/-- Locations, with their texts. -/
example : ∃ tree v y, Returned c!"a;\n bc" true false tree ∧ Occurs .top tree v y ∧
    (match y with
      | ⟨.expr, .eId ⟨some l, _⟩⟩ => decide (l.debug = c!"2:2..2:4")
      | _ => false) = true :=
  occursIn_spec (by decide +kernel)

end Examples

end Esprit
