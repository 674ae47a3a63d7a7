import Verif.Proofs.DebugSame
import Verif.Proofs.DebugStd

/-! C67: the texts of syntax trees. -/

namespace Esprit

variable {c : Cat}

private theorem numbers_untrack (x : Ast c) : x.untrack.numbers = x.numbers := by
  induction x with
  | key k => cases k <;> rfl
  | ppRegular l k p ih => cases k <;> simp [Ast.untrack, Ast.numbers, PropKey.untrack, PropKey.setLoc, PropKey.numbers, ih]
  | prRegular l k p ih => cases k <;> simp [Ast.untrack, Ast.numbers, PropKey.untrack, PropKey.setLoc, PropKey.numbers, ih]
  | _ => simp_all [Ast.untrack, Ast.numbers]

/-- Trees with the same text are equal up to locations and the origin of semicolons (both
are removed by `untrack`). -/
theorem C67_text_determines [LawfulDebugStd] (a b : Ast c) (hn : ∀ n ∈ a.numbers, n.value ≠ .nan)
    (h : a.debug = b.debug) : a.untrack.eqv b.untrack = true :=
  (Ast.eqv_iff _ _).2 (Ast.agree_of_debug hn h)

/-- Equal trees have the same text, if no number in them is the negative zero. -/
theorem C67_equal_same_text [LawfulDebugStd] (a b : Ast c) (ha : ∀ n ∈ a.numbers, n.value ≠ .num true 0)
    (hb : ∀ n ∈ b.numbers, n.value ≠ .num true 0) (h : a.eqv b = true) : a.debug = b.debug :=
  Ast.debug_of_agree ((Ast.eqv_iff _ _).1 h) ha hb

/-- So for untracked trees, to compare the texts is to compare the trees. -/
theorem C67_untracked [LawfulDebugStd] (a b : Ast c)
    (ha : ∀ n ∈ a.numbers, n.value ≠ .nan ∧ n.value ≠ .num true 0)
    (hb : ∀ n ∈ b.numbers, n.value ≠ .num true 0) :
    a.untrack.debug = b.untrack.debug ↔ a.untrack.eqv b.untrack = true := by
  constructor
  · intro h
    have := C67_text_determines a.untrack b.untrack (by rw [numbers_untrack]; exact fun n hn => (ha n hn).1) h
    have idem (x : Ast c) : x.untrack.untrack = x.untrack :=
      (Ast.untrack_eq_iff _ _).2 (Ast.similar_untrack x).symm
    rwa [idem, idem] at this
  · exact C67_equal_same_text _ _ (by rw [numbers_untrack]; exact fun n hn => (ha n hn).2)
      (by rw [numbers_untrack]; exact hb)

/-- `Debug` is the derived one for all types but `Expr`: the text shows the name of the
struct or variant, and all its fields. -/
theorem C67_derived [DebugStd] (x : Ast c) (hc : c ≠ .expr) {v : Derive.Value Derive.Part}
    (h : Derive.view x = some v) : x.debug = v.dbg.text :=
  congrArg Dbg.text (derived_dbg x hc h)

/-- `Debug` for `Expr` is like the derived one without locations; omitted arguments of
`new` are shown as an empty list. -/
theorem C67_expr [DebugStd] (x : Expr) :
    ((∀ l callee args, x ≠ .eNew l callee args) → ∀ v, Derive.view x = some v →
      x.debug = v.dropLocs.dbg.text) ∧
    (∀ l callee, x = .eNew l callee .none →
      x.debug = c!"New(" ++ callee.debug ++ c!", [])") ∧
    (∀ l callee args, x = .eNew l callee (.some args) →
      x.debug = c!"New(" ++ callee.debug ++ c!", " ++ args.debug ++ c!")") := by
  refine ⟨fun hn v hv => congrArg Dbg.text (expr_dbg x hn hv), ?_, ?_⟩
  · rintro l callee rfl
    simp [Ast.debug, Ast.dbg, Ast.wrap, Ast.entries, Dbg.tup, Dbg.text, Dbg.joinText, Dbg.fieldText]
  · rintro l callee args rfl
    simp [Ast.debug, Ast.dbg, Ast.wrap, Ast.entries, Dbg.tup, Dbg.text, Dbg.joinText, Dbg.fieldText]

/-- The laws that are assumed of the texts of characters and strings hold for the escapes
of Rust's standard library, whatever characters it considers printable. -/
theorem C67_std (printable : Char → Bool) :
    (∀ {c d : Char} {r s : Str}, debugChar printable c ++ r = debugChar printable d ++ s → c = d ∧ r = s) ∧
    (∀ {x y r s : Str}, debugStr printable x ++ r = debugStr printable y ++ s → x = y ∧ r = s) :=
  ⟨debugChar_code printable, debugStr_code printable⟩

/-! ### Examples -/

/-- `x = "a\n"` with locations, and without. -/
example :
    letI := (fractionStd fun c => c ≠ '\u007f')
    (Ast.sExpr (some ⟨⟨0, 0, 0⟩, ⟨7, 0, 7⟩⟩)
      (.eAssign none (.pSimple (.tId ⟨none, .string c!"x"⟩)) (.eString none ⟨some c!"'a\\n'", c!"a\n"⟩))
      .inserted).debug =
    c!"Expr(Some(1:1..1:8), Assign(Simple(Id(Id { location: None, name: String(\"x\") })), String(StringLiteral { value: \"a\\n\" })), Inserted)" := by
  decide +kernel

/-- `new f` and `new f()` have the same text; `new f(1)` has another. -/
example :
    letI := (fractionStd fun _ => true)
    (Ast.eNew none (.eThis none) .none).debug = (Ast.eNew none (.eThis none) (.some .nil)).debug ∧
    (Ast.eNew none (.eThis none) .none).debug ≠
      (Ast.eNew none (.eThis none) (.some (.cons (.iExpr (.eNumber none ⟨none, .num false 1⟩)) .nil))).debug := by
  decide +kernel

/-- A tree in which the hypotheses on numbers hold. -/
example : ∀ n ∈ (Ast.eNumber none ⟨none, .num false 1⟩ : Expr).numbers,
    n.value ≠ .nan ∧ n.value ≠ .num true 0 := by decide +kernel

end Esprit
