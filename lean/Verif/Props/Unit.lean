import Verif.Spec.Unit
import Verif.Proofs.Cover
import Verif.Props.Parser
import Verif.Props.Exact

/-!
The use of a program as a script, as strict code or as a module (C73): all values of `Program`,
also those that are not returned by `program`.
-/

set_option linter.unusedSectionVars false

namespace Esprit

section Theorems

private theorem says_iff {d : Dir} {w : Str} : d.pragma = w ↔ d.Says w := by
  unfold Dir.pragma Dir.Says
  cases h : d.string.source <;> simp

private theorem find_split {α : Type} {p : α → Bool} : ∀ {xs : List α} {a : α}, xs.find? p = some a →
    ∃ b c, xs = b ++ a :: c ∧ p a = true ∧ ∀ x ∈ b, p x = false := by
  intro xs
  induction xs with
  | nil => intro a h; cases h
  | cons x xs ih =>
    intro a h
    rw [List.find?_cons] at h
    cases hx : p x with
    | true =>
      rw [hx] at h
      cases h
      exact ⟨[], xs, rfl, hx, nofun⟩
    | false =>
      rw [hx] at h
      obtain ⟨b, c, rfl, h1, h2⟩ := ih h
      exact ⟨x :: b, c, rfl, h1, by simpa [hx] using h2⟩

private theorem firstImportExport_some : ∀ {xs : List (Ast .modItem)} {e : PError},
    firstImportExport xs = some e → ∃ b x c, xs = b ++ x :: c ∧ (∀ y ∈ b, ¬ IsModuleItem y) ∧
      ((∃ i, x = .miImport i ∧ e = .importInScript i) ∨ ∃ i, x = .miExport i ∧ e = .exportInScript i) := by
  intro xs
  induction xs with
  | nil => intro e h; cases h
  | cons x xs ih =>
    intro e h
    cases x with
    | miImport i => cases h; exact ⟨[], _, xs, rfl, nofun, .inl ⟨i, rfl, rfl⟩⟩
    | miExport i => cases h; exact ⟨[], _, xs, rfl, nofun, .inr ⟨i, rfl, rfl⟩⟩
    | miItem s =>
      obtain ⟨b, x, c, rfl, h1, h2⟩ := ih h
      refine ⟨.miItem s :: b, x, c, rfl, ?_, h2⟩
      intro y hy
      rcases List.mem_cons.1 hy with rfl | hy
      · exact id
      · exact h1 y hy

private theorem firstImportExport_none : ∀ {xs : List (Ast .modItem)},
    firstImportExport xs = none → ∀ y ∈ xs, ¬ IsModuleItem y := by
  intro xs
  induction xs with
  | nil => exact fun _ => nofun
  | cons x xs ih =>
    intro h y hy
    cases x with
    | miImport i => cases h
    | miExport i => cases h
    | miItem s =>
      rcases List.mem_cons.1 hy with rfl | hy
      · exact id
      · exact ih h y hy

private theorem blamed (m : Module) : BlamedFor m (unexpectedModule m) := by
  cases m with
  | body l ds items =>
    show BlamedFor _ (match ds.find? fun d => d.pragma = c!"use module" with
      | some d => .unexpectedDirective d.location d.string
      | none =>
        match firstImportExport items.toList with
        | some e => e
        | none => .unexpectedModule l)
    cases h : ds.find? fun d => d.pragma = c!"use module" with
    | some d =>
      obtain ⟨b, c, rfl, h1, h2⟩ := find_split h
      refine .directive (fun d' hd hs => ?_) (says_iff.1 (of_decide_eq_true h1))
      have := of_decide_eq_false (h2 d' hd)
      exact this (says_iff.2 hs)
    | none =>
      have hn : ∀ d ∈ ds, ¬ d.Says c!"use module" := fun d hd hs => by
        have := List.find?_eq_none.1 h d hd
        exact this (decide_eq_true (says_iff.2 hs))
      cases h' : firstImportExport items.toList with
      | none => exact .module hn (firstImportExport_none h')
      | some e =>
        obtain ⟨b, x, c, e1, h1, ⟨i, rfl, rfl⟩ | ⟨i, rfl, rfl⟩⟩ := firstImportExport_some h'
        · rw [← Ast.ofList_toList items, e1]
          exact .import hn h1
        · rw [← Ast.ofList_toList items, e1]
          exact .export hn h1

private theorem split_unique {α : Type} {p : α → Prop} {b b' c c' : List α} {x x' : α} (hx : p x)
    (hx' : p x') (hb : ∀ y ∈ b, ¬ p y) (hb' : ∀ y ∈ b', ¬ p y) (h : b ++ x :: c = b' ++ x' :: c') :
    x = x' := by
  induction b generalizing b' with
  | nil =>
    cases b' with
    | nil => exact (List.cons.inj h).1
    | cons z b' => exact absurd ((List.cons.inj h).1 ▸ hx) (hb' z (by simp))
  | cons z b ih =>
    cases b' with
    | nil => exact absurd ((List.cons.inj h).1 ▸ hx') (hb z (by simp))
    | cons z' b' =>
      exact ih (fun y hy => hb y (by simp [hy])) (fun y hy => hb' y (by simp [hy])) (List.cons.inj h).2

/-- A module is blamed for one thing only. -/
theorem C73_blame_unique {m : Module} {e e' : PError} (h : BlamedFor m e) (h' : BlamedFor m e') : e = e' := by
  have key : ∀ {a b a' b' : List (Ast .modItem)} {x x' : Ast .modItem},
      Ast.ofList (a ++ x :: b) = Ast.ofList (a' ++ x' :: b') → (∀ y ∈ a, ¬ IsModuleItem y) →
      (∀ y ∈ a', ¬ IsModuleItem y) → IsModuleItem x → IsModuleItem x' → x = x' := fun h5 h3 h4 h1 h2 =>
    split_unique h1 h2 h3 h4 (Ast.ofList_inj h5)
  have no : ∀ {a b : List (Ast .modItem)} {x : Ast .modItem} {items : Ast (.list .modItem)},
      items = Ast.ofList (a ++ x :: b) → (∀ y ∈ items.toList, ¬ IsModuleItem y) → ¬ IsModuleItem x := by
    rintro a b x items rfl h
    exact h x (by simp)
  generalize hm : m = m' at h'
  cases h with
  | directive h1 h2 =>
    cases h' with
    | directive h3 h4 =>
      injection hm with _ _ hd _
      cases split_unique (p := fun d : Dir => d.Says c!"use module") h2 h4 h1 h3 hd
      rfl
    | «import» h3 _ | «export» h3 _ | module h3 _ =>
      injection hm with _ _ hd _
      exact absurd h2 (h3 _ (hd ▸ by simp))
  | «import» h1 h2 =>
    cases h' with
    | directive h3 h4 =>
      injection hm with _ _ hd _
      exact absurd h4 (h1 _ (hd ▸ by simp))
    | «import» h3 h4 =>
      injection hm with _ _ _ hi
      cases key hi h2 h4 trivial trivial
      rfl
    | «export» h3 h4 =>
      injection hm with _ _ _ hi
      cases key hi h2 h4 trivial trivial
    | module h3 h4 =>
      injection hm with _ _ _ hi
      exact absurd trivial (no hi.symm h4)
  | «export» h1 h2 =>
    cases h' with
    | directive h3 h4 =>
      injection hm with _ _ hd _
      exact absurd h4 (h1 _ (hd ▸ by simp))
    | «import» h3 h4 =>
      injection hm with _ _ _ hi
      cases key hi h2 h4 trivial trivial
    | «export» h3 h4 =>
      injection hm with _ _ _ hi
      cases key hi h2 h4 trivial trivial
      rfl
    | module h3 h4 =>
      injection hm with _ _ _ hi
      exact absurd trivial (no hi.symm h4)
  | module h1 h2 =>
    cases h' with
    | directive h3 h4 =>
      injection hm with _ _ hd _
      exact absurd h4 (h1 _ (hd ▸ by simp))
    | «import» h3 h4 =>
      injection hm with _ _ _ hi
      exact absurd trivial (no hi h2)
    | «export» h3 h4 =>
      injection hm with _ _ _ hi
      exact absurd trivial (no hi h2)
    | module h3 h4 =>
      injection hm with _ hl _ _
      cases hl
      rfl

private theorem perform_iff {module : Bool} {c : Check} {e : PError} :
    c.perform module = some e ↔ c.Forbids module e := by
  unfold Check.Forbids
  cases c <;> cases module <;> simp [Check.perform, eq_comm]

private theorem firstFailing_some {module : Bool} {cs : List Check} {e : PError} :
    P.firstFailing module cs = some e ↔ FirstForbids module cs e := by
  unfold P.firstFailing FirstForbids
  induction cs with
  | nil => simp
  | cons c cs ih =>
    rw [List.findSome?_cons]
    cases hc : c.perform module with
    | some e' =>
      constructor
      · intro h
        cases h
        exact ⟨[], c, cs, rfl, perform_iff.1 hc, by simp⟩
      · rintro ⟨b, c', a, h1, h2, h3⟩
        cases b with
        | nil =>
          cases h1
          rw [perform_iff.2 h2] at hc
          cases hc
          rfl
        | cons z b =>
          cases h1
          exact absurd (perform_iff.1 hc) (h3 _ (by simp) _)
    | none =>
      simp only []
      rw [ih]
      constructor
      · rintro ⟨b, c', a, rfl, h2, h3⟩
        refine ⟨c :: b, c', a, rfl, h2, ?_⟩
        intro x hx e' he
        rcases List.mem_cons.1 hx with rfl | hx
        · rw [perform_iff.2 he] at hc
          cases hc
        · exact h3 x hx e' he
      · rintro ⟨b, c', a, h1, h2, h3⟩
        cases b with
        | nil =>
          cases h1
          rw [perform_iff.2 h2] at hc
          cases hc
        | cons z b =>
          cases h1
          exact ⟨b, c', a, rfl, h2, fun x hx => h3 x (by simp [hx])⟩

private theorem firstFailing_none {module : Bool} {cs : List Check} :
    P.firstFailing module cs = none ↔ ∀ c ∈ cs, ∀ e, ¬ c.Forbids module e := by
  unfold P.firstFailing
  rw [List.findSome?_eq_none_iff]
  refine forall_congr' fun c => forall_congr' fun _ => ?_
  cases h : c.perform module with
  | none =>
    refine ⟨fun _ e he => ?_, fun _ => rfl⟩
    rw [perform_iff.2 he] at h
    cases h
  | some e => exact ⟨nofun, fun h' => absurd (perform_iff.1 h) (h' e)⟩

/-- C73: a program can be used as a script if it is not a module; the script is its tree.  If it is
a module, the error blames what makes it one. -/
theorem C73_script (p : Program) :
    (∀ y, p.script = .ok y ↔ ∃ cs, p = .ambiguous cs y) ∧
    ∀ e, p.script = .err e ↔ ∃ m, p = .moduleCode m ∧ BlamedFor m e := by
  cases p with
  | ambiguous cs y => simp [Program.script]
  | moduleCode m =>
    refine ⟨fun y => by simp [Program.script], fun e => ⟨?_, ?_⟩⟩
    · intro h
      cases h
      exact ⟨m, rfl, blamed m⟩
    · rintro ⟨_, h1, h2⟩
      cases h1
      exact congrArg Res.err (C73_blame_unique (blamed m) h2)

/-- C73: a program can be used as strict code if it is not a module and no check forbids it in
strict code; otherwise the error is that of the first check that does. -/
theorem C73_strict (p : Program) :
    (∀ y, p.strict = .ok y ↔ ∃ cs, p = .ambiguous cs y ∧ ∀ c ∈ cs, ∀ e, ¬ c.Forbids false e) ∧
    ∀ e, p.strict = .err e ↔ (∃ cs y, p = .ambiguous cs y ∧ FirstForbids false cs e) ∨
      ∃ m, p = .moduleCode m ∧ BlamedFor m e := by
  cases p with
  | ambiguous cs y =>
    rw [show (Program.ambiguous cs y).strict = match P.firstFailing false cs with
      | some e => .err e
      | none => .ok y from rfl]
    cases h : P.firstFailing false cs with
    | some e =>
      have h1 := firstFailing_some.1 h
      refine ⟨fun z => ⟨nofun, ?_⟩, fun e' => ⟨?_, ?_⟩⟩
      · rintro ⟨_, h2, h3⟩
        cases h2
        rw [firstFailing_none.2 h3] at h
        cases h
      · intro h2
        cases h2
        exact .inl ⟨_, _, rfl, h1⟩
      · rintro (⟨_, _, h2, h3⟩ | ⟨_, h2, _⟩)
        · cases h2
          rw [firstFailing_some.2 h3] at h
          cases h
          rfl
        · cases h2
    | none =>
      refine ⟨fun z => ⟨?_, ?_⟩, fun e' => ⟨nofun, ?_⟩⟩
      · intro h2
        cases h2
        exact ⟨_, rfl, firstFailing_none.1 h⟩
      · rintro ⟨_, h2, h3⟩
        cases h2
        rfl
      · rintro (⟨_, _, h2, h3⟩ | ⟨_, h2, _⟩)
        · cases h2
          rw [firstFailing_some.2 h3] at h
          cases h
        · cases h2
  | moduleCode m =>
    refine ⟨fun y => ⟨nofun, fun ⟨_, h, _⟩ => nomatch h⟩, fun e => ⟨?_, ?_⟩⟩
    · intro h
      cases h
      exact .inr ⟨m, rfl, blamed m⟩
    · rintro (⟨_, _, h2, _⟩ | ⟨_, h1, h2⟩)
      · cases h2
      · cases h1
        exact congrArg Res.err (C73_blame_unique (blamed m) h2)

/-- C73: a module can be used as it is; another program can be used as a module if no check forbids
it in a module, otherwise the error is that of the first check that does.  The module has the
location, the directives and the items of the script. -/
theorem C73_module (p : Program) :
    (∀ y, p.module = .ok y ↔ p = .moduleCode y ∨ ∃ cs l ds xs, p = .ambiguous cs (.body l ds xs) ∧
      (∀ c ∈ cs, ∀ e, ¬ c.Forbids true e) ∧ y = .body l ds (.ofList (xs.toList.map .miItem))) ∧
    ∀ e, p.module = .err e ↔ ∃ cs y, p = .ambiguous cs y ∧ FirstForbids true cs e := by
  cases p with
  | ambiguous cs y =>
    rw [show (Program.ambiguous cs y).module = match P.firstFailing true cs with
      | some e => .err e
      | none => .ok (Program.scriptToModule y) from rfl]
    cases h : P.firstFailing true cs with
    | some e =>
      have h1 := firstFailing_some.1 h
      refine ⟨fun z => ⟨nofun, ?_⟩, fun e' => ⟨?_, ?_⟩⟩
      · rintro (h2 | ⟨_, _, _, _, h2, h3, _⟩)
        · cases h2
        · cases h2
          rw [firstFailing_none.2 h3] at h
          cases h
      · intro h2
        cases h2
        exact ⟨_, _, rfl, h1⟩
      · rintro ⟨_, _, h2, h3⟩
        cases h2
        rw [firstFailing_some.2 h3] at h
        cases h
        rfl
    | none =>
      refine ⟨fun z => ⟨?_, ?_⟩, fun e' => ⟨nofun, ?_⟩⟩
      · intro h2
        cases h2
        cases y with
        | body l ds xs => exact .inr ⟨_, _, _, _, rfl, firstFailing_none.1 h, rfl⟩
      · rintro (h2 | ⟨_, _, _, _, h2, h3, rfl⟩)
        · cases h2
        · cases h2
          rfl
      · rintro ⟨_, _, h2, h3⟩
        cases h2
        rw [firstFailing_some.2 h3] at h
        cases h
  | moduleCode m =>
    refine ⟨fun y => ⟨?_, ?_⟩, fun e => ⟨nofun, fun ⟨_, _, h, _⟩ => nomatch h⟩⟩
    · intro h
      cases h
      exact .inl rfl
    · rintro (h | ⟨_, _, _, _, h, _⟩)
      · cases h
        rfl
      · cases h

variable [Env] [LawfulEnv]

/-- What `program` returns can always be used as a script: no text is determined to be a module, not
even one with a `use module` directive. -/
theorem C73_never {s : Str} {p : Program} (h : program s = .ok p) : ∃ y, p.script = .ok y := by
  obtain ⟨c, y, rfl, -⟩ := C34_program s p h
  exact ⟨y, rfl⟩

end Theorems

section Examples

/-- A module with an import after a statement: the import is blamed. -/
example (i : Ast .«import») : BlamedFor (.body none [⟨none, ⟨some c!"'use module'", c!"use module"⟩, .inserted⟩]
    (.ofList [.miItem (.siStmt (.sEmpty none)), .miImport i])) (.importInScript i) :=
  .import (before := [.miItem (.siStmt (.sEmpty none))]) (by
    intro d hd
    cases List.mem_singleton.1 hd
    rintro (h | ⟨h, _⟩)
    · revert h; decide
    · cases h) (by
    intro x hx
    cases List.mem_singleton.1 hx
    exact id)

/-- A module with the directive, made without a text: the directive is blamed, whatever it imports. -/
example (items : Ast (.list .modItem)) : BlamedFor (.body none [⟨none, ⟨none, c!"use module"⟩, .inserted⟩] items)
    (.unexpectedDirective none ⟨none, c!"use module"⟩) :=
  .directive (before := []) (d := ⟨none, ⟨none, c!"use module"⟩, .inserted⟩) nofun (.inr ⟨rfl, rfl⟩)

/-- Checks of which the first concerns modules only. -/
example (e1 e2 : PError) : FirstForbids false [.module e1, .strict e2] e2 ∧
    FirstForbids true [.module e1, .strict e2] e1 := by
  refine ⟨⟨[.module e1], _, [], rfl, .inl rfl, ?_⟩, ⟨[], _, _, rfl, .inr ⟨rfl, rfl⟩, by simp⟩⟩
  intro c hc e
  cases List.mem_singleton.1 hc
  rintro (h | ⟨h, _⟩) <;> cases h

local instance unitEnv : Env := asciiEnv true
local instance unitEnvLawful : LawfulEnv := asciiEnv_lawful true

/-- A text with the directive is accepted, but not as a module. -/
theorem C73_use_module_fails :
    (match program c!"'use module'" with | .ok (.ambiguous _ _) => true | _ => false) = true := by
  decide +kernel

end Examples

end Esprit
