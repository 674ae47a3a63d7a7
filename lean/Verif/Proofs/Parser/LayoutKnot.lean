import Verif.Proofs.Parser.LayoutFns
import Verif.Proofs.Parser.LayoutMono
import Verif.Props.Parser

/-! The entry points see only what the lexer returns. -/

set_option linter.unusedSectionVars false

namespace Esprit

open J JP

variable [Env] [Prompt]

/-! ### The functions of the entry points -/

theorem lay_takeDeferred : J P.takeDeferred P.takeDeferred P.takeDeferred :=
  ⟨fun _ hl => ⟨[], Tight.ret (h := []) rfl rfl (List.suffix_refl _) hl,
    fun _ _ h => ⟨h.deferred, ⟨⟨h.goal, h.validate, h.ctx, rfl, h.lookahead⟩,
    h.alike⟩⟩⟩, fun _ _ h => ⟨h.deferred, ⟨⟨h.goal, h.validate, h.ctx, rfl, h.lookahead⟩,
    h.reader, h.emptyLine⟩⟩⟩

theorem firstFailing_blur (b : Bool) {cs cs' : List Check} (h : Rel cs cs') :
    (P.firstFailing b cs).map PError.blur = (P.firstFailing b cs').map PError.blur := by
  have h0 : ∀ c : Check, (c.perform b).map PError.blur = c.blur.perform b := by
    intro c
    cases c with
    | strict e => rfl
    | module e => cases b <;> rfl
  have h1 : ∀ cs : List Check,
      (P.firstFailing b cs).map PError.blur = P.firstFailing b (cs.map Check.blur) := by
    intro cs
    induction cs with
    | nil => rfl
    | cons c cs ih =>
      unfold P.firstFailing at ih ⊢
      rw [List.map_cons, List.findSome?_cons, List.findSome?_cons, ← h0 c]
      cases c.perform b with
      | none => exact ih
      | some e => rfl
  rw [h1, h1]
  exact congrArg _ (show cs.map Check.blur = cs'.map Check.blur from h)

theorem forceDeferred_eq (s : PState) : P.forceDeferredModuleValidation s =
    if !s.validate then .ok ((), s) else match P.firstFailing true s.deferred with
      | some e => .err e
      | none => .ok ((), { s with deferred := [] }) := by
  unfold P.forceDeferredModuleValidation
  show P.bind P.get _ s = _
  simp only [P.bind, P.get]
  split
  · rfl
  · show P.bind P.takeDeferred _ s = _
    simp only [P.bind, P.takeDeferred]
    cases P.firstFailing true s.deferred <;> rfl

/-- The errors of the deferred checks are not prompt. -/
theorem lay_forceDeferred (hq : ¬Prompt.prompt) : J P.forceDeferredModuleValidation
    P.forceDeferredModuleValidation P.forceDeferredModuleValidation := by
  constructor
  · intro s hl
    refine ⟨[], ?_, fun rest s' hs => ?_⟩
    · rw [forceDeferred_eq]
      split
      · exact Tight.ret (h := []) rfl rfl (List.suffix_refl _) hl
      · cases P.firstFailing true s.deferred with
        | none => exact Tight.ret (h := []) rfl rfl (List.suffix_refl _) hl
        | some e => exact .inl ⟨[], _, rfl, fun h => (hq h).elim⟩
    · rw [forceDeferred_eq, forceDeferred_eq, ← hs.validate]
      split
      · exact ⟨rfl, hs⟩
      · have h1 := firstFailing_blur true hs.deferred
        cases h2 : P.firstFailing true s.deferred <;> cases h3 : P.firstFailing true s'.deferred <;>
          rw [h2, h3] at h1 <;> first | (cases h1; done) | skip
        · exact ⟨rfl, ⟨hs.goal, rfl, hs.ctx, rfl, hs.lookahead⟩, hs.alike⟩
        · injection h1
  · intro s s' hs
    rw [forceDeferred_eq, forceDeferred_eq, ← hs.validate]
    split
    · exact ⟨rfl, hs⟩
    · have h1 := firstFailing_blur true hs.deferred
      cases h2 : P.firstFailing true s.deferred <;> cases h3 : P.firstFailing true s'.deferred <;>
        rw [h2, h3] at h1 <;> first | (cases h1; done) | skip
      · exact ⟨rfl, ⟨hs.goal, rfl, hs.ctx, rfl, hs.lookahead⟩, hs.reader, hs.emptyLine⟩
      · injection h1

macro_rules | `(tactic| layleaf) => `(tactic| with_reducible first
  | exact lay_takeDeferred)

theorem lay_moduleItemsStep {r r' : Rec} {xs xs' : List (Ast .modItem)} (hx : Rel xs xs')
    (hr : RecJ r r') :
    J (P.moduleItemsStep r xs) (P.moduleItemsStep r' xs) (P.moduleItemsStep r' xs') := by
  unfold P.moduleItemsStep; lay

macro_rules | `(tactic| layleaf) => `(tactic| ((with_reducible refine lay_moduleItemsStep ?_ ‹RecJ _ _›) <;> rel))

theorem lay_moreModuleItems {r r' : Rec} {xs xs' : List (Ast .modItem)} (hx : Rel xs xs')
    (hr : RecJ r r') :
    J (P.moreModuleItems r xs) (P.moreModuleItems r' xs) (P.moreModuleItems r' xs') := by
  unfold P.moreModuleItems; lay

macro_rules | `(tactic| layleaf) => `(tactic| ((with_reducible refine lay_moreModuleItems ?_ ‹RecJ _ _›) <;> rel))

theorem Rel.miItems {xs xs' : List StmtListItem} (h : Rel xs xs') :
    Rel (xs.map Ast.miItem) (xs'.map Ast.miItem) := by
  have h : xs.map Ast.blur = xs'.map Ast.blur := h
  show (xs.map Ast.miItem).map Ast.blur = (xs'.map Ast.miItem).map Ast.blur
  have h0 : ∀ xs : List StmtListItem,
      (xs.map Ast.miItem).map Ast.blur = (xs.map Ast.blur).map Ast.miItem := by
    intro xs
    induction xs with
    | nil => rfl
    | cons x xs ih =>
      simp only [List.map_cons, Ast.blur_miItem]
      rw [ih]
  rw [h0, h0, h]

theorem lay_programItemsStep {r r' : Rec} {xs xs' : List StmtListItem} (hx : Rel xs xs')
    (hr : RecJ r r') (hq : ¬Prompt.prompt) :
    J (P.programItemsStep r xs) (P.programItemsStep r' xs) (P.programItemsStep r' xs') := by
  unfold P.programItemsStep
  refine bindTok (by lay) fun _ _ _ v => ?_
  dsimp only
  split
  · exact pure (Rel.inr (congrArg ProgramItems.script hx))
  · exact bindUnit (lay_forceDeferred hq) (bind (lay_moreModuleItems hx.miItems hr) fun _ _ h =>
      pure (Rel.inr (congrArg ProgramItems.module h)))
  · exact bindUnit (lay_forceDeferred hq) (bind (lay_moreModuleItems hx.miItems hr) fun _ _ h =>
      pure (Rel.inr (congrArg ProgramItems.module h)))
  · exact bind (by lay) fun _ _ h => pure (hx.snoc h).inl

theorem lay_programItems {r r' : Rec} (hr : RecJ r r') (hq : ¬Prompt.prompt) :
    J (P.programItems r) (P.programItems r') (P.programItems r') := by
  unfold P.programItems
  exact loop rfl fun _ _ h => lay_programItemsStep h hr hq

theorem lay_assertGoalUnknown : J P.assertGoalUnknown P.assertGoalUnknown P.assertGoalUnknown := by
  unfold P.assertGoalUnknown; lay

theorem Rel.body {c : Cat} {ds ds' : List Dir} {xs xs' : List (Ast c)} (hd : Rel ds ds')
    (hx : Rel xs xs') : Rel (Ast.body none ds (.ofList xs)) (Ast.body none ds' (.ofList xs')) := by
  show Ast.blur _ = Ast.blur _
  rw [Ast.blur_body, Ast.blur_body, Ast.blur_ofList, Ast.blur_ofList,
    show ds.map Dir.blur = ds'.map Dir.blur from hd,
    show xs.map Ast.blur = xs'.map Ast.blur from hx]

theorem lay_parseModule {r r' : Rec} (hr : RecJ r r') :
    J (P.parseModule r) (P.parseModule r') (P.parseModule r') := by
  unfold P.parseModule
  exact bindUnit lay_assertGoalUnknown (bindUnit lay_setModule (span (bind lay_bodyDirectives
    fun _ _ hd => bind (lay_moreModuleItems rfl hr) fun _ _ hx => pure (hd.body hx))))

theorem lay_parseProgram {r r' : Rec} (hr : RecJ r r') (hq : ¬Prompt.prompt) :
    J (P.parseProgram r) (P.parseProgram r') (P.parseProgram r') := by
  unfold P.parseProgram
  refine bindUnit lay_assertGoalUnknown (span (bind lay_bodyDirectives
    fun _ _ hd => bind (lay_programItems hr hq) fun x x' hx => ?_))
  cases x with
  | script xs => cases x' with
    | script xs' =>
      have hx : ProgramItems.script (xs.map Ast.blur) = .script (xs'.map Ast.blur) := hx
      injection hx with hx
      refine bind lay_takeDeferred fun cs cs' hc => pure ?_
      show Program.ambiguous (cs.map Check.blur) (Ast.blur _) = .ambiguous (cs'.map Check.blur) (Ast.blur _)
      rw [show cs.map Check.blur = cs'.map Check.blur from hc, (hd.body hx).ast]
    | module xs' => cases hx
  | module xs => cases x' with
    | script xs' => cases hx
    | module xs' =>
      have hx : ProgramItems.module (xs.map Ast.blur) = .module (xs'.map Ast.blur) := hx
      injection hx with hx
      refine pure ?_
      show Program.moduleCode (Ast.blur _) = .moduleCode (Ast.blur _)
      rw [(hd.body hx).ast]

theorem lay_parseScript {r r' : Rec} (strict : Bool) (hr : RecJ r r') :
    J (P.parseScript r strict) (P.parseScript r' strict) (P.parseScript r' strict) := by
  unfold P.parseScript
  exact bindUnit lay_assertGoalUnknown (bindUnit (by lay) (lay_scriptBody hr))

/-! ### The recursive knot -/

theorem leRec_succ (n : Nat) : LeRec (P.recOf n) (P.recOf (n + 1)) := by
  induction n with
  | zero => exact ⟨fun _ => .inl rfl, fun _ _ => .inl rfl⟩
  | succ n ih => exact ⟨le_assignmentExpression ih, fun b => le_stmtListItem b ih⟩

theorem leRec_add (n k : Nat) : LeRec (P.recOf n) (P.recOf (n + k)) := by
  induction k with
  | zero => exact ⟨.refl _, fun _ => .refl _⟩
  | succ k ih =>
    exact ⟨ih.assign.trans (leRec_succ _).assign, fun b => (ih.item b).trans ((leRec_succ _).item b)⟩

open Classical in
/-- The limit of a family of runs. -/
noncomputable def limit {α : Type} (m : Nat → P α) : P α := fun s =>
  if h : ∃ n, m n s ≠ .fuel then m (choose h) s else .fuel

theorem le_limit {α : Type} {m : Nat → P α} (h : ∀ n k, Le (m n) (m (n + k))) (n : Nat) :
    Le (m n) (limit m) := by
  intro s
  by_cases hn : m n s = .fuel
  · exact .inl hn
  · refine .inr ?_
    have hex : ∃ n, m n s ≠ .fuel := ⟨n, hn⟩
    unfold limit
    rw [dif_pos hex]
    have hc := Classical.choose_spec hex
    generalize Classical.choose hex = k at hc
    rcases Nat.le_total n k with hk | hk
    · obtain ⟨d, rfl⟩ := Nat.exists_eq_add_of_le hk
      exact (h n d s).resolve_left hn
    · obtain ⟨d, rfl⟩ := Nat.exists_eq_add_of_le hk
      exact ((h k d s).resolve_left hc).symm

theorem limit_cases {α : Type} (m : Nat → P α) (s : PState) :
    (∀ n, m n s = .fuel) ∧ limit m s = .fuel ∨ ∃ n, m n s ≠ .fuel ∧ limit m s = m n s := by
  by_cases h : ∃ n, m n s ≠ .fuel
  · refine .inr ⟨_, Classical.choose_spec h, ?_⟩
    unfold limit
    rw [dif_pos h]
  · refine .inl ⟨fun n => Classical.byContradiction fun hn => h ⟨n, hn⟩, ?_⟩
    unfold limit
    rw [dif_neg h]

/-- The knot without a bound. -/
noncomputable def recInf : Rec :=
  ⟨limit fun n => (P.recOf n).assign, fun b => limit fun n => (P.recOf n).item b⟩

theorem leRec_inf (n : Nat) : LeRec (P.recOf n) recInf :=
  ⟨le_limit (fun n k => (leRec_add n k).assign) n,
    fun b => le_limit (fun n k => (leRec_add n k).item b) n⟩

theorem ResC.fuel {α : Type} [Blur α] {x : Res PError (α × PState)} (h : ResC .fuel x) :
    x = .fuel := by
  cases x <;> first | exact (h : False).elim | rfl

theorem ResC.nofuel {α : Type} [Blur α] {x : Res PError (α × PState)} (h : ResC x .fuel) :
    x = .fuel := by
  cases x <;> first | exact (h : False).elim | rfl

theorem congLimit {α : Type} [Blur α] {m : Nat → P α} (h : ∀ n, Cong (m n) (m n))
    (hl : ∀ n k, Le (m n) (m (n + k))) : Cong (limit m) (limit m) := by
  intro s s' hs
  rcases limit_cases m s with ⟨h1, h2⟩ | ⟨n, h1, h2⟩
  · rw [h2]
    rcases limit_cases m s' with ⟨h3, h4⟩ | ⟨k, h3, h4⟩
    · rw [h4]; trivial
    · have := h k s s' hs
      rw [h1 k] at this
      exact (h3 this.fuel).elim
  · have h3 := h n s s' hs
    have h4 : m n s' ≠ .fuel := fun h5 => by
      rw [h5] at h3
      exact h1 h3.nofuel
    rw [h2, ← (le_limit hl n s').resolve_left h4]
    exact h3

theorem recJ_zero {r' : Rec} (h : Cong r'.assign r'.assign)
    (h' : ∀ b, Cong (r'.item b) (r'.item b)) : RecJ (P.recOf 0) r' :=
  ⟨fuel h, fun b => fuel (h' b)⟩

theorem cong_recOf (n : Nat) : Cong (P.recOf n).assign (P.recOf n).assign ∧
    ∀ b, Cong ((P.recOf n).item b) ((P.recOf n).item b) := by
  induction n with
  | zero => exact ⟨fun _ _ _ => trivial, fun _ _ _ _ => trivial⟩
  | succ n ih =>
    have hr := recJ_zero ih.1 ih.2
    exact ⟨(lay_assignmentExpression hr).cong, fun b => (lay_stmtListItem b hr).cong⟩

theorem cong_inf : Cong recInf.assign recInf.assign ∧
    ∀ b, Cong (recInf.item b) (recInf.item b) :=
  ⟨congLimit (fun n => (cong_recOf n).1) fun n k => (leRec_add n k).assign,
    fun b => congLimit (fun n => (cong_recOf n).2 b) fun n k => (leRec_add n k).item b⟩

theorem ResS.fuel {α : Type} [Blur α] {rest : List Bool} (x : Res PError (α × PState)) :
    ResS rest x .fuel := by
  cases x <;> trivial

/-- The limit is `m` of the limit, or exhausted. -/
theorem suffLimit {α : Type} [Blur α] {m1 m2 : P α} {m : Nat → P α} (h : Suff [] Nil m1 m2)
    (hl : ∀ n, Le (m n) m2) : Suff [] Nil m1 (limit m) := by
  intro s hle
  obtain ⟨ops, h0, h1⟩ := h s hle
  refine ⟨ops, h0, fun rest s' hs => ?_⟩
  rcases limit_cases m s' with ⟨_, h2⟩ | ⟨n, h2, h3⟩
  · rw [h2]; exact ResS.fuel _
  · rw [h3, (hl n s').resolve_left h2]
    exact h1 rest s' hs

theorem recJ_inf (n : Nat) : RecJ (P.recOf n) recInf := by
  induction n with
  | zero => exact recJ_zero cong_inf.1 cong_inf.2
  | succ n ih =>
    have hl1 : ∀ k, Le (P.recOf k).assign (P.assignmentExpression recInf) := by
      intro k
      cases k with
      | zero => exact fun _ => .inl rfl
      | succ k => exact le_assignmentExpression (leRec_inf k)
    have hl2 : ∀ b k, Le ((P.recOf k).item b) (P.stmtListItem recInf b) := by
      intro b k
      cases k with
      | zero => exact fun _ => .inl rfl
      | succ k => exact le_stmtListItem b (leRec_inf k)
    exact ⟨⟨suffLimit (lay_assignmentExpression ih).suff hl1, cong_inf.1⟩,
      fun b => ⟨suffLimit (lay_stmtListItem b ih).suff (hl2 b), cong_inf.2 b⟩⟩

/-! ### The entry points -/

theorem fromChars_str {ops : List Bool} {s s' : Str} (h : SameTokens ops s s') :
    StR ops (.fromChars s) (.fromChars s') :=
  ⟨⟨rfl, rfl, rfl, rfl, rfl⟩, h⟩

theorem fromChars_base (s : Str) : (PState.fromChars s).lexer.base = Lexer.new s := rfl

/-- How the run of an entry point ended, and what it read: the tokens in the modes `ops`.  If
it ended with an error then this is about the last of them, or about what follows them. -/
def Reads (q : Prop) (s : Str) (ops : List Bool) {α : Type} : Res PError α → Prop
  | .ok _ => ∃ ts l, readTokens s ops = .ok (ts, l)
  | .err e => (∃ ts l, readTokens s ops = .ok (ts, l) ∧ (q → e.Points ts)) ∨
      ∃ le op ops', e = .lexError le ∧ ops = ops' ++ [op] ∧ readTokens s ops = .err le ∧
        ∃ ts l, readTokens s ops' = .ok (ts, l)
  | _ => True

/-- The outcome of an entry point depends only on the tokens of its source. -/
theorem reads_outcome {α : Type} [Blur α] {p : Rec → P α}
    (hj : ∀ {r r'}, RecJ r r' → J (p r) (p r') (p r'))
    (hl : ∀ {r r'}, LeRec r r' → Le (p r) (p r'))
    (hf : ∀ s, outcome (p (P.recOf (recFuel s)) (.fromChars s)) ≠ .fuel) (s : Str) :
    ∃ ops, Reads Prompt.prompt s ops (outcome (p (P.recOf (recFuel s)) (.fromChars s))) ∧
      ∀ s', SameTokens ops s s' →
      SameOutcome Blur.blur (outcome (p (P.recOf (recFuel s)) (.fromChars s)))
        (outcome (p (P.recOf (recFuel s')) (.fromChars s'))) := by
  obtain ⟨ops, h0, h⟩ := (hj (recJ_inf (recFuel s))).suff (.fromChars s) (Nat.zero_le _)
  refine ⟨ops, ?_, fun s' hs => ?_⟩
  · generalize p (P.recOf (recFuel s)) (.fromChars s) = x at h0
    cases x with
    | ok v =>
      obtain ⟨ts, _, h1, _⟩ := h0
      exact ⟨ts, _, h1⟩
    | err e =>
      rcases h0 with ⟨ts, l, h1, h2⟩ | h0
      · exact .inl ⟨ts, l, h1, h2⟩
      · exact .inr h0
    | panic p => trivial
    | fuel => trivial
  have h1 := h [] (.fromChars s') (fromChars_str (by rw [List.append_nil]; exact hs))
  have hf1 := hf s
  have hf2 := hf s'
  have h2 : p (P.recOf (recFuel s')) (.fromChars s') = p recInf (.fromChars s') :=
    (hl (leRec_inf _) _).resolve_left fun h => hf2 (by rw [h]; rfl)
  rw [h2] at hf2 ⊢
  generalize p (P.recOf (recFuel s)) (.fromChars s) = x at h1 hf1
  generalize p recInf (.fromChars s') = y at h1 hf2
  cases x <;> cases y <;> first
    | exact (h1 : False).elim
    | exact (hf1 rfl).elim
    | exact (hf2 rfl).elim
    | exact h1.1
    | exact h1

/-- The same without what the error is about. -/
theorem layout_outcome {α : Type} [Blur α] {p : Rec → P α}
    (hj : ∀ {r r'}, RecJ r r' → J (p r) (p r') (p r'))
    (hl : ∀ {r r'}, LeRec r r' → Le (p r) (p r'))
    (hf : ∀ s, outcome (p (P.recOf (recFuel s)) (.fromChars s)) ≠ .fuel) (s : Str) :
    ∃ ops, ∀ s', SameTokens ops s s' →
      SameOutcome Blur.blur (outcome (p (P.recOf (recFuel s)) (.fromChars s)))
        (outcome (p (P.recOf (recFuel s')) (.fromChars s'))) := by
  obtain ⟨ops, _, h⟩ := reads_outcome hj hl hf s
  exact ⟨ops, h⟩

end Esprit
