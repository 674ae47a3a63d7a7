import Verif.Spec.Infix

/-! The operator stack builds the grouped tree. -/

namespace Esprit

theorem Infix.level_le (a b : Infix) : b.groupsLeft a = true ↔ a.level ≤ b.level := by
  have h : ∀ x : Infix, x.level + 2 = x.precedence := by
    intro x
    cases x with
    | binop op => obtain ⟨l, t⟩ := op; cases t <;> rfl
    | logop op => obtain ⟨l, t⟩ := op; cases t <;> rfl
  unfold Infix.groupsLeft
  rw [decide_eq_true_iff]
  have := h a
  have := h b
  omega

namespace OpTree

/-- An abstract frame of the stack. -/
abbrev AFrame := OpTree × Infix

/-- The frame it stands for. -/
def AFrame.frame (f : AFrame) : Frame := ⟨f.1.toExpr, f.2⟩

/-- Put a tree in the hole of a stack. -/
def plug : List AFrame → OpTree → OpTree
  | [], t => t
  | (l, op) :: fs, t => plug fs (node l op t)

theorem fill_frame (f : AFrame) (t : OpTree) :
    f.frame.fill t.toExpr = (node f.1 f.2 t).toExpr := by
  obtain ⟨l, op⟩ := f
  cases op <;> rfl

theorem finish_plug (fs : List AFrame) (t : OpTree) :
    Stack.finish (fs.map AFrame.frame) t.toExpr = (plug fs t).toExpr := by
  induction fs generalizing t with
  | nil => rfl
  | cons f fs ih =>
    show Stack.finish (fs.map AFrame.frame) (f.frame.fill t.toExpr) = _
    rw [fill_frame, ih]
    rfl

/-- Conditions on a stack for `plug` to be grouped. -/
def Chain : List AFrame → Prop
  | [] => True
  | (l, op) :: fs => Grouped l ∧ (∀ o ∈ l.ops, op.level ≤ o.level) ∧
      (∀ f ∈ fs, f.2.level < op.level) ∧ Chain fs

/-- The operators to the left of the hole bind less tightly than the tree. -/
def Above (fs : List AFrame) (t : OpTree) : Prop := ∀ f ∈ fs, ∀ o ∈ t.ops, f.2.level < o.level

theorem grouped_plug {fs : List AFrame} {t : OpTree} (hc : Chain fs) (ht : Grouped t)
    (ha : Above fs t) : Grouped (plug fs t) := by
  induction fs generalizing t with
  | nil => exact ht
  | cons f fs ih =>
    obtain ⟨l, op⟩ := f
    obtain ⟨h1, h2, h3, h4⟩ := hc
    refine ih h4 (.node h1 ht h2 (ha (l, op) (by simp))) ?_
    intro f hf o ho
    simp only [ops, List.mem_append, List.mem_cons] at ho
    rcases ho with ho | rfl | ho
    · exact Nat.lt_of_lt_of_le (h3 f hf) (h2 o ho)
    · exact h3 f hf
    · exact ha f (List.mem_cons_of_mem _ hf) o ho

theorem tape_plug (fs : List AFrame) (t u : OpTree) (h : t.tape = u.tape) :
    (plug fs t).tape = (plug fs u).tape := by
  induction fs generalizing t u with
  | nil => exact h
  | cons f fs ih =>
    obtain ⟨l, op⟩ := f
    exact ih _ _ (by simp only [tape, h])

theorem tape_plug_append (fs : List AFrame) (t u : OpTree) (x : List (Expr ⊕ Infix))
    (h : u.tape = t.tape ++ x) : (plug fs u).tape = (plug fs t).tape ++ x := by
  induction fs generalizing t u with
  | nil => exact h
  | cons f fs ih =>
    obtain ⟨l, op⟩ := f
    exact ih _ _ (by simp only [tape, h, List.append_assoc, List.cons_append])

/-- Adding an operator and an operand. -/
theorem extend_spec (fs : List AFrame) (t : OpTree) (op : Infix) (e : Expr)
    (hc : Chain fs) (ht : Grouped t) (ha : Above fs t) (hop : ∀ o ∈ t.ops, op.level ≤ o.level) :
    ∃ fs', Stack.extend (fs.map AFrame.frame) t.toExpr op = fs'.map AFrame.frame ∧ Chain fs' ∧
      (plug fs' (leaf e)).tape = (plug fs t).tape ++ [.inr op, .inl e] := by
  induction fs generalizing t with
  | nil => exact ⟨[(t, op)], rfl, ⟨ht, hop, by simp, trivial⟩, rfl⟩
  | cons f fs ih =>
    obtain ⟨l, o⟩ := f
    obtain ⟨h1, h2, h3, h4⟩ := hc
    have hlr := ha (l, o) (by simp)
    by_cases hg : o.groupsLeft op = true
    · have hle := (Infix.level_le op o).1 hg
      have hn : Grouped (node l o t) := .node h1 ht h2 hlr
      obtain ⟨fs', he, hc', ht'⟩ := ih (node l o t) h4 hn
        (by
          intro f hf x hx
          simp only [ops, List.mem_append, List.mem_cons] at hx
          rcases hx with hx | rfl | hx
          · exact Nat.lt_of_lt_of_le (h3 f hf) (h2 x hx)
          · exact h3 f hf
          · exact ha f (List.mem_cons_of_mem _ hf) x hx)
        (by
          intro x hx
          simp only [ops, List.mem_append, List.mem_cons] at hx
          rcases hx with hx | rfl | hx
          · exact Nat.le_trans hle (h2 x hx)
          · exact hle
          · exact hop x hx)
      refine ⟨fs', ?_, hc', ht'⟩
      rw [← he, ← fill_frame (l, o)]
      show (if o.groupsLeft op = true then _ else _) = _
      rw [if_pos hg]
    · have hlt : o.level < op.level := by
        rcases Nat.lt_or_ge o.level op.level with h | h
        · exact h
        · exact absurd ((Infix.level_le op o).2 h) hg
      refine ⟨(t, op) :: (l, o) :: fs, ?_, ⟨ht, hop, ?_, h1, h2, h3, h4⟩, ?_⟩
      · show (if o.groupsLeft op = true then _ else _) = _
        rw [if_neg hg]
        rfl
      · intro f hf
        rcases List.mem_cons.1 hf with rfl | hf
        · exact hlt
        · exact Nat.lt_trans (h3 f hf) hlt
      · exact tape_plug_append ((l, o) :: fs) t (node t op (leaf e)) _ (by simp [tape])

/-- The operands and operators of a binary expression in source order. -/
def tapeOf (e : Expr) (rest : List (Infix × Expr)) : List (Expr ⊕ Infix) :=
  .inl e :: rest.flatMap fun p => [.inr p.1, .inl p.2]

theorem foldl_spec (rest : List (Infix × Expr)) : ∀ (fs : List AFrame) (e : Expr), Chain fs →
    ∃ fs' e', rest.foldl (fun (st : Stack × Expr) p => (st.1.extend st.2 p.1, p.2))
        (fs.map AFrame.frame, e) = (fs'.map AFrame.frame, e') ∧ Chain fs' ∧
      (plug fs' (leaf e')).tape =
        (plug fs (leaf e)).tape ++ rest.flatMap fun p => [.inr p.1, .inl p.2] := by
  induction rest with
  | nil => intro fs e hc; exact ⟨fs, e, rfl, hc, by simp⟩
  | cons p rest ih =>
    intro fs e hc
    obtain ⟨op, x⟩ := p
    obtain ⟨fs1, h1, h2, h3⟩ := extend_spec fs (leaf e) op x hc .leaf
      (by intro f _ o ho; simp [ops] at ho) (by intro o ho; simp [ops] at ho)
    obtain ⟨fs2, e2, h4, h5, h6⟩ := ih fs1 x h2
    refine ⟨fs2, e2, ?_, h5, ?_⟩
    · rw [← h4, ← h1]
      rfl
    · rw [h6, h3]
      simp

theorem parseInfix_spec (e : Expr) (rest : List (Infix × Expr)) :
    ∃ t, parseInfix e rest = t.toExpr ∧ Grouped t ∧ t.tape = tapeOf e rest := by
  obtain ⟨fs, e', h1, h2, h3⟩ := foldl_spec rest [] e trivial
  refine ⟨plug fs (leaf e'), ?_, grouped_plug h2 .leaf (by intro f _ o ho; simp [ops] at ho), ?_⟩
  · unfold parseInfix
    have h1' : rest.foldl (fun (st : Stack × Expr) p => (st.1.extend st.2 p.1, p.2)) ([], e) =
        (fs.map AFrame.frame, e') := h1
    rw [h1']
    exact finish_plug fs (leaf e')
  · rw [h3]
    rfl

theorem mem_ops {t : OpTree} {op : Infix} : .inr op ∈ t.tape ↔ op ∈ t.ops := by
  induction t with
  | leaf e => simp [tape, ops]
  | node l o r ihl ihr =>
    simp only [tape, ops, List.mem_append, List.mem_cons, ihl, ihr, Sum.inr.injEq]

theorem tape_ne_nil (t : OpTree) : t.tape ≠ [] := by
  cases t <;> simp [tape]

theorem tape_length_odd (t : OpTree) : t.tape.length % 2 = 1 := by
  induction t with
  | leaf e => rfl
  | node l o r ihl ihr => simp only [tape, List.length_append, List.length_cons]; omega

private theorem split_ops {l r l' r' : OpTree} {op op' : Infix} {as : List (Expr ⊕ Infix)}
    (hl' : ∀ o ∈ l'.ops, op'.level ≤ o.level) (hr : ∀ o ∈ r.ops, op.level < o.level)
    (h1 : l'.tape = l.tape ++ as) (h2 : .inr op :: r.tape = as ++ .inr op' :: r'.tape) :
    as = [] := by
  cases as with
  | nil => rfl
  | cons a as =>
    exfalso
    simp only [List.cons_append, List.cons.injEq] at h2
    obtain ⟨rfl, h2⟩ := h2
    have h3 : op ∈ l'.ops := mem_ops.1 (by rw [h1]; simp)
    have h4 : op' ∈ r.ops := mem_ops.1 (by rw [h2]; simp)
    have := hl' _ h3
    have := hr _ h4
    omega

theorem Grouped.unique {t t' : OpTree} (h : Grouped t) (h' : Grouped t') (heq : t.tape = t'.tape) :
    t = t' := by
  induction h generalizing t' with
  | @leaf e =>
    cases h' with
    | leaf => simp [tape] at heq; rw [heq]
    | @node l r op =>
      exfalso
      have := congrArg List.length heq
      have := tape_length_odd l
      have := tape_length_odd r
      simp only [tape, List.length_append, List.length_cons, List.length_nil] at *
      omega
  | @node l r op hl hr hlo hro ihl ihr =>
    cases h' with
    | @leaf e =>
      exfalso
      have := congrArg List.length heq
      have := tape_length_odd l
      have := tape_length_odd r
      simp only [tape, List.length_append, List.length_cons, List.length_nil] at *
      omega
    | @node l' r' op' hl' hr' hlo' hro' =>
      simp only [tape] at heq
      have key : l.tape = l'.tape ∧ .inr op :: r.tape = .inr op' :: r'.tape := by
        rcases List.append_eq_append_iff.1 heq with ⟨as, h1, h2⟩ | ⟨as, h1, h2⟩
        · have := split_ops hlo' hro h1 h2
          subst this
          exact ⟨by simpa using h1.symm, by simpa using h2⟩
        · have := split_ops hlo hro' h1 h2
          subst this
          exact ⟨by simpa using h1, by simpa using h2.symm⟩
      obtain ⟨k1, k2⟩ := key
      simp only [List.cons.injEq, Sum.inr.injEq] at k2
      obtain ⟨rfl, k2⟩ := k2
      rw [ihl hl' k1, ihr hr' k2]

end OpTree

end Esprit
