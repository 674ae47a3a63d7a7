import Verif.Proofs.Debug

/-! The calls of the builders of `std::fmt` for syntax trees. -/

set_option linter.unusedSimpArgs false

namespace Esprit

open Dbg

/-! ### Well-formed calls -/

theorem Dbg.ok_tup {n : Str} {fs : List Dbg} (hn : IsWord n) (h : ∀ d ∈ fs, Ok .value d) :
    Ok .value (tup n fs) := by
  refine ⟨hn, ?_⟩
  induction fs with
  | nil => trivial
  | cons d ds ih =>
    exact ⟨rfl, h d List.mem_cons_self, ih fun d hd => h d (List.mem_cons_of_mem _ hd)⟩

theorem Dbg.ok_vec {fs : List Dbg} (h : ∀ d ∈ fs, Ok .value d) : Ok .value (vec fs) := by
  change Ok .items _
  induction fs with
  | nil => trivial
  | cons d ds ih =>
    exact ⟨rfl, h d List.mem_cons_self, ih fun d hd => h d (List.mem_cons_of_mem _ hd)⟩

theorem Dbg.ok_record {n : Str} {fs : List (Str × Dbg)} (hn : IsWord n)
    (h : ∀ f ∈ fs, (IsWord f.1 ∧ ':' ∉ f.1) ∧ Ok .value f.2) : Ok .value (record n fs) := by
  refine ⟨hn, ?_⟩
  induction fs with
  | nil => trivial
  | cons d ds ih =>
    have := h d List.mem_cons_self
    exact ⟨this.1, this.2, ih fun d hd => h d (List.mem_cons_of_mem _ hd)⟩

theorem Dbg.ok_opt {α : Type} {f : α → Dbg} {x : Option α} (h : ∀ a, Ok .value (f a)) :
    Ok .value (opt f x) := by
  cases x with
  | none => exact (by decide : IsWord c!"None")
  | some a => exact ok_tup (by decide) (by simp [h])

private theorem digits_ok (n : Nat) : ∀ c ∈ Nat.toDigits 10 n, ¬Delimiter c := by
  intro c hc hd
  have := decimal_digit hc
  simp only [Delimiter, List.mem_cons, List.not_mem_nil, or_false] at hd
  rcases hd with (rfl | rfl | rfl | rfl | rfl | rfl | rfl | rfl | rfl | rfl) <;> exact absurd this (by decide)

theorem Posn.isWord (p : Posn) : IsWord p.debug := by
  refine ⟨by simp [Posn.debug], fun c hc => ?_⟩
  simp only [Posn.debug, List.mem_append, List.mem_cons] at hc
  rcases hc with hc | rfl | hc
  · exact digits_ok _ c hc
  · decide
  · exact digits_ok _ c hc

theorem Span.isWord (s : Span) : IsWord s.debug := by
  refine ⟨by simp [Span.debug], fun c hc => ?_⟩
  simp only [Span.debug, List.mem_append, List.mem_cons, List.not_mem_nil, or_false] at hc
  rcases hc with (hc | rfl | rfl) | hc
  · exact s.start.isWord.2 c hc
  · decide
  · decide
  · exact s.end.isWord.2 c hc

theorem Loc.ok (l : Loc) : Ok .value l.dbg := ok_opt fun s => s.isWord

theorem Semi.ok (s : Semi) : Ok .value s.dbg := by
  cases s with
  | inserted => exact (by decide : IsWord c!"Inserted")
  | explicit p => exact ok_tup (by decide) (by simpa using ok_opt fun p => p.isWord)

theorem boolDbg_ok (b : Bool) : Ok .value (boolDbg b) := by
  cases b
  · exact (by decide : IsWord c!"false")
  · exact (by decide : IsWord c!"true")

theorem Op.ok {T : Type} {f : T → Str} (hf : ∀ t, IsWord (f t)) (o : Op T) : Ok .value (o.dbg f) :=
  ok_record (by decide) (by simpa using ⟨by decide, hf _⟩)

theorem UnopTag.isWord (t : UnopTag) : IsWord t.debug := by cases t <;> decide
theorem BinopTag.isWord (t : BinopTag) : IsWord t.debug := by cases t <;> decide
theorem LogopTag.isWord (t : LogopTag) : IsWord t.debug := by cases t <;> decide
theorem AssopTag.isWord (t : AssopTag) : IsWord t.debug := by cases t <;> decide
theorem Atom.isWord (t : Atom) : IsWord t.debug := by cases t <;> decide

theorem Name.ok (n : Name) : Ok .value n.dbg := by
  cases n with
  | atom a => exact ok_tup (by decide) (by
      simp only [List.mem_singleton, forall_eq]
      exact a.isWord)
  | string s => exact ok_tup (by decide) (by simp [Ok])

theorem StringLiteral.ok (s : StringLiteral) : Ok .value s.dbg :=
  ok_record (by decide) (by simp only [List.mem_singleton, forall_eq]; exact ⟨by decide, trivial⟩)

theorem RegExpLiteral.ok (s : RegExpLiteral) : Ok .value s.dbg := by
  refine ok_record (by decide) ?_
  simp only [List.mem_cons, List.not_mem_nil, or_false, forall_eq_or_imp, forall_eq]
  refine ⟨⟨by decide, trivial⟩, ⟨by decide, ok_vec ?_⟩⟩
  simp [Ok]

theorem NumberLiteral.ok [L : LawfulDebugStd] (n : NumberLiteral) : Ok .value n.dbg :=
  ok_record (by decide) (by
    simp only [List.mem_singleton, forall_eq]
    exact ⟨by decide, L.num_ne _, L.num_chars _⟩)

theorem Id.ok (i : Id) : Ok .value i.dbg := by
  refine ok_record (by decide) ?_
  simp only [List.mem_cons, List.not_mem_nil, or_false, forall_eq_or_imp, forall_eq]
  exact ⟨⟨by decide, Loc.ok _⟩, ⟨by decide, Name.ok _⟩⟩

theorem DotKey.ok (k : DotKey) : Ok .value k.dbg := by
  refine ok_record (by decide) ?_
  simp only [List.mem_cons, List.not_mem_nil, or_false, forall_eq_or_imp, forall_eq]
  exact ⟨⟨by decide, Loc.ok _⟩, ⟨by decide, trivial⟩⟩

theorem PropKey.ok [LawfulDebugStd] (k : PropKey) : Ok .value k.dbg := by
  cases k <;> refine ok_tup (by decide) ?_ <;>
    simp only [List.mem_cons, List.not_mem_nil, or_false, forall_eq_or_imp, forall_eq]
  · exact ⟨Loc.ok _, trivial⟩
  · exact ⟨Loc.ok _, StringLiteral.ok _⟩
  · exact ⟨Loc.ok _, NumberLiteral.ok _⟩

theorem Dir.ok (d : Dir) : Ok .value d.dbg := by
  refine ok_record (by decide) ?_
  simp only [List.mem_cons, List.not_mem_nil, or_false, forall_eq_or_imp, forall_eq]
  exact ⟨⟨by decide, Loc.ok _⟩, ⟨by decide, StringLiteral.ok _⟩, ⟨by decide, Semi.ok _⟩⟩

namespace Ast

/-- What the calls for a category are. -/
def dbgKind : Cat → Kind
  | .list _ => .items
  | _ => .value

theorem wrap_ok {c : Cat} {d : Dbg} (h : Ok (dbgKind c) d) : Ok .value (wrap c d) := by
  cases c <;> exact h

theorem entries_ok [LawfulDebugStd] {c : Cat} (x : Ast c) : Ok (dbgKind c) x.entries := by
  induction x with
  | nil => trivial
  | cons h t ihh iht => exact ⟨rfl, wrap_ok ihh, iht⟩
  | none => exact (by decide : IsWord c!"None")
  | some x ih => exact ok_tup (by decide) (by simpa using wrap_ok ih)
  | ident i => exact i.ok
  | key k => exact k.ok
  | eThis => exact (by decide : IsWord c!"This")
  | eNewTarget => exact (by decide : IsWord c!"NewTarget")
  | eTrue => exact (by decide : IsWord c!"True")
  | eFalse => exact (by decide : IsWord c!"False")
  | eNull => exact (by decide : IsWord c!"Null")
  | eNew l callee args ih1 ih2 =>
    cases args with
    | none =>
      refine ok_tup (by decide) ?_
      simp only [List.mem_cons, List.not_mem_nil, or_false, forall_eq_or_imp, forall_eq]
      exact ⟨ih1, trivial⟩
    | some args =>
      refine ok_tup (by decide) ?_
      simp only [List.mem_cons, List.not_mem_nil, or_false, forall_eq_or_imp, forall_eq]
      exact ⟨ih1, ih2.2.2.1⟩
  | _ =>
    first
      | refine ok_tup (by decide) ?_
      | refine ok_record (by decide) ?_
    simp only [List.mem_cons, List.not_mem_nil, or_false, forall_eq_or_imp, forall_eq]
    repeat' with_reducible apply And.intro
    all_goals first
      | assumption
      | decide
      | exact Loc.ok _
      | exact Semi.ok _
      | exact Id.ok _
      | exact DotKey.ok _
      | exact PropKey.ok _
      | exact StringLiteral.ok _
      | exact NumberLiteral.ok _
      | exact RegExpLiteral.ok _
      | exact boolDbg_ok _
      | exact Op.ok UnopTag.isWord _
      | exact Op.ok BinopTag.isWord _
      | exact Op.ok LogopTag.isWord _
      | exact Op.ok AssopTag.isWord _
      | exact ok_opt Id.ok
      | exact wrap_ok (by assumption)
      | (refine ok_vec ?_; simp [Dir.ok])

theorem dbg_ok [LawfulDebugStd] {c : Cat} (x : Ast c) : Ok .value x.dbg := wrap_ok x.entries_ok

end Ast

/-! ### From calls to trees -/

namespace Dbg

/-- Calls for different variants are different. -/
theorem differ {d d' : Dbg} {p : Prop} (h : d = d') (hl : decide (d.lead = d'.lead) = false) : p :=
  absurd (congrArg lead h) (of_decide_eq_false hl)

private theorem items_inj {l l' : List Dbg} (h : l.foldr (Dbg.cons []) .nil = l'.foldr (Dbg.cons []) .nil) :
    l = l' := by
  induction l generalizing l' with
  | nil => cases l' with
    | nil => rfl
    | cons => cases h
  | cons d t ih => cases l' with
    | nil => cases h
    | cons d' t' =>
      simp only [List.foldr_cons, Dbg.cons.injEq, true_and] at h
      rw [h.1, ih h.2]

theorem tup_inj {n n' : Str} {l l' : List Dbg} (h : tup n l = tup n' l') : n = n' ∧ l = l' :=
  ⟨(Dbg.tuple.inj h).1, items_inj (Dbg.tuple.inj h).2⟩

theorem vec_inj {l l' : List Dbg} (h : vec l = vec l') : l = l' := items_inj (Dbg.list.inj h)

theorem record_inj {n n' : Str} {l l' : List (Str × Dbg)} (h : record n l = record n' l') :
    n = n' ∧ l = l' := by
  refine ⟨(Dbg.struct.inj h).1, ?_⟩
  replace h := (Dbg.struct.inj h).2
  induction l generalizing l' with
  | nil => cases l' with
    | nil => rfl
    | cons => cases h
  | cons d t ih => cases l' with
    | nil => cases h
    | cons d' t' =>
      simp only [List.foldr_cons, Dbg.cons.injEq] at h
      rw [ih h.2.2, show d = d' from Prod.ext h.1 h.2.1]

end Dbg

theorem UnopTag.debug_inj {a b : UnopTag} (h : a.debug = b.debug) : a = b := by
  cases a <;> cases b <;> first | rfl | exact absurd h (by decide)
theorem BinopTag.debug_inj {a b : BinopTag} (h : a.debug = b.debug) : a = b := by
  cases a <;> cases b <;> first | rfl | exact absurd h (by decide)
theorem LogopTag.debug_inj {a b : LogopTag} (h : a.debug = b.debug) : a = b := by
  cases a <;> cases b <;> first | rfl | exact absurd h (by decide)
theorem AssopTag.debug_inj {a b : AssopTag} (h : a.debug = b.debug) : a = b := by
  cases a <;> cases b <;> first | rfl | exact absurd h (by decide)
theorem Atom.debug_inj {a b : Atom} (h : a.debug = b.debug) : a = b := by
  cases a <;> cases b <;> first | rfl | exact absurd h (by decide)

theorem boolDbg_inj {a b : Bool} (h : boolDbg a = boolDbg b) : a = b := by
  cases a <;> cases b <;> first | rfl | exact differ h rfl

theorem Op.untrack_of_dbg {T : Type} {f : T → Str} (hf : ∀ {a b}, f a = f b → a = b) {o o' : Op T}
    (h : o.dbg f = o'.dbg f) : o.untrack = o'.untrack := by
  have h := (record_inj h).2
  simp only [List.cons.injEq, Prod.mk.injEq, true_and, and_true, Dbg.word.injEq] at h
  rw [Op.untrack, Op.untrack, hf h]

theorem Name.dbg_inj {a b : Name} (h : a.dbg = b.dbg) : a = b := by
  cases a <;> cases b
  · have h := (tup_inj h).2
    simp only [List.cons.injEq, and_true, Dbg.word.injEq] at h
    rw [Atom.debug_inj h]
  · exact differ h rfl
  · exact differ h rfl
  · have h := (tup_inj h).2
    simp only [List.cons.injEq, and_true, Dbg.str.injEq] at h
    rw [h]

theorem Id.untrack_of_dbg {i j : Id} (h : i.dbg = j.dbg) : i.untrack = j.untrack := by
  have h := (record_inj h).2
  simp only [List.cons.injEq, Prod.mk.injEq, true_and, and_true] at h
  rw [Id.untrack, Id.untrack, Name.dbg_inj h.2]

theorem Id.map_untrack_of_dbg {i j : Option Id} (h : Dbg.opt Id.dbg i = Dbg.opt Id.dbg j) :
    i.map Id.untrack = j.map Id.untrack := by
  cases i <;> cases j
  · rfl
  · exact differ h rfl
  · exact differ h rfl
  · have h := (tup_inj h).2
    simp only [List.cons.injEq, and_true] at h
    rw [Option.map_some, Option.map_some, Id.untrack_of_dbg h]

theorem DotKey.untrack_of_dbg {i j : DotKey} (h : i.dbg = j.dbg) : i.untrack = j.untrack := by
  have h := (record_inj h).2
  simp only [List.cons.injEq, Prod.mk.injEq, true_and, and_true, Dbg.str.injEq] at h
  rw [DotKey.untrack, DotKey.untrack, h.2]

theorem StringLiteral.value_of_dbg {s t : StringLiteral} (h : s.dbg = t.dbg) : s.value = t.value := by
  have h := (record_inj h).2
  simpa using h

theorem RegExpLiteral.same_of_dbg {s t : RegExpLiteral} (h : s.dbg = t.dbg) :
    s.pattern = t.pattern ∧ List.Perm s.flags t.flags := by
  have h := (record_inj h).2
  simp only [List.cons.injEq, Prod.mk.injEq, true_and, and_true, Dbg.str.injEq] at h
  have h2 := vec_inj h.2
  exact ⟨h.1, (alphabetize_eq_iff _ _).1 (List.map_inj_right (fun _ _ h => Dbg.chr.inj h) |>.1 h2)⟩

theorem NumberLiteral.same_of_dbg [L : LawfulDebugStd] {m n : NumberLiteral} (hm : m.value ≠ .nan)
    (h : m.dbg = n.dbg) : SameNumber m.value n.value := by
  have h := (record_inj h).2
  simp only [List.cons.injEq, Prod.mk.injEq, true_and, and_true, Dbg.word.injEq] at h
  exact L.num_differ h hm

theorem PropKey.agree_of_dbg [LawfulDebugStd] {k k' : PropKey}
    (hn : ∀ n ∈ k.numbers, n.value ≠ .nan) (h : k.dbg = k'.dbg) : k.untrack.Agree k'.untrack := by
  cases k <;> cases k'
  case id.id =>
    have h := (tup_inj h).2
    simp only [List.cons.injEq, and_true, Dbg.str.injEq] at h
    rw [PropKey.untrack, PropKey.untrack, PropKey.setLoc, PropKey.setLoc, h.2]
    exact .id
  case string.string =>
    have h := (tup_inj h).2
    simp only [List.cons.injEq, and_true] at h
    exact .string (StringLiteral.value_of_dbg h.2)
  case number.number =>
    have h := (tup_inj h).2
    simp only [List.cons.injEq, and_true] at h
    exact .number (NumberLiteral.same_of_dbg (hn _ (by simp [PropKey.numbers])) h.2)
  all_goals exact differ h rfl

theorem dirs_of_dbg {ds ds' : List Dir} (h : ds.map Dir.dbg = ds'.map Dir.dbg) :
    DirsAgree (ds.map Dir.untrack) (ds'.map Dir.untrack) := by
  induction ds generalizing ds' with
  | nil => cases ds' with
    | nil => exact .nil
    | cons => cases h
  | cons d t ih => cases ds' with
    | nil => cases h
    | cons d' t' =>
      simp only [List.map_cons, List.cons.injEq] at h
      have hd := (record_inj h.1).2
      simp only [List.cons.injEq, Prod.mk.injEq, true_and, and_true] at hd
      exact .cons rfl (StringLiteral.value_of_dbg hd.2.1) rfl (ih h.2)

namespace Ast

theorem wrap_inj {c : Cat} {d d' : Dbg} (h : wrap c d = wrap c d') : d = d' := by
  cases c <;> first | exact h | exact Dbg.list.inj h

theorem agree_of_entries [LawfulDebugStd] {c : Cat} {x y : Ast c} (hn : ∀ n ∈ x.numbers, n.value ≠ .nan)
    (h : x.entries = y.entries) : Agree x.untrack y.untrack := by
  induction x with
  | nil =>
    cases y with
    | nil => exact .nil
    | cons => cases h
  | cons a t ih_a ih_t =>
    cases y with
    | nil => cases h
    | cons a' t' =>
      obtain ⟨_, h1, h2⟩ := Dbg.cons.inj h
      exact .cons (ih_a (fun n hm => hn n (List.mem_append_left _ hm)) (wrap_inj h1))
        (ih_t (fun n hm => hn n (List.mem_append_right _ hm)) h2)
  | none =>
    cases y with
    | none => exact .none
    | some => exact differ h rfl
  | some x ih_x =>
    cases y with
    | none => exact differ h rfl
    | some x' =>
      have h := (tup_inj h).2
      simp only [List.cons.injEq, and_true] at h
      exact .some (ih_x hn (wrap_inj h))
  | ident i =>
    cases y with
    | ident j =>
      change Agree (.ident i.untrack) (.ident j.untrack)
      rw [Id.untrack_of_dbg h]
      exact .ident
  | key k =>
    cases y with
    | key k' => exact .key (PropKey.agree_of_dbg hn h)
  | iExpr e ih_e =>
    cases y with
    | iExpr e' =>
      have h := (tup_inj h).2
      simp only [List.cons.injEq, and_true] at h
      have h_e := h
      exact .iExpr (ih_e hn h_e)
    | _ => exact differ h rfl
  | iSpread l e ih_e =>
    cases y with
    | iSpread l' e' =>
      have h := (tup_inj h).2
      simp only [List.cons.injEq, and_true] at h
      obtain ⟨_, h_e⟩ := h
      exact .iSpread (ih_e hn h_e)
    | _ => exact differ h rfl
  | eThis l =>
    cases y with
    | eThis l' =>
      exact .eThis
    | _ => first | exact differ h rfl | (rename_i a; cases a <;> exact differ h rfl)
  | eId i =>
    cases y with
    | eId i' =>
      have h := (tup_inj h).2
      simp only [List.cons.injEq, and_true] at h
      have h_i := h
      change Agree (.eId i.untrack) (.eId i'.untrack)
      rw [Id.untrack_of_dbg h_i]
      exact .eId
    | _ => first | exact differ h rfl | (rename_i a; cases a <;> exact differ h rfl)
  | eArr l es ih_es =>
    cases y with
    | eArr l' es' =>
      have h := (tup_inj h).2
      simp only [List.cons.injEq, and_true] at h
      have h_es := h
      exact .eArr (ih_es hn (Dbg.list.inj h_es))
    | _ => first | exact differ h rfl | (rename_i a; cases a <;> exact differ h rfl)
  | eObj l ps ih_ps =>
    cases y with
    | eObj l' ps' =>
      have h := (tup_inj h).2
      simp only [List.cons.injEq, and_true] at h
      have h_ps := h
      exact .eObj (ih_ps hn (Dbg.list.inj h_ps))
    | _ => first | exact differ h rfl | (rename_i a; cases a <;> exact differ h rfl)
  | eFun f ih_f =>
    cases y with
    | eFun f' =>
      have h := (tup_inj h).2
      simp only [List.cons.injEq, and_true] at h
      have h_f := h
      exact .eFun (ih_f hn h_f)
    | _ => first | exact differ h rfl | (rename_i a; cases a <;> exact differ h rfl)
  | eSeq l es ih_es =>
    cases y with
    | eSeq l' es' =>
      have h := (tup_inj h).2
      simp only [List.cons.injEq, and_true] at h
      have h_es := h
      exact .eSeq (ih_es hn (Dbg.list.inj h_es))
    | _ => first | exact differ h rfl | (rename_i a; cases a <;> exact differ h rfl)
  | eUnop l op e ih_e =>
    cases y with
    | eUnop l' op' e' =>
      have h := (tup_inj h).2
      simp only [List.cons.injEq, and_true] at h
      obtain ⟨h_op, h_e⟩ := h
      change Agree (.eUnop Option.none op.untrack (Ast.untrack e)) (.eUnop Option.none op'.untrack (Ast.untrack e'))
      rw [Op.untrack_of_dbg UnopTag.debug_inj h_op]
      exact .eUnop (ih_e hn h_e)
    | _ => first | exact differ h rfl | (rename_i a; cases a <;> exact differ h rfl)
  | eBinop l op a b ih_a ih_b =>
    cases y with
    | eBinop l' op' a' b' =>
      have h := (tup_inj h).2
      simp only [List.cons.injEq, and_true] at h
      obtain ⟨h_op, h_a, h_b⟩ := h
      change Agree (.eBinop Option.none op.untrack (Ast.untrack a) (Ast.untrack b)) (.eBinop Option.none op'.untrack (Ast.untrack a') (Ast.untrack b'))
      rw [Op.untrack_of_dbg BinopTag.debug_inj h_op]
      exact .eBinop (ih_a (fun n hm => hn n (List.mem_append_left _ hm)) h_a) (ih_b (fun n hm => hn n (List.mem_append_right _ hm)) h_b)
    | _ => first | exact differ h rfl | (rename_i a; cases a <;> exact differ h rfl)
  | eLogop l op a b ih_a ih_b =>
    cases y with
    | eLogop l' op' a' b' =>
      have h := (tup_inj h).2
      simp only [List.cons.injEq, and_true] at h
      obtain ⟨h_op, h_a, h_b⟩ := h
      change Agree (.eLogop Option.none op.untrack (Ast.untrack a) (Ast.untrack b)) (.eLogop Option.none op'.untrack (Ast.untrack a') (Ast.untrack b'))
      rw [Op.untrack_of_dbg LogopTag.debug_inj h_op]
      exact .eLogop (ih_a (fun n hm => hn n (List.mem_append_left _ hm)) h_a) (ih_b (fun n hm => hn n (List.mem_append_right _ hm)) h_b)
    | _ => first | exact differ h rfl | (rename_i a; cases a <;> exact differ h rfl)
  | ePreInc l t ih_t =>
    cases y with
    | ePreInc l' t' =>
      have h := (tup_inj h).2
      simp only [List.cons.injEq, and_true] at h
      have h_t := h
      exact .ePreInc (ih_t hn h_t)
    | _ => first | exact differ h rfl | (rename_i a; cases a <;> exact differ h rfl)
  | ePostInc l t ih_t =>
    cases y with
    | ePostInc l' t' =>
      have h := (tup_inj h).2
      simp only [List.cons.injEq, and_true] at h
      have h_t := h
      exact .ePostInc (ih_t hn h_t)
    | _ => first | exact differ h rfl | (rename_i a; cases a <;> exact differ h rfl)
  | ePreDec l t ih_t =>
    cases y with
    | ePreDec l' t' =>
      have h := (tup_inj h).2
      simp only [List.cons.injEq, and_true] at h
      have h_t := h
      exact .ePreDec (ih_t hn h_t)
    | _ => first | exact differ h rfl | (rename_i a; cases a <;> exact differ h rfl)
  | ePostDec l t ih_t =>
    cases y with
    | ePostDec l' t' =>
      have h := (tup_inj h).2
      simp only [List.cons.injEq, and_true] at h
      have h_t := h
      exact .ePostDec (ih_t hn h_t)
    | _ => first | exact differ h rfl | (rename_i a; cases a <;> exact differ h rfl)
  | eAssign l p e ih_p ih_e =>
    cases y with
    | eAssign l' p' e' =>
      have h := (tup_inj h).2
      simp only [List.cons.injEq, and_true] at h
      obtain ⟨h_p, h_e⟩ := h
      exact .eAssign (ih_p (fun n hm => hn n (List.mem_append_left _ hm)) h_p) (ih_e (fun n hm => hn n (List.mem_append_right _ hm)) h_e)
    | _ => first | exact differ h rfl | (rename_i a; cases a <;> exact differ h rfl)
  | eBinAssign l op t e ih_t ih_e =>
    cases y with
    | eBinAssign l' op' t' e' =>
      have h := (tup_inj h).2
      simp only [List.cons.injEq, and_true] at h
      obtain ⟨h_op, h_t, h_e⟩ := h
      change Agree (.eBinAssign Option.none op.untrack (Ast.untrack t) (Ast.untrack e)) (.eBinAssign Option.none op'.untrack (Ast.untrack t') (Ast.untrack e'))
      rw [Op.untrack_of_dbg AssopTag.debug_inj h_op]
      exact .eBinAssign (ih_t (fun n hm => hn n (List.mem_append_left _ hm)) h_t) (ih_e (fun n hm => hn n (List.mem_append_right _ hm)) h_e)
    | _ => first | exact differ h rfl | (rename_i a; cases a <;> exact differ h rfl)
  | eCond l test thn alt ih_test ih_thn ih_alt =>
    cases y with
    | eCond l' test' thn' alt' =>
      have h := (tup_inj h).2
      simp only [List.cons.injEq, and_true] at h
      obtain ⟨h_test, h_thn, h_alt⟩ := h
      exact .eCond (ih_test (fun n hm => hn n (List.mem_append_left _ (List.mem_append_left _ hm))) h_test) (ih_thn (fun n hm => hn n (List.mem_append_left _ (List.mem_append_right _ hm))) h_thn) (ih_alt (fun n hm => hn n (List.mem_append_right _ hm)) h_alt)
    | _ => first | exact differ h rfl | (rename_i a; cases a <;> exact differ h rfl)
  | eCall l callee args ih_callee ih_args =>
    cases y with
    | eCall l' callee' args' =>
      have h := (tup_inj h).2
      simp only [List.cons.injEq, and_true] at h
      obtain ⟨h_callee, h_args⟩ := h
      exact .eCall (ih_callee (fun n hm => hn n (List.mem_append_left _ hm)) h_callee) (ih_args (fun n hm => hn n (List.mem_append_right _ hm)) (Dbg.list.inj h_args))
    | _ => first | exact differ h rfl | (rename_i a; cases a <;> exact differ h rfl)
  | eNew l callee args ih_callee ih_args =>
    cases y with
    | eNew l' callee' args' =>
      have hc : ∀ n ∈ callee.numbers, n.value ≠ .nan := fun n hm => hn n (List.mem_append_left _ hm)
      cases args with
      | none =>
        cases args' with
        | none =>
          have h := (tup_inj h).2
          simp only [List.cons.injEq] at h
          exact .eNew (ih_callee hc h.1) .none
        | some as' =>
          have h := (tup_inj h).2
          simp only [List.cons.injEq, Dbg.list.injEq, and_true] at h
          cases as' with
          | nil => exact .newNoArgs (ih_callee hc h.1)
          | cons => exact nomatch h.2
      | some as =>
        cases args' with
        | none =>
          have h := (tup_inj h).2
          simp only [List.cons.injEq, Dbg.list.injEq, and_true] at h
          cases as with
          | nil => exact .newEmptyArgs (ih_callee hc h.1)
          | cons => exact nomatch h.2
        | some as' =>
          have h := (tup_inj h).2
          simp only [List.cons.injEq, Dbg.list.injEq, and_true] at h
          exact .eNew (ih_callee hc h.1) (ih_args 
            (fun n hm => hn n (List.mem_append_right _ hm))
            (congrArg (fun d => Dbg.tup c!"Some" [.list d]) h.2))
    | _ => cases args <;> exact differ h rfl
  | eDot l e k ih_e =>
    cases y with
    | eDot l' e' k' =>
      have h := (tup_inj h).2
      simp only [List.cons.injEq, and_true] at h
      obtain ⟨h_e, h_k⟩ := h
      change Agree (.eDot Option.none (Ast.untrack e) k.untrack) (.eDot Option.none (Ast.untrack e') k'.untrack)
      rw [DotKey.untrack_of_dbg h_k]
      exact .eDot (ih_e hn h_e)
    | _ => first | exact differ h rfl | (rename_i a; cases a <;> exact differ h rfl)
  | eBrack l e prop ih_e ih_prop =>
    cases y with
    | eBrack l' e' prop' =>
      have h := (tup_inj h).2
      simp only [List.cons.injEq, and_true] at h
      obtain ⟨h_e, h_prop⟩ := h
      exact .eBrack (ih_e (fun n hm => hn n (List.mem_append_left _ hm)) h_e) (ih_prop (fun n hm => hn n (List.mem_append_right _ hm)) h_prop)
    | _ => first | exact differ h rfl | (rename_i a; cases a <;> exact differ h rfl)
  | eNewTarget l =>
    cases y with
    | eNewTarget l' =>
      exact .eNewTarget
    | _ => first | exact differ h rfl | (rename_i a; cases a <;> exact differ h rfl)
  | eTrue l =>
    cases y with
    | eTrue l' =>
      exact .eTrue
    | _ => first | exact differ h rfl | (rename_i a; cases a <;> exact differ h rfl)
  | eFalse l =>
    cases y with
    | eFalse l' =>
      exact .eFalse
    | _ => first | exact differ h rfl | (rename_i a; cases a <;> exact differ h rfl)
  | eNull l =>
    cases y with
    | eNull l' =>
      exact .eNull
    | _ => first | exact differ h rfl | (rename_i a; cases a <;> exact differ h rfl)
  | eNumber l n =>
    cases y with
    | eNumber l' n' =>
      have h := (tup_inj h).2
      simp only [List.cons.injEq, and_true] at h
      have h_n := h
      exact .eNumber (NumberLiteral.same_of_dbg (hn _ (List.mem_singleton_self _)) h_n)
    | _ => first | exact differ h rfl | (rename_i a; cases a <;> exact differ h rfl)
  | eRegExp l r =>
    cases y with
    | eRegExp l' r' =>
      have h := (tup_inj h).2
      simp only [List.cons.injEq, and_true] at h
      have h_r := h
      exact .eRegExp (RegExpLiteral.same_of_dbg h_r).1 (RegExpLiteral.same_of_dbg h_r).2
    | _ => first | exact differ h rfl | (rename_i a; cases a <;> exact differ h rfl)
  | eString l s =>
    cases y with
    | eString l' s' =>
      have h := (tup_inj h).2
      simp only [List.cons.injEq, and_true] at h
      have h_s := h
      exact .eString (StringLiteral.value_of_dbg h_s)
    | _ => first | exact differ h rfl | (rename_i a; cases a <;> exact differ h rfl)
  | tId i =>
    cases y with
    | tId i' =>
      have h := (tup_inj h).2
      simp only [List.cons.injEq, and_true] at h
      have h_i := h
      change Agree (.tId i.untrack) (.tId i'.untrack)
      rw [Id.untrack_of_dbg h_i]
      exact .tId
    | _ => exact differ h rfl
  | tDot l e k ih_e =>
    cases y with
    | tDot l' e' k' =>
      have h := (tup_inj h).2
      simp only [List.cons.injEq, and_true] at h
      obtain ⟨_, h_e, h_k⟩ := h
      change Agree (.tDot Option.none (Ast.untrack e) k.untrack) (.tDot Option.none (Ast.untrack e') k'.untrack)
      rw [DotKey.untrack_of_dbg h_k]
      exact .tDot (ih_e hn h_e)
    | _ => exact differ h rfl
  | tBrack l e prop ih_e ih_prop =>
    cases y with
    | tBrack l' e' prop' =>
      have h := (tup_inj h).2
      simp only [List.cons.injEq, and_true] at h
      obtain ⟨_, h_e, h_prop⟩ := h
      exact .tBrack (ih_e (fun n hm => hn n (List.mem_append_left _ hm)) h_e) (ih_prop (fun n hm => hn n (List.mem_append_right _ hm)) h_prop)
    | _ => exact differ h rfl
  | pSimple t ih_t =>
    cases y with
    | pSimple t' =>
      have h := (tup_inj h).2
      simp only [List.cons.injEq, and_true] at h
      have h_t := h
      exact .pSimple (ih_t hn (wrap_inj h_t))
    | _ => exact differ h rfl
  | pCompound p ih_p =>
    cases y with
    | pCompound p' =>
      have h := (tup_inj h).2
      simp only [List.cons.injEq, and_true] at h
      have h_p := h
      exact .pCompound (ih_p hn h_p)
    | _ => exact differ h rfl
  | cArr l es r ih_es ih_r =>
    cases y with
    | cArr l' es' r' =>
      have h := (tup_inj h).2
      simp only [List.cons.injEq, and_true] at h
      obtain ⟨_, h_es, h_r⟩ := h
      exact .cArr (ih_es (fun n hm => hn n (List.mem_append_left _ hm)) (Dbg.list.inj h_es)) (ih_r (fun n hm => hn n (List.mem_append_right _ hm)) h_r)
    | _ => exact differ h rfl
  | cObj l ps ih_ps =>
    cases y with
    | cObj l' ps' =>
      have h := (tup_inj h).2
      simp only [List.cons.injEq, and_true] at h
      obtain ⟨_, h_ps⟩ := h
      exact .cObj (ih_ps hn (Dbg.list.inj h_ps))
    | _ => exact differ h rfl
  | restPatt l p ih_p =>
    cases y with
    | restPatt l' p' =>
      have h := (record_inj h).2
      simp only [List.cons.injEq, Prod.mk.injEq, true_and, and_true] at h
      obtain ⟨_, h_p⟩ := h
      exact .restPatt (ih_p hn h_p)
  | ppRegular l k p ih_p =>
    cases y with
    | ppRegular l' k' p' =>
      have h := (tup_inj h).2
      simp only [List.cons.injEq, and_true] at h
      obtain ⟨_, h_k, h_p⟩ := h
      exact .ppRegular (PropKey.agree_of_dbg (fun n hm => hn n (List.mem_append_left _ hm)) h_k) (ih_p (fun n hm => hn n (List.mem_append_right _ hm)) h_p)
    | _ => exact differ h rfl
  | ppShorthand i =>
    cases y with
    | ppShorthand i' =>
      have h := (tup_inj h).2
      simp only [List.cons.injEq, and_true] at h
      have h_i := h
      change Agree (.ppShorthand i.untrack) (.ppShorthand i'.untrack)
      rw [Id.untrack_of_dbg h_i]
      exact .ppShorthand
    | _ => exact differ h rfl
  | prRegular l k v ih_v =>
    cases y with
    | prRegular l' k' v' =>
      have h := (tup_inj h).2
      simp only [List.cons.injEq, and_true] at h
      obtain ⟨_, h_k, h_v⟩ := h
      exact .prRegular (PropKey.agree_of_dbg (fun n hm => hn n (List.mem_append_left _ hm)) h_k) (ih_v (fun n hm => hn n (List.mem_append_right _ hm)) h_v)
    | _ => exact differ h rfl
  | prMethod f ih_f =>
    cases y with
    | prMethod f' =>
      have h := (tup_inj h).2
      simp only [List.cons.injEq, and_true] at h
      have h_f := h
      exact .prMethod (ih_f hn h_f)
    | _ => exact differ h rfl
  | prShorthand i =>
    cases y with
    | prShorthand i' =>
      have h := (tup_inj h).2
      simp only [List.cons.injEq, and_true] at h
      have h_i := h
      change Agree (.prShorthand i.untrack) (.prShorthand i'.untrack)
      rw [Id.untrack_of_dbg h_i]
      exact .prShorthand
    | _ => exact differ h rfl
  | vInit e ih_e =>
    cases y with
    | vInit e' =>
      have h := (tup_inj h).2
      simp only [List.cons.injEq, and_true] at h
      have h_e := h
      exact .vInit (ih_e hn h_e)
    | _ => exact differ h rfl
  | vGet l b ih_b =>
    cases y with
    | vGet l' b' =>
      have h := (tup_inj h).2
      simp only [List.cons.injEq, and_true] at h
      obtain ⟨_, h_b⟩ := h
      exact .vGet (ih_b hn h_b)
    | _ => exact differ h rfl
  | vSet l p b ih_p ih_b =>
    cases y with
    | vSet l' p' b' =>
      have h := (tup_inj h).2
      simp only [List.cons.injEq, and_true] at h
      obtain ⟨_, h_p, h_b⟩ := h
      exact .vSet (ih_p (fun n hm => hn n (List.mem_append_left _ hm)) h_p) (ih_b (fun n hm => hn n (List.mem_append_right _ hm)) h_b)
    | _ => exact differ h rfl
  | func l id ps b gen ih_id ih_ps ih_b =>
    cases y with
    | func l' id' ps' b' gen' =>
      have h := (record_inj h).2
      simp only [List.cons.injEq, Prod.mk.injEq, true_and, and_true] at h
      obtain ⟨_, h_id, h_ps, h_b, h_gen⟩ := h
      change Agree (.func Option.none (Ast.untrack id) (Ast.untrack ps) (Ast.untrack b) gen) (.func Option.none (Ast.untrack id') (Ast.untrack ps') (Ast.untrack b') gen')
      rw [boolDbg_inj h_gen]
      exact .func (ih_id (fun n hm => hn n (List.mem_append_left _ (List.mem_append_left _ hm))) (wrap_inj h_id)) (ih_ps (fun n hm => hn n (List.mem_append_left _ (List.mem_append_right _ hm))) h_ps) (ih_b (fun n hm => hn n (List.mem_append_right _ hm)) h_b)
  | params l ps r ih_ps ih_r =>
    cases y with
    | params l' ps' r' =>
      have h := (record_inj h).2
      simp only [List.cons.injEq, Prod.mk.injEq, true_and, and_true] at h
      obtain ⟨_, h_ps, h_r⟩ := h
      exact .params (ih_ps (fun n hm => hn n (List.mem_append_left _ hm)) (Dbg.list.inj h_ps)) (ih_r (fun n hm => hn n (List.mem_append_right _ hm)) h_r)
  | body l dirs items ih_items =>
    cases y with
    | body l' dirs' items' =>
      have h := (record_inj h).2
      simp only [List.cons.injEq, Prod.mk.injEq, true_and, and_true] at h
      obtain ⟨_, h_dirs, h_items⟩ := h
      exact .body (dirs_of_dbg (vec_inj h_dirs)) (ih_items hn (Dbg.list.inj h_items))
  | siDecl d ih_d =>
    cases y with
    | siDecl d' =>
      have h := (tup_inj h).2
      simp only [List.cons.injEq, and_true] at h
      have h_d := h
      exact .siDecl (ih_d hn h_d)
    | _ => exact differ h rfl
  | siStmt s ih_s =>
    cases y with
    | siStmt s' =>
      have h := (tup_inj h).2
      simp only [List.cons.injEq, and_true] at h
      have h_s := h
      exact .siStmt (ih_s hn h_s)
    | _ => exact differ h rfl
  | miImport i ih_i =>
    cases y with
    | miImport i' =>
      have h := (tup_inj h).2
      simp only [List.cons.injEq, and_true] at h
      have h_i := h
      exact .miImport (ih_i hn h_i)
    | _ => exact differ h rfl
  | miExport e ih_e =>
    cases y with
    | miExport e' =>
      have h := (tup_inj h).2
      simp only [List.cons.injEq, and_true] at h
      have h_e := h
      exact .miExport (ih_e hn h_e)
    | _ => exact differ h rfl
  | miItem i ih_i =>
    cases y with
    | miItem i' =>
      have h := (tup_inj h).2
      simp only [List.cons.injEq, and_true] at h
      have h_i := h
      exact .miItem (ih_i hn h_i)
    | _ => exact differ h rfl
  | importForEffect l s =>
    cases y with
    | importForEffect l' s' =>
      have h := (tup_inj h).2
      simp only [List.cons.injEq, and_true] at h
      obtain ⟨_, h_s⟩ := h
      exact .importForEffect (StringLiteral.value_of_dbg h_s)
  | exportVar l ds semi ih_ds =>
    cases y with
    | exportVar l' ds' semi' =>
      have h := (tup_inj h).2
      simp only [List.cons.injEq, and_true] at h
      obtain ⟨_, h_ds, _⟩ := h
      exact .exportVar (ih_ds hn (Dbg.list.inj h_ds))
    | _ => exact differ h rfl
  | exportDecl d ih_d =>
    cases y with
    | exportDecl d' =>
      have h := (tup_inj h).2
      simp only [List.cons.injEq, and_true] at h
      have h_d := h
      exact .exportDecl (ih_d hn h_d)
    | _ => exact differ h rfl
  | dFun f ih_f =>
    cases y with
    | dFun f' =>
      have h := (tup_inj h).2
      simp only [List.cons.injEq, and_true] at h
      have h_f := h
      exact .dFun (ih_f hn h_f)
    | _ => exact differ h rfl
  | dLet l ds semi ih_ds =>
    cases y with
    | dLet l' ds' semi' =>
      have h := (tup_inj h).2
      simp only [List.cons.injEq, and_true] at h
      obtain ⟨_, h_ds, _⟩ := h
      exact .dLet (ih_ds hn (Dbg.list.inj h_ds))
    | _ => exact differ h rfl
  | dConst l ds semi ih_ds =>
    cases y with
    | dConst l' ds' semi' =>
      have h := (tup_inj h).2
      simp only [List.cons.injEq, and_true] at h
      obtain ⟨_, h_ds, _⟩ := h
      exact .dConst (ih_ds hn (Dbg.list.inj h_ds))
    | _ => exact differ h rfl
  | dtSimple l i init ih_init =>
    cases y with
    | dtSimple l' i' init' =>
      have h := (tup_inj h).2
      simp only [List.cons.injEq, and_true] at h
      obtain ⟨_, h_i, h_init⟩ := h
      change Agree (.dtSimple Option.none i.untrack (Ast.untrack init)) (.dtSimple Option.none i'.untrack (Ast.untrack init'))
      rw [Id.untrack_of_dbg h_i]
      exact .dtSimple (ih_init hn h_init)
    | _ => exact differ h rfl
  | dtCompound l p init ih_p ih_init =>
    cases y with
    | dtCompound l' p' init' =>
      have h := (tup_inj h).2
      simp only [List.cons.injEq, and_true] at h
      obtain ⟨_, h_p, h_init⟩ := h
      exact .dtCompound (ih_p (fun n hm => hn n (List.mem_append_left _ hm)) h_p) (ih_init (fun n hm => hn n (List.mem_append_right _ hm)) h_init)
    | _ => exact differ h rfl
  | constDtor l p value ih_p ih_value =>
    cases y with
    | constDtor l' p' value' =>
      have h := (record_inj h).2
      simp only [List.cons.injEq, Prod.mk.injEq, true_and, and_true] at h
      obtain ⟨_, h_p, h_value⟩ := h
      exact .constDtor (ih_p (fun n hm => hn n (List.mem_append_left _ hm)) h_p) (ih_value (fun n hm => hn n (List.mem_append_right _ hm)) h_value)
  | block l items ih_items =>
    cases y with
    | block l' items' =>
      have h := (record_inj h).2
      simp only [List.cons.injEq, Prod.mk.injEq, true_and, and_true] at h
      obtain ⟨_, h_items⟩ := h
      exact .block (ih_items hn (Dbg.list.inj h_items))
  | sEmpty l =>
    cases y with
    | sEmpty l' =>
      have h := (tup_inj h).2
      simp only [List.cons.injEq, and_true] at h
      exact .sEmpty
    | _ => exact differ h rfl
  | sBlock b ih_b =>
    cases y with
    | sBlock b' =>
      have h := (tup_inj h).2
      simp only [List.cons.injEq, and_true] at h
      have h_b := h
      exact .sBlock (ih_b hn h_b)
    | _ => exact differ h rfl
  | sVar l ds semi ih_ds =>
    cases y with
    | sVar l' ds' semi' =>
      have h := (tup_inj h).2
      simp only [List.cons.injEq, and_true] at h
      obtain ⟨_, h_ds, _⟩ := h
      exact .sVar (ih_ds hn (Dbg.list.inj h_ds))
    | _ => exact differ h rfl
  | sExpr l e semi ih_e =>
    cases y with
    | sExpr l' e' semi' =>
      have h := (tup_inj h).2
      simp only [List.cons.injEq, and_true] at h
      obtain ⟨_, h_e, _⟩ := h
      exact .sExpr (ih_e hn h_e)
    | _ => exact differ h rfl
  | sIf l test thn alt ih_test ih_thn ih_alt =>
    cases y with
    | sIf l' test' thn' alt' =>
      have h := (tup_inj h).2
      simp only [List.cons.injEq, and_true] at h
      obtain ⟨_, h_test, h_thn, h_alt⟩ := h
      exact .sIf (ih_test (fun n hm => hn n (List.mem_append_left _ (List.mem_append_left _ hm))) h_test) (ih_thn (fun n hm => hn n (List.mem_append_left _ (List.mem_append_right _ hm))) h_thn) (ih_alt (fun n hm => hn n (List.mem_append_right _ hm)) h_alt)
    | _ => exact differ h rfl
  | sLabel l i s ih_s =>
    cases y with
    | sLabel l' i' s' =>
      have h := (tup_inj h).2
      simp only [List.cons.injEq, and_true] at h
      obtain ⟨_, h_i, h_s⟩ := h
      change Agree (.sLabel Option.none i.untrack (Ast.untrack s)) (.sLabel Option.none i'.untrack (Ast.untrack s'))
      rw [Id.untrack_of_dbg h_i]
      exact .sLabel (ih_s hn h_s)
    | _ => exact differ h rfl
  | sBreak l i semi =>
    cases y with
    | sBreak l' i' semi' =>
      have h := (tup_inj h).2
      simp only [List.cons.injEq, and_true] at h
      obtain ⟨_, h_i, _⟩ := h
      change Agree (.sBreak Option.none (i.map Id.untrack) semi.untrack) (.sBreak Option.none (i'.map Id.untrack) semi'.untrack)
      rw [Id.map_untrack_of_dbg h_i]
      exact .sBreak
    | _ => exact differ h rfl
  | sCont l i semi =>
    cases y with
    | sCont l' i' semi' =>
      have h := (tup_inj h).2
      simp only [List.cons.injEq, and_true] at h
      obtain ⟨_, h_i, _⟩ := h
      change Agree (.sCont Option.none (i.map Id.untrack) semi.untrack) (.sCont Option.none (i'.map Id.untrack) semi'.untrack)
      rw [Id.map_untrack_of_dbg h_i]
      exact .sCont
    | _ => exact differ h rfl
  | sWith l obj s ih_obj ih_s =>
    cases y with
    | sWith l' obj' s' =>
      have h := (tup_inj h).2
      simp only [List.cons.injEq, and_true] at h
      obtain ⟨_, h_obj, h_s⟩ := h
      exact .sWith (ih_obj (fun n hm => hn n (List.mem_append_left _ hm)) h_obj) (ih_s (fun n hm => hn n (List.mem_append_right _ hm)) h_s)
    | _ => exact differ h rfl
  | sSwitch l disc cases ih_disc ih_cases =>
    cases y with
    | sSwitch l' disc' cases' =>
      have h := (tup_inj h).2
      simp only [List.cons.injEq, and_true] at h
      obtain ⟨_, h_disc, h_cases⟩ := h
      exact .sSwitch (ih_disc (fun n hm => hn n (List.mem_append_left _ hm)) h_disc) (ih_cases (fun n hm => hn n (List.mem_append_right _ hm)) (Dbg.list.inj h_cases))
    | _ => exact differ h rfl
  | sReturn l arg semi ih_arg =>
    cases y with
    | sReturn l' arg' semi' =>
      have h := (tup_inj h).2
      simp only [List.cons.injEq, and_true] at h
      obtain ⟨_, h_arg, _⟩ := h
      exact .sReturn (ih_arg hn h_arg)
    | _ => exact differ h rfl
  | sThrow l arg semi ih_arg =>
    cases y with
    | sThrow l' arg' semi' =>
      have h := (tup_inj h).2
      simp only [List.cons.injEq, and_true] at h
      obtain ⟨_, h_arg, _⟩ := h
      exact .sThrow (ih_arg hn h_arg)
    | _ => exact differ h rfl
  | sTry l b c f ih_b ih_c ih_f =>
    cases y with
    | sTry l' b' c' f' =>
      have h := (tup_inj h).2
      simp only [List.cons.injEq, and_true] at h
      obtain ⟨_, h_b, h_c, h_f⟩ := h
      exact .sTry (ih_b (fun n hm => hn n (List.mem_append_left _ (List.mem_append_left _ hm))) h_b) (ih_c (fun n hm => hn n (List.mem_append_left _ (List.mem_append_right _ hm))) h_c) (ih_f (fun n hm => hn n (List.mem_append_right _ hm)) h_f)
    | _ => exact differ h rfl
  | sWhile l test s ih_test ih_s =>
    cases y with
    | sWhile l' test' s' =>
      have h := (tup_inj h).2
      simp only [List.cons.injEq, and_true] at h
      obtain ⟨_, h_test, h_s⟩ := h
      exact .sWhile (ih_test (fun n hm => hn n (List.mem_append_left _ hm)) h_test) (ih_s (fun n hm => hn n (List.mem_append_right _ hm)) h_s)
    | _ => exact differ h rfl
  | sDoWhile l s test semi ih_s ih_test =>
    cases y with
    | sDoWhile l' s' test' semi' =>
      have h := (tup_inj h).2
      simp only [List.cons.injEq, and_true] at h
      obtain ⟨_, h_s, h_test, _⟩ := h
      exact .sDoWhile (ih_s (fun n hm => hn n (List.mem_append_left _ hm)) h_s) (ih_test (fun n hm => hn n (List.mem_append_right _ hm)) h_test)
    | _ => exact differ h rfl
  | sFor l head test update s ih_head ih_test ih_update ih_s =>
    cases y with
    | sFor l' head' test' update' s' =>
      have h := (tup_inj h).2
      simp only [List.cons.injEq, and_true] at h
      obtain ⟨_, h_head, h_test, h_update, h_s⟩ := h
      exact .sFor (ih_head (fun n hm => hn n (List.mem_append_left _ (List.mem_append_left _ (List.mem_append_left _ hm)))) h_head) (ih_test (fun n hm => hn n (List.mem_append_left _ (List.mem_append_left _ (List.mem_append_right _ hm)))) h_test) (ih_update (fun n hm => hn n (List.mem_append_left _ (List.mem_append_right _ hm))) h_update) (ih_s (fun n hm => hn n (List.mem_append_right _ hm)) h_s)
    | _ => exact differ h rfl
  | sForIn l head obj s ih_head ih_obj ih_s =>
    cases y with
    | sForIn l' head' obj' s' =>
      have h := (tup_inj h).2
      simp only [List.cons.injEq, and_true] at h
      obtain ⟨_, h_head, h_obj, h_s⟩ := h
      exact .sForIn (ih_head (fun n hm => hn n (List.mem_append_left _ (List.mem_append_left _ hm))) h_head) (ih_obj (fun n hm => hn n (List.mem_append_left _ (List.mem_append_right _ hm))) h_obj) (ih_s (fun n hm => hn n (List.mem_append_right _ hm)) h_s)
    | _ => exact differ h rfl
  | sForOf l head obj s ih_head ih_obj ih_s =>
    cases y with
    | sForOf l' head' obj' s' =>
      have h := (tup_inj h).2
      simp only [List.cons.injEq, and_true] at h
      obtain ⟨_, h_head, h_obj, h_s⟩ := h
      exact .sForOf (ih_head (fun n hm => hn n (List.mem_append_left _ (List.mem_append_left _ hm))) h_head) (ih_obj (fun n hm => hn n (List.mem_append_left _ (List.mem_append_right _ hm))) h_obj) (ih_s (fun n hm => hn n (List.mem_append_right _ hm)) h_s)
    | _ => exact differ h rfl
  | sDebugger l semi =>
    cases y with
    | sDebugger l' semi' =>
      have h := (tup_inj h).2
      simp only [List.cons.injEq, and_true] at h
      obtain ⟨_, _⟩ := h
      exact .sDebugger
    | _ => exact differ h rfl
  | fhVar l ds ih_ds =>
    cases y with
    | fhVar l' ds' =>
      have h := (tup_inj h).2
      simp only [List.cons.injEq, and_true] at h
      obtain ⟨_, h_ds⟩ := h
      exact .fhVar (ih_ds hn (Dbg.list.inj h_ds))
    | _ => exact differ h rfl
  | fhLet l ds ih_ds =>
    cases y with
    | fhLet l' ds' =>
      have h := (tup_inj h).2
      simp only [List.cons.injEq, and_true] at h
      obtain ⟨_, h_ds⟩ := h
      exact .fhLet (ih_ds hn (Dbg.list.inj h_ds))
    | _ => exact differ h rfl
  | fhConst l ds ih_ds =>
    cases y with
    | fhConst l' ds' =>
      have h := (tup_inj h).2
      simp only [List.cons.injEq, and_true] at h
      obtain ⟨_, h_ds⟩ := h
      exact .fhConst (ih_ds hn (Dbg.list.inj h_ds))
    | _ => exact differ h rfl
  | fhExpr l e ih_e =>
    cases y with
    | fhExpr l' e' =>
      have h := (tup_inj h).2
      simp only [List.cons.injEq, and_true] at h
      obtain ⟨_, h_e⟩ := h
      exact .fhExpr (ih_e hn h_e)
    | _ => exact differ h rfl
  | fiVarInit l i init ih_init =>
    cases y with
    | fiVarInit l' i' init' =>
      have h := (tup_inj h).2
      simp only [List.cons.injEq, and_true] at h
      obtain ⟨_, h_i, h_init⟩ := h
      change Agree (.fiVarInit Option.none i.untrack (Ast.untrack init)) (.fiVarInit Option.none i'.untrack (Ast.untrack init'))
      rw [Id.untrack_of_dbg h_i]
      exact .fiVarInit (ih_init hn h_init)
    | _ => exact differ h rfl
  | fiVar l p ih_p =>
    cases y with
    | fiVar l' p' =>
      have h := (tup_inj h).2
      simp only [List.cons.injEq, and_true] at h
      obtain ⟨_, h_p⟩ := h
      exact .fiVar (ih_p hn h_p)
    | _ => exact differ h rfl
  | fiLet l p ih_p =>
    cases y with
    | fiLet l' p' =>
      have h := (tup_inj h).2
      simp only [List.cons.injEq, and_true] at h
      obtain ⟨_, h_p⟩ := h
      exact .fiLet (ih_p hn h_p)
    | _ => exact differ h rfl
  | fiConst l p ih_p =>
    cases y with
    | fiConst l' p' =>
      have h := (tup_inj h).2
      simp only [List.cons.injEq, and_true] at h
      obtain ⟨_, h_p⟩ := h
      exact .fiConst (ih_p hn h_p)
    | _ => exact differ h rfl
  | fiPatt p ih_p =>
    cases y with
    | fiPatt p' =>
      have h := (tup_inj h).2
      simp only [List.cons.injEq, and_true] at h
      have h_p := h
      exact .fiPatt (ih_p hn h_p)
    | _ => exact differ h rfl
  | foVar l p ih_p =>
    cases y with
    | foVar l' p' =>
      have h := (tup_inj h).2
      simp only [List.cons.injEq, and_true] at h
      obtain ⟨_, h_p⟩ := h
      exact .foVar (ih_p hn h_p)
    | _ => exact differ h rfl
  | foLet l p ih_p =>
    cases y with
    | foLet l' p' =>
      have h := (tup_inj h).2
      simp only [List.cons.injEq, and_true] at h
      obtain ⟨_, h_p⟩ := h
      exact .foLet (ih_p hn h_p)
    | _ => exact differ h rfl
  | foConst l p ih_p =>
    cases y with
    | foConst l' p' =>
      have h := (tup_inj h).2
      simp only [List.cons.injEq, and_true] at h
      obtain ⟨_, h_p⟩ := h
      exact .foConst (ih_p hn h_p)
    | _ => exact differ h rfl
  | foPatt p ih_p =>
    cases y with
    | foPatt p' =>
      have h := (tup_inj h).2
      simp only [List.cons.injEq, and_true] at h
      have h_p := h
      exact .foPatt (ih_p hn h_p)
    | _ => exact differ h rfl
  | catchClause l p b ih_p ih_b =>
    cases y with
    | catchClause l' p' b' =>
      have h := (record_inj h).2
      simp only [List.cons.injEq, Prod.mk.injEq, true_and, and_true] at h
      obtain ⟨_, h_p, h_b⟩ := h
      exact .catchClause (ih_p (fun n hm => hn n (List.mem_append_left _ hm)) h_p) (ih_b (fun n hm => hn n (List.mem_append_right _ hm)) h_b)
  | caseClause l test items ih_test ih_items =>
    cases y with
    | caseClause l' test' items' =>
      have h := (record_inj h).2
      simp only [List.cons.injEq, Prod.mk.injEq, true_and, and_true] at h
      obtain ⟨_, h_test, h_items⟩ := h
      exact .caseClause (ih_test (fun n hm => hn n (List.mem_append_left _ hm)) h_test) (ih_items (fun n hm => hn n (List.mem_append_right _ hm)) (Dbg.list.inj h_items))

theorem agree_of_debug [LawfulDebugStd] {c : Cat} {x y : Ast c} (hn : ∀ n ∈ x.numbers, n.value ≠ .nan)
    (h : x.debug = y.debug) : Agree x.untrack y.untrack :=
  agree_of_entries hn (wrap_inj (text_injective x.dbg_ok y.dbg_ok h))

end Ast

end Esprit
