import Verif.Proofs.EstreeTold
import Verif.Proofs.CoverInj

/-! The ESTree conversion returns everything that the JSON says: the converse of
`EstreeTold`. -/

namespace Esprit

namespace Estree

/-! ### The calculus, for known values -/

/-- The computation returns `a`. -/
abbrev JY {α : Type} (o : Object) (ns ms : List Str) (a : α) (x : J α) : Prop := JG o ns ms (· = a) x

/-- The computation, the last on this object, returns `a`. -/
abbrev JZ {α : Type} (o : Object) (ns : List Str) (a : α) (x : J α) : Prop := JX o ns (· = a) x

namespace JY

variable {α β : Type} {o : Object} {ns ms ks : List Str} {a : α} {b : β}

theorem bind {x : J α} {f : α → J β} (hx : JY o ns ms a x) (hf : JY o ms ks b (f a)) :
    JY o ns ks b (x >>= f) := JG.bind hx fun _ h => by rw [h]; exact hf

theorem step {x : J α} {f : α → J β} (hx : JY o ns ms a x) (hf : JZ o ms b (f a)) :
    JZ o ns b (x >>= f) := JG.andThen hx fun _ h => by rw [h]; exact hf

theorem lift {x : Result α} (h : x = .ok a) : JY o ns ns a (Estree.lift x) := JG.eq h

theorem pure : JY o ns ns a (Pure.pure a) := JG.pure rfl

/-- A node in a field. -/
theorem node {f : Object → Result α} {o' : Object} {name : Str}
    (hj : o.get name = some (.object o')) (hf : f o' = .ok a) (hn : name ∉ ns := by decide) :
    JY o ns (name :: ns) a (do let o ← extract (Object.extractObject name); Estree.lift (f o)) :=
  bind (JG.extractObject hj hn) (lift hf)

end JY

theorem Gives.eq {α : Type} {a : α} : {x : Result α} → Gives (· = a) x → x = .ok a
  | .ok _, h => by rw [show _ = a from h]
  | .err _, h => h.elim
  | .panic _, h => h.elim
  | .fuel, h => h.elim

namespace JZ

variable {α : Type} {o : Object} {ns : List Str} {a : α}

theorem pure : JZ o ns a (Pure.pure a) := JX.pure rfl

theorem pure' {b : α} (h : b = a) : JZ o ns a (Pure.pure b) := JX.pure h

theorem lift {x : Result α} (h : x = .ok a) : JZ o ns a (Estree.lift x) :=
  JX.lift (by rw [h]; exact rfl)

theorem pos {c : Prop} [Decidable c] {x y : J α} (hc : c) (h : JZ o ns a x) :
    JZ o ns a (if c then x else y) := by rw [if_pos hc]; exact h

theorem neg {c : Prop} [Decidable c] {x y : J α} (hc : ¬c) (h : JZ o ns a y) :
    JZ o ns a (if c then x else y) := by rw [if_neg hc]; exact h

theorem run {x : J α} (h : JZ o [] a x) : x.run o = .ok a := Gives.eq (JX.run h)

theorem runLeft {x : J α} {o' : Object} (ho : Left o ns o') (h : JZ o ns a x) :
    x.run o' = .ok a := Gives.eq ((h o' ho).map fun _ hr => hr)

end JZ

theorem JY.run {α : Type} {o : Object} {ms : List Str} {a : α} {x : J α} (h : JY o [] ms a x) :
    x.run o = .ok a := Gives.eq (JG.run h)

/-! ### Shapes -/

theorem ReadsId.obj {i : Id} {j : Json} (h : ReadsId i j) : ∃ o, j = .object o := by
  obtain ⟨o, _, rfl, _⟩ := h
  exact ⟨o, rfl⟩

theorem ReadsKey.obj {k : PropKey} {j : Json} (h : ReadsKey k j) : ∃ o, j = .object o := by
  cases h <;> exact ⟨_, rfl⟩

theorem Reads.exprObj {e : Expr} {j : Json} (h : Reads e j) : ∃ o, j = .object o := by
  cases h <;> first
    | exact ⟨_, rfl⟩
    | (exact ReadsId.obj ‹_›)

theorem Reads.itemObj {e : Ast .item} {j : Json} (h : Reads e j) : ∃ o, j = .object o := by
  cases h with
  | iExpr h => exact h.exprObj
  | iSpread => exact ⟨_, rfl⟩

theorem Reads.blockObj {b : Ast .block} {j : Json} (h : Reads b j) : ∃ o, j = .object o := by
  cases h; exact ⟨_, rfl⟩

theorem Reads.stmtObj {s : Stmt} {j : Json} (h : Reads s j) : ∃ o, j = .object o := by
  cases h <;> first
    | exact ⟨_, rfl⟩
    | (exact Reads.blockObj ‹_›)

theorem Reads.sitemObj {i : StmtListItem} {j : Json} (h : Reads i j) : ∃ o, j = .object o := by
  cases h <;> first
    | exact ⟨_, rfl⟩
    | (exact Reads.stmtObj ‹_›)

theorem Reads.propObj {x : Ast .prop} {j : Json} (h : Reads x j) : ∃ o, j = .object o := by
  cases h <;> exact ⟨_, rfl⟩

theorem Reads.dtorObj {x : Ast .dtor} {j : Json} (h : Reads x j) : ∃ o, j = .object o := by
  cases h; exact ⟨_, rfl⟩

theorem Reads.constObj {x : Ast .constDtor} {j : Json} (h : Reads x j) : ∃ o, j = .object o := by
  cases h; exact ⟨_, rfl⟩

theorem Reads.caseObj {x : Ast .case} {j : Json} (h : Reads x j) : ∃ o, j = .object o := by
  cases h; exact ⟨_, rfl⟩

theorem Reads.catchObj {x : Ast .«catch»} {j : Json} (h : Reads x j) : ∃ o, j = .object o := by
  cases h; exact ⟨_, rfl⟩

theorem Reads.pattObj {x : PattId} {j : Json} (h : Reads x j) : ∃ o, j = .object o := by
  cases h; exact ReadsId.obj ‹_›

theorem Reads.forHeadObj {x : Ast .forHead} {j : Json} (h : Reads x j) : ∃ o, j = .object o := by
  cases h <;> first
    | exact ⟨_, rfl⟩
    | (exact Reads.exprObj ‹_›)

theorem Reads.forInHeadObj {x : Ast .forInHead} {j : Json} (h : Reads x j) : ∃ o, j = .object o := by
  cases h <;> first
    | exact ⟨_, rfl⟩
    | (exact Reads.exprObj ‹_›)

theorem Reads.forOfHeadObj {x : Ast .forOfHead} {j : Json} (h : Reads x j) : ∃ o, j = .object o := by
  cases h <;> first
    | exact ⟨_, rfl⟩
    | (exact Reads.exprObj ‹_›)

/-! ### Lists -/

theorem mapList_each {α β : Type} {f : α → Result β} : {xs : List α} → {ys : List β} →
    Each (fun x y => f x = .ok y) xs ys → mapList f xs = .ok ys
  | _, _, .nil => rfl
  | _, _, .cons h hs => by
    show (f _).bind (fun b => (mapList f _).bind fun bs => .ok (b :: bs)) = _
    rw [h, mapList_each hs]; rfl

theorem Reads.listArr {c : Cat} {xs : Ast (.list c)} {j : Json} (h : Reads xs j) :
    ∃ js, j = .array js := by
  cases h <;> exact ⟨_, rfl⟩

theorem each_of_reads {c : Cat} (js : List Json) (xs : Ast (.list c)) (h : Reads xs (.array js)) :
    Each (fun j x => Reads x j) js xs.toList := by
  induction js generalizing xs with
  | nil =>
    cases h
    exact .nil
  | cons j js ih =>
    cases h with
    | cons h1 h2 => exact .cons h1 (ih _ h2)

/-- The elements are objects. -/
theorem each_obj {α : Type} {R : α → Json → Prop} (hobj : ∀ x j, R x j → ∃ o, j = .object o) :
    {js : List Json} → {xs : List α} → Each (fun j x => R x j) js xs →
      ∃ os : List Object, js = os.map .object ∧ Each (fun o x => R x (.object o)) os xs
  | _, _, .nil => ⟨[], rfl, .nil⟩
  | _, _, .cons h hs => by
    obtain ⟨o, rfl⟩ := hobj _ _ h
    obtain ⟨os, rfl, hos⟩ := each_obj hobj hs
    exact ⟨o :: os, rfl, .cons h hos⟩

theorem each_with {α β : Type} {R S : α → β → Prop} : {xs : List α} → {ys : List β} →
    (∀ a ∈ xs, ∀ b, R a b → S a b) → Each R xs ys → Each S xs ys
  | _, _, _, .nil => .nil
  | _, _, h, .cons h1 hs => .cons (h _ (List.mem_cons_self ..) _ h1)
      (each_with (fun a ha => h a (List.mem_cons_of_mem _ ha)) hs)

section

variable {n : Nat} {r : Rec} {o : Object} {ns : List Str} {name : Str}

theorem objects_yields {os : List Object} (h : o.get name = some (.array (os.map .object)))
    (hn : name ∉ ns := by decide) : JY o ns (name :: ns) os (extractObjects name) :=
  JY.bind (JG.extractArray h hn) (JY.lift (mapList_objects os))

theorem depth_objects {os : List Object} (h : o.get name = some (.array (os.map .object)))
    {o' : Object} (ho : o' ∈ os) : depthFields o' < depthFields o := by
  have h1 := depth_elem h
  have h2 := depth_mem _ _ (List.mem_map_of_mem (f := Json.object) ho)
  simp only [depth] at h2
  omega

/-- The nodes of an array in a field. -/
theorem nodes_yields {α : Type} {f : Object → Result α} {R : α → Json → Prop} {xs : List α}
    {js : List Json} (h : o.get name = some (.array js)) (hs : Each (fun j x => R x j) js xs)
    (hobj : ∀ x j, R x j → ∃ o, j = .object o)
    (hf : ∀ o' x, depthFields o' < depthFields o → R x (.object o') → f o' = .ok x)
    {β : Type} {b : β} {ms : List Str} {k : List α → J β} (hk : JY o (name :: ns) ms b (k xs))
    (hn : name ∉ ns := by decide) :
    JY o ns ms b (do
      let objs ← extractObjects name
      let xs ← Estree.lift (mapList f objs)
      k xs) := by
  obtain ⟨os, rfl, hos⟩ := each_obj hobj hs
  exact JY.bind (objects_yields h hn) (JY.bind (JY.lift (mapList_each
    (each_with (fun o' ho' x hx => hf o' x (depth_objects h ho') hx) hos))) hk)

/-! ### Leaves -/

theorem intoId_yields {i : Id} (h : ReadsId i (.object o)) : intoId o = .ok i := by
  obtain ⟨o', s, ho, ht, hn, rfl⟩ := h
  cases ho
  exact intoId_name ⟨o, rfl, ht, hn⟩

theorem intoPatt_yields {p : PattId} (h : Reads p (.object o)) : intoPatt o = .ok p := by
  cases h with
  | simple h =>
    unfold intoPatt
    rw [intoId_yields h]
    rfl

theorem intoRegExp_yields {p f : Str} (h : HasRegExp o p f) (hn : c!"regex" ∉ ns := by decide) :
    JZ o ns (.eRegExp none ⟨p, f⟩) intoRegExp := by
  obtain ⟨ro, h1, h2, h3⟩ := h
  exact JY.step (JG.extractObject h1 hn) (JZ.lift (JZ.run (JY.step (JG.extractString h2)
    (JY.step (JG.extractString h3) JZ.pure))))

theorem intoLit_yields {e : Expr} (h : ReadsLit o e) : intoLit o = .ok e := by
  have key : ∀ {v : Json}, o.get c!"value" = some v →
      JZ o [c!"value"] e (do
        let o ← (fun o => .ok (o, o) : J Object)
        match v with
        | .null => if !o.containsKey c!"regex" then pure (.eNull none) else intoRegExp
        | .bool true => pure (.eTrue none)
        | .bool false => pure (.eFalse none)
        | .string value => pure (.eString none (stringLiteral value))
        | .i64 v => pure (.eNumber none (i64Literal v))
        | .u64 v => pure (.eNumber none (u64Literal v))
        | .f64 v => pure (.eNumber none (f64Literal v))
        | .object _ => intoRegExp
        | .array _ => lift (typeError c!"null, number, boolean, string, or object" v.ty)) →
      intoLit o = .ok e := fun hv h => JZ.run (JY.step (JG.extractField hv) h)
  cases h with
  | true h => exact key h (JG.andThen JG.self fun _ _ => JZ.pure)
  | false h => exact key h (JG.andThen JG.self fun _ _ => JZ.pure)
  | null h h' =>
    refine key h (JG.andThen JG.self fun o' ho => JZ.pos ?_ JZ.pure)
    unfold Object.containsKey
    rw [ho.get _ (by decide), h']
    rfl
  | number h h' =>
    cases h' with
    | i64 =>
      refine key h (JG.andThen JG.self fun _ _ => JZ.pure' ?_)
      unfold i64Literal
      rw [intToString_eq]
    | u64 => exact key h (JG.andThen JG.self fun _ _ => JZ.pure)
    | f64 => exact key h (JG.andThen JG.self fun _ _ => JZ.pure)
  | regExp h h' hx =>
    rcases h' with rfl | ⟨f, rfl⟩
    · refine key h (JG.andThen JG.self fun o' ho => JZ.neg ?_ (intoRegExp_yields hx))
      obtain ⟨ro, h1, _⟩ := hx
      unfold Object.containsKey
      rw [ho.get _ (by decide), h1]
      exact Bool.false_ne_true
    · exact key h (JG.andThen JG.self fun o' ho => intoRegExp_yields hx)
  | string h => exact key h (JG.andThen JG.self fun _ _ => JZ.pure)

theorem fromStr_debug (t : Tag) : Tag.fromStr t.debug = some t := by cases t <;> rfl

theorem tag_of_mem {s : Str} (h : Typed o s) (hm : s ∈ nodeTypes) :
    ∃ t : Tag, tag o = .ok t ∧ t.debug = s := by
  have : ∀ s ∈ nodeTypes, (Tag.fromStr s).isSome = true := by decide
  obtain ⟨t, ht⟩ := Option.isSome_iff_exists.mp (this s hm)
  refine ⟨t, tag_of h ht, ?_⟩
  unfold Tag.fromStr at ht
  cases hf : tagTable.find? fun e => e.1 = s with
  | none => rw [hf] at ht; cases ht
  | some e =>
    rw [hf] at ht
    injection ht with ht
    have h1 : e.1 = s := by simpa using List.find?_some hf
    have h3 : ∀ e ∈ tagTable, e.1 = e.2.debug := by decide
    rw [← ht, ← h3 e (List.mem_of_find?_eq_some hf), h1]

theorem intoPropKey_yields {k : PropKey} (h : ReadsKey k (.object o)) : intoPropKey o = .ok k := by
  have lit : ∀ {s : Str} {e : Expr}, Typed o s → s ∈ nodeTypes → s ≠ c!"Identifier" →
      ReadsLit o e → intoPropKey o = (match (e : Expr) with
      | .eNumber _ lit => .ok (.number none lit)
      | .eString _ lit => .ok (.string none lit)
      | _ => typeError c!"identifier, number literal, or string literal" .object) := by
    intro s e h1 h2 h3 h4
    obtain ⟨t, ht, hs⟩ := tag_of_mem h1 h2
    unfold intoPropKey
    rw [ht]
    show (if _ then _ else _ : Result _) = _
    rw [if_neg (by rintro rfl; exact h3 hs.symm), intoLit_yields h4]
    rfl
  cases h with
  | id h1 h2 =>
    unfold intoPropKey
    rw [tag_of h1 rfl]
    show (intoId o).bind _ = _
    rw [intoId_yields ⟨o, _, rfl, h1, h2, rfl⟩]
    show Res.ok (PropKey.id none (Name.from _).intoString) = _
    rw [C11_string_roundtrip]
  | number h1 h2 h3 h4 h5 => exact lit h1 h2 h3 (.number h4 h5)
  | string h1 h2 h3 h4 => exact lit h1 h2 h3 (.string h4)

/-! ### Fields -/

/-- What the recursive functions are to do. -/
structure RecReads (n : Nat) (r : Rec) : Prop where
  expr : ∀ (e : Expr) (o : Object), depthFields o < n → Reads e (.object o) → r.expr o = .ok e
  item : ∀ (i : StmtListItem) (o : Object) (b : Bool), depthFields o < n → Reads i (.object o) →
    (b = false → ∃ s, i = .siStmt s) → r.item o b = .ok i

theorem extractId_yields {i : Id} {j : Json} (h : o.get name = some j) (hi : ReadsId i j)
    (hn : name ∉ ns := by decide) : JY o ns (name :: ns) i (extractId name) := by
  obtain ⟨o', rfl⟩ := hi.obj
  exact JY.node h (intoId_yields hi) hn

theorem extractPatt_yields {p : PattId} {j : Json} (h : o.get name = some j) (hp : Reads p j)
    (hn : name ∉ ns := by decide) : JY o ns (name :: ns) p (extractPatt name) := by
  obtain ⟨o', rfl⟩ := hp.pattObj
  exact JY.node h (intoPatt_yields hp) hn

theorem extractExpr_yields (hr : RecReads n r) {e : Expr} {j : Json} (h : o.get name = some j)
    (he : Reads e j) (hd : depthFields o ≤ n) (hn : name ∉ ns := by decide) :
    JY o ns (name :: ns) e (extractExpr r name) := by
  obtain ⟨o', rfl⟩ := he.exprObj
  exact JY.node h (hr.expr e o' (Nat.lt_of_lt_of_le (depth_field h) hd) he) hn

/-- A node or `null` in a field. -/
theorem opt_yields {c : Cat} {f : Object → Result (Ast c)} {x : Ast (.opt c)} {j : Json}
    (h : o.get name = some j) (hx : Reads x j)
    (hobj : ∀ (x : Ast c) j, Reads x j → ∃ o, j = .object o)
    (hf : ∀ o' x, depthFields o' < depthFields o → Reads x (.object o') → f o' = .ok x)
    (hn : name ∉ ns := by decide) :
    JG o ns (name :: ns) (fun a => Ast.ofOption a = x) (do
      match ← extract (Object.extractObjectOpt name) with
      | some o => return some (← Estree.lift (f o))
      | none => return none) := by
  cases hx with
  | none => exact (JG.extractNull h hn).bind fun _ ho => by rw [ho]; exact JG.pure rfl
  | some hx =>
    obtain ⟨o', rfl⟩ := hobj _ _ hx
    refine (JG.extractObjectOpt h hn).bind fun _ ho => ?_
    rw [ho]
    exact (JG.eq (hf o' _ (depth_field h) hx)).bind fun _ hi => by rw [hi]; exact JG.pure rfl

theorem extractExprOpt_yields (hr : RecReads n r) {x : Ast (.opt .expr)} {j : Json}
    (h : o.get name = some j) (hx : Reads x j) (hd : depthFields o ≤ n)
    (hn : name ∉ ns := by decide) :
    JG o ns (name :: ns) (fun a => Ast.ofOption a = x) (extractExprOpt r name) :=
  opt_yields h hx (fun _ _ h => h.exprObj)
    (fun o' x hd' hx => hr.expr x o' (Nat.lt_of_lt_of_le hd' hd) hx) hn

theorem intoStmt_yields (hr : RecReads n r) {s : Stmt} (hd : depthFields o < n)
    (h : Reads s (.object o)) : intoStmt r o = .ok s := by
  unfold intoStmt
  rw [hr.item (.siStmt s) o false hd (.item h) fun _ => ⟨s, rfl⟩]
  rfl

theorem extractStmt_yields (hr : RecReads n r) {s : Stmt} {j : Json} (h : o.get name = some j)
    (hs : Reads s j) (hd : depthFields o ≤ n) (hn : name ∉ ns := by decide) :
    JY o ns (name :: ns) s (extractStmt r name) := by
  obtain ⟨o', rfl⟩ := hs.stmtObj
  exact JY.node h (intoStmt_yields hr (Nat.lt_of_lt_of_le (depth_field h) hd) hs) hn

theorem extractStmtOpt_yields (hr : RecReads n r) {x : Ast (.opt .stmt)} {j : Json}
    (h : o.get name = some j) (hx : Reads x j) (hd : depthFields o ≤ n)
    (hn : name ∉ ns := by decide) :
    JG o ns (name :: ns) (fun a => Ast.ofOption a = x) (extractStmtOpt r name) :=
  opt_yields h hx (fun _ _ h => h.stmtObj)
    (fun _ _ hd' hx => intoStmt_yields hr (Nat.lt_of_lt_of_le hd' hd) hx) hn

/-- A node whose type is that of an expression. -/
theorem expr_typed {e : Expr} (h : Reads e (.object o)) :
    ∃ t : Tag, tag o = .ok t ∧ t.debug ∈ exprTypes := by
  have : ∀ (s : Str) (t : Tag), Typed o s → Tag.fromStr s = some t → t.debug ∈ exprTypes →
      ∃ t : Tag, tag o = .ok t ∧ t.debug ∈ exprTypes := fun s t h ht hm => ⟨t, tag_of h ht, hm⟩
  cases h <;> first
    | exact this _ _ ‹Typed o _› rfl (by decide)
    | skip
  case id h =>
    obtain ⟨o', s, ho, ht, _⟩ := h
    cases ho
    exact this _ _ ht rfl (by decide)

theorem intoExprListItem_yields (hr : RecReads n r) {x : Ast .item} (hd : depthFields o < n)
    (h : Reads x (.object o)) : intoExprListItem r o = .ok x := by
  unfold intoExprListItem
  cases h with
  | iSpread h1 h2 h3 =>
    rw [tag_of h1 rfl]
    show (J.run (extractExpr r c!"argument") o).bind _ = _
    rw [JY.run (extractExpr_yields hr h2 h3 (Nat.le_of_lt hd))]
    rfl
  | iExpr h =>
    obtain ⟨t, ht, hm⟩ := expr_typed h
    rw [ht]
    have he := hr.expr _ o hd h
    cases t <;> first
      | (show (r.expr o).map _ = _; rw [he]; rfl)
      | exact absurd hm (by decide)

/-- A list of nodes in a field. -/
theorem list_yields {c : Cat} {f : Object → Result (Ast c)} {xs : Ast (.list c)} {j : Json}
    (h : o.get name = some j) (hx : Reads xs j)
    (hobj : ∀ (x : Ast c) j, Reads x j → ∃ o, j = .object o)
    (hf : ∀ o' x, depthFields o' < depthFields o → Reads x (.object o') → f o' = .ok x)
    (hn : name ∉ ns := by decide) :
    JY o ns (name :: ns) xs (do
      let objs ← extractObjects name
      return Ast.ofList (← Estree.lift (mapList f objs))) := by
  obtain ⟨js, rfl⟩ := hx.listArr
  refine nodes_yields (R := fun x j => Reads x j) h (each_of_reads js xs hx) hobj hf ?_ hn
  exact JG.pure (Ast.ofList_toList xs)

theorem extractExprList_yields (hr : RecReads n r) {xs : Ast (.list .item)} {j : Json}
    (h : o.get name = some j) (hx : Reads xs j) (hd : depthFields o ≤ n)
    (hn : name ∉ ns := by decide) : JY o ns (name :: ns) xs (extractExprList r name) :=
  list_yields h hx (fun _ _ h => h.itemObj)
    (fun _ _ hd' hx => intoExprListItem_yields hr (Nat.lt_of_lt_of_le hd' hd) hx) hn

theorem extractExprs_yields (hr : RecReads n r) {xs : Ast (.list .expr)} {j : Json}
    (h : o.get name = some j) (hx : Reads xs j) (hd : depthFields o ≤ n)
    (hn : name ∉ ns := by decide) : JY o ns (name :: ns) xs (extractExprs r name) :=
  list_yields h hx (fun _ _ h => h.exprObj)
    (fun o' x hd' hx => hr.expr x o' (Nat.lt_of_lt_of_le hd' hd) hx) hn

theorem extractExprOptList_yields (hr : RecReads n r) {xs : Ast (.list (.opt .item))} {j : Json}
    (h : o.get name = some j) (hx : Reads xs j) (hd : depthFields o ≤ n)
    (hn : name ∉ ns := by decide) : JY o ns (name :: ns) xs (extractExprOptList r name) := by
  obtain ⟨js, rfl⟩ := hx.listArr
  refine JY.bind (JG.extractArray h hn) (JY.bind (JY.lift (mapList_each
    (each_with (fun j hj x hx => ?_) (each_of_reads js xs hx)))) (JG.pure (Ast.ofList_toList xs)))
  cases hx with
  | none => rfl
  | some hx =>
    obtain ⟨o', rfl⟩ := hx.itemObj
    have h1 := depth_elem h
    have h2 := depth_mem _ _ hj
    simp only [depth] at h2
    show (intoExprListItem r o').map _ = _
    rw [intoExprListItem_yields hr (by omega) hx]
    rfl

theorem extractStmtList_yields (hr : RecReads n r) {xs : List StmtListItem} {js : List Json}
    (h : o.get name = some (.array js)) (hx : Each (fun j x => Reads x j) js xs)
    (hd : depthFields o ≤ n) (hn : name ∉ ns := by decide) :
    JY o ns (name :: ns) xs (extractStmtList r name) := by
  obtain ⟨os, rfl, hos⟩ := each_obj (R := fun x j => Reads x j) (fun _ _ h => h.sitemObj) hx
  exact JY.bind (objects_yields h hn) (JY.lift (mapList_each (each_with (fun o' ho' x hx =>
    hr.item x o' true (Nat.lt_of_lt_of_le (depth_objects h ho') hd) hx fun h => nomatch h) hos)))

theorem intoBlock_yields (hr : RecReads n r) {x : Ast .block} (hd : depthFields o ≤ n)
    (h : Reads x (.object o)) : intoBlock r o = .ok x := by
  cases h with
  | block h1 h2 h3 =>
    obtain ⟨js, rfl⟩ := h3.listArr
    unfold intoBlock
    rw [tag_of h1 rfl]
    show (J.run (extractStmtList r c!"body") o).bind _ = _
    rw [JY.run (extractStmtList_yields hr h2 (each_of_reads _ _ h3) hd)]
    show Res.ok (Ast.block none (Ast.ofList (Ast.toList _))) = _
    rw [Ast.ofList_toList]

theorem extractBlock_yields (hr : RecReads n r) {x : Ast .block} {j : Json}
    (h : o.get name = some j) (hx : Reads x j) (hd : depthFields o ≤ n)
    (hn : name ∉ ns := by decide) : JY o ns (name :: ns) x (extractBlock r name) := by
  obtain ⟨o', rfl⟩ := hx.blockObj
  exact JY.node h (intoBlock_yields hr (Nat.le_trans (Nat.le_of_lt (depth_field h)) hd) hx) hn

theorem extractBlockOpt_yields (hr : RecReads n r) {x : Ast (.opt .block)} {j : Json}
    (h : o.get name = some j) (hx : Reads x j) (hd : depthFields o ≤ n)
    (hn : name ∉ ns := by decide) :
    JG o ns (name :: ns) (fun a => Ast.ofOption a = x) (extractBlockOpt r name) :=
  opt_yields h hx (fun _ _ h => h.blockObj)
    (fun _ _ hd' hx => intoBlock_yields hr (Nat.le_trans (Nat.le_of_lt hd') hd) hx) hn

/-! ### Functions -/

theorem each_append {α β : Type} {R : α → β → Prop} : {xs xs' : List α} → {ys ys' : List β} →
    Each R xs ys → Each R xs' ys' → Each R (xs ++ xs') (ys ++ ys')
  | _, _, _, _, .nil, h => h
  | _, _, _, _, .cons h hs, h' => .cons h (each_append hs h')

theorem extractParams_yields {ps : Ast (.list (.patt .id))} {rest : Ast (.opt (.rest .id))} {j : Json}
    (h : o.get name = some j) (hx : Reads (.params none ps rest) j) (hn : name ∉ ns := by decide) :
    JY o ns (name :: ns) (ps.toList, rest) (extractParams name) := by
  have patts : ∀ {os : List Object}, Each (fun (o : Object) (x : PattId) => Reads x (.object o)) os
      ps.toList → mapList intoPatt os = .ok ps.toList := fun h =>
    mapList_each (each_mono (fun _ _ h => intoPatt_yields h) h)
  cases hx with
  | params h1 h2 =>
    obtain ⟨os, rfl, hos⟩ := each_obj (R := fun (x : PattId) j => Reads x j)
      (fun _ _ h => h.pattObj) (each_of_reads _ _ h2)
    refine JY.bind (objects_yields h hn) (JY.bind (a := (os, .none)) (JY.lift ?_)
      (JY.bind (JY.lift (patts hos)) JY.pure))
    unfold splitRestParam
    cases hl : os.getLast? with
    | none => rfl
    | some last =>
      obtain ⟨ys, rfl⟩ := List.getLast?_eq_some_iff.mp hl
      have ht : ∃ t, tag last = .ok t ∧ t ≠ .restElement := by
        have : ∀ {os : List Object} {xs : List PattId},
            Each (fun (o : Object) (x : PattId) => Reads x (.object o)) os xs →
            ∀ o ∈ os, ∃ t, tag o = .ok t ∧ t ≠ .restElement := by
          intro os xs he
          induction he with
          | nil => exact fun _ h => nomatch h
          | cons h _ ih =>
            intro o ho
            cases ho with
            | head =>
              cases h with
              | simple h =>
                obtain ⟨o', s, ho, ht, _⟩ := h
                cases ho
                exact ⟨_, tag_of ht rfl, by decide⟩
            | tail _ ho => exact ih o ho
        exact this hos last (List.mem_append_right _ (List.mem_cons_self ..))
      obtain ⟨t, ht, hne⟩ := ht
      show (tag last).bind _ = _
      rw [ht]
      exact if_neg hne
  | paramsRest h1 h2 h3 h4 =>
    rename_i p js orr jp
    obtain ⟨os, rfl, hos⟩ := each_obj (R := fun (x : PattId) j => Reads x j)
      (fun _ _ h => h.pattObj) (each_of_reads _ _ h1)
    have h' : o.get name = some (.array ((os ++ [orr]).map .object)) := by
      rw [h, List.map_append]; rfl
    refine JY.bind (objects_yields h' hn) (JY.bind (a := (os, .some (.restPatt none p)))
      (JY.lift ?_) (JY.bind (JY.lift (patts hos)) JY.pure))
    unfold splitRestParam
    rw [List.getLast?_concat]
    show (tag orr).bind _ = _
    rw [tag_of h2 rfl]
    show (J.run (extractPatt c!"argument") orr).bind _ = _
    rw [JY.run (extractPatt_yields h3 h4), List.dropLast_concat]
    rfl

theorem each_dirs : {dirs : List Dir} → {ds : List Json} → ReadsDirs dirs ds →
    ∃ xs : List StmtListItem, Each (fun j x => Reads x j) ds xs ∧
      (∀ x ∈ xs, isDirective x = true) ∧ xs.filterMap toDirective = dirs
  | _, _, .nil => ⟨[], .nil, fun _ h => (by cases h), rfl⟩
  | _, _, .cons h hs => by
    obtain ⟨o, oe, s, rfl, h1, h2, h3, h4, rfl⟩ := h
    obtain ⟨xs, hx1, hx2, hx3⟩ := each_dirs hs
    refine ⟨.siStmt (.sExpr none (.eString none ⟨none, s⟩) (.explicit none)) :: xs,
      .cons (.item (.sExpr h1 h2 (.string h3 h4))) hx1, fun x hx => ?_, ?_⟩
    · cases hx with
      | head => rfl
      | tail _ hx => exact hx2 x hx
    · show _ :: xs.filterMap toDirective = _
      rw [hx3]

theorem splitPrefix_whole : {xs ys : List StmtListItem} → (∀ x ∈ xs, isDirective x = true) →
    (∀ y, ys.head? = some y → isDirective y = false) → splitPrefix isDirective (xs ++ ys) = (xs, ys)
  | [], [], _, _ => rfl
  | [], y :: ys, _, h => splitPrefix_false ys (h y rfl)
  | x :: xs, ys, h, h' => by
    rw [List.cons_append, splitPrefix_true _ (h x (List.mem_cons_self ..)),
      splitPrefix_whole (fun x hx => h x (List.mem_cons_of_mem _ hx)) h']

theorem extractScript_yields (hr : RecReads n r) {x : Script} {j : Json} (h : o.get name = some j)
    (hx : Reads x j) (hd : depthFields o ≤ n) (hn : name ∉ ns := by decide) :
    JY o ns (name :: ns) x (extractScript r name) := by
  cases hx with
  | body h1 h2 h3 =>
    rename_i dirs items ds is
    obtain ⟨xs, hx1, hx2, hx3⟩ := each_dirs h1
    refine JY.bind (extractStmtList_yields hr h (each_append hx1 (each_of_reads _ _ h2)) hd hn) ?_
    have hs := splitPrefix_whole hx2 (ys := items.toList)
      fun y hy => by rw [isDirective_eq]; exact h3 y hy
    refine JG.pure ?_
    show Ast.body none ((splitPrefix isDirective (xs ++ items.toList)).1.filterMap toDirective)
      (Ast.ofList (splitPrefix isDirective (xs ++ items.toList)).2) = _
    rw [hs, hx3, Ast.ofList_toList]

theorem intoFunParts_yields (hr : RecReads n r) {c : Cat} {i : Ast c} {ps : Ast (.list (.patt .id))}
    {rest : Ast (.opt (.rest .id))} {b : Script} {gen : Bool}
    (h : Reads (.func none i (.params none ps rest) b gen) (.object o)) (hd : depthFields o ≤ n)
    {o' : Object} (ho : Left o ns o')
    (h1 : c!"generator" ∉ ns := by decide) (h2 : c!"params" ∉ c!"generator" :: ns := by decide)
    (h3 : c!"body" ∉ c!"params" :: c!"generator" :: ns := by decide) :
    intoFunParts r o' = .ok ⟨ps.toList, rest, b, gen⟩ := by
  cases h with
  | func hg1 hg2 hp1 hp2 hb hb1 hb2 =>
    refine JZ.runLeft ho ?_
    have hg : ∃ g : Option Bool, g.getD false = gen ∧
        JY o ns (c!"generator" :: ns) g (extract (Object.extractBoolOpt c!"generator")) := by
      cases gen with
      | true => cases hg2; exact ⟨_, rfl, JG.extractBoolOpt hg1 h1⟩
      | false =>
        rcases hg2 with rfl | rfl
        · exact ⟨_, rfl, JG.extractBoolOpt hg1 h1⟩
        · exact ⟨none, rfl, JG.extractWith hg1 rfl h1⟩
    obtain ⟨g, rfl, hg⟩ := hg
    exact JY.step hg (JY.step (extractParams_yields hp1 hp2 h2) (JY.step (JG.extractObject hb h3)
      (JY.step (JY.lift (JY.run (extractScript_yields hr hb1 hb2
        (Nat.le_trans (Nat.le_of_lt (depth_field hb)) hd)))) JZ.pure)))

theorem intoFun_yields (hr : RecReads n r) {c : Cat} {i : Ast c} {ps : Ast .params}
    {b : Script} {gen : Bool}
    (h : Reads (.func none i ps b gen) (.object o)) (hd : depthFields o ≤ n)
    {o' : Object} (ho : Left o ns o')
    (h1 : c!"generator" ∉ ns := by decide) (h2 : c!"params" ∉ c!"generator" :: ns := by decide)
    (h3 : c!"body" ∉ c!"params" :: c!"generator" :: ns := by decide) :
    intoFun r i o' = .ok (.func none i ps b gen) := by
  have hp : ∃ qs rest, ps = .params none qs rest := by
    cases h with
    | func _ _ _ hp _ _ _ => cases hp <;> exact ⟨_, _, rfl⟩
  obtain ⟨qs, rest, rfl⟩ := hp
  unfold intoFun
  rw [intoFunParts_yields hr h hd ho h1 h2 h3]
  show Res.ok (Ast.func none i (.params none (Ast.ofList (Ast.toList _)) _) _ _) = _
  rw [Ast.ofList_toList]

theorem intoProp_yields (hr : RecReads n r) {x : Ast .prop} (hd : depthFields o < n)
    (h : Reads x (.object o)) : intoProp r o = .ok x := by
  cases h with
  | init h1 h2 h3 h4 h5 h6 h7 =>
    obtain ⟨ok, rfl⟩ := h5.obj
    exact JZ.run (JY.step (JG.extractObject h4) (JY.step (JG.extractObject h6)
      (JY.step (JG.extractString h1) (JZ.pos rfl (JY.step (JG.extractBool h2)
      (JY.step (JG.extractBool h3) (JY.step
        (JY.lift (hr.expr _ _ (Nat.lt_trans (depth_field h6) hd) h7))
        (JY.step (JY.lift (intoPropKey_yields h5)) JZ.pure))))))))
  | shorthand h1 h2 h3 h4 h5 h6 =>
    obtain ⟨ok, rfl⟩ := h5.obj
    exact JZ.run (JY.step (JG.extractObject h4) (JY.step (JG.extractObject h6)
      (JY.step (JG.extractString h1) (JZ.pos rfl (JY.step (JG.extractBool h2)
      (JY.step (JG.extractBool h3) (JY.step (JY.lift (intoId_yields h5)) JZ.pure)))))))
  | method h1 h2 h3 h4 h5 h6 =>
    obtain ⟨ok, rfl⟩ := h4.obj
    exact JZ.run (JY.step (JG.extractObject h3) (JY.step (JG.extractObject h5)
      (JY.step (JG.extractString h1) (JZ.pos rfl (JY.step (JG.extractBool h2)
      (JY.step (JY.lift (intoPropKey_yields h4)) (JY.step (JY.lift
        (intoFun_yields hr h6 (Nat.le_of_lt (Nat.lt_trans (depth_field h5) hd)) (left_self _)))
        JZ.pure)))))))
  | get h1 h2 h3 h4 h5 h6 h7 =>
    obtain ⟨ok, rfl⟩ := h3.obj
    have := depth_field h4
    have := depth_field h5
    exact JZ.run (JY.step (JG.extractObject h2) (JY.step (JG.extractObject h4)
      (JY.step (JG.extractString h1) (JZ.neg (by decide) (JZ.pos rfl
      (JY.step (JY.lift (JY.run (JG.extractObject h5)))
      (JY.step (JY.lift (JY.run (extractScript_yields hr h6 h7 (by omega))))
        (JY.step (JY.lift (intoPropKey_yields h3)) JZ.pure))))))))
  | set h1 h2 h3 h4 h5 =>
    obtain ⟨ok, rfl⟩ := h3.obj
    have := depth_field h4
    exact JZ.run (JY.step (JG.extractObject h2) (JY.step (JG.extractObject h4)
      (JY.step (JG.extractString h1) (JZ.neg (by decide) (JZ.neg (by decide) (JZ.pos rfl
      (JY.step (JY.lift (intoFunParts_yields hr h5 (by omega) (left_self _)))
      (JZ.neg (fun h => h rfl)
        (JY.step (JY.lift (intoPropKey_yields h3)) JZ.pure)))))))))

theorem extractPropList_yields (hr : RecReads n r) {xs : Ast (.list .prop)} {j : Json}
    (h : o.get name = some j) (hx : Reads xs j) (hd : depthFields o ≤ n)
    (hn : name ∉ ns := by decide) : JY o ns (name :: ns) xs (extractPropList r name) :=
  list_yields h hx (fun _ _ h => h.propObj)
    (fun _ _ hd' hx => intoProp_yields hr (Nat.lt_of_lt_of_le hd' hd) hx) hn

/-! ### Declarations -/

theorem extractInit_yields (hr : RecReads n r) {e : Expr} {j : Json}
    (h : o.get name = some j) (hx : Reads e j) (hd : depthFields o ≤ n)
    (hn : name ∉ ns := by decide) : JY o ns (name :: ns) (some e) (extractExprOpt r name) :=
  (extractExprOpt_yields hr h (.some hx) hd hn).mono fun a ha => by
    cases a with
    | none => cases ha
    | some a => injection ha with _ ha; rw [ha]

theorem extractNoInit_yields (h : o.get name = some .null) (hn : name ∉ ns := by decide) :
    JY o ns (name :: ns) none (extractExprOpt r name) :=
  (JG.extractNull h hn).bind fun _ ho => by rw [ho]; exact JG.pure rfl

theorem intoDtor_yields (hr : RecReads n r) {x : Ast .dtor} (hd : depthFields o < n)
    (h : Reads x (.object o)) : intoDtor r o = .ok x := by
  cases h with
  | dtor h1 h2 h3 h4 =>
    refine JZ.run (JY.step (extractPatt_yields h1 (.simple h2)) (JG.andThen
      (extractExprOpt_yields hr h3 h4 (Nat.le_of_lt hd)) fun a ha => JZ.pure' ?_))
    obtain ⟨_, _, _, _, _, rfl⟩ := h2
    rw [ha]
    rfl

theorem extractDtorList_yields (hr : RecReads n r) {xs : List (Ast .dtor)} {js : List Json}
    (h : o.get name = some (.array js)) (hx : Each (fun j x => Reads x j) js xs)
    (hd : depthFields o ≤ n) (hn : name ∉ ns := by decide) :
    JY o ns (name :: ns) xs (extractDtorList r name) := by
  obtain ⟨os, rfl, hos⟩ := each_obj (R := fun (x : Ast .dtor) j => Reads x j)
    (fun _ _ h => h.dtorObj) hx
  exact JY.bind (objects_yields h hn) (JY.lift (mapList_each (each_with (fun o' ho' x hx =>
    intoDtor_yields hr (Nat.lt_of_lt_of_le (depth_objects h ho') hd) hx) hos)))

theorem const_dtor : {js : List Json} → {xs : List (Ast .constDtor)} →
    Each (fun j x => Reads x j) js xs →
      ∃ ds : List (Ast .dtor), Each (fun j x => Reads x j) js ds ∧ intoConst ds = .ok xs
  | _, _, .nil => ⟨[], .nil, rfl⟩
  | _, _, .cons h hs => by
    obtain ⟨ds, h1, h2⟩ := const_dtor hs
    cases h with
    | constDtor h3 h4 h5 h6 =>
      refine ⟨_, .cons (.dtor h3 h4 h5 (.some h6)) h1, ?_⟩
      unfold intoConst at h2 ⊢
      show (intoConstDtor _).bind (fun b => (mapList intoConstDtor ds).bind fun bs => .ok (b :: bs)) = _
      rw [h2]
      obtain ⟨_, _, _, _, _, rfl⟩ := h4
      rfl

/-! ### Expressions -/

theorem extractTarget_yields (hr : RecReads n r) {t : AssignTarget} {j : Json}
    (h : o.get name = some j) (ht : Reads (Patt.sourceTarget t) j) (hd : depthFields o ≤ n)
    (hn : name ∉ ns := by decide) : JY o ns (name :: ns) t (extractAssignTarget r name) := by
  refine JY.bind (extractExpr_yields hr h ht hd hn) ?_
  cases t <;> exact JY.pure

theorem extractAssignPatt_yields (hr : RecReads n r) {p : PattTarget} {j : Json}
    (h : o.get name = some j) (ha : Patt.Assignable (Patt.sourceExpr p))
    (hp : Reads (Patt.sourceExpr p) j) (hd : depthFields o ≤ n)
    (hn : name ∉ ns := by decide) : JY o ns (name :: ns) p (extractAssignPatt r name) := by
  refine JY.bind (extractExpr_yields hr h hp hd hn) ?_
  show JY _ _ _ _ (match Cover.intoAssignPatt (Patt.sourceExpr p) with
    | .ok p => pure p
    | .error _ => lift (.err (.invalidLHS name)))
  rw [Patt.ofSource ha]
  exact JY.pure

theorem intoExpr_yields (hr : RecReads n r) (e : Expr) (o : Object) (hd : depthFields o ≤ n)
    (h : Reads e (.object o)) : intoExpr r o = .ok e := by
  have typed : ∀ {s : Str} {t : Tag}, Typed o s → Tag.fromStr s = some t →
      tag o = .ok t := fun h h' => tag_of h h'
  unfold intoExpr
  cases h with
  | this h => rw [typed h rfl]; rfl
  | id h =>
    obtain ⟨o', s, ho, h1, h2, rfl⟩ := h
    cases ho
    rw [typed h1 rfl]
    show (intoId o).map _ = _
    rw [intoId_yields ⟨o, s, rfl, h1, h2, rfl⟩]
    rfl
  | arr h1 h2 h3 =>
    rw [typed h1 rfl]
    exact JZ.run (JY.step (extractExprOptList_yields hr h2 h3 hd) JZ.pure)
  | obj h1 h2 h3 =>
    rw [typed h1 rfl]
    exact JZ.run (JY.step (extractPropList_yields hr h2 h3 hd) JZ.pure)
  | «fun» h1 h2 h3 h4 =>
    rw [typed h1 rfl]
    cases h3 with
    | none =>
      exact JZ.run (JY.step (a := none) ((JG.extractNull h2).bind fun _ ho => by
        rw [ho]; exact JG.pure rfl) (JG.andThen JG.self fun o' ho =>
        JY.step (JY.lift (intoFun_yields hr h4 hd ho)) JZ.pure))
    | some h3 =>
      cases h3 with
      | ident h3 =>
        obtain ⟨oi, rfl⟩ := h3.obj
        exact JZ.run (JY.step (a := some _) ((JG.extractObjectOpt h2).bind fun _ ho => by
          rw [ho]
          exact JY.bind (JY.lift (intoId_yields h3)) JY.pure) (JG.andThen JG.self fun o' ho =>
          JY.step (JY.lift (intoFun_yields hr h4 hd ho)) JZ.pure))
  | seq h1 h2 h3 =>
    rw [typed h1 rfl]
    exact JZ.run (JY.step (extractExprs_yields hr h2 h3 hd) JZ.pure)
  | unop h1 h2 h3 h4 =>
    rw [typed h1 rfl]
    exact JZ.run (JY.step (JG.extractString h2) (JY.step (JY.lift (parse_unop _ _))
      (JY.step (extractExpr_yields hr h3 h4 hd) JZ.pure)))
  | binop h1 h2 h3 h4 h5 h6 =>
    rw [typed h1 rfl]
    exact JZ.run (JY.step (JG.extractString h2) (JY.step (JY.lift (parse_binop _ _))
      (JY.step (extractExpr_yields hr h3 h4 hd) (JY.step (extractExpr_yields hr h5 h6 hd) JZ.pure))))
  | logop h1 h2 h3 h4 h5 h6 =>
    rw [typed h1 rfl]
    exact JZ.run (JY.step (JG.extractString h2) (JY.step (JY.lift (parse_logop _ _))
      (JY.step (extractExpr_yields hr h3 h4 hd) (JY.step (extractExpr_yields hr h5 h6 hd) JZ.pure))))
  | preInc h1 h2 h3 h4 h5 =>
    rw [typed h1 rfl]
    exact JZ.run (JY.step (JG.extractString h2) (JY.step (extractTarget_yields hr h4 h5 hd)
      (JY.step (JG.extractBool h3) (JZ.pos rfl JZ.pure))))
  | postInc h1 h2 h3 h4 h5 =>
    rw [typed h1 rfl]
    exact JZ.run (JY.step (JG.extractString h2) (JY.step (extractTarget_yields hr h4 h5 hd)
      (JY.step (JG.extractBool h3) (JZ.pos rfl JZ.pure))))
  | preDec h1 h2 h3 h4 h5 =>
    rw [typed h1 rfl]
    exact JZ.run (JY.step (JG.extractString h2) (JY.step (extractTarget_yields hr h4 h5 hd)
      (JY.step (JG.extractBool h3) (JZ.neg (by decide) (JZ.pos rfl JZ.pure)))))
  | postDec h1 h2 h3 h4 h5 =>
    rw [typed h1 rfl]
    exact JZ.run (JY.step (JG.extractString h2) (JY.step (extractTarget_yields hr h4 h5 hd)
      (JY.step (JG.extractBool h3) (JZ.neg (by decide) (JZ.pos rfl JZ.pure)))))
  | assign h1 h2 h3 h4 h5 h6 h7 =>
    rw [typed h1 rfl]
    exact JZ.run (JY.step (JG.extractString h2) (JY.step (extractExpr_yields hr h6 h7 hd)
      (JZ.pos rfl (JY.step (extractAssignPatt_yields hr h3 h4 h5 hd) JZ.pure))))
  | binAssign h1 h2 h3 h4 h5 h6 =>
    rw [typed h1 rfl]
    exact JZ.run (JY.step (JG.extractString h2) (JY.step (extractExpr_yields hr h5 h6 hd)
      (JZ.neg (assop_ne _) (JY.step (JY.lift (parse_assop _ _))
      (JY.step (extractTarget_yields hr h3 h4 hd) JZ.pure)))))
  | cond h1 h2 h3 h4 h5 h6 h7 =>
    rw [typed h1 rfl]
    exact JZ.run (JY.step (extractExpr_yields hr h2 h3 hd) (JY.step (extractExpr_yields hr h4 h5 hd)
      (JY.step (extractExpr_yields hr h6 h7 hd) JZ.pure)))
  | call h1 h2 h3 h4 h5 =>
    rw [typed h1 rfl]
    exact JZ.run (JY.step (extractExpr_yields hr h2 h3 hd)
      (JY.step (extractExprList_yields hr h4 h5 hd) JZ.pure))
  | new h1 h2 h3 h4 h5 =>
    rw [typed h1 rfl]
    exact JZ.run (JY.step (extractExpr_yields hr h2 h3 hd)
      (JY.step (extractExprList_yields hr h4 h5 hd) JZ.pure))
  | dot h1 h2 h3 h4 h5 h6 =>
    rw [typed h1 rfl]
    refine JZ.run (JY.step (extractExpr_yields hr h2 h3 hd) (JY.step (JG.extractBool h4)
      (JY.step (extractId_yields h5 h6) (JZ.pure' ?_))))
    show Ast.eDot none _ ⟨none, (Name.from _).intoString⟩ = _
    rw [C11_string_roundtrip]
  | brack h1 h2 h3 h4 h5 h6 =>
    rw [typed h1 rfl]
    exact JZ.run (JY.step (extractExpr_yields hr h2 h3 hd) (JY.step (JG.extractBool h4)
      (JY.step (extractExpr_yields hr h5 h6 hd) JZ.pure)))
  | newTarget h1 h2 h3 h4 h5 =>
    rw [typed h1 rfl]
    exact JZ.run (JY.step (extractId_yields h2 h3) (JY.step (extractId_yields h4 h5)
      (JZ.pos ⟨C11_string_roundtrip c!"new", C11_string_roundtrip c!"target"⟩ JZ.pure)))
  | true h1 h2 => rw [typed h1 rfl]; exact intoLit_yields (.true h2)
  | false h1 h2 => rw [typed h1 rfl]; exact intoLit_yields (.false h2)
  | null h1 h2 h3 => rw [typed h1 rfl]; exact intoLit_yields (.null h2 h3)
  | number h1 h2 h3 => rw [typed h1 rfl]; exact intoLit_yields (.number h2 h3)
  | regExp h1 h2 h3 h4 => rw [typed h1 rfl]; exact intoLit_yields (.regExp h2 h3 h4)
  | string h1 h2 => rw [typed h1 rfl]; exact intoLit_yields (.string h2)

/-! ### Statements -/

theorem expr_notDecl {e : Expr} (h : Reads e (.object o)) :
    ∃ t : Tag, tag o = .ok t ∧ t ≠ .variableDeclaration := by
  obtain ⟨t, ht, hm⟩ := expr_typed h
  exact ⟨t, ht, by rintro rfl; exact absurd hm (by decide)⟩

theorem intoForHead_yields (hr : RecReads n r) {x : Ast .forHead} (hd : depthFields o < n)
    (h : Reads x (.object o)) : intoForHead r o = .ok x := by
  unfold intoForHead
  cases h with
  | fhVar h1 h2 h3 h4 =>
    obtain ⟨js, rfl⟩ := h4.listArr
    rw [tag_of h1 rfl]
    exact JZ.run (JY.step (extractDtorList_yields hr h3 (each_of_reads _ _ h4) (Nat.le_of_lt hd))
      (JY.step (JG.extractString h2) (JZ.pos rfl (JZ.pure' (by rw [Ast.ofList_toList])))))
  | fhLet h1 h2 h3 h4 =>
    obtain ⟨js, rfl⟩ := h4.listArr
    rw [tag_of h1 rfl]
    exact JZ.run (JY.step (extractDtorList_yields hr h3 (each_of_reads _ _ h4) (Nat.le_of_lt hd))
      (JY.step (JG.extractString h2) (JZ.neg (by decide) (JZ.pos rfl
        (JZ.pure' (by rw [Ast.ofList_toList]))))))
  | fhConst h1 h2 h3 h4 =>
    obtain ⟨js, rfl⟩ := h4.listArr
    obtain ⟨ds, h5, h6⟩ := const_dtor (each_of_reads _ _ h4)
    rw [tag_of h1 rfl]
    exact JZ.run (JY.step (extractDtorList_yields hr h3 h5 (Nat.le_of_lt hd))
      (JY.step (JG.extractString h2) (JZ.neg (by decide) (JZ.neg (by decide) (JZ.pos rfl
        (JY.step (JY.lift h6) (JZ.pure' (by rw [Ast.ofList_toList]))))))))
  | fhExpr h =>
    obtain ⟨t, ht, hne⟩ := expr_notDecl h
    rw [ht]
    have he := hr.expr _ o hd h
    cases t <;> first
      | (show (r.expr o).map _ = _; rw [he]; rfl)
      | exact absurd rfl hne

theorem forIn_yields (hr : RecReads n r) {x : Ast .forInHead} (hd : depthFields o < n)
    (h : Reads x (.object o)) : intoForInHead r o = .ok x := by
  unfold intoForInHead
  have one : ∀ {od : Object} {k : Str} {p : PattId} {init : Option Expr} {x : Ast .forInHead}
      {ns' ns'' : List Str},
      o.get c!"declarations" = some (.array [.object od]) → o.get c!"kind" = some (.string k) →
      JY od [] ns' p (extractPatt c!"id") → JY od ns' ns'' init (extractExprOpt r c!"init") →
      forInHead k p init = .ok x →
      J.run (do
        let dtors ← extract (Object.extractArray c!"declarations")
        let kind ← extract (Object.extractString c!"kind")
        match dtors with
        | [d] => do
          let obj ← lift (ofJson d.intoObject)
          lift (J.run (do
            let lhs ← extractPatt c!"id"
            let init ← extractExprOpt r c!"init"
            lift (forInHead kind lhs init)) obj)
        | _ => lift (arrayError 1 dtors.length)) o = .ok x :=
    fun h1 h2 h3 h4 h5 => JZ.run (JY.step (JG.extractArray h1) (JY.step (JG.extractString h2)
      (JY.step (JY.lift rfl) (JZ.lift (JZ.run (JY.step h3 (JY.step h4 (JZ.lift h5))))))))
  have deep : ∀ {od : Object}, o.get c!"declarations" = some (.array [.object od]) →
      depthFields od ≤ n := fun h =>
    Nat.le_of_lt (Nat.lt_trans (depth_objects (os := [_]) h (List.mem_cons_self ..)) hd)
  cases h with
  | fiVarInit h1 h2 h3 h4 h5 h6 h7 =>
    rw [tag_of h1 rfl]
    exact one h3 h2 (extractPatt_yields h4 (.simple h5)) (extractInit_yields hr h6 h7 (deep h3)) rfl
  | fiVar h1 h2 h3 h4 h5 h6 =>
    rw [tag_of h1 rfl]
    refine one h3 h2 (extractPatt_yields h4 h5) (extractNoInit_yields h6) ?_
    cases h5; rfl
  | fiLet h1 h2 h3 h4 h5 h6 =>
    rw [tag_of h1 rfl]
    refine one h3 h2 (extractPatt_yields h4 h5) (extractNoInit_yields h6) ?_
    cases h5; rfl
  | fiConst h1 h2 h3 h4 h5 h6 =>
    rw [tag_of h1 rfl]
    refine one h3 h2 (extractPatt_yields h4 h5) (extractNoInit_yields h6) ?_
    cases h5; rfl
  | fiPatt ha h =>
    obtain ⟨t, ht, hne⟩ := expr_notDecl h
    rw [ht]
    have he := hr.expr _ o hd h
    have hs := Patt.ofSource ha
    cases t <;> first
      | (show (r.expr o).bind _ = _
         rw [he]
         simp only [Res.bind]
         rw [hs])
      | exact absurd rfl hne

theorem forOf_yields (hr : RecReads n r) {x : Ast .forOfHead} (hd : depthFields o < n)
    (h : Reads x (.object o)) : intoForOfHead r o = .ok x := by
  unfold intoForOfHead
  cases h with
  | foVar h1 h2 h3 h4 h5 =>
    rw [tag_of h1 rfl]
    exact JZ.run (JY.step (JG.extractArray h3) (JY.step (JG.extractString h2)
      (JY.step (JY.lift rfl) (JY.step (JY.lift (JY.run (extractPatt_yields h4 h5)))
        (JZ.pos rfl JZ.pure)))))
  | foLet h1 h2 h3 h4 h5 =>
    rw [tag_of h1 rfl]
    exact JZ.run (JY.step (JG.extractArray h3) (JY.step (JG.extractString h2)
      (JY.step (JY.lift rfl) (JY.step (JY.lift (JY.run (extractPatt_yields h4 h5)))
        (JZ.neg (by decide) (JZ.pos rfl JZ.pure))))))
  | foConst h1 h2 h3 h4 h5 =>
    rw [tag_of h1 rfl]
    exact JZ.run (JY.step (JG.extractArray h3) (JY.step (JG.extractString h2)
      (JY.step (JY.lift rfl) (JY.step (JY.lift (JY.run (extractPatt_yields h4 h5)))
        (JZ.neg (by decide) (JZ.neg (by decide) (JZ.pos rfl JZ.pure)))))))
  | foPatt ha h =>
    obtain ⟨t, ht, hne⟩ := expr_notDecl h
    rw [ht]
    have he := hr.expr _ o hd h
    have hs := Patt.ofSource ha
    cases t <;> first
      | (show (r.expr o).bind _ = _
         rw [he]
         simp only [Res.bind]
         rw [hs])
      | exact absurd rfl hne

theorem intoCase_yields (hr : RecReads n r) {x : Ast .case} (hd : depthFields o ≤ n)
    (h : Reads x (.object o)) : intoCase r o = .ok x := by
  cases h with
  | case h1 h2 h3 h4 =>
    obtain ⟨js, rfl⟩ := h4.listArr
    exact JZ.run (JG.andThen (extractExprOpt_yields hr h1 h2 hd) fun a ha =>
      JY.step (extractStmtList_yields hr h3 (each_of_reads _ _ h4) hd)
        (JZ.pure' (by rw [ha, Ast.ofList_toList])))

theorem extractCaseList_yields (hr : RecReads n r) {xs : Ast (.list .case)} {j : Json}
    (h : o.get name = some j) (hx : Reads xs j) (hd : depthFields o ≤ n)
    (hn : name ∉ ns := by decide) : JY o ns (name :: ns) xs (extractCaseList r name) :=
  list_yields h hx (fun _ _ h => h.caseObj)
    (fun _ _ hd' hx => intoCase_yields hr (Nat.le_of_lt (Nat.lt_of_lt_of_le hd' hd)) hx) hn

theorem intoCatch_yields (hr : RecReads n r) {x : Ast .«catch»} (hd : depthFields o ≤ n)
    (h : Reads x (.object o)) : intoCatch r o = .ok x := by
  cases h with
  | «catch» h1 h2 h3 h4 =>
    exact JZ.run (JY.step (extractPatt_yields h1 h2) (JY.step (extractBlock_yields hr h3 h4 hd)
      JZ.pure))

theorem extractCatchOpt_yields (hr : RecReads n r) {x : Ast (.opt .«catch»)} {j : Json}
    (h : o.get name = some j) (hx : Reads x j) (hd : depthFields o ≤ n)
    (hn : name ∉ ns := by decide) :
    JG o ns (name :: ns) (fun a => Ast.ofOption a = x) (extractCatchOpt r name) :=
  opt_yields h hx (fun _ _ h => h.catchObj)
    (fun _ _ hd' hx => intoCatch_yields hr (Nat.le_of_lt (Nat.lt_of_lt_of_le hd' hd)) hx) hn

theorem extractForHeadOpt_yields (hr : RecReads n r) {x : Ast (.opt .forHead)} {j : Json}
    (h : o.get name = some j) (hx : Reads x j) (hd : depthFields o ≤ n)
    (hn : name ∉ ns := by decide) :
    JG o ns (name :: ns) (fun a => Ast.ofOption a = x) (extractForHeadOpt r name) :=
  opt_yields h hx (fun _ _ h => h.forHeadObj)
    (fun _ _ hd' hx => intoForHead_yields hr (Nat.lt_of_lt_of_le hd' hd) hx) hn

theorem intoItem_yields (hr : RecReads n r) (i : StmtListItem) (o : Object) (b : Bool)
    (hd : depthFields o ≤ n) (h : Reads i (.object o)) (hb : b = false → ∃ s, i = .siStmt s) :
    intoItem r o b = .ok i := by
  have stmt {x : J Stmt} {s : Stmt} (hx : JZ o [] s x) :
      ((J.run x o).map .siStmt : Result StmtListItem) = .ok (.siStmt s) := by
    rw [JZ.run hx]; rfl
  unfold intoItem
  cases h with
  | declFun h1 h2 h3 h4 =>
    cases b with
    | false => obtain ⟨s, hs⟩ := hb rfl; cases hs
    | true =>
      rw [tag_of h1 rfl]
      exact JZ.run (JY.step (extractId_yields h2 h3) (JG.andThen JG.self fun o' ho =>
        JY.step (JY.lift (intoFun_yields hr h4 hd ho)) JZ.pure))
  | declLet h1 h2 h3 h4 =>
    cases b with
    | false => obtain ⟨s, hs⟩ := hb rfl; cases hs
    | true =>
      obtain ⟨js, rfl⟩ := h4.listArr
      rw [tag_of h1 rfl]
      exact JZ.run (JY.step (extractDtorList_yields hr h3 (each_of_reads _ _ h4) hd)
        (JY.step (JG.extractString h2) (JZ.neg (by decide) (JZ.pos rfl (JZ.neg (by decide)
          (JZ.pure' (by rw [Ast.ofList_toList]; rfl)))))))
  | declConst h1 h2 h3 h4 =>
    cases b with
    | false => obtain ⟨s, hs⟩ := hb rfl; cases hs
    | true =>
      obtain ⟨js, rfl⟩ := h4.listArr
      obtain ⟨ds, h5, h6⟩ := const_dtor (each_of_reads _ _ h4)
      rw [tag_of h1 rfl]
      exact JZ.run (JY.step (extractDtorList_yields hr h3 h5 hd)
        (JY.step (JG.extractString h2) (JZ.neg (by decide) (JZ.neg (by decide) (JZ.pos rfl
          (JZ.neg (by decide) (JY.step (JY.lift h6)
            (JZ.pure' (by rw [Ast.ofList_toList]; rfl)))))))))
  | item h =>
    cases h with
    | sEmpty h => rw [tag_of h rfl]; rfl
    | sBlock h =>
      cases h with
      | block h1 h2 h3 =>
        rw [tag_of h1 rfl]
        show (intoBlock r o).map _ = _
        rw [intoBlock_yields hr hd (.block h1 h2 h3)]
        rfl
    | sVar h1 h2 h3 h4 =>
      obtain ⟨js, rfl⟩ := h4.listArr
      rw [tag_of h1 rfl]
      exact JZ.run (JY.step (extractDtorList_yields hr h3 (each_of_reads _ _ h4) hd)
        (JY.step (JG.extractString h2) (JZ.pos rfl (JZ.pure' (by rw [Ast.ofList_toList]; rfl)))))
    | sExpr h1 h2 h3 =>
      rw [tag_of h1 rfl]
      exact stmt (JY.step (extractExpr_yields hr h2 h3 hd) JZ.pure)
    | sIf h1 h2 h3 h4 h5 h6 h7 =>
      rw [tag_of h1 rfl]
      exact stmt (JY.step (extractExpr_yields hr h2 h3 hd) (JY.step (extractStmt_yields hr h4 h5 hd)
        (JG.andThen (extractStmtOpt_yields hr h6 h7 hd) fun a ha => JZ.pure' (by rw [ha]))))
    | sLabel h1 h2 h3 h4 h5 =>
      rw [tag_of h1 rfl]
      exact stmt (JY.step (extractId_yields h2 h3) (JY.step (extractStmt_yields hr h4 h5 hd) JZ.pure))
    | sBreak h1 h2 =>
      rw [tag_of h1 rfl]
      exact stmt (JY.step (a := none) ((JG.extractNull h2).bind fun _ ho => by
        rw [ho]; exact JG.pure rfl) JZ.pure)
    | sBreakLabel h1 h2 h3 =>
      rw [tag_of h1 rfl]
      obtain ⟨oi, rfl⟩ := h3.obj
      exact stmt (JY.step (a := some _) ((JG.extractObjectOpt h2).bind fun _ ho => by
        rw [ho]
        exact JY.bind (JY.lift (intoId_yields h3)) JY.pure) JZ.pure)
    | sCont h1 h2 =>
      rw [tag_of h1 rfl]
      exact stmt (JY.step (a := none) ((JG.extractNull h2).bind fun _ ho => by
        rw [ho]; exact JG.pure rfl) JZ.pure)
    | sContLabel h1 h2 h3 =>
      rw [tag_of h1 rfl]
      obtain ⟨oi, rfl⟩ := h3.obj
      exact stmt (JY.step (a := some _) ((JG.extractObjectOpt h2).bind fun _ ho => by
        rw [ho]
        exact JY.bind (JY.lift (intoId_yields h3)) JY.pure) JZ.pure)
    | sWith h1 h2 h3 h4 h5 =>
      rw [tag_of h1 rfl]
      exact stmt (JY.step (extractExpr_yields hr h2 h3 hd)
        (JY.step (extractStmt_yields hr h4 h5 hd) JZ.pure))
    | sSwitch h1 h2 h3 h4 h5 =>
      rw [tag_of h1 rfl]
      exact stmt (JY.step (extractExpr_yields hr h2 h3 hd)
        (JY.step (extractCaseList_yields hr h4 h5 hd) JZ.pure))
    | sReturn h1 h2 h3 =>
      rw [tag_of h1 rfl]
      exact stmt (JG.andThen (extractExprOpt_yields hr h2 h3 hd) fun a ha =>
        JZ.pure' (by rw [ha]; rfl))
    | sThrow h1 h2 h3 =>
      rw [tag_of h1 rfl]
      exact stmt (JY.step (extractExpr_yields hr h2 h3 hd) JZ.pure)
    | sTry h1 h2 h3 h4 h5 h6 h7 =>
      rw [tag_of h1 rfl]
      exact stmt (JY.step (extractBlock_yields hr h2 h3 hd)
        (JG.andThen (extractCatchOpt_yields hr h4 h5 hd) fun a ha =>
        (JG.andThen (extractBlockOpt_yields hr h6 h7 hd) fun b hb =>
          JZ.pure' (by rw [ha, hb]))))
    | sWhile h1 h2 h3 h4 h5 =>
      rw [tag_of h1 rfl]
      exact stmt (JY.step (extractExpr_yields hr h2 h3 hd)
        (JY.step (extractStmt_yields hr h4 h5 hd) JZ.pure))
    | sDoWhile h1 h2 h3 h4 h5 =>
      rw [tag_of h1 rfl]
      exact stmt (JY.step (extractStmt_yields hr h2 h3 hd)
        (JY.step (extractExpr_yields hr h4 h5 hd) JZ.pure))
    | sFor h1 h2 h3 h4 h5 h6 h7 h8 h9 =>
      rw [tag_of h1 rfl]
      exact stmt (JG.andThen (extractForHeadOpt_yields hr h2 h3 hd) fun a ha =>
        (JG.andThen (extractExprOpt_yields hr h4 h5 hd) fun b hb =>
        (JG.andThen (extractExprOpt_yields hr h6 h7 hd) fun c hc =>
        (JY.step (extractStmt_yields hr h8 h9 hd) (JZ.pure' (by rw [ha, hb, hc]))))))
    | sForIn h1 h2 h3 h4 h5 h6 h7 =>
      rw [tag_of h1 rfl]
      obtain ⟨oh, rfl⟩ := h3.forInHeadObj
      exact stmt (JY.step (JG.extractObject h2) (JY.step (JY.lift
        (forIn_yields hr (Nat.lt_of_lt_of_le (depth_field h2) hd) h3))
        (JY.step (extractExpr_yields hr h4 h5 hd) (JY.step (extractStmt_yields hr h6 h7 hd)
        JZ.pure))))
    | sForOf h1 h2 h3 h4 h5 h6 h7 =>
      rw [tag_of h1 rfl]
      obtain ⟨oh, rfl⟩ := h3.forOfHeadObj
      exact stmt (JY.step (JG.extractObject h2) (JY.step (JY.lift
        (forOf_yields hr (Nat.lt_of_lt_of_le (depth_field h2) hd) h3))
        (JY.step (extractExpr_yields hr h4 h5 hd) (JY.step (extractStmt_yields hr h6 h7 hd)
        JZ.pure))))
    | sDebugger h => rw [tag_of h rfl]; rfl

theorem recOf_yields : (n : Nat) → RecReads n (recOf n)
  | 0 => ⟨fun _ _ h => absurd h (Nat.not_lt_zero _), fun _ _ _ h => absurd h (Nat.not_lt_zero _)⟩
  | n + 1 => ⟨fun e o h => intoExpr_yields (recOf_yields n) e o (Nat.le_of_lt_succ h),
      fun i o b h => intoItem_yields (recOf_yields n) i o b (Nat.le_of_lt_succ h)⟩

/-- What the object says is returned. -/
theorem intoScript_yields {x : Script} {o : Object} (h : ReadsScript x o) : intoScript o = .ok x := by
  obtain ⟨j, hj, hx⟩ := h
  exact JY.run (extractScript_yields (recOf_yields _) hj hx (Nat.le_refl _))

end

end Estree

end Esprit
