import Verif.Proofs.EstreeTells
import Verif.Proofs.EstreeConv

/-! The functions of the ESTree conversion, in the calculus of `EstreeTells`. -/

namespace Esprit

namespace Estree

/-! ### Fields -/

namespace JT

variable {α : Type} {o : Object} {ns : List Str}

/-- A node or `null` in a field. -/
theorem nodeOpt {f : Object → Result α} {R : α → Json → Prop}
    (hf : ∀ o', Tells (.object o') (R · (.object o')) (f o')) {name : Str}
    (hn : name ∉ ns := by decide) :
    JT o ns (name :: ns)
      (fun a => ∃ j, o.get name = some j ∧ ((a = none ∧ j = .null) ∨ ∃ x, a = some x ∧ R x j))
      (do match ← extract (Object.extractObjectOpt name) with
          | some o => return some (← Estree.lift (f o))
          | none => return none) := by
  refine (extractObjectOpt hn).bind fun r hr => ?_
  cases r with
  | none => exact JT.pure ⟨_, hr, .inl ⟨rfl, rfl⟩⟩
  | some o' =>
    exact JT.bind (JT.lift ((hf o').inside (.field hr .self)))
      fun a ha => JT.pure ⟨_, hr, .inr ⟨_, rfl, ha⟩⟩

theorem each_objects : {js : List Json} → {os : List Object} →
    Each (fun j (o : Object) => j = .object o) js os → js = os.map .object
  | _, _, .nil => rfl
  | _, _, .cons h hs => by rw [h, each_objects hs]; rfl

/-- The objects of an array in a field. -/
theorem objects {name : Str} (hn : name ∉ ns := by decide) :
    JT o ns (name :: ns) (fun os => o.get name = some (.array (os.map .object)))
      (extractObjects name) := by
  refine (extractArray hn).bind fun js hjs => JT.lift ?_
  refine (Tells.mapList js fun v hv => ?_).mono fun os hos => by rw [hjs, each_objects hos]
  cases v <;> first
    | exact rfl
    | exact .inl ⟨_, [.object], .field hjs (.element hv .self), rfl, by decide, by simp [Json.ty]⟩

theorem each_map {R : Json → α → Prop} : {os : List Object} → {xs : List α} →
    Each (fun o x => R (.object o) x) os xs → Each R (os.map .object) xs
  | _, _, .nil => .nil
  | _, _, .cons h hs => .cons h (each_map hs)

/-- The nodes of an array in a field. -/
theorem nodes {f : Object → Result α} {R : α → Json → Prop}
    (hf : ∀ o', Tells (.object o') (R · (.object o')) (f o')) {name : Str}
    (hn : name ∉ ns := by decide) :
    JT o ns (name :: ns)
      (fun xs => ∃ js, o.get name = some (.array js) ∧ Each (fun j x => R x j) js xs)
      (do let objs ← extractObjects name; Estree.lift (mapList f objs)) :=
  (objects hn).bind fun os hos => JT.lift ((Tells.mapList (R := fun o x => R x (.object o)) os
    fun o' ho' => (hf o').inside (.field hos (.element (List.mem_map_of_mem ho') .self))).mono
      fun _ h => ⟨_, hos, each_map h⟩)

end JT

theorem reads_ofList {c : Cat} : {js : List Json} → {xs : List (Ast c)} →
    Each (fun j x => Reads x j) js xs → Reads (Ast.ofList xs) (.array js)
  | _, _, .nil => .nil
  | _, _, .cons h hs => .cons h (reads_ofList hs)

theorem reads_ofOption {c : Cat} {a : Option (Ast c)} {j : Json}
    (h : (a = none ∧ j = .null) ∨ ∃ x, a = some x ∧ Reads x j) : Reads (Ast.ofOption a) j := by
  rcases h with ⟨rfl, rfl⟩ | ⟨x, rfl, h⟩
  · exact .none
  · exact .some h

/-- What the recursive functions are to do. -/
structure RecTells (r : Rec) : Prop where
  expr : ∀ o, Tells (.object o) (fun e => Reads e (.object o)) (r.expr o)
  item : ∀ o b, Tells (.object o)
    (fun i => Reads i (.object o) ∧ (b = false → ∃ s, i = .siStmt s)) (r.item o b)

section

variable {o : Object} {ns : List Str} {r : Rec} {name : Str}

theorem extractId_tells (hn : name ∉ ns := by decide) :
    JT o ns (name :: ns) (fun i => ∃ j, o.get name = some j ∧ ReadsId i j) (extractId name) :=
  JT.node intoId_tells hn

theorem extractIdOpt_tells (hn : name ∉ ns := by decide) :
    JT o ns (name :: ns)
      (fun a => ∃ j, o.get name = some j ∧ ((a = none ∧ j = .null) ∨ ∃ x, a = some x ∧ ReadsId x j))
      (extractIdOpt name) :=
  JT.nodeOpt intoId_tells hn

theorem extractPatt_tells (hn : name ∉ ns := by decide) :
    JT o ns (name :: ns)
      (fun p => ∃ j i, o.get name = some j ∧ ReadsId i j ∧ p = .pSimple (.ident i))
      (extractPatt name) :=
  (JT.node (R := fun p j => ∃ i, ReadsId i j ∧ p = .pSimple (.ident i)) (f := intoPatt)
    (fun o' => (intoId_tells o').map fun i hi => ⟨i, hi, rfl⟩) hn).mono
    fun _ ⟨j, hj, i, hi, hp⟩ => ⟨j, i, hj, hi, hp⟩

theorem extractExpr_tells (hr : RecTells r) (hn : name ∉ ns := by decide) :
    JT o ns (name :: ns) (fun e => ∃ j, o.get name = some j ∧ Reads e j) (extractExpr r name) :=
  JT.node hr.expr hn

theorem extractExprOpt_tells (hr : RecTells r) (hn : name ∉ ns := by decide) :
    JT o ns (name :: ns) (fun a => ∃ j, o.get name = some j ∧
      ((a = none ∧ j = .null) ∨ ∃ x, a = some x ∧ Reads x j)) (extractExprOpt r name) :=
  JT.nodeOpt hr.expr hn

theorem intoStmt_tells (hr : RecTells r) (o : Object) :
    Tells (.object o) (fun s => Reads (.siStmt s) (.object o)) (intoStmt r o) :=
  (hr.item o false).bind fun i hi => by
    obtain ⟨s, rfl⟩ := hi.2 rfl
    exact hi.1

theorem reads_stmt {s : Stmt} {j : Json} (h : Reads (.siStmt s) j) : Reads s j := by
  cases h with
  | item h => exact h

theorem extractStmt_tells (hr : RecTells r) (hn : name ∉ ns := by decide) :
    JT o ns (name :: ns) (fun s => ∃ j, o.get name = some j ∧ Reads s j) (extractStmt r name) :=
  JT.node (fun o => (intoStmt_tells hr o).mono fun _ => reads_stmt) hn

theorem extractStmtOpt_tells (hr : RecTells r) (hn : name ∉ ns := by decide) :
    JT o ns (name :: ns) (fun a => ∃ j, o.get name = some j ∧
      ((a = none ∧ j = .null) ∨ ∃ x, a = some x ∧ Reads x j)) (extractStmtOpt r name) :=
  JT.nodeOpt (fun o => (intoStmt_tells hr o).mono fun _ => reads_stmt) hn

theorem intoExprListItem_tells (hr : RecTells r) (o : Object) :
    Tells (.object o) (fun i => Reads i (.object o)) (intoExprListItem r o) := by
  refine (tag_tells o).bind fun t ht => ?_
  cases t with
  | spreadElement =>
    exact (JT.run (extractExpr_tells hr (name := c!"argument"))).bind
      fun e ⟨_, h1, h2⟩ => .iSpread ht h1 h2
  | _ => exact (hr.expr o).map fun _ => .iExpr

theorem extractExprList_tells (hr : RecTells r) (hn : name ∉ ns := by decide) :
    JT o ns (name :: ns) (fun es => ∃ j, o.get name = some j ∧ Reads es j)
      (extractExprList r name) :=
  JT.bind (JT.objects hn) fun os hos => JT.bind (JT.lift
    (Tells.mapList (R := fun o x => Reads x (.object o)) os fun o' ho' =>
      (intoExprListItem_tells hr o').inside
        (.field hos (.element (List.mem_map_of_mem ho') .self))))
    fun _ hxs => JT.pure ⟨_, hos, reads_ofList (JT.each_map (R := fun j x => Reads x j) hxs)⟩

theorem extractExprs_tells (hr : RecTells r) (hn : name ∉ ns := by decide) :
    JT o ns (name :: ns) (fun es => ∃ j, o.get name = some j ∧ Reads es j)
      (extractExprs r name) :=
  JT.bind (JT.objects hn) fun os hos => JT.bind (JT.lift
    (Tells.mapList (R := fun o x => Reads x (.object o)) os fun o' ho' =>
      (hr.expr o').inside (.field hos (.element (List.mem_map_of_mem ho') .self))))
    fun _ hxs => JT.pure ⟨_, hos, reads_ofList (JT.each_map (R := fun j x => Reads x j) hxs)⟩

theorem extractExprOptList_tells (hr : RecTells r) (hn : name ∉ ns := by decide) :
    JT o ns (name :: ns) (fun es => ∃ j, o.get name = some j ∧ Reads es j)
      (extractExprOptList r name) := by
  refine JT.bind (JT.extractArray hn) fun js hjs => JT.bind (JT.lift
    (Tells.mapList (R := fun j x => Reads x j) js fun v hv => ?_))
    fun xs hxs => JT.pure ⟨_, hjs, reads_ofList hxs⟩
  cases v with
  | null => exact Reads.none
  | object o' =>
    exact Tells.inside (.field hjs (.element hv .self))
      ((intoExprListItem_tells hr o').map fun _ => .some)
  | _ =>
    exact .inl ⟨_, [.object, .null], .field hjs (.element hv .self), rfl, by decide,
      by simp [Json.ty]⟩

theorem extractStmtList_tells (hr : RecTells r) (hn : name ∉ ns := by decide) :
    JT o ns (name :: ns)
      (fun xs => ∃ js, o.get name = some (.array js) ∧ Each (fun j x => Reads x j) js xs)
      (extractStmtList r name) :=
  JT.nodes (fun o => (hr.item o true).mono fun _ h => h.1) hn

theorem intoBlock_tells (hr : RecTells r) (o : Object) :
    Tells (.object o) (fun b => Reads b (.object o)) (intoBlock r o) := by
  refine (tag_tells o).bind fun t ht => ?_
  cases t with
  | blockStatement =>
    exact (JT.run (extractStmtList_tells hr (name := c!"body"))).bind
      fun e ⟨_, h1, h2⟩ => .block ht h1 (reads_ofList h2)
  | _ => exact ⟨o, [c!"BlockStatement"], .self, ht, by decide, by decide⟩

theorem extractBlock_tells (hr : RecTells r) (hn : name ∉ ns := by decide) :
    JT o ns (name :: ns) (fun e => ∃ j, o.get name = some j ∧ Reads e j) (extractBlock r name) :=
  JT.node (intoBlock_tells hr) hn

theorem extractBlockOpt_tells (hr : RecTells r) (hn : name ∉ ns := by decide) :
    JT o ns (name :: ns) (fun a => ∃ j, o.get name = some j ∧
      ((a = none ∧ j = .null) ∨ ∃ x, a = some x ∧ Reads x j)) (extractBlockOpt r name) :=
  JT.nodeOpt (intoBlock_tells hr) hn

/-! ### Functions -/

/-- What `splitRestParam` returns. -/
def SplitRest (os : List Object) (s : List Object × Ast (.opt (.rest .id))) : Prop :=
  (s = (os, .none) ∧ NoRest (os.map .object)) ∨
  ∃ (o : Object) (p : PattId) (j : Json), os = s.1 ++ [o] ∧ s.2 = .some (.restPatt none p) ∧
    Typed o c!"RestElement" ∧ o.get c!"argument" = some j ∧ Reads p j

theorem splitRestParam_tells (os : List Object) :
    Tells (.array (os.map .object)) (SplitRest os) (splitRestParam os) := by
  unfold splitRestParam
  cases hl : os.getLast? with
  | none =>
    refine .inl ⟨rfl, fun j o h _ => ?_⟩
    rw [List.getLast?_map, hl] at h
    cases h
  | some last =>
    have hm := List.mem_of_getLast? hl
    have hi : Inside (.object last) (.array (os.map .object)) :=
      .element (List.mem_map_of_mem hm) .self
    refine ((tag_tells last).inside hi).bind fun t ht => ?_
    show Tells _ _ (if _ then _ else _)
    split
    · rename_i he
      subst he
      refine ((JT.run (extractPatt_tells (name := c!"argument"))).inside hi).bind ?_
      rintro p ⟨j, i, h1, h2, rfl⟩
      refine .inr ⟨last, _, j, ?_, rfl, ht, h1, .simple h2⟩
      obtain ⟨ys, rfl⟩ := List.getLast?_eq_some_iff.mp hl
      rw [List.dropLast_concat]
    · rename_i hne
      refine .inl ⟨rfl, fun j o h hj hr => hne ?_⟩
      rw [List.getLast?_map, hl] at h
      subst hj
      injection h with h
      injection h with h
      subst h
      have := ht.symm.trans hr
      injection this with this
      injection this with this
      cases t <;> first | rfl | (revert this; decide)

/-- What the number of parameters says about the array. -/
def Counts (n : Nat) (js : List Json) : Prop :=
  n = js.length ∨ (n + 1 = js.length ∧ ¬NoRest js)

theorem each_length {α β : Type} {R : α → β → Prop} : {xs : List α} → {ys : List β} →
    Each R xs ys → ys.length = xs.length
  | _, _, .nil => rfl
  | _, _, .cons _ hs => by rw [List.length_cons, List.length_cons, each_length hs]

theorem extractParams_tells (hn : name ∉ ns := by decide) :
    JT o ns (name :: ns) (fun s => ∃ js, o.get name = some (.array js) ∧
      Reads (.params none (Ast.ofList s.1) s.2) (.array js) ∧ Counts s.1.length js)
      (extractParams name) := by
  refine JT.bind (JT.objects hn) fun os hos => JT.bind (JT.lift
    ((splitRestParam_tells os).inside (.field hos .self))) fun s hs => ?_
  have hsub : ∀ o' ∈ s.1, o' ∈ os := by
    rcases hs with ⟨rfl, _⟩ | ⟨o', _, _, h, _⟩
    · exact fun _ h => h
    · rw [h]; exact fun _ h => List.mem_append_left _ h
  refine JT.bind (JT.lift (Tells.mapList (R := fun o x => Reads x (.object o)) s.1 fun o' ho' =>
      (intoPatt_tells o').inside
        (.field hos (.element (List.mem_map_of_mem (hsub o' ho')) .self))))
    fun xs hxs => JT.pure ⟨_, hos, ?_⟩
  have hr := reads_ofList (JT.each_map (R := fun j x => Reads x j) hxs)
  have hlen := each_length hxs
  rcases hs with ⟨rfl, h⟩ | ⟨o', p, j, rfl, h2, h3, h4, h5⟩
  · exact ⟨.params h hr, .inl (by rw [List.length_map]; exact hlen)⟩
  · rw [h2, List.map_append]
    refine ⟨.paramsRest hr h3 h4 h5, .inr ⟨?_, fun h => ?_⟩⟩
    · rw [List.length_append, List.length_map, hlen]; rfl
    · exact h (.object o') o' (by rw [List.map_singleton, List.getLast?_append]; rfl) rfl h3

theorem reads_directive {i : StmtListItem} {j : Json} (h : Reads i j) (hd : isDirective i = true) :
    ∃ d, toDirective i = some d ∧ ReadsDir d j := by
  cases h with
  | item h =>
    cases h with
    | sExpr h1 h2 h3 =>
      cases h3 with
      | string h4 h5 => exact ⟨_, rfl, _, _, _, rfl, h1, h2, h4, h5, rfl⟩
      | _ => exact absurd hd Bool.false_ne_true
    | _ => exact absurd hd Bool.false_ne_true
  | _ => exact absurd hd Bool.false_ne_true

theorem isDirective_eq (i : StmtListItem) : isDirective i = isStringStmt i := by
  cases i with
  | siStmt s =>
    cases s with
    | sExpr l e semi => cases e <;> rfl
    | _ => rfl
  | _ => rfl

/-- The directives at the beginning. -/
theorem splitPrefix_reads : {js : List Json} → {xs : List StmtListItem} →
    Each (fun j x => Reads x j) js xs →
      ∃ ds is, js = ds ++ is ∧ ReadsDirs ((splitPrefix isDirective xs).1.filterMap toDirective) ds ∧
        Each (fun j x => Reads x j) is (splitPrefix isDirective xs).2 ∧
        ∀ i, (splitPrefix isDirective xs).2.head? = some i → isStringStmt i = false
  | _, _, .nil => ⟨[], [], rfl, .nil, .nil, fun _ h => nomatch h⟩
  | j :: js, x :: xs, .cons h hs => by
    cases hd : isDirective x with
    | true =>
      rw [splitPrefix_true _ hd]
      obtain ⟨ds, is, h1, h2, h3⟩ := splitPrefix_reads hs
      obtain ⟨d, hd1, hd2⟩ := reads_directive h hd
      refine ⟨j :: ds, is, by rw [h1]; rfl, ?_, h3⟩
      show ReadsDirs (List.filterMap toDirective (x :: _)) _
      rw [List.filterMap_cons_some hd1]
      exact .cons hd2 h2
    | false =>
      rw [splitPrefix_false _ hd]
      refine ⟨[], j :: js, rfl, .nil, .cons h hs, fun i hi => ?_⟩
      injection hi with hi
      rw [← hi, ← isDirective_eq, hd]

theorem extractScript_tells (hr : RecTells r) (hn : name ∉ ns := by decide) :
    JT o ns (name :: ns) (fun x => ∃ j, o.get name = some j ∧ Reads x j) (extractScript r name) :=
  JT.bind (extractStmtList_tells hr hn) fun xs ⟨js, hjs, hxs⟩ => by
    obtain ⟨ds, is, h1, h2, h3, h4⟩ := splitPrefix_reads hxs
    refine JT.pure ⟨_, hjs, ?_⟩
    rw [h1]
    exact .body h2 (reads_ofList h3) (by rw [Ast.toList_ofList]; exact h4)

/-- What the parts of a function say. -/
structure ReadsParts (o : Object) (f : FunParts) : Prop where
  reads : ∀ {c : Cat} (i : Ast c),
    Reads (.func none i (.params none (Ast.ofList f.params) f.rest) f.body f.generator) (.object o)
  counts : ∃ js, Inside (.array js) (.object o) ∧ Counts f.params.length js

theorem intoFunParts_tells (hr : RecTells r) {o' : Object} (ho : Left o ns o')
    (h1 : c!"generator" ∉ ns := by decide) (h2 : c!"params" ∉ c!"generator" :: ns := by decide)
    (h3 : c!"body" ∉ c!"params" :: c!"generator" :: ns := by decide) :
    Tells (.object o) (ReadsParts o) (intoFunParts r o') :=
  JE.runLeft ho (JT.last (JT.extractBoolOpt h1) fun _ ⟨_, hg1, hg2⟩ =>
    JT.last (extractParams_tells h2) fun _ ⟨_, hp1, hp2, hp3⟩ =>
    JT.last (JT.extractObject h3) fun _ hb =>
    JT.last (JT.lift ((JT.run (extractScript_tells hr (name := c!"body"))).inside
      (.field hb .self))) fun _ ⟨_, hb1, hb2⟩ =>
    JE.pure ⟨fun _ => .func hg1 hg2 hp1 hp2 hb hb1 hb2, _, .field hp1 .self, hp3⟩)

theorem left_self (o : Object) : Left o [] o := ⟨fun _ _ => rfl, Nat.le_refl _⟩

/-- The parts of a function, put together. -/
theorem intoFun_tells (hr : RecTells r) {c : Cat} (i : Ast c) {o' : Object} (ho : Left o ns o')
    (h1 : c!"generator" ∉ ns := by decide) (h2 : c!"params" ∉ c!"generator" :: ns := by decide)
    (h3 : c!"body" ∉ c!"params" :: c!"generator" :: ns := by decide) :
    Tells (.object o) (fun f => ∃ ps b gen, f = .func none i ps b gen ∧ Reads f (.object o))
      (intoFun r i o') :=
  (intoFunParts_tells hr ho h1 h2 h3).map fun _ hf => ⟨_, _, _, rfl, hf.reads i⟩

theorem intoProp_tells (hr : RecTells r) (o : Object) :
    Tells (.object o) (fun p => Reads p (.object o)) (intoProp r o) := by
  refine JE.run (JT.last JT.extractObject fun key hkey => JT.last JT.extractObject fun val hval =>
    JT.last JT.extractString fun kind hkind => ?_)
  have hk : Tells (.object o) (fun k => ReadsKey k (.object key)) (intoPropKey key) :=
    (intoPropKey_tells key).inside (.field hkey .self)
  have hi {α : Type} {Q : α → Prop} {x : Result α} (h : Tells (.object val) Q x) :
      Tells (.object o) Q x := h.inside (.field hval .self)
  refine JE.ite (fun h => ?_) fun h1 => JE.ite (fun h => ?_) fun h2 => JE.ite (fun h => ?_) fun h3 => ?_
  · subst h
    refine JT.last JT.extractBool fun m hm => ?_
    cases m with
    | true =>
      exact JT.last (JT.lift hk) fun k hk =>
        JT.last (JT.lift (hi (intoFun_tells hr (.key k) (left_self val)))) fun f hf => by
          obtain ⟨ps, b, gen, rfl, hf⟩ := hf
          exact JE.pure (.method hkind hm hkey hk hval hf)
    | false =>
      refine JT.last JT.extractBool fun s hs => ?_
      cases s with
      | true =>
        exact JT.last (JT.lift ((intoId_tells key).inside (.field hkey .self))) fun i hi =>
          JE.pure (.shorthand hkind hm hs hkey hi hval)
      | false =>
        exact JT.last (JT.lift (hi (hr.expr val))) fun e he => JT.last (JT.lift hk) fun k hk =>
          JE.pure (.init hkind hm hs hkey hk hval he)
  · subst h
    exact JT.last (JT.lift (hi (JT.run (JT.extractObject (name := c!"body"))))) fun ob hb =>
      JT.last (JT.lift (hi (Tells.inside (.field hb .self)
        (JT.run (extractScript_tells hr (name := c!"body")))))) fun b ⟨_, hb1, hb2⟩ =>
      JT.last (JT.lift hk) fun k hk => JE.pure (.get hkind hkey hk hval hb hb1 hb2)
  · subst h
    refine JT.last (JT.lift (hi (intoFunParts_tells hr (left_self val)))) fun f hf =>
      JE.ite (fun hne => ?_) fun heq => ?_
    · obtain ⟨js, h1, h2⟩ := hf.counts
      exact JE.lift ⟨rfl, hne, js, h1.trans (.field hval .self), h2⟩
    · obtain ⟨ps, rest, b, gen⟩ := f
      match ps, heq, hf with
      | [p], _, hf =>
        exact JT.last (JT.lift hk) fun k hk => JE.pure (.set hkind hkey hk hval (hf.reads (.key k)))
      | [], heq, _ => exact (heq (fun h => by injection h)).elim
      | _ :: _ :: _, heq, _ => exact (heq (fun h => by simp at h)).elim
  · exact JE.lift (.inr (.inl ⟨rfl, rfl, o, kind, .self, hkind, by simp [h1, h2, h3]⟩))

theorem extractPropList_tells (hr : RecTells r) (hn : name ∉ ns := by decide) :
    JT o ns (name :: ns) (fun es => ∃ j, o.get name = some j ∧ Reads es j)
      (extractPropList r name) :=
  JT.bind (JT.objects hn) fun os hos => JT.bind (JT.lift
    (Tells.mapList (R := fun o x => Reads x (.object o)) os fun o' ho' =>
      (intoProp_tells hr o').inside (.field hos (.element (List.mem_map_of_mem ho') .self))))
    fun _ hxs => JT.pure ⟨_, hos, reads_ofList (JT.each_map (R := fun j x => Reads x j) hxs)⟩

/-! ### Declarations -/

/-- What a declarator says. -/
def ReadsDtor (d : Ast .dtor) (j : Json) : Prop :=
  ∃ (od : Object) (i : Id) (init : Ast (.opt .expr)) (ji je : Json), j = .object od ∧
    d = .dtSimple none i init ∧ od.get c!"id" = some ji ∧ ReadsId i ji ∧
    od.get c!"init" = some je ∧ Reads init je

theorem ReadsDtor.reads {d : Ast .dtor} {j : Json} : ReadsDtor d j → Reads d j := by
  rintro ⟨od, i, init, ji, je, rfl, rfl, h1, h2, h3, h4⟩
  exact .dtor h1 h2 h3 h4

theorem intoDtor_tells (hr : RecTells r) (o : Object) :
    Tells (.object o) (fun d => ReadsDtor d (.object o)) (intoDtor r o) := by
  refine JE.run (JT.last extractPatt_tells fun p hp => JT.last (extractExprOpt_tells hr)
    fun init hi => ?_)
  obtain ⟨jp, i, hp1, hp2, rfl⟩ := hp
  obtain ⟨ji, hi1, hi2⟩ := hi
  have hl : i.location = none := by
    obtain ⟨_, _, _, _, _, rfl⟩ := hp2
    rfl
  refine JE.pure ⟨o, i, Ast.ofOption init, jp, ji, rfl, ?_, hp1, hp2, hi1, reads_ofOption hi2⟩
  rw [hl]

theorem extractDtorList_tells (hr : RecTells r) (hn : name ∉ ns := by decide) :
    JT o ns (name :: ns)
      (fun xs => ∃ js, o.get name = some (.array js) ∧ Each (fun j x => ReadsDtor x j) js xs)
      (extractDtorList r name) :=
  JT.nodes (intoDtor_tells hr) hn

theorem each_mono {α β : Type} {R S : α → β → Prop} (h : ∀ a b, R a b → S a b) :
    {xs : List α} → {ys : List β} → Each R xs ys → Each S xs ys
  | _, _, .nil => .nil
  | _, _, .cons h1 hs => .cons (h _ _ h1) (each_mono h hs)

theorem reads_dtors {js : List Json} {xs : List (Ast .dtor)}
    (h : Each (fun j x => ReadsDtor x j) js xs) : Reads (Ast.ofList xs) (.array js) :=
  reads_ofList (each_mono (fun _ _ h => h.reads) h)

theorem intoConst_tells {j : Json} : {js : List Json} → {ds : List (Ast .dtor)} →
    (∀ v ∈ js, Inside v j) → Each (fun j x => ReadsDtor x j) js ds →
    Tells j (fun cs => Each (fun j x => Reads x j) js cs) (intoConst ds)
  | _, _, _, .nil => Each.nil
  | v :: _, _ :: _, hj, .cons (b := d) h hs => by
    have h1 : Tells j (fun c => Reads c v) (intoConstDtor d) := by
      obtain ⟨od, i, init, ji, je, rfl, rfl, h1, h2, h3, h4⟩ := h
      cases init with
      | none =>
        cases h4
        exact ⟨i, od, ji, rfl, hj _ (List.mem_cons_self ..), h1, h2, h3⟩
      | some e =>
        have h5 : Reads e je := by
          cases h4
          assumption
        obtain ⟨oi, t, rfl, h6, h7, rfl⟩ := h2
        exact .constDtor h1 ⟨oi, t, rfl, h6, h7, rfl⟩ h3 h5
    exact h1.bind fun _ hc => (intoConst_tells (fun v hv => hj v (List.mem_cons_of_mem _ hv)) hs).bind
      fun _ hcs => .cons hc hcs

/-! ### Expressions -/

theorem parseOp_tells {T : Type} {fromStr : Str → Option T} {text : T → Str} {expected str : Str}
    {j : Json} (hf : ∀ t, fromStr str = some t ↔ str = text t)
    (he : (∀ t, text t ≠ str) → WrongString j expected str) :
    Tells j (fun op => ∃ t, op = ⟨none, t⟩ ∧ str = text t) (parseOp fromStr expected str) := by
  unfold parseOp
  cases h : fromStr str with
  | some t => exact ⟨t, rfl, (hf t).mp h⟩
  | none => exact he fun t ht => by rw [(hf t).mpr ht.symm] at h; cases h

theorem unop_iff (s : Str) (t : UnopTag) : UnopTag.fromStr s = some t ↔ s = unopText t := by
  rw [C18_unop_exact]
  constructor
  · intro h
    have : ∀ p ∈ unopTexts, p.1 = unopText p.2 := by decide
    exact this _ h
  · rintro rfl
    cases t <;> decide

theorem extractTarget_tells (hr : RecTells r) (hn : name ∉ ns)
    (he : ∀ je e, o.get name = some je → Reads e je → ¬IsTarget e →
      (EError.invalidLHS name).Blames (.object o)) :
    JT o ns (name :: ns) (fun t => ∃ j, o.get name = some j ∧ Reads (Patt.sourceTarget t) j)
      (extractAssignTarget r name) := by
  refine JT.bind (extractExpr_tells hr hn) fun e ⟨j, hj, hej⟩ => ?_
  cases h : Cover.intoAssignTarget e with
  | ok t =>
    refine JT.pure ⟨j, hj, ?_⟩
    rcases (C19_target e t).mp h with ⟨i, rfl, rfl⟩ | ⟨l, o, k, rfl, rfl⟩ | ⟨l, o, p, rfl, rfl⟩ <;>
      exact hej
  | error err =>
    refine JT.fail (he j e hj hej fun ⟨t, ht⟩ => ?_)
    subst ht
    cases t <;> cases h

theorem assignPatt_tells {e : Expr} {j : Json} (he : Reads e j) {v : Json} (hv : Inside j v)
    {α : Type} {f : PattTarget → α} {Q : α → Prop}
    (hq : ∀ p, Patt.Assignable (Patt.sourceExpr p) → Reads (Patt.sourceExpr p) j → Q (f p)) :
    Tells v Q (match Cover.intoAssignPatt e with
      | .ok p => .ok (f p)
      | .error _ => .err (.invalidLHS c!"left")) := by
  cases h : Cover.intoAssignPatt e with
  | ok p =>
    have hs := C19_pattern_roundtrip e p h
    exact hq p (by rw [hs]; exact (C19_pattern_exact e).mp ⟨p, h⟩) (by rw [hs]; exact he)
  | error err =>
    refine .inl ⟨rfl, j, e, hv, he, fun ha => ?_⟩
    obtain ⟨p, hp⟩ := (C19_pattern_exact e).mpr ha
    rw [hp] at h
    cases h

theorem extractAssignPatt_tells (hr : RecTells r) (hn : c!"left" ∉ ns := by decide) :
    JT o ns (c!"left" :: ns) (fun p => ∃ j, o.get c!"left" = some j ∧
      Patt.Assignable (Patt.sourceExpr p) ∧ Reads (Patt.sourceExpr p) j)
      (extractAssignPatt r c!"left") := by
  refine JT.bind (extractExpr_tells hr hn) fun e ⟨j, hj, hej⟩ => ?_
  have h := assignPatt_tells (f := fun p => p) (Q := fun p => ∃ j, o.get c!"left" = some j ∧
      Patt.Assignable (Patt.sourceExpr p) ∧ Reads (Patt.sourceExpr p) j) hej
      (.field hj .self) fun p h1 h2 => ⟨j, hj, h1, h2⟩
  revert h
  cases Cover.intoAssignPatt e with
  | ok p => exact fun h => JT.pure h
  | error err => exact fun h => JT.fail h

theorem intoExpr_tells (hr : RecTells r) (o : Object) :
    Tells (.object o) (fun e => Reads e (.object o)) (intoExpr r o) := by
  refine (tag_tells o).bind fun t ht => ?_
  cases t with
  | identifier => exact (intoId_tells o).map fun _ => .id
  | literal => exact (intoLit_tells o).mono fun _ h => h.reads ht
  | binaryExpression =>
    exact JE.run (JT.last JT.extractString fun s hs =>
      JT.last (JT.lift (parseOp_tells (C18_binop_roundtrip s) fun h => .binop ⟨o, .self, ht, hs⟩ h))
        fun op ⟨t, hop, hst⟩ =>
      JT.last (extractExpr_tells hr) fun a ⟨_, ha1, ha2⟩ =>
      JT.last (extractExpr_tells hr) fun b ⟨_, hb1, hb2⟩ => JE.pure (by
        subst hop hst
        exact .binop ht hs ha1 ha2 hb1 hb2))
  | logicalExpression =>
    exact JE.run (JT.last JT.extractString fun s hs =>
      JT.last (JT.lift (parseOp_tells (C18_logop_roundtrip s) fun h => .logop ⟨o, .self, ht, hs⟩ h))
        fun op ⟨t, hop, hst⟩ =>
      JT.last (extractExpr_tells hr) fun a ⟨_, ha1, ha2⟩ =>
      JT.last (extractExpr_tells hr) fun b ⟨_, hb1, hb2⟩ => JE.pure (by
        subst hop hst
        exact .logop ht hs ha1 ha2 hb1 hb2))
  | unaryExpression =>
    exact JE.run (JT.last JT.extractString fun s hs =>
      JT.last (JT.lift (parseOp_tells (unop_iff s) fun h => .unop ⟨o, .self, ht, hs⟩ h))
        fun op ⟨t, hop, hst⟩ =>
      JT.last (extractExpr_tells hr) fun a ⟨_, ha1, ha2⟩ => JE.pure (by
        subst hop hst
        exact .unop ht hs ha1 ha2))
  | assignmentExpression =>
    refine JE.run (JT.last JT.extractString fun s hs =>
      JT.last (extractExpr_tells hr) fun e ⟨_, he1, he2⟩ => JE.ite (fun h => ?_) fun h => ?_)
    · subst h
      exact JT.last (extractAssignPatt_tells hr) fun p ⟨_, hp1, hp2, hp3⟩ =>
        JE.pure (.assign ht hs hp1 hp2 hp3 he1 he2)
    · refine JT.last (JT.lift (parseOp_tells (C18_assop_roundtrip s)
        fun h' => .assop ⟨o, .self, ht, hs⟩ h h')) fun op ⟨t, hop, hst⟩ =>
        JT.last (extractTarget_tells hr (by decide) fun je e h1 h2 h3 => .inr (.inl ⟨rfl, o, je, e,
          .self, ht, fun h' => h ?_, h1, h2, h3⟩)) fun p ⟨_, hp1, hp2⟩ => JE.pure ?_
      · have := hs.symm.trans h'
        injection this with this
        injection this
      · subst hop hst
        exact .binAssign ht hs hp1 hp2 he1 he2
  | updateExpression =>
    refine JE.run (JT.last JT.extractString fun s hs =>
      JT.last (extractTarget_tells hr (by decide) fun je e h1 h2 h3 => .inr (.inr ⟨rfl, o, je, e,
          .self, ht, h1, h2, h3⟩)) fun t ⟨_, ht1, ht2⟩ =>
      JT.last JT.extractBool fun b hb => JE.ite (fun h => ?_) fun h => JE.ite (fun h => ?_) fun h' => ?_)
    · subst h
      cases b with
      | true => exact JE.pure (.preInc ht hs hb ht1 ht2)
      | false => exact JE.pure (.postInc ht hs hb ht1 ht2)
    · subst h
      cases b with
      | true => exact JE.pure (.preDec ht hs hb ht1 ht2)
      | false => exact JE.pure (.postDec ht hs hb ht1 ht2)
    · exact JE.lift (.update ⟨o, .self, ht, hs⟩ h h')
  | memberExpression =>
    refine JE.run (JT.last (extractExpr_tells hr) fun e ⟨_, he1, he2⟩ =>
      JT.last JT.extractBool fun b hb => ?_)
    cases b with
    | true => exact JT.last (extractExpr_tells hr) fun p ⟨_, hp1, hp2⟩ =>
                JE.pure (.brack ht he1 he2 hb hp1 hp2)
    | false =>
      refine JT.last extractId_tells fun i ⟨_, hi1, hi2⟩ => JE.pure ?_
      obtain ⟨o', s, rfl, h1, h2, rfl⟩ := hi2
      show Reads (.eDot none e ⟨none, (Name.from s).intoString⟩) _
      rw [C11_string_roundtrip]
      exact .dot ht he1 he2 hb hi1 ⟨o', s, rfl, h1, h2, rfl⟩
  | callExpression =>
    exact JE.run (JT.last (extractExpr_tells hr) fun e ⟨_, he1, he2⟩ =>
      JT.last (extractExprList_tells hr) fun as ⟨_, ha1, ha2⟩ =>
      JE.pure (.call ht he1 he2 ha1 ha2))
  | newExpression =>
    exact JE.run (JT.last (extractExpr_tells hr) fun e ⟨_, he1, he2⟩ =>
      JT.last (extractExprList_tells hr) fun as ⟨_, ha1, ha2⟩ =>
      JE.pure (.new ht he1 he2 ha1 ha2))
  | arrayExpression =>
    exact JE.run (JT.last (extractExprOptList_tells hr) fun as ⟨_, ha1, ha2⟩ =>
      JE.pure (.arr ht ha1 ha2))
  | functionExpression =>
    refine JE.run (JT.last extractIdOpt_tells fun i ⟨j, hi1, hi2⟩ => JT.last JT.self fun o' ho' =>
      JT.last (JT.lift (intoFun_tells hr _ ho')) fun f ⟨ps, b, gen, hf1, hf2⟩ => JE.pure ?_)
    subst hf1
    refine .fun ht hi1 ?_ hf2
    rcases hi2 with ⟨rfl, rfl⟩ | ⟨x, rfl, h⟩
    · exact .none
    · exact .some (.ident h)
  | sequenceExpression =>
    exact JE.run (JT.last (extractExprs_tells hr) fun as ⟨_, ha1, ha2⟩ =>
      JE.pure (.seq ht ha1 ha2))
  | objectExpression =>
    exact JE.run (JT.last (extractPropList_tells hr) fun as ⟨_, ha1, ha2⟩ =>
      JE.pure (.obj ht ha1 ha2))
  | conditionalExpression =>
    exact JE.run (JT.last (extractExpr_tells hr) fun e ⟨_, he1, he2⟩ =>
      JT.last (extractExpr_tells hr) fun a ⟨_, ha1, ha2⟩ =>
      JT.last (extractExpr_tells hr) fun b ⟨_, hb1, hb2⟩ =>
      JE.pure (.cond ht he1 he2 ha1 ha2 hb1 hb2))
  | thisExpression => exact .this ht
  | metaProperty =>
    refine JE.run (JT.last extractId_tells fun m ⟨_, hm1, hm2⟩ =>
      JT.last extractId_tells fun p ⟨_, hp1, hp2⟩ => ?_)
    obtain ⟨om, a, rfl, h1, h2, rfl⟩ := hm2
    obtain ⟨op, b, rfl, h3, h4, rfl⟩ := hp2
    have ha : (plainId a).name.intoString = a := C11_string_roundtrip a
    have hb : (plainId b).name.intoString = b := C11_string_roundtrip b
    refine JE.ite (fun h => ?_) fun h => ?_
    · rw [ha, hb] at h
      obtain ⟨rfl, rfl⟩ := h
      exact JE.pure (.newTarget ht hm1 ⟨om, _, rfl, h1, h2, rfl⟩ hp1 ⟨op, _, rfl, h3, h4, rfl⟩)
    · rw [ha, hb] at h ⊢
      exact JE.lift (.target .self ht hm1 ⟨om, _, rfl, h1, h2, rfl⟩ hp1 ⟨op, _, rfl, h3, h4, rfl⟩ h)
  | _ => exact ⟨o, exprTypes, .self, ht, by decide, by decide⟩

/-! ### Statements -/

theorem intoForHead_tells (hr : RecTells r) (o : Object) :
    Tells (.object o) (fun h => Reads h (.object o)) (intoForHead r o) := by
  refine (tag_tells o).bind fun t ht => ?_
  cases t with
  | variableDeclaration =>
    refine JE.run (JT.last (extractDtorList_tells hr) fun ds ⟨js, hd1, hd2⟩ =>
      JT.last JT.extractString fun s hs => JE.ite (fun h => ?_) fun h1 => JE.ite (fun h => ?_)
        fun h2 => JE.ite (fun h => ?_) fun h3 => ?_)
    · subst h
      exact JE.pure (.fhVar ht hs hd1 (reads_dtors hd2))
    · subst h
      exact JE.pure (.fhLet ht hs hd1 (reads_dtors hd2))
    · subst h
      exact JT.last (JT.lift (intoConst_tells (fun v hv => .field hd1 (.element hv .self)) hd2))
        fun cs hcs => JE.pure (.fhConst ht hs hd1 (reads_ofList hcs))
    · exact JE.lift (.kind ⟨o, .self, ht, hs⟩ (by simp [h1, h2, h3]))
  | _ => exact (hr.expr o).map fun _ => .fhExpr

theorem run_bind_lift {α β : Type} (x : J α) (f : α → Result β) (o : Object) :
    J.run (x >>= fun a => Estree.lift (f a)) o = (J.run x o).bind f := by
  show (Res.bind (x o) fun r => Estree.lift (f r.1) r.2).map _ = ((x o).map _).bind f
  cases x o with
  | ok r =>
    show ((f r.1).map _).map _ = f r.1
    cases f r.1 <;> rfl
  | _ => rfl

theorem run_declarator (o : Object) {β : Type} (f : PattId → Option Expr → Result β) :
    J.run (do
      let lhs ← extractPatt c!"id"
      let init ← extractExprOpt r c!"init"
      Estree.lift (f lhs init)) o =
    (J.run (do
      let lhs ← extractPatt c!"id"
      let init ← extractExprOpt r c!"init"
      pure (lhs, init)) o).bind fun p => f p.1 p.2 := by
  rw [← run_bind_lift]
  show ((Res.bind (extractPatt c!"id" o) _).map _ : Result β) =
    (Res.bind (Res.bind (extractPatt c!"id" o) _) _).map _
  cases extractPatt c!"id" o with
  | ok p =>
    show ((Res.bind (extractExprOpt r c!"init" p.2) _).map _ : Result β) =
      (Res.bind (Res.bind (extractExprOpt r c!"init" p.2) _) _).map _
    cases extractExprOpt r c!"init" p.2 <;> rfl
  | _ => rfl

theorem forIn_tells (hr : RecTells r) (o : Object) :
    Tells (.object o) (fun h => Reads h (.object o)) (intoForInHead r o) := by
  refine (tag_tells o).bind fun t ht => ?_
  cases t with
  | variableDeclaration =>
    refine JE.run (JT.last JT.extractArray fun js hd => JT.last JT.extractString fun s hs => ?_)
    have harr : js.length ≠ 1 → Tells (.object o) (fun h : Ast .forInHead => Reads h (.object o))
        (arrayError 1 js.length) :=
      fun h => ⟨rfl, h, js, .field hd .self, .inl rfl⟩
    match js, hd, harr with
    | [], _, harr => exact JE.lift (harr (by decide))
    | _ :: _ :: _, _, harr => exact JE.lift (harr (by simp))
    | [d], hd, _ =>
      have hi : Inside d (.object o) := .field hd (.element (List.mem_cons_self ..) .self)
      refine JT.last (P := fun od => d = .object od) (JT.lift ?_) fun od hod => ?_
      · cases d <;> first
          | exact rfl
          | exact .inl ⟨_, [.object], hi, rfl, by decide, by simp [Json.ty]⟩
      subst hod
      rw [run_declarator]
      refine JE.lift (((JE.run (P := fun p : PattId × Option Expr => ∃ ji i je,
        Object.get od c!"id" = some ji ∧ ReadsId i ji ∧ p.1 = .pSimple (.ident i) ∧
        Object.get od c!"init" = some je ∧
        ((p.2 = none ∧ je = .null) ∨ ∃ x, p.2 = some x ∧ Reads x je))
        (JT.last extractPatt_tells fun _ ⟨ji, i, h1, h2, h3⟩ => JT.last (extractExprOpt_tells hr)
          fun _ ⟨je, h4, h5⟩ => JE.pure ⟨ji, i, je, h1, h2, h3, h4, h5⟩)).inside hi).bind ?_)
      rintro ⟨p, init⟩ ⟨ji, i, je, h1, h2, rfl, h4, h5⟩
      rcases h5 with ⟨h5, rfl⟩ | ⟨e, h5, h6⟩
      · cases h5
        show Tells _ _ (if _ then _ else if _ then _ else if _ then _ else _)
        split
        · rename_i h
          subst h
          exact .fiVar ht hs hd h1 (.simple h2) h4
        split
        · rename_i h
          subst h
          exact .fiLet ht hs hd h1 (.simple h2) h4
        split
        · rename_i h
          subst h
          exact .fiConst ht hs hd h1 (.simple h2) h4
        rename_i ha hb hc
        exact .kind ⟨o, .self, ht, hs⟩ (by simp [ha, hb, hc])
      · cases h5
        show Tells _ _ (if _ then _ else _)
        split
        · rename_i h
          subst h
          exact .fiVarInit ht hs hd h1 h2 h4 h6
        · rename_i h
          exact ⟨o, od, s, je, .self, ht, hs, h, hd, h4, h6⟩
  | _ => exact (hr.expr o).bind fun e he => assignPatt_tells he .self fun _ => .fiPatt

theorem forOf_tells (hr : RecTells r) (o : Object) :
    Tells (.object o) (fun h => Reads h (.object o)) (intoForOfHead r o) := by
  refine (tag_tells o).bind fun t ht => ?_
  cases t with
  | variableDeclaration =>
    refine JE.run (JT.last JT.extractArray fun js hd => JT.last JT.extractString fun s hs => ?_)
    have harr : js.length ≠ 1 → Tells (.object o) (fun h : Ast .forOfHead => Reads h (.object o))
        (arrayError 1 js.length) :=
      fun h => ⟨rfl, h, js, .field hd .self, .inl rfl⟩
    match js, hd, harr with
    | [], _, harr => exact JE.lift (harr (by decide))
    | _ :: _ :: _, _, harr => exact JE.lift (harr (by simp))
    | [d], hd, _ =>
      have hi : Inside d (.object o) := .field hd (.element (List.mem_cons_self ..) .self)
      refine JT.last (P := fun od => d = .object od) (JT.lift ?_) fun od hod => ?_
      · cases d <;> first
          | exact rfl
          | exact .inl ⟨_, [.object], hi, rfl, by decide, by simp [Json.ty]⟩
      subst hod
      refine JT.last (JT.lift ((JT.run (extractPatt_tells (name := c!"id"))).inside hi))
        fun p ⟨ji, i, h1, h2, h3⟩ => ?_
      subst h3
      refine JE.ite (fun h => ?_) fun ha => JE.ite (fun h => ?_) fun hb => JE.ite (fun h => ?_)
        fun hc => ?_
      · subst h
        exact JE.pure (.foVar ht hs hd h1 (.simple h2))
      · subst h
        exact JE.pure (.foLet ht hs hd h1 (.simple h2))
      · subst h
        exact JE.pure (.foConst ht hs hd h1 (.simple h2))
      · exact JE.lift (.kind ⟨o, .self, ht, hs⟩ (by simp [ha, hb, hc]))
  | _ => exact (hr.expr o).bind fun e he => assignPatt_tells he .self fun _ => .foPatt

theorem intoCase_tells (hr : RecTells r) (o : Object) :
    Tells (.object o) (fun h => Reads h (.object o)) (intoCase r o) :=
  JE.run (JT.last (extractExprOpt_tells hr) fun _ ⟨_, he1, he2⟩ =>
    JT.last (extractStmtList_tells hr) fun _ ⟨_, hb1, hb2⟩ =>
    JE.pure (.case he1 (reads_ofOption he2) hb1 (reads_ofList hb2)))

theorem extractCaseList_tells (hr : RecTells r) (hn : name ∉ ns := by decide) :
    JT o ns (name :: ns) (fun es => ∃ j, o.get name = some j ∧ Reads es j)
      (extractCaseList r name) :=
  JT.bind (JT.objects hn) fun os hos => JT.bind (JT.lift
    (Tells.mapList (R := fun o x => Reads x (.object o)) os fun o' ho' =>
      (intoCase_tells hr o').inside (.field hos (.element (List.mem_map_of_mem ho') .self))))
    fun _ hxs => JT.pure ⟨_, hos, reads_ofList (JT.each_map (R := fun j x => Reads x j) hxs)⟩

theorem intoCatch_tells (hr : RecTells r) (o : Object) :
    Tells (.object o) (fun h => Reads h (.object o)) (intoCatch r o) :=
  JE.run (JT.last extractPatt_tells fun _ ⟨_, _, hp1, hp2, hp3⟩ =>
    JT.last (extractBlock_tells hr) fun _ ⟨_, hb1, hb2⟩ =>
    JE.pure (by subst hp3; exact .catch hp1 (.simple hp2) hb1 hb2))

theorem extractCatchOpt_tells (hr : RecTells r) (hn : name ∉ ns := by decide) :
    JT o ns (name :: ns) (fun a => ∃ j, o.get name = some j ∧
      ((a = none ∧ j = .null) ∨ ∃ x, a = some x ∧ Reads x j)) (extractCatchOpt r name) :=
  JT.nodeOpt (intoCatch_tells hr) hn

theorem extractForHeadOpt_tells (hr : RecTells r) (hn : name ∉ ns := by decide) :
    JT o ns (name :: ns) (fun a => ∃ j, o.get name = some j ∧
      ((a = none ∧ j = .null) ∨ ∃ x, a = some x ∧ Reads x j)) (extractForHeadOpt r name) :=
  JT.nodeOpt (intoForHead_tells hr) hn

theorem intoItem_tells (hr : RecTells r) (o : Object) (decl : Bool) :
    Tells (.object o) (fun i => Reads i (.object o) ∧ (decl = false → ∃ s, i = .siStmt s))
      (intoItem r o decl) := by
  refine (tag_tells o).bind fun t ht => ?_
  have stmt {x : J Stmt} (hx : JE o [] (fun s => Reads s (.object o)) x) : Tells (.object o)
      (fun i => Reads i (.object o) ∧ (decl = false → ∃ s, i = .siStmt s))
      ((J.run x o).map .siStmt) :=
    (JE.run hx).map fun s hs => ⟨.item hs, fun _ => ⟨s, rfl⟩⟩
  have bad : ∀ t : Tag, Typed o t.debug → t.debug ∉ stmtTypes → t.debug ≠ c!"FunctionDeclaration" →
      Tells (.object o) (fun i => Reads i (.object o) ∧ (decl = false → ∃ s, i = .siStmt s))
      (nodeTypeError (if decl then c!"statement or declaration" else c!"statement") t) := by
    intro t ht h1 h2
    cases decl with
    | true => exact ⟨o, c!"FunctionDeclaration" :: stmtTypes, .self, ht, by decide, by
        simp only [List.mem_cons]
        rintro (h | h)
        · exact h2 h
        · exact h1 h⟩
    | false => exact ⟨o, stmtTypes, .self, ht, by decide, h1⟩
  cases t with
  | functionDeclaration =>
    cases decl with
    | false => exact ⟨o, stmtTypes, .self, ht, by decide, by decide⟩
    | true =>
      refine JE.run (JT.last extractId_tells fun i ⟨j, hi1, hi2⟩ => JT.last JT.self fun o' ho' =>
        JT.last (JT.lift (intoFun_tells hr _ ho')) fun f ⟨ps, b, gen, hf1, hf2⟩ => JE.pure ⟨?_, ?_⟩)
      · subst hf1
        exact .declFun ht hi1 hi2 hf2
      · exact fun h => nomatch h
  | variableDeclaration =>
    refine JE.run (JT.last (extractDtorList_tells hr) fun ds ⟨js, hd1, hd2⟩ =>
      JT.last JT.extractString fun s hs => JE.ite (fun h => ?_) fun h1 => JE.ite (fun h => ?_)
        fun h2 => JE.ite (fun h => ?_) fun h3 => ?_)
    · subst h
      exact JE.pure ⟨.item (.sVar ht hs hd1 (reads_dtors hd2)), fun _ => ⟨_, rfl⟩⟩
    · subst h
      cases decl with
      | false => exact JE.lift (.var ⟨o, .self, ht, hs⟩ (by decide))
      | true => exact JE.pure ⟨.declLet ht hs hd1 (reads_dtors hd2), fun h => nomatch h⟩
    · subst h
      cases decl with
      | false => exact JE.lift (.var ⟨o, .self, ht, hs⟩ (by decide))
      | true =>
        exact JT.last (JT.lift (intoConst_tells (fun v hv => .field hd1 (.element hv .self)) hd2))
          fun cs hcs => JE.pure ⟨.declConst ht hs hd1 (reads_ofList hcs), fun h => nomatch h⟩
    · exact JE.lift (.kind ⟨o, .self, ht, hs⟩ (by simp [h1, h2, h3]))
  | emptyStatement => exact ⟨.item (.sEmpty ht), fun _ => ⟨_, rfl⟩⟩
  | expressionStatement =>
    exact stmt (JT.last (extractExpr_tells hr) fun _ ⟨_, h1, h2⟩ => JE.pure (.sExpr ht h1 h2))
  | ifStatement =>
    exact stmt (JT.last (extractExpr_tells hr) fun _ ⟨_, h1, h2⟩ =>
      JT.last (extractStmt_tells hr) fun _ ⟨_, h3, h4⟩ =>
      JT.last (extractStmtOpt_tells hr) fun _ ⟨_, h5, h6⟩ =>
      JE.pure (.sIf ht h1 h2 h3 h4 h5 (reads_ofOption h6)))
  | doWhileStatement =>
    exact stmt (JT.last (extractStmt_tells hr) fun _ ⟨_, h1, h2⟩ =>
      JT.last (extractExpr_tells hr) fun _ ⟨_, h3, h4⟩ => JE.pure (.sDoWhile ht h1 h2 h3 h4))
  | whileStatement =>
    exact stmt (JT.last (extractExpr_tells hr) fun _ ⟨_, h1, h2⟩ =>
      JT.last (extractStmt_tells hr) fun _ ⟨_, h3, h4⟩ => JE.pure (.sWhile ht h1 h2 h3 h4))
  | forStatement =>
    exact stmt (JT.last (extractForHeadOpt_tells hr) fun _ ⟨_, h1, h2⟩ =>
      JT.last (extractExprOpt_tells hr) fun _ ⟨_, h3, h4⟩ =>
      JT.last (extractExprOpt_tells hr) fun _ ⟨_, h5, h6⟩ =>
      JT.last (extractStmt_tells hr) fun _ ⟨_, h7, h8⟩ =>
      JE.pure (.sFor ht h1 (reads_ofOption h2) h3 (reads_ofOption h4) h5 (reads_ofOption h6) h7 h8))
  | forInStatement =>
    exact stmt (JT.last JT.extractObject fun oh ho =>
      JT.last (JT.lift ((forIn_tells hr oh).inside (.field ho .self))) fun _ hh =>
      JT.last (extractExpr_tells hr) fun _ ⟨_, h1, h2⟩ =>
      JT.last (extractStmt_tells hr) fun _ ⟨_, h3, h4⟩ => JE.pure (.sForIn ht ho hh h1 h2 h3 h4))
  | forOfStatement =>
    exact stmt (JT.last JT.extractObject fun oh ho =>
      JT.last (JT.lift ((forOf_tells hr oh).inside (.field ho .self))) fun _ hh =>
      JT.last (extractExpr_tells hr) fun _ ⟨_, h1, h2⟩ =>
      JT.last (extractStmt_tells hr) fun _ ⟨_, h3, h4⟩ => JE.pure (.sForOf ht ho hh h1 h2 h3 h4))
  | blockStatement =>
    exact (intoBlock_tells hr o).map fun _ h => ⟨.item (.sBlock h), fun _ => ⟨_, rfl⟩⟩
  | returnStatement =>
    exact stmt (JT.last (extractExprOpt_tells hr) fun _ ⟨_, h1, h2⟩ =>
      JE.pure (.sReturn ht h1 (reads_ofOption h2)))
  | labeledStatement =>
    exact stmt (JT.last extractId_tells fun _ ⟨_, h1, h2⟩ =>
      JT.last (extractStmt_tells hr) fun _ ⟨_, h3, h4⟩ => JE.pure (.sLabel ht h1 h2 h3 h4))
  | breakStatement =>
    refine stmt (JT.last extractIdOpt_tells fun _ ⟨_, h1, h2⟩ => JE.pure ?_)
    rcases h2 with ⟨rfl, rfl⟩ | ⟨x, rfl, h⟩
    · exact .sBreak ht h1
    · exact .sBreakLabel ht h1 h
  | continueStatement =>
    refine stmt (JT.last extractIdOpt_tells fun _ ⟨_, h1, h2⟩ => JE.pure ?_)
    rcases h2 with ⟨rfl, rfl⟩ | ⟨x, rfl, h⟩
    · exact .sCont ht h1
    · exact .sContLabel ht h1 h
  | switchStatement =>
    exact stmt (JT.last (extractExpr_tells hr) fun _ ⟨_, h1, h2⟩ =>
      JT.last (extractCaseList_tells hr) fun _ ⟨_, h3, h4⟩ => JE.pure (.sSwitch ht h1 h2 h3 h4))
  | withStatement =>
    exact stmt (JT.last (extractExpr_tells hr) fun _ ⟨_, h1, h2⟩ =>
      JT.last (extractStmt_tells hr) fun _ ⟨_, h3, h4⟩ => JE.pure (.sWith ht h1 h2 h3 h4))
  | throwStatement =>
    exact stmt (JT.last (extractExpr_tells hr) fun _ ⟨_, h1, h2⟩ => JE.pure (.sThrow ht h1 h2))
  | debuggerStatement => exact ⟨.item (.sDebugger ht), fun _ => ⟨_, rfl⟩⟩
  | tryStatement =>
    exact stmt (JT.last (extractBlock_tells hr) fun _ ⟨_, h1, h2⟩ =>
      JT.last (extractCatchOpt_tells hr) fun _ ⟨_, h3, h4⟩ =>
      JT.last (extractBlockOpt_tells hr) fun _ ⟨_, h5, h6⟩ =>
      JE.pure (.sTry ht h1 h2 h3 (reads_ofOption h4) h5 (reads_ofOption h6)))
  | _ => exact bad _ ht (by decide) (by decide)

theorem recOf_tells : (n : Nat) → RecTells (recOf n)
  | 0 => ⟨fun _ => trivial, fun _ _ => trivial⟩
  | n + 1 => ⟨intoExpr_tells (recOf_tells n), intoItem_tells (recOf_tells n)⟩

/-- The result reads the object, and an error is true of it. -/
theorem intoScript_tells (o : Object) :
    Tells (.object o) (fun x => ReadsScript x o) (intoScript o) :=
  JT.run (extractScript_tells (recOf_tells _))

end

end Estree

end Esprit
