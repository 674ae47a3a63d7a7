import Verif.Proofs.Estree
import Verif.Spec.Estree
import Verif.Props.Words

/-! The ESTree conversion reads back what encodes a syntax tree. -/

namespace Esprit

namespace Estree

/-- The outcome is a value that satisfies `Q`. -/
def Gives {α : Type} (Q : α → Prop) : Result α → Prop
  | .ok a => Q a
  | .err _ => False
  | .panic _ => False
  | .fuel => False

theorem Gives.bind {α β : Type} {P : α → Prop} {Q : β → Prop} {f : α → Result β} :
    {x : Result α} → Gives P x → (∀ a, P a → Gives Q (f a)) → Gives Q (x.bind f)
  | .ok a, hx, hf => hf a hx
  | .err _, hx, _ => hx
  | .panic _, hx, _ => hx
  | .fuel, hx, _ => hx

theorem Gives.map {α β : Type} {P : α → Prop} {Q : β → Prop} {f : α → β} :
    {x : Result α} → Gives P x → (∀ a, P a → Q (f a)) → Gives Q (x.map f)
  | .ok a, hx, hf => hf a hx
  | .err _, hx, _ => hx
  | .panic _, hx, _ => hx
  | .fuel, hx, _ => hx

theorem Gives.mono {α : Type} {P Q : α → Prop} (h : ∀ a, P a → Q a) :
    {x : Result α} → Gives P x → Gives Q x
  | .ok a, hx => h a hx
  | .err _, hx => hx
  | .panic _, hx => hx
  | .fuel, hx => hx

/-- What is left of an object when the fields `ns` have been taken out of it. -/
structure Left (o : Object) (ns : List Str) (o' : Object) : Prop where
  get : ∀ m, m ∉ ns → o'.get m = o.get m
  depth : depthFields o' ≤ depthFields o

/-- A computation on what is left of `o` without `ns`, which leaves `o` without `ms`. -/
def JG {α : Type} (o : Object) (ns ms : List Str) (Q : α → Prop) (x : J α) : Prop :=
  ∀ o', Left o ns o' → Gives (fun r => Q r.1 ∧ Left o ms r.2) (x o')

namespace JG

variable {α β : Type} {o : Object} {ns ms ks : List Str} {P : α → Prop} {Q : β → Prop}

theorem pure {a : α} (h : P a) : JG o ns ns P (Pure.pure a) := fun _ ho => ⟨h, ho⟩

theorem bind {x : J α} {f : α → J β} (hx : JG o ns ms P x)
    (hf : ∀ a, P a → JG o ms ks Q (f a)) : JG o ns ks Q (x >>= f) :=
  fun o' ho => (hx o' ho).bind fun r hr => hf r.1 hr.1 r.2 hr.2

theorem lift {x : Result α} (h : Gives P x) : JG o ns ns P (Estree.lift x) :=
  fun _ ho => h.map fun _ ha => ⟨ha, ho⟩

theorem run {x : J α} (h : JG o [] ms P x) : Gives P (x.run o) :=
  (h o ⟨fun _ _ => rfl, Nat.le_refl _⟩).map fun _ hr => hr.1

theorem self : JG o ns ns (Left o ns) (fun o => .ok (o, o) : J Object) := fun _ ho => ⟨ho, ho⟩

theorem mono {P' : α → Prop} {x : J α} (hx : JG o ns ms P x) (h : ∀ a, P a → P' a) :
    JG o ns ms P' x := fun o' ho => (hx o' ho).mono fun _ hr => ⟨h _ hr.1, hr.2⟩

theorem extractWith {f : Json → JsonResult α} {name : Str} {v : Json} {a : α}
    (hv : o.get name = some v) (hf : f v = .ok a) (hn : name ∉ ns) :
    JG o ns (name :: ns) (· = a) (extract (Object.extractWith f name)) := by
  intro (o' : Object) ho
  have hg : o'.get name = some v := by rw [ho.get name hn]; exact hv
  have : extract (Object.extractWith f name) o' = .ok (a, o'.without name) := by
    unfold extract Object.extractWith Object.extractField Object.remove
    rw [hg]
    show (ofJson (f v)).map (fun a => (a, o'.without name)) = _
    rw [hf]; rfl
  rw [this]
  refine ⟨rfl, fun m hm => ?_, Nat.le_trans (depth_without o' name) ho.depth⟩
  show (o'.without name).get m = _
  have hne : ¬m = name := fun h => hm (by rw [h]; exact List.mem_cons_self ..)
  rw [Object.get_without, if_neg hne, ho.get m fun h => hm (List.mem_cons_of_mem _ h)]

theorem extractString {name s : Str} (hv : o.get name = some (.string s))
    (hn : name ∉ ns := by decide) :
    JG o ns (name :: ns) (· = s) (extract (Object.extractString name)) := extractWith hv rfl hn

theorem extractBool {name : Str} {b : Bool} (hv : o.get name = some (.bool b))
    (hn : name ∉ ns := by decide) :
    JG o ns (name :: ns) (· = b) (extract (Object.extractBool name)) := extractWith hv rfl hn

theorem extractBoolOpt {name : Str} {b : Bool} (hv : o.get name = some (.bool b))
    (hn : name ∉ ns := by decide) :
    JG o ns (name :: ns) (· = some b) (extract (Object.extractBoolOpt name)) :=
  extractWith hv rfl hn

theorem extractObject {name : Str} {o' : Object} (hv : o.get name = some (.object o'))
    (hn : name ∉ ns := by decide) :
    JG o ns (name :: ns) (· = o') (extract (Object.extractObject name)) := extractWith hv rfl hn

theorem extractArray {name : Str} {js : List Json} (hv : o.get name = some (.array js))
    (hn : name ∉ ns := by decide) :
    JG o ns (name :: ns) (· = js) (extract (Object.extractArray name)) := extractWith hv rfl hn

theorem extractNull {name : Str} (hv : o.get name = some .null) (hn : name ∉ ns := by decide) :
    JG o ns (name :: ns) (· = none) (extract (Object.extractObjectOpt name)) := extractWith hv rfl hn

theorem extractObjectOpt {name : Str} {o' : Object} (hv : o.get name = some (.object o'))
    (hn : name ∉ ns := by decide) :
    JG o ns (name :: ns) (· = some o') (extract (Object.extractObjectOpt name)) :=
  extractWith hv rfl hn

theorem extractField {name : Str} {v : Json} (hv : o.get name = some v)
    (hn : name ∉ ns := by decide) :
    JG o ns (name :: ns) (· = v) (extract (Object.extractField name)) := by
  have h : (extract (Object.extractField name)) =
      extract (Object.extractWith (fun v => .ok v) name) := by
    funext o
    unfold extract Object.extractWith
    cases h : Object.extractField name o with
    | mk a b => cases a <;> rfl
  rw [h]
  exact extractWith hv rfl hn

end JG

/-! ### Depth of parts -/

theorem depth_field {o o' : Object} {name : Str} (h : o.get name = some (.object o')) :
    depthFields o' < depthFields o := by
  have := depth_get o name _ h
  simp only [depth] at this
  omega

theorem depth_elem {o : Object} {name : Str} {js : List Json} (h : o.get name = some (.array js)) :
    depthList js < depthFields o := by
  have := depth_get o name _ h
  simp only [depth] at this
  omega

/-! ### Plain trees -/

theorem Plain.node {c : Cat} {x : Ast c} (h : Plain x) : plainNode x = true := h _ .here

theorem Plain.kid {c d : Cat} {x : Ast c} {y : Ast d} (h : Plain x)
    (hy : (⟨d, y⟩ : Node) ∈ (x.kids .top).map (·.2)) : Plain y :=
  fun z hz => h z (.under hy hz)

theorem Plain.mk {c : Cat} {x : Ast c} (h : plainNode x = true)
    (hk : ∀ y ∈ (x.kids .top).map (·.2), Plain y.2) : Plain x := fun z hz => by
  cases hz with
  | here => exact h
  | under hy hz => exact hk _ hy z hz

/-- Check of `Plain` to a given depth. -/
def checkPlain : Nat → Node → Bool
  | 0, _ => false
  | n + 1, x => plainNode x.2 && ((x.2.kids .top).map (·.2)).all (checkPlain n)

theorem plain_of_check : (n : Nat) → {c : Cat} → {x : Ast c} → checkPlain n ⟨c, x⟩ = true → Plain x
  | n + 1, _, _, h => by
    simp only [checkPlain, Bool.and_eq_true, List.all_eq_true] at h
    exact Plain.mk h.1 fun y hy => plain_of_check n (h.2 y hy)

theorem Plain.simple {c : Cat} {p : Ast (.patt c)} (h : Plain p) : ∃ t, p = .pSimple t := by
  cases p with
  | pSimple t => exact ⟨t, rfl⟩
  | pCompound p =>
    have : Plain p := h.kid (List.mem_cons_self ..)
    cases p <;> cases this.node

theorem Plain.fst {c d : Cat} {x : Ast c} {y : Ast d} {ys : List Node} (h : Plain x)
    (hy : (x.kids .top).map (·.2) = ⟨d, y⟩ :: ys) : Plain y :=
  h.kid (hy ▸ List.mem_cons_self ..)

theorem Plain.snd {c d : Cat} {x : Ast c} {y : Ast d} {z : Node} {ys : List Node} (h : Plain x)
    (hy : (x.kids .top).map (·.2) = z :: ⟨d, y⟩ :: ys) : Plain y :=
  h.kid (hy ▸ List.mem_cons_of_mem _ (List.mem_cons_self ..))

theorem Plain.thd {c d : Cat} {x : Ast c} {y : Ast d} {z z' : Node} {ys : List Node} (h : Plain x)
    (hy : (x.kids .top).map (·.2) = z :: z' :: ⟨d, y⟩ :: ys) : Plain y :=
  h.kid (hy ▸ List.mem_cons_of_mem _ (List.mem_cons_of_mem _ (List.mem_cons_self ..)))

theorem Plain.fth {c d : Cat} {x : Ast c} {y : Ast d} {z z' z'' : Node} {ys : List Node}
    (h : Plain x) (hy : (x.kids .top).map (·.2) = z :: z' :: z'' :: ⟨d, y⟩ :: ys) : Plain y :=
  h.kid (hy ▸ List.mem_cons_of_mem _ (List.mem_cons_of_mem _ (List.mem_cons_of_mem _
    (List.mem_cons_self ..))))

/-- The tree `y` is the untracked `x`, up to equality. -/
abbrev Same {c : Cat} (x y : Ast c) : Prop := Ast.Agree y x.untrack

/-! ### Lists -/

/-- The elements correspond. -/
inductive All2 {α β : Type} (R : α → β → Prop) : List α → List β → Prop where
  | nil : All2 R [] []
  | cons {a : α} {b : β} {as : List α} {bs : List β} : R a b → All2 R as bs →
      All2 R (a :: as) (b :: bs)

theorem All2.same {c : Cat} : (xs : Ast (.list c)) → {ys : List (Ast c)} → All2 Same xs.toList ys →
    Same xs (Ast.ofList ys)
  | .nil, _, h => by cases h; exact .nil
  | .cons x xs, _, h => by
    cases h with
    | cons h1 h2 => exact .cons h1 (All2.same xs h2)

theorem mapList_gives {c : Cat} {α : Type} {R : Ast c → α → Prop} {f : Json → Result α} {n : Nat}
    (hf : ∀ x j, depth j < n → Encodes x j → Plain x → Gives (R x) (f j)) :
    (xs : Ast (.list c)) → (js : List Json) → Encodes xs (.array js) → Plain xs → depthList js < n →
      Gives (All2 R xs.toList) (mapList f js)
  | .nil, js, h, _, _ => by
    replace h : Json.array js = .array [] := h
    cases h; exact .nil
  | .cons x xs, js, h, hp, hd => by
    obtain ⟨jh, jt, h, h1, h2⟩ := h
    cases h
    simp only [depthList] at hd
    exact (hf x jh (by omega) h1 (hp.fst rfl)).bind fun a ha =>
      (mapList_gives hf xs jt h2 (hp.snd rfl) (by omega)).bind fun as has => .cons ha has

theorem objects_gives {c : Cat} (hobj : ∀ (x : Ast c) j, Encodes x j → ∃ o, j = .object o) :
    (xs : Ast (.list c)) → (js : List Json) → Encodes xs (.array js) →
      Gives (fun os => js = os.map .object) (mapList (fun v => ofJson v.intoObject) js)
  | .nil, js, h => by
    replace h : Json.array js = .array [] := h
    cases h; exact rfl
  | .cons x xs, js, h => by
    obtain ⟨jh, jt, h, h1, h2⟩ := h
    cases h
    obtain ⟨o, rfl⟩ := hobj x jh h1
    exact Gives.bind (P := (· = o)) rfl fun a ha => (objects_gives hobj xs jt h2).bind
      fun os hos => by rw [ha, hos]; exact rfl

/-- A function on objects, on JSON values. -/
def onObject {α : Type} (f : Object → Result α) : Json → Result α
  | .object o => f o
  | _ => .fuel

theorem mapList_onObject {α : Type} (f : Object → Result α) : (os : List Object) →
    mapList (onObject f) (os.map .object) = mapList f os
  | [] => rfl
  | o :: os => by
    show (f o).bind (fun b => (mapList (onObject f) (os.map .object)).bind fun bs => .ok (b :: bs)) = _
    rw [mapList_onObject f os]; rfl

/-- Objects in an array: both passes of the conversion. -/
theorem list_gives {c : Cat} {α : Type} {R : Ast c → α → Prop} {f : Object → Result α} {n : Nat}
    {o : Object} {name : Str} {ns : List Str}
    (hobj : ∀ (x : Ast c) j, Encodes x j → ∃ o, j = .object o)
    (hf : ∀ x o, depthFields o < n → Encodes x (.object o) → Plain x → Gives (R x) (f o))
    {xs : Ast (.list c)} (hx : Field o name (Encodes xs)) (hp : Plain xs) (ho : depthFields o ≤ n)
    (hn : name ∉ ns := by decide) :
    JG o ns (name :: ns) (fun os => Gives (All2 R xs.toList) (mapList f os)) (extractObjects name) := by
  obtain ⟨j, hj, hx⟩ := hx
  have : ∃ js, j = .array js := by
    cases xs with
    | nil => exact ⟨_, hx⟩
    | cons h t => obtain ⟨_, _, h, _⟩ := hx; exact ⟨_, h⟩
  obtain ⟨js, rfl⟩ := this
  refine (JG.extractArray hj hn).bind fun a ha => ?_
  subst ha
  refine (JG.lift (objects_gives hobj xs a hx)).mono fun os hos => ?_
  rw [← mapList_onObject, ← hos]
  refine mapList_gives (n := n) (fun x j hj hx hp => ?_) xs a hx hp
    (Nat.lt_of_lt_of_le (depth_elem hj) ho)
  obtain ⟨o, rfl⟩ := hobj x j hx
  simp only [depth] at hj
  exact hf x o (by omega) hx hp

theorem listAst_gives {c : Cat} {f : Object → Result (Ast c)} {n : Nat}
    {o : Object} {name : Str} {ns : List Str}
    (hobj : ∀ (x : Ast c) j, Encodes x j → ∃ o, j = .object o)
    (hf : ∀ x o, depthFields o < n → Encodes x (.object o) → Plain x → Gives (Same x) (f o))
    {xs : Ast (.list c)} (hx : Field o name (Encodes xs)) (hp : Plain xs) (ho : depthFields o ≤ n)
    (hn : name ∉ ns := by decide) :
    JG o ns (name :: ns) (Same xs) (do
      let objs ← extractObjects name
      return Ast.ofList (← lift (mapList f objs))) :=
  (list_gives hobj hf hx hp ho hn).bind fun _ hos => (JG.lift hos).bind fun _ hys =>
    JG.pure (hys.same xs)

/-! ### Nodes are objects -/

theorem NodeOf.obj {t : Str} {j : Json} {P : Object → Prop} (h : NodeOf t j P) :
    ∃ o, j = .object o := by
  obtain ⟨o, rfl, _⟩ := h; exact ⟨o, rfl⟩

theorem EncId.obj {i : Id} {j : Json} (h : EncId i j) : ∃ o, j = .object o := NodeOf.obj h.1

theorem expr_obj (x : Expr) (j : Json) (h : Encodes x j) : ∃ o, j = .object o := by
  cases x with
  | eId i => exact EncId.obj h
  | _ => exact NodeOf.obj h

theorem item_obj (x : Ast .item) (j : Json) (h : Encodes x j) : ∃ o, j = .object o := by
  cases x with
  | iExpr e => exact expr_obj e j h
  | iSpread l e => exact NodeOf.obj h

theorem stmt_obj (x : Stmt) (j : Json) (h : Encodes x j) : ∃ o, j = .object o := by
  cases x with
  | sBlock b => cases b with | block l items => exact NodeOf.obj h
  | _ => exact NodeOf.obj h

theorem sitem_obj (x : StmtListItem) (j : Json) (h : Encodes x j) : ∃ o, j = .object o := by
  cases x with
  | siStmt s => exact stmt_obj s j h
  | siDecl d => cases d <;> exact NodeOf.obj h

theorem prop_obj (x : Ast .prop) (j : Json) (h : Encodes x j) : ∃ o, j = .object o := by
  cases x <;> exact NodeOf.obj h

theorem dtor_obj (x : Ast .dtor) (j : Json) (h : Encodes x j) : ∃ o, j = .object o := by
  cases x <;> exact NodeOf.obj h

theorem constDtor_obj (x : Ast .constDtor) (j : Json) (h : Encodes x j) : ∃ o, j = .object o := by
  cases x; exact NodeOf.obj h

theorem case_obj (x : Ast .case) (j : Json) (h : Encodes x j) : ∃ o, j = .object o := by
  cases x; exact NodeOf.obj h

theorem catch_obj (x : Ast .«catch») (j : Json) (h : Encodes x j) : ∃ o, j = .object o := by
  cases x; exact NodeOf.obj h

theorem block_obj (x : Ast .block) (j : Json) (h : Encodes x j) : ∃ o, j = .object o := by
  cases x; exact NodeOf.obj h

theorem patt_obj (x : PattId) (j : Json) (h : Encodes x j) : ∃ o, j = .object o := by
  cases x with
  | pSimple t => cases t; exact EncId.obj h
  | pCompound p => cases p <;> exact NodeOf.obj h

theorem pattTarget_obj (x : PattTarget) (j : Json) (h : Encodes x j) : ∃ o, j = .object o := by
  cases x with
  | pSimple t => cases t <;> first | exact NodeOf.obj h | exact EncId.obj h
  | pCompound p => cases p <;> exact NodeOf.obj h

theorem forHead_obj (x : Ast .forHead) (j : Json) (h : Encodes x j) : ∃ o, j = .object o := by
  cases x with
  | fhExpr l e => exact expr_obj e j h
  | _ => exact NodeOf.obj h

theorem forInHead_obj (x : Ast .forInHead) (j : Json) (h : Encodes x j) : ∃ o, j = .object o := by
  cases x with
  | fiPatt p => exact pattTarget_obj p j h
  | _ => exact NodeOf.obj h

theorem forOfHead_obj (x : Ast .forOfHead) (j : Json) (h : Encodes x j) : ∃ o, j = .object o := by
  cases x with
  | foPatt p => exact pattTarget_obj p j h
  | _ => exact NodeOf.obj h

/-! ### Tags, names and literals -/

theorem tag_of {o : Object} {s : Str} {t : Tag} (h : o.get c!"type" = some (.string s))
    (ht : Tag.fromStr s = some t) : tag o = .ok t := by
  unfold tag Object.getString Object.getField
  rw [h]
  show (match Tag.fromStr s with
    | some t => Res.ok t
    | none => .err (EError.invalidTypeTag s)) = _
  rw [ht]

theorem intoId_name {s : Str} {o : Object} (h : EncName s (.object o)) :
    intoId o = .ok ⟨none, .from s⟩ := by
  obtain ⟨o', ho, ht, hn⟩ := h
  cases ho
  unfold intoId
  rw [tag_of ht rfl]
  show (ofJson (Object.extractString c!"name" o).1).bind _ = _
  unfold Object.extractString Object.extractWith Object.extractField Object.remove
  rw [hn]; rfl

theorem intoId_gives {i : Id} {o : Object} (h : EncId i (.object o)) : intoId o = .ok i.untrack := by
  rw [intoId_name h.1, ← h.2]; rfl

theorem intoPatt_gives {x : PattId} {o : Object} (h : Encodes x (.object o)) (hp : Plain x) :
    Gives (Same x) (intoPatt o) := by
  obtain ⟨t, rfl⟩ := hp.simple
  cases t with
  | ident i =>
    unfold intoPatt
    rw [intoId_gives h]
    exact .pSimple .ident

theorem perm_refl (s : Str) : List.Perm s s := List.Perm.refl s

theorem intoLit_value {o : Object} {P : Json → Prop} (h : EncLiteral (.object o) P) :
    ∃ o' v, P v ∧ o.get c!"value" = some v ∧ o' = o.without c!"value" ∧
      o'.containsKey c!"regex" = false := by
  obtain ⟨o1, ho, _, ⟨v, hv, hP⟩, hr⟩ := h
  cases ho
  refine ⟨_, v, hP, hv, rfl, ?_⟩
  unfold Object.containsKey
  rw [Object.get_without, if_neg (by decide), hr]; rfl

theorem intoLit_eq {o : Object} {v : Json} (h : o.get c!"value" = some v) :
    intoLit o = ((match v with
      | .null => if !(o.without c!"value").containsKey c!"regex" then Pure.pure (.eNull none)
          else intoRegExp
      | .bool true => Pure.pure (.eTrue none)
      | .bool false => Pure.pure (.eFalse none)
      | .string value => Pure.pure (.eString none (stringLiteral value))
      | .i64 v => Pure.pure (.eNumber none (i64Literal v))
      | .u64 v => Pure.pure (.eNumber none (u64Literal v))
      | .f64 v => Pure.pure (.eNumber none (f64Literal v))
      | .object _ => intoRegExp
      | .array _ => lift (typeError c!"null, number, boolean, string, or object" v.ty) : J Expr)).run
      (o.without c!"value") := by
  have : extract (Object.extractField c!"value") o = .ok (v, o.without c!"value") := by
    unfold extract Object.extractField Object.remove
    rw [h]; rfl
  unfold intoLit J.run
  show ((extract (Object.extractField c!"value") o).bind _).map _ = _
  rw [this]
  cases v with
  | bool b => cases b <;> rfl
  | _ => rfl

theorem intoLit_null {o : Object} (h : EncLiteral (.object o) fun v => v = .null) :
    intoLit o = .ok (.eNull none) := by
  obtain ⟨o', v, rfl, hv, rfl, hk⟩ := intoLit_value h
  rw [intoLit_eq hv]
  dsimp only
  rw [hk]; rfl

theorem intoLit_bool {o : Object} {b : Bool} (h : EncLiteral (.object o) fun v => v = .bool b) :
    intoLit o = .ok (if b then .eTrue none else .eFalse none) := by
  obtain ⟨o', v, rfl, hv, rfl, hk⟩ := intoLit_value h
  rw [intoLit_eq hv]
  cases b <;> rfl

theorem intoLit_string {o : Object} {s : Str} (h : EncLiteral (.object o) fun v => v = .string s) :
    intoLit o = .ok (.eString none ⟨none, s⟩) := by
  obtain ⟨o', v, rfl, hv, rfl, hk⟩ := intoLit_value h
  rw [intoLit_eq hv]; rfl

theorem intoLit_number {o : Object} {x : F64} (h : EncLiteral (.object o) (EncNumber x)) :
    ∃ n, SameNumber n.value x ∧ intoLit o = .ok (.eNumber none n) := by
  obtain ⟨o', v, hn, hv, rfl, hk⟩ := intoLit_value h
  rw [intoLit_eq hv]
  cases v with
  | i64 i => exact ⟨i64Literal i, hn, rfl⟩
  | u64 i => exact ⟨u64Literal i, hn, rfl⟩
  | f64 i => exact ⟨f64Literal i, hn, rfl⟩
  | _ => exact hn.elim

theorem intoLit_regExp {o : Object} {l : Loc} {r : RegExpLiteral}
    (h : Encodes (.eRegExp l r) (.object o)) : intoLit o = .ok (.eRegExp none r) := by
  obtain ⟨o1, ho, _, ⟨v, hv, hP⟩, g, hg, ro, rfl, h1, h2⟩ := h
  cases ho
  have hg' : (o.without c!"value").get c!"regex" = some (.object ro) := by
    rw [Object.get_without, if_neg (by decide), hg]
  have hx : intoRegExp.run (o.without c!"value") = .ok (.eRegExp none r) := by
    have : Gives (· = .eRegExp none r) (intoRegExp.run (o.without c!"value")) := by
      refine JG.run (ms := [c!"regex"]) ?_
      refine (JG.extractObject hg').bind fun _ h => JG.lift ?_
      subst h
      refine JG.run (ms := [c!"flags", c!"pattern"]) ?_
      exact (JG.extractString h1).bind fun _ h1 => (JG.extractString h2).bind fun _ h2 => by
        rw [h1, h2]; exact JG.pure rfl
    revert this
    cases intoRegExp.run (o.without c!"value") <;> intro h
    · rw [h]
    all_goals exact h.elim
  rw [intoLit_eq hv]
  rcases hP with rfl | ⟨fields, rfl⟩
  · have : (o.without c!"value").containsKey c!"regex" = true := by
      unfold Object.containsKey; rw [hg']; rfl
    dsimp only
    rw [this]
    exact hx
  · exact hx

theorem intoPropKey_gives {k : PropKey} {o : Object} (h : EncKey k (.object o)) :
    Gives (fun k' : PropKey => k'.Agree k.untrack) (intoPropKey o) := by
  cases k with
  | id l s =>
    obtain ⟨o', ho, ht, _⟩ := id h
    cases ho
    unfold intoPropKey
    rw [tag_of ht rfl]
    show Gives _ ((intoId o).bind fun i => .ok (PropKey.id none i.name.intoString))
    rw [intoId_name h]
    show PropKey.Agree (.id none (Name.from s).intoString) (.id none s)
    rw [C11_string_roundtrip]
    exact .id
  | string l s =>
    obtain ⟨o', ho, ht, _⟩ := id h
    cases ho
    unfold intoPropKey
    rw [tag_of ht rfl]
    show Gives _ ((intoLit o).bind _)
    rw [intoLit_string h]
    exact .string rfl
  | number l x =>
    obtain ⟨o', ho, ht, _⟩ := id h
    cases ho
    unfold intoPropKey
    rw [tag_of ht rfl]
    show Gives _ ((intoLit o).bind _)
    obtain ⟨y, hy, hl⟩ := intoLit_number h
    rw [hl]
    exact .number hy

/-! ### The recursion -/

/-- What is proved of the recursive functions on objects of depth less than `n`. -/
structure RecGives (n : Nat) (r : Rec) : Prop where
  expr : ∀ (x : Expr) (o : Object), depthFields o < n → Encodes x (.object o) → Plain x →
    Gives (Same x) (r.expr o)
  stmt : ∀ (x : Stmt) (b : Bool) (o : Object), depthFields o < n → Encodes x (.object o) → Plain x →
    Gives (fun i => ∃ s, i = .siStmt s ∧ Same x s) (r.item o b)
  item : ∀ (x : StmtListItem) (o : Object), depthFields o < n → Encodes x (.object o) → Plain x →
    Gives (Same x) (r.item o true)

section

variable {n : Nat} {r : Rec} {o : Object} {ns : List Str} {name : Str}

theorem extractId_gives {i : Id} (h : Field o name (EncId i)) (hn : name ∉ ns := by decide) :
    JG o ns (name :: ns) (· = i.untrack) (extractId name) := by
  obtain ⟨j, hj, h⟩ := h
  obtain ⟨o', rfl⟩ := h.obj
  refine (JG.extractObject hj hn).bind fun _ ho => JG.lift ?_
  rw [ho, intoId_gives h]
  exact rfl

theorem extractName_gives {s : Str} (h : Field o name (EncName s)) (hn : name ∉ ns := by decide) :
    JG o ns (name :: ns) (fun i : Id => i.name.intoString = s) (extractId name) := by
  obtain ⟨j, hj, h⟩ := h
  obtain ⟨o', rfl⟩ := h.obj
  refine (JG.extractObject hj hn).bind fun _ ho => JG.lift ?_
  rw [ho, intoId_name h]
  exact C11_string_roundtrip s

theorem extractIdOpt_gives {i : Option Id} (h : Field o name (EncIdOpt i))
    (hn : name ∉ ns := by decide) :
    JG o ns (name :: ns) (· = i.map Id.untrack) (extractIdOpt name) := by
  obtain ⟨j, hj, h⟩ := h
  cases i with
  | none =>
    cases h
    exact (JG.extractNull hj hn).bind fun _ ho => by rw [ho]; exact JG.pure rfl
  | some i =>
    obtain ⟨o', rfl⟩ := EncId.obj h
    refine (JG.extractObjectOpt hj hn).bind fun _ ho => ?_
    rw [ho]
    refine (JG.lift (P := (· = i.untrack)) ?_).bind fun _ hi => by rw [hi]; exact JG.pure rfl
    rw [intoId_gives h]
    exact rfl

theorem extractPatt_gives {x : PattId} (h : Field o name (Encodes x)) (hp : Plain x)
    (hn : name ∉ ns := by decide) : JG o ns (name :: ns) (Same x) (extractPatt name) := by
  obtain ⟨j, hj, h⟩ := h
  obtain ⟨o', rfl⟩ := patt_obj x j h
  refine (JG.extractObject hj hn).bind fun _ ho => JG.lift ?_
  rw [ho]
  exact intoPatt_gives h hp

theorem object_gives {c : Cat} {f : Object → Result (Ast c)}
    (hobj : ∀ (x : Ast c) j, Encodes x j → ∃ o, j = .object o)
    (hf : ∀ (x : Ast c) o, depthFields o < n → Encodes x (.object o) → Plain x →
      Gives (Same x) (f o))
    {x : Ast c} (h : Field o name (Encodes x)) (hp : Plain x) (hd : depthFields o ≤ n)
    (hn : name ∉ ns := by decide) :
    JG o ns (name :: ns) (Same x) (do
      let o ← extract (Object.extractObject name)
      lift (f o)) := by
  obtain ⟨j, hj, h⟩ := h
  obtain ⟨o', rfl⟩ := hobj x j h
  refine (JG.extractObject hj hn).bind fun _ ho => JG.lift ?_
  rw [ho]
  exact hf x o' (Nat.lt_of_lt_of_le (depth_field hj) hd) h hp

theorem option_gives {c : Cat} {f : Object → Result (Ast c)}
    (hobj : ∀ (x : Ast c) j, Encodes x j → ∃ o, j = .object o)
    (hf : ∀ (x : Ast c) o, depthFields o < n → Encodes x (.object o) → Plain x →
      Gives (Same x) (f o))
    {x : Ast (.opt c)} (h : Field o name (Encodes x)) (hp : Plain x) (hd : depthFields o ≤ n)
    (hn : name ∉ ns := by decide) :
    JG o ns (name :: ns) (fun y => Same x (Ast.ofOption y)) (do
      match ← extract (Object.extractObjectOpt name) with
      | some o => return some (← lift (f o))
      | none => return none) := by
  obtain ⟨j, hj, h⟩ := h
  cases x with
  | none =>
    cases h
    exact (JG.extractNull hj hn).bind fun _ ho => by rw [ho]; exact JG.pure .none
  | some x =>
    obtain ⟨o', rfl⟩ := hobj x j h
    refine (JG.extractObjectOpt hj hn).bind fun _ ho => ?_
    rw [ho]
    refine (JG.lift (hf x o' (Nat.lt_of_lt_of_le (depth_field hj) hd) h (hp.fst rfl))).bind
      fun _ hi => JG.pure (.some hi)

theorem extractExpr_gives (hr : RecGives n r) {x : Expr} (h : Field o name (Encodes x))
    (hp : Plain x) (hd : depthFields o ≤ n) (hn : name ∉ ns := by decide) :
    JG o ns (name :: ns) (Same x) (extractExpr r name) :=
  object_gives expr_obj hr.expr h hp hd hn

theorem extractExprOpt_gives (hr : RecGives n r) {x : Ast (.opt .expr)}
    (h : Field o name (Encodes x)) (hp : Plain x) (hd : depthFields o ≤ n)
    (hn : name ∉ ns := by decide) :
    JG o ns (name :: ns) (fun y => Same x (Ast.ofOption y)) (extractExprOpt r name) :=
  option_gives expr_obj hr.expr h hp hd hn

/-- The expression that covers an assignment target. -/
def targetExpr : AssignTarget → Expr
  | .tId i => .eId i
  | .tDot l e k => .eDot l e k
  | .tBrack l e p => .eBrack l e p

theorem encodes_targetExpr {t : AssignTarget} {j : Json} (h : Encodes t j) :
    Encodes (targetExpr t) j := by
  cases t <;> exact h

theorem plain_targetExpr {t : AssignTarget} (h : Plain t) : Plain (targetExpr t) := by
  cases t with
  | tId i => exact Plain.mk rfl fun y hy => by cases hy
  | tDot l e k =>
    exact Plain.mk rfl fun y hy => by
      cases hy with
      | head => exact h.fst rfl
      | tail _ hy => cases hy
  | tBrack l e p =>
    exact Plain.mk rfl fun y hy => by
      cases hy with
      | head => exact h.fst rfl
      | tail _ hy =>
        cases hy with
        | head => exact h.snd rfl
        | tail _ hy => cases hy

theorem same_target {t : AssignTarget} {e : Expr} (h : Same (targetExpr t) e) :
    ∃ t', Cover.intoAssignTarget e = .ok t' ∧ Cover.intoAssignPatt e = .ok (.pSimple t') ∧
      Same t t' := by
  cases t with
  | tId i => cases h; exact ⟨_, rfl, rfl, .tId⟩
  | tDot l e k => cases h with | eDot h => exact ⟨_, rfl, rfl, .tDot h⟩
  | tBrack l e p => cases h with | eBrack h h' => exact ⟨_, rfl, rfl, .tBrack h h'⟩

theorem extractAssignTarget_gives (hr : RecGives n r) {x : AssignTarget}
    (h : Field o name (Encodes x)) (hp : Plain x) (hd : depthFields o ≤ n)
    (hn : name ∉ ns := by decide) :
    JG o ns (name :: ns) (Same x) (extractAssignTarget r name) := by
  obtain ⟨j, hj, h⟩ := h
  refine (extractExpr_gives hr ⟨j, hj, encodes_targetExpr h⟩ (plain_targetExpr hp) hd hn).bind
    fun e he => ?_
  obtain ⟨t', h1, _, h2⟩ := same_target he
  rw [h1]
  exact JG.pure h2

theorem extractAssignPatt_gives (hr : RecGives n r) {x : PattTarget}
    (h : Field o name (Encodes x)) (hp : Plain x) (hd : depthFields o ≤ n)
    (hn : name ∉ ns := by decide) :
    JG o ns (name :: ns) (Same x) (extractAssignPatt r name) := by
  obtain ⟨t, rfl⟩ := hp.simple
  obtain ⟨j, hj, h⟩ := h
  refine (extractExpr_gives hr ⟨j, hj, encodes_targetExpr h⟩ (plain_targetExpr (hp.fst rfl)) hd
    hn).bind fun e he => ?_
  obtain ⟨t', _, h1, h2⟩ := same_target he
  rw [h1]
  exact JG.pure (.pSimple h2)

theorem intoStmt_gives (hr : RecGives n r) (x : Stmt) (o : Object) (hd : depthFields o < n)
    (h : Encodes x (.object o)) (hp : Plain x) : Gives (Same x) (intoStmt r o) := by
  unfold intoStmt
  refine (hr.stmt x false o hd h hp).bind fun i hi => ?_
  obtain ⟨s, rfl, hs⟩ := hi
  exact hs

theorem extractStmt_gives (hr : RecGives n r) {x : Stmt} (h : Field o name (Encodes x))
    (hp : Plain x) (hd : depthFields o ≤ n) (hn : name ∉ ns := by decide) :
    JG o ns (name :: ns) (Same x) (extractStmt r name) :=
  object_gives stmt_obj (intoStmt_gives hr) h hp hd hn

theorem extractStmtOpt_gives (hr : RecGives n r) {x : Ast (.opt .stmt)}
    (h : Field o name (Encodes x)) (hp : Plain x) (hd : depthFields o ≤ n)
    (hn : name ∉ ns := by decide) :
    JG o ns (name :: ns) (fun y => Same x (Ast.ofOption y)) (extractStmtOpt r name) :=
  option_gives stmt_obj (intoStmt_gives hr) h hp hd hn

theorem intoExprListItem_gives (hr : RecGives n r) (x : Ast .item) (o : Object)
    (hd : depthFields o < n) (h : Encodes x (.object o)) (hp : Plain x) :
    Gives (Same x) (intoExprListItem r o) := by
  unfold intoExprListItem
  cases x with
  | iSpread l e =>
    obtain ⟨o', ho, ht, h⟩ := h
    cases ho
    rw [tag_of ht rfl]
    exact (JG.run (extractExpr_gives hr h (hp.fst rfl) (Nat.le_of_lt hd))).bind fun e he =>
      .iSpread he
  | iExpr e =>
    have hx := (hr.expr e o hd h (hp.fst rfl)).map (f := .iExpr) (Q := Same (.iExpr e))
      fun y hy => .iExpr hy
    have ht : ∃ t, tag o = .ok t ∧ t ≠ .spreadElement := by
      have key : ∀ {s : Str} {t : Tag} {P : Object → Prop}, NodeOf s (.object o) P →
          Tag.fromStr s = some t → t ≠ .spreadElement → ∃ t, tag o = .ok t ∧ t ≠ .spreadElement :=
        fun h hs hne => by
          obtain ⟨o', ho, ht, _⟩ := h
          cases ho
          exact ⟨_, tag_of ht hs, hne⟩
      cases e with
      | eId i => exact key h.1 rfl (by decide)
      | _ => exact key h rfl (by decide)
    obtain ⟨t, ht, hne⟩ := ht
    rw [ht]
    cases t with
    | spreadElement => exact absurd rfl hne
    | _ => exact hx

theorem extractExprList_gives (hr : RecGives n r) {x : Ast (.list .item)}
    (h : Field o name (Encodes x)) (hp : Plain x) (hd : depthFields o ≤ n)
    (hn : name ∉ ns := by decide) :
    JG o ns (name :: ns) (Same x) (extractExprList r name) :=
  listAst_gives item_obj (intoExprListItem_gives hr) h hp hd hn

theorem extractExprs_gives (hr : RecGives n r) {x : Ast (.list .expr)}
    (h : Field o name (Encodes x)) (hp : Plain x) (hd : depthFields o ≤ n)
    (hn : name ∉ ns := by decide) :
    JG o ns (name :: ns) (Same x) (extractExprs r name) :=
  listAst_gives expr_obj hr.expr h hp hd hn

theorem list_array {c : Cat} {xs : Ast (.list c)} {j : Json} (hx : Encodes xs j) :
    ∃ js, j = .array js := by
  cases xs with
  | nil => exact ⟨_, hx⟩
  | cons h t => obtain ⟨_, _, h, _⟩ := hx; exact ⟨_, h⟩

theorem extractExprOptList_gives (hr : RecGives n r) {xs : Ast (.list (.opt .item))}
    (h : Field o name (Encodes xs)) (hp : Plain xs) (hd : depthFields o ≤ n)
    (hn : name ∉ ns := by decide) :
    JG o ns (name :: ns) (Same xs) (extractExprOptList r name) := by
  obtain ⟨j, hj, h⟩ := h
  obtain ⟨js, rfl⟩ := list_array h
  refine (JG.extractArray hj hn).bind fun a ha => ?_
  subst ha
  refine (JG.lift (mapList_gives (n := n) (R := Same) ?_ xs a h hp
    (Nat.lt_of_lt_of_le (depth_elem hj) hd))).bind fun ys hys => JG.pure (hys.same xs)
  intro x j hd h hp
  cases x with
  | none => cases h; exact .none
  | some x =>
    obtain ⟨o', rfl⟩ := item_obj x j h
    simp only [depth] at hd
    exact (intoExprListItem_gives hr x o' (by omega) h (hp.fst rfl)).map fun y hy => .some hy

theorem extractStmtList_gives (hr : RecGives n r) {xs : Ast (.list .sitem)}
    (h : Field o name (Encodes xs)) (hp : Plain xs) (hd : depthFields o ≤ n)
    (hn : name ∉ ns := by decide) :
    JG o ns (name :: ns) (All2 Same xs.toList) (extractStmtList r name) :=
  (list_gives sitem_obj hr.item h hp hd hn).bind fun _ hos => JG.lift hos

theorem intoBlock_gives (hr : RecGives n r) (x : Ast .block) (o : Object) (hd : depthFields o < n)
    (h : Encodes x (.object o)) (hp : Plain x) : Gives (Same x) (intoBlock r o) := by
  cases x with
  | block l items =>
    obtain ⟨o', ho, ht, h⟩ := h
    cases ho
    unfold intoBlock
    rw [tag_of ht rfl]
    exact (JG.run (extractStmtList_gives hr h (hp.fst rfl) (Nat.le_of_lt hd))).bind fun ys hys =>
      .block (hys.same items)

theorem extractBlock_gives (hr : RecGives n r) {x : Ast .block} (h : Field o name (Encodes x))
    (hp : Plain x) (hd : depthFields o ≤ n) (hn : name ∉ ns := by decide) :
    JG o ns (name :: ns) (Same x) (extractBlock r name) :=
  object_gives block_obj (intoBlock_gives hr) h hp hd hn

end

end Estree

end Esprit
