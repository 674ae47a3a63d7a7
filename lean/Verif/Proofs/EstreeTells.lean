import Verif.Proofs.EstreeRead
import Verif.Spec.EstreeReads
import Verif.Props.Syntax

/-! The ESTree conversion returns only what the JSON says, and its errors are true of
the JSON. -/

namespace Esprit

namespace Estree

theorem Inside.trans {u v j : Json} (h : Inside u v) (h' : Inside v j) : Inside u j := by
  induction h' with
  | self => exact h
  | element hm _ ih => exact .element hm ih
  | field hf _ ih => exact .field hf ih

theorem WrongString.inside {v j : Json} (hv : Inside v j) {a b : Str} (h : WrongString v a b) :
    WrongString j a b := by
  have hs : ∀ {t f s}, Says v t f s → Says j t f s := fun ⟨o, ho, h⟩ => ⟨o, ho.trans hv, h⟩
  cases h with
  | binop h1 h2 => exact .binop (hs h1) h2
  | logop h1 h2 => exact .logop (hs h1) h2
  | assop h1 h2 h3 => exact .assop (hs h1) h2 h3
  | unop h1 h2 => exact .unop (hs h1) h2
  | update h1 h2 h3 => exact .update (hs h1) h2 h3
  | kind h1 h2 => exact .kind (hs h1) h2
  | var h1 h2 => exact .var (hs h1) h2
  | target h1 h2 h3 h4 h5 h6 h7 => exact .target (h1.trans hv) h2 h3 h4 h5 h6 h7

theorem EError.Blames.inside {v j : Json} (hv : Inside v j) {e : EError} (h : e.Blames v) :
    e.Blames j := by
  match e, h with
  | .json (.missingField _), ⟨o, ho, h⟩ => exact ⟨o, ho.trans hv, h⟩
  | .json (.typeMismatch _ _), .inl ⟨w, t, hw, h⟩ => exact .inl ⟨w, t, hw.trans hv, h⟩
  | .json (.typeMismatch _ _), .inr (.inl ⟨h1, h2, o, s, ho, h⟩) =>
    exact .inr (.inl ⟨h1, h2, o, s, ho.trans hv, h⟩)
  | .json (.typeMismatch _ _), .inr (.inr ⟨h1, h2, o, s, ho, h⟩) =>
    exact .inr (.inr ⟨h1, h2, o, s, ho.trans hv, h⟩)
  | .json (.wrongArrayLength _ _), ⟨h1, h2, js, hj, h⟩ => exact ⟨h1, h2, js, hj.trans hv, h⟩
  | .json (.illegalString _ _), h => exact WrongString.inside hv h
  | .invalidTypeTag _, ⟨o, ho, h⟩ => exact ⟨o, ho.trans hv, h⟩
  | .nodeTypeMismatch _ _, ⟨o, t, ho, h⟩ => exact ⟨o, t, ho.trans hv, h⟩
  | .unexpectedInitializer _, ⟨o, od, k, je, ho, h⟩ => exact ⟨o, od, k, je, ho.trans hv, h⟩
  | .invalidLHS _, .inl ⟨h1, je, e, ho, h⟩ => exact .inl ⟨h1, je, e, ho.trans hv, h⟩
  | .invalidLHS _, .inr (.inl ⟨h1, o, je, e, ho, h⟩) =>
    exact .inr (.inl ⟨h1, o, je, e, ho.trans hv, h⟩)
  | .invalidLHS _, .inr (.inr ⟨h1, o, je, e, ho, h⟩) =>
    exact .inr (.inr ⟨h1, o, je, e, ho.trans hv, h⟩)
  | .uninitializedPattern _, ⟨i, od, ji, h1, ho, h⟩ => exact ⟨i, od, ji, h1, ho.trans hv, h⟩

/-! ### The calculus -/

/-- The elements of two lists are related one by one. -/
inductive Each {α β : Type} (R : α → β → Prop) : List α → List β → Prop where
  | nil : Each R [] []
  | cons {a : α} {b : β} {as : List α} {bs : List β} : R a b → Each R as bs →
      Each R (a :: as) (b :: bs)

/-- A value satisfies `Q`, an error is true of `j`. -/
def Tells {α : Type} (j : Json) (Q : α → Prop) : Result α → Prop
  | .ok a => Q a
  | .err e => e.Blames j
  | .panic _ => True
  | .fuel => True

namespace Tells

variable {α β : Type} {j : Json} {P : α → Prop} {Q : β → Prop}

theorem bind {f : α → Result β} : {x : Result α} → Tells j P x → (∀ a, P a → Tells j Q (f a)) →
    Tells j Q (x.bind f)
  | .ok a, hx, hf => hf a hx
  | .err _, hx, _ => hx
  | .panic _, hx, _ => hx
  | .fuel, hx, _ => hx

theorem map {f : α → β} : {x : Result α} → Tells j P x → (∀ a, P a → Q (f a)) → Tells j Q (x.map f)
  | .ok a, hx, hf => hf a hx
  | .err _, hx, _ => hx
  | .panic _, hx, _ => hx
  | .fuel, hx, _ => hx

theorem mono {P' : α → Prop} (h : ∀ a, P a → P' a) : {x : Result α} → Tells j P x → Tells j P' x
  | .ok a, hx => h a hx
  | .err _, hx => hx
  | .panic _, hx => hx
  | .fuel, hx => hx

theorem inside {v : Json} (hv : Inside v j) : {x : Result α} → Tells v P x → Tells j P x
  | .ok _, hx => hx
  | .err _, hx => EError.Blames.inside hv hx
  | .panic _, hx => hx
  | .fuel, hx => hx

/-- The elements of a list, one by one. -/
theorem mapList {R : α → β → Prop} {f : α → Result β} :
    (xs : List α) → (∀ a ∈ xs, Tells j (R a) (f a)) →
      Tells j (fun ys => Each R xs ys) (Estree.mapList f xs)
  | [], _ => Each.nil
  | x :: xs, hf => (hf x (List.mem_cons_self ..)).bind fun _ hb =>
      (mapList xs fun a h => hf a (List.mem_cons_of_mem _ h)).bind fun _ hbs => .cons hb hbs

end Tells

/-- A computation on what is left of `o` without `ns`, which leaves `o` without `ms`. -/
def JT {α : Type} (o : Object) (ns ms : List Str) (Q : α → Prop) (x : J α) : Prop :=
  ∀ o', Left o ns o' → Tells (.object o) (fun r => Q r.1 ∧ Left o ms r.2) (x o')

namespace JT

variable {α β : Type} {o : Object} {ns ms ks : List Str} {P : α → Prop} {Q : β → Prop}

theorem pure {a : α} (h : P a) : JT o ns ns P (Pure.pure a) := fun _ ho => ⟨h, ho⟩

theorem bind {x : J α} {f : α → J β} (hx : JT o ns ms P x)
    (hf : ∀ a, P a → JT o ms ks Q (f a)) : JT o ns ks Q (x >>= f) :=
  fun o' ho => (hx o' ho).bind fun r hr => hf r.1 hr.1 r.2 hr.2

theorem lift {x : Result α} (h : Tells (.object o) P x) : JT o ns ns P (Estree.lift x) :=
  fun _ ho => h.map fun _ ha => ⟨ha, ho⟩

/-- A computation that fails. -/
theorem fail {x : Result α} (h : Tells (.object o) (fun _ => False) x) : JT o ns ms P (Estree.lift x) :=
  fun _ _ => (h.map (Q := fun _ => False) fun _ ha => ha).mono fun _ h => h.elim

theorem run {x : J α} (h : JT o [] ms P x) : Tells (.object o) P (x.run o) :=
  (h o ⟨fun _ _ => rfl, Nat.le_refl _⟩).map fun _ hr => hr.1

theorem runLeft {x : J α} {o' : Object} (ho : Left o ns o') (h : JT o ns ms P x) :
    Tells (.object o) P (x.run o') := (h o' ho).map fun _ hr => hr.1

theorem self : JT o ns ns (Left o ns) (fun o => .ok (o, o) : J Object) := fun _ ho => ⟨ho, ho⟩

theorem mono {P' : α → Prop} {x : J α} (hx : JT o ns ms P x) (h : ∀ a, P a → P' a) :
    JT o ns ms P' x := fun o' ho => (hx o' ho).mono fun _ hr => ⟨h _ hr.1, hr.2⟩

theorem ite {c : Prop} [Decidable c] {x y : J α} (hx : c → JT o ns ms P x)
    (hy : ¬c → JT o ns ms P y) : JT o ns ms P (if c then x else y) := by
  split
  · exact hx ‹_›
  · exact hy ‹_›

theorem extractWith {f : Json → JsonResult α} {name : Str} (hn : name ∉ ns)
    (hf : ∀ v, o.get name = some v → Tells (.object o) P (ofJson (f v))) :
    JT o ns (name :: ns) P (extract (Object.extractWith f name)) := by
  intro (o' : Object) ho
  have hl : Left o (name :: ns) (o'.without name) := by
    refine ⟨fun m hm => ?_, Nat.le_trans (depth_without o' name) ho.depth⟩
    have hne : ¬m = name := fun h => hm (by rw [h]; exact List.mem_cons_self ..)
    rw [Object.get_without, if_neg hne, ho.get m fun h => hm (List.mem_cons_of_mem _ h)]
  cases hg : o'.get name with
  | none =>
    have : extract (Object.extractWith f name) o' = .err (.json (.missingField name)) := by
      unfold extract Object.extractWith Object.extractField Object.remove
      rw [hg]; rfl
    rw [this]
    exact ⟨o, .self, by rw [← ho.get name hn]; exact hg⟩
  | some v =>
    have : extract (Object.extractWith f name) o' =
        (ofJson (f v)).map fun a => (a, o'.without name) := by
      unfold extract Object.extractWith Object.extractField Object.remove
      rw [hg]; rfl
    rw [this]
    exact (hf v (by rw [← ho.get name hn]; exact hg)).map fun a ha => ⟨ha, hl⟩

/-- A value of the wrong type. -/
theorem wrong {v : Json} {name : Str} (hv : o.get name = some v) (expected : Str) (tys : List Ty)
    (h1 : (expected, tys) ∈ typeWords) (h2 : v.ty ∉ tys) :
    Tells (.object o) P (ofJson (Esprit.typeError expected v.ty)) :=
  .inl ⟨v, tys, .field hv .self, rfl, h1, h2⟩

theorem extractField {name : Str} (hn : name ∉ ns := by decide) :
    JT o ns (name :: ns) (fun v => o.get name = some v) (extract (Object.extractField name)) := by
  have h : (extract (Object.extractField name)) =
      extract (Object.extractWith (fun v => .ok v) name) := by
    funext o
    unfold extract Object.extractWith
    cases h : Object.extractField name o with
    | mk a b => cases a <;> rfl
  rw [h]
  exact extractWith hn fun v hv => hv

theorem extractString {name : Str} (hn : name ∉ ns := by decide) :
    JT o ns (name :: ns) (fun s => o.get name = some (.string s))
      (extract (Object.extractString name)) :=
  extractWith hn fun v hv => by
    cases v <;> first
      | exact hv
      | exact wrong hv c!"string" [.string] (by decide) (by simp [Json.ty])

theorem extractBool {name : Str} (hn : name ∉ ns := by decide) :
    JT o ns (name :: ns) (fun b => o.get name = some (.bool b))
      (extract (Object.extractBool name)) :=
  extractWith hn fun v hv => by
    cases v <;> first
      | exact hv
      | exact wrong hv c!"boolean" [.boolean] (by decide) (by simp [Json.ty])

theorem extractBoolOpt {name : Str} (hn : name ∉ ns := by decide) :
    JT o ns (name :: ns) (fun b => ∃ j, o.get name = some j ∧ ReadsFlag (b.getD false) j)
      (extract (Object.extractBoolOpt name)) :=
  extractWith hn fun v hv => by
    cases v with
    | null => exact ⟨_, hv, .inr rfl⟩
    | bool b => cases b
                · exact ⟨_, hv, .inl rfl⟩
                · exact ⟨_, hv, rfl⟩
    | _ => exact wrong hv c!"boolean" [.boolean] (by decide) (by simp [Json.ty])

theorem extractObject {name : Str} (hn : name ∉ ns := by decide) :
    JT o ns (name :: ns) (fun o' => o.get name = some (.object o'))
      (extract (Object.extractObject name)) :=
  extractWith hn fun v hv => by
    cases v <;> first
      | exact hv
      | exact wrong hv c!"object" [.object] (by decide) (by simp [Json.ty])

theorem extractArray {name : Str} (hn : name ∉ ns := by decide) :
    JT o ns (name :: ns) (fun js => o.get name = some (.array js))
      (extract (Object.extractArray name)) :=
  extractWith hn fun v hv => by
    cases v <;> first
      | exact hv
      | exact wrong hv c!"array" [.array] (by decide) (by simp [Json.ty])

/-- An optional object: `null` means none. -/
def optJson : Option Object → Json
  | none => .null
  | some o => .object o

theorem extractObjectOpt {name : Str} (hn : name ∉ ns := by decide) :
    JT o ns (name :: ns) (fun r => o.get name = some (optJson r))
      (extract (Object.extractObjectOpt name)) :=
  extractWith hn fun v hv => by
    cases v <;> first
      | exact hv
      | exact wrong hv c!"object or null" [.object, .null] (by decide) (by simp [Json.ty])

/-- A node in a field. -/
theorem node {f : Object → Result α} {R : α → Json → Prop}
    (hf : ∀ o', Tells (.object o') (R · (.object o')) (f o')) {name : Str}
    (hn : name ∉ ns := by decide) :
    JT o ns (name :: ns) (fun a => ∃ j, o.get name = some j ∧ R a j)
      (do let o ← extract (Object.extractObject name); Estree.lift (f o)) :=
  (extractObject hn).bind fun o' ho => JT.lift
    (((hf o').inside (.field ho .self)).mono fun _ ha => ⟨_, ho, ha⟩)

end JT

/-- A computation on what is left of `o` without `ns`, the last on this object. -/
def JE {α : Type} (o : Object) (ns : List Str) (Q : α → Prop) (x : J α) : Prop :=
  ∀ o', Left o ns o' → Tells (.object o) (fun r => Q r.1) (x o')

theorem JT.last {α β : Type} {o : Object} {ns ms : List Str} {P : α → Prop} {Q : β → Prop} {x : J α}
    {f : α → J β} (hx : JT o ns ms P x) (hf : ∀ a, P a → JE o ms Q (f a)) : JE o ns Q (x >>= f) :=
  fun o' ho => (hx o' ho).bind fun r hr => hf r.1 hr.1 r.2 hr.2

namespace JE

variable {α β : Type} {o : Object} {ns : List Str} {P : α → Prop}

theorem pure {a : α} (h : P a) : JE o ns P (Pure.pure a) := fun _ _ => h

theorem lift {x : Result α} (h : Tells (.object o) P x) : JE o ns P (Estree.lift x) :=
  fun _ _ => h.map fun _ ha => ha

theorem ite {c : Prop} [Decidable c] {x y : J α} (hx : c → JE o ns P x)
    (hy : ¬c → JE o ns P y) : JE o ns P (if c then x else y) := by
  split
  · exact hx ‹_›
  · exact hy ‹_›

theorem run {x : J α} (h : JE o [] P x) : Tells (.object o) P (x.run o) :=
  (h o ⟨fun _ _ => rfl, Nat.le_refl _⟩).map fun _ hr => hr

theorem runLeft {x : J α} {o' : Object} (ho : Left o ns o') (h : JE o ns P x) :
    Tells (.object o) P (x.run o') := (h o' ho).map fun _ hr => hr

end JE

/-! ### Leaves -/

theorem tag_tells (o : Object) : Tells (.object o) (fun t => Typed o t.debug) (tag o) := by
  unfold tag Object.getString Object.getField
  cases hg : o.get c!"type" with
  | none => exact ⟨o, .self, hg⟩
  | some v =>
    cases v with
    | string s =>
      show Tells _ _ (match Tag.fromStr s with
        | some t => Res.ok t
        | none => Res.err (.invalidTypeTag s))
      unfold Tag.fromStr
      cases hf : tagTable.find? fun e => e.1 = s with
      | some e =>
        have h1 : e.1 = s := by simpa using List.find?_some hf
        have h2 := List.mem_of_find?_eq_some hf
        have h3 : ∀ e ∈ tagTable, e.1 = e.2.debug := by decide
        show o.get c!"type" = _
        rw [hg, ← h1, h3 e h2]
      | none =>
        refine ⟨o, .self, hg, fun hm => ?_⟩
        have h3 : ∀ s ∈ nodeTypes, ∃ e ∈ tagTable, e.1 = s := by decide
        obtain ⟨e, he, rfl⟩ := h3 s hm
        have := List.find?_eq_none.mp hf e he
        simp at this
    | _ => exact .inl ⟨_, [.string], .field hg .self, rfl, by decide, by simp [Json.ty]⟩

/-- The type of a node is known. -/
theorem debug_mem (t : Tag) : t.debug ∈ nodeTypes := by cases t <;> decide

theorem intoId_tells (o : Object) :
    Tells (.object o) (fun i => ReadsId i (.object o)) (intoId o) :=
  (tag_tells o).bind fun t ht => by
    show Tells _ _ (if _ then _ else _)
    split
    · rename_i hne
      exact ⟨o, _, .self, ht, .head _, fun hm => hne (by
        cases t <;> first | rfl | (revert hm; decide))⟩
    · rename_i he
      have he : t = .identifier := Classical.byContradiction he
      subst he
      show Tells _ _ ((ofJson (o.extractString c!"name").1).bind _)
      have : (ofJson (o.extractString c!"name").1) =
          J.run (extract (Object.extractString c!"name")) o := by
        unfold J.run extract
        cases (o.extractString c!"name").1 <;> rfl
      rw [this]
      exact (JT.run (JT.extractString (name := c!"name"))).bind fun s hs => ⟨o, s, rfl, ht, hs, rfl⟩

theorem intoPatt_tells (o : Object) :
    Tells (.object o) (fun p => Reads p (.object o)) (intoPatt o) :=
  (intoId_tells o).map fun _ hi => .simple hi

theorem intoRegExp_tells {o : Object} {ns : List Str} (hn : c!"regex" ∉ ns) :
    JE o ns (fun e => ∃ p f, e = .eRegExp none ⟨p, f⟩ ∧ HasRegExp o p f) intoRegExp :=
  (JT.extractObject hn).last fun ro hro => JE.lift (Tells.inside (.field hro .self) (JE.run
    (JT.last JT.extractString fun p hp => JT.last JT.extractString fun f hf =>
      JE.pure ⟨p, f, rfl, ro, hro, hp, hf⟩)))

theorem intToString_eq (i : Int) : intToString i = digits i := by
  cases i <;> rfl

/-- What a literal says, whatever its node type. -/
inductive ReadsLit (o : Object) : Expr → Prop where
  | true : o.get c!"value" = .some (.bool true) → ReadsLit o (.eTrue .none)
  | false : o.get c!"value" = .some (.bool false) → ReadsLit o (.eFalse .none)
  | null : o.get c!"value" = .some .null → o.get c!"regex" = .none → ReadsLit o (.eNull .none)
  | number {n : NumberLiteral} {j : Json} : o.get c!"value" = .some j → ReadsNumber n j →
      ReadsLit o (.eNumber .none n)
  | regExp {pattern flags : Str} {j : Json} : o.get c!"value" = .some j →
      (j = .null ∨ ∃ fields, j = .object fields) →
      HasRegExp o pattern flags → ReadsLit o (.eRegExp .none ⟨pattern, flags⟩)
  | string {s : Str} : o.get c!"value" = .some (.string s) → ReadsLit o (.eString .none ⟨.none, s⟩)

theorem intoLit_tells (o : Object) : Tells (.object o) (ReadsLit o) (intoLit o) := by
  refine JE.run (JT.last JT.extractField fun json hj => JT.last JT.self fun o' ho' => ?_)
  cases json with
  | null =>
    refine JE.ite (fun h => JE.pure (.null hj ?_)) fun _ o1 ho1 =>
      (intoRegExp_tells (by decide) o1 ho1).mono fun r hr => ?_
    · have hg : o'.get c!"regex" = o.get c!"regex" := ho'.get _ (by decide)
      rw [← hg]
      unfold Object.containsKey at h
      cases h' : o'.get c!"regex" with
      | none => rfl
      | some v => rw [h'] at h; simp at h
    · obtain ⟨p, f, he, hp⟩ := hr
      rw [he]
      exact .regExp hj (.inl rfl) hp
  | bool b => cases b
              · exact JE.pure (.false hj)
              · exact JE.pure (.true hj)
  | i64 i =>
    refine JE.pure (.number hj ?_)
    unfold i64Literal
    rw [intToString_eq]
    exact .i64
  | u64 i => exact JE.pure (.number hj .u64)
  | f64 i => exact JE.pure (.number hj .f64)
  | string i => exact JE.pure (.string hj)
  | array i => exact JE.lift (.inl ⟨_, _, .field hj .self, rfl, .tail _ (.tail _ (.tail _ (.tail _
      (.tail _ (.head _))))), by simp [Json.ty]⟩)
  | object i =>
    exact fun o1 ho1 => (intoRegExp_tells (by decide) o1 ho1).mono fun r hr => by
      obtain ⟨p, f, he, hp⟩ := hr
      rw [he]
      exact .regExp hj (.inr ⟨_, rfl⟩) hp

theorem ReadsLit.reads {o : Object} {e : Expr} (ht : Typed o c!"Literal") (h : ReadsLit o e) :
    Reads e (.object o) := by
  cases h with
  | true h => exact .true ht h
  | false h => exact .false ht h
  | null h h' => exact .null ht h h'
  | number h h' => exact .number ht h h'
  | regExp h h' h'' => exact .regExp ht h h' h''
  | string h => exact .string ht h

theorem intoPropKey_tells (o : Object) :
    Tells (.object o) (fun k => ReadsKey k (.object o)) (intoPropKey o) :=
  (tag_tells o).bind fun t ht => by
    show Tells _ _ (if _ then _ else _)
    split
    · rename_i he
      subst he
      refine (intoId_tells o).bind fun i hi => ?_
      obtain ⟨o', s, ho, h1, h2, rfl⟩ := hi
      cases ho
      show ReadsKey (.id none (Name.from s).intoString) _
      rw [C11_string_roundtrip]
      exact .id h1 h2
    · rename_i hne
      have hne' : t.debug ≠ c!"Identifier" := by
        intro h
        exact hne (by cases t <;> first | rfl | (revert h; decide))
      refine (intoLit_tells o).bind fun e he => ?_
      have hbad : ∀ v, o.get c!"value" = some v → v.ty ≠ .number → v.ty ≠ .string →
          Tells (.object o) (fun k => ReadsKey k (.object o))
            (typeError c!"identifier, number literal, or string literal" .object) := by
        intro v hv h1 h2
        refine .inr (.inr ⟨rfl, rfl, o, v, .self, fun h => hne' ?_, hv, h1, h2⟩)
        have h := ht.symm.trans h
        injection h with h
        injection h
      cases he with
      | true h => exact hbad _ h (by decide) (by decide)
      | false h => exact hbad _ h (by decide) (by decide)
      | null h _ => exact hbad _ h (by decide) (by decide)
      | number h h' => exact .number ht (debug_mem t) hne' h h'
      | regExp h h' _ =>
        rcases h' with rfl | ⟨f, rfl⟩
        · exact hbad _ h (by decide) (by decide)
        · exact hbad _ h (by simp [Json.ty]) (by simp [Json.ty])
      | string h => exact .string ht (debug_mem t) hne' h

end Estree

end Esprit
