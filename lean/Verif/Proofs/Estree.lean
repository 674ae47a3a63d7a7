import Verif.Model.Estree
import Verif.Model.Untrack

/-! Invariants of the conversion from ESTree: it terminates without panic, and its
results carry no locations. -/

namespace Esprit

/-! ### Cover grammar and untracking -/

namespace Cover

/-- All the patterns in the result of a conversion are untracked. -/
def Clean : (c : Cat) → Result c → Prop
  | .expr, r => ∀ p : PattTarget, (r : Except CoverError PattTarget) = .ok p → p.untrack = p
  | .prop, r => ∀ p : Ast (.propPatt .target),
      (r : Except CoverError (Ast (.propPatt .target))) = .ok p → p.untrack = p
  | .propVal, r => ∀ (p : PattTarget),
      (r : Option (Except CoverError PattTarget)) = some (.ok p) → p.untrack = p
  | .item, r => ∀ (p : PattTarget),
      ((r : ItemResult) = .expr (.ok p) ∨ ∃ l, (r : ItemResult) = .spread l (.ok p)) → p.untrack = p
  | .list c, r => ∀ x, List.Mem x (r : List (Result c)) → Clean c x
  | .opt c, r => ∀ x, (r : Option (Result c)) = some x → Clean c x
  | _, _ => True

private theorem props_clean : (rs : List (Except CoverError (Ast (.propPatt .target)))) →
    (∀ r ∈ rs, Clean .prop r) → ∀ ps, props rs = .ok ps → ps.untrack = ps
  | [], _, ps, h => by cases h; rfl
  | .error e :: rs, _, ps, h => by cases h
  | .ok p :: rs, hr, ps, h => by
    unfold props at h
    cases hq : props rs with
    | error e => rw [hq] at h; cases h
    | ok qs =>
      rw [hq] at h
      cases h
      have h1 := hr _ (List.mem_cons_self ..) p rfl
      have h2 := props_clean rs (fun r h => hr r (List.mem_cons_of_mem _ h)) qs hq
      show Ast.cons (Ast.untrack p) (Ast.untrack qs) = _
      rw [h1, h2]

private theorem elements_clean : (rs : List (Option ItemResult)) →
    (∀ r ∈ rs, Clean (.opt .item) r) → ∀ ps, elements rs = .ok ps → ps.untrack = ps
  | [], _, ps, h => by cases h; rfl
  | none :: rs, hr, ps, h => by
    unfold elements at h
    cases hq : elements rs with
    | error e => rw [hq] at h; cases h
    | ok qs =>
      rw [hq] at h
      cases h
      have h2 := elements_clean rs (fun r h => hr r (List.mem_cons_of_mem _ h)) qs hq
      show Ast.cons Ast.none (Ast.untrack qs) = _
      rw [h2]
  | some (.spread l r) :: rs, _, ps, h => by cases h
  | some (.expr (.error e)) :: rs, _, ps, h => by cases h
  | some (.expr (.ok p)) :: rs, hr, ps, h => by
    unfold elements at h
    cases hq : elements rs with
    | error e => rw [hq] at h; cases h
    | ok qs =>
      rw [hq] at h
      cases h
      have h1 := hr _ (List.mem_cons_self ..) _ rfl p (.inl rfl)
      have h2 := elements_clean rs (fun r h => hr r (List.mem_cons_of_mem _ h)) qs hq
      show Ast.cons (Ast.some (Ast.untrack p)) (Ast.untrack qs) = _
      rw [h1, h2]

private theorem array_clean {rs : List (Option ItemResult)} (hr : ∀ r ∈ rs, Clean (.opt .item) r)
    {p : PattTarget} (h : array none rs = .ok p) : p.untrack = p := by
  unfold array at h
  cases hs : splitRest rs with
  | mk es r =>
    rw [hs] at h
    have hsub : ∀ x ∈ es, x ∈ rs := by
      unfold splitRest at hs
      split at hs
      · cases hs; exact fun x hx => List.dropLast_subset _ hx
      · cases hs; exact fun x hx => hx
    have hes : ∀ x ∈ es, Clean (.opt .item) x := fun x hx => hr x (hsub x hx)
    cases r with
    | none =>
      cases he : elements es with
      | error e => simp only [he] at h; cases h
      | ok qs =>
        simp only [he] at h
        cases h
        have h2 := elements_clean es hes qs he
        show Ast.pCompound (Ast.cArr none (Ast.untrack qs) .none) = _
        rw [h2]
    | some r =>
      cases r with
      | error e => cases h
      | ok q =>
        have hq : q.untrack = q := by
          unfold splitRest at hs
          split at hs
          · rename_i heq
            injection hs with _ hs
            injection hs with hs
            have hm := List.mem_of_getLast? heq
            exact hr _ hm _ rfl q (.inr ⟨_, by rw [hs]⟩)
          · cases hs
        cases he : elements es with
        | error e => simp only [he] at h; cases h
        | ok qs =>
          simp only [he] at h
          cases h
          have h2 := elements_clean es hes qs he
          show Ast.pCompound (Ast.cArr none (Ast.untrack qs)
            (.some (.restPatt none (Ast.untrack q)))) = _
          rw [h2, hq]

private theorem simple_clean {e : Expr} (he : e.untrack = e) {p : PattTarget}
    (h : (do return .pSimple (← intoAssignTarget e) : Except CoverError PattTarget) = .ok p) :
    p.untrack = p := by
  unfold intoAssignTarget at h
  split at h
  · cases h
    injection he with he
    show Ast.pSimple (Ast.tId _) = _
    rw [he]
  · cases h
    injection he with h1 h2 h3
    show Ast.pSimple (Ast.tDot none (Ast.untrack _) _) = _
    rw [h2, h3, h1]
  · cases h
    injection he with h1 h2 h3
    show Ast.pSimple (Ast.tBrack none (Ast.untrack _) (Ast.untrack _)) = _
    rw [h2, h3, h1]
  · cases h

theorem convert_clean : {c : Cat} → (x : Ast c) → x.untrack = x → Clean c (convert x)
  | .expr, .eObj l ps, h => by
    injection h with h1 h2
    have := convert_clean ps h2
    intro p hp
    replace hp : (do return .pCompound (.cObj l (← props (convert ps))) :
      Except CoverError PattTarget) = .ok p := hp
    cases hq : props (convert ps) with
    | error e => rw [hq] at hp; cases hp
    | ok qs =>
      rw [hq] at hp
      cases hp
      have hu := props_clean _ this qs hq
      show Ast.pCompound (Ast.cObj none (Ast.untrack qs)) = _
      rw [hu, h1]
  | .expr, .eArr l es, h => by
    injection h with h1 h2
    have := convert_clean es h2
    intro p hp
    subst h1
    exact array_clean this hp
  | .prop, .prRegular l k v, h => by
    injection h with h1 h2 h3
    have := convert_clean v h3
    intro p hp
    replace hp : (match (convert v : Option (Except CoverError PattTarget)) with
      | Option.some r => (do return .ppRegular l k (← r) : Except CoverError (Ast (.propPatt .target)))
      | Option.none => (.error (.invalidPropPatt l) : Except CoverError (Ast (.propPatt .target)))) =
        .ok p := hp
    cases hv : (convert v : Option (Except CoverError PattTarget)) with
    | none => rw [hv] at hp; cases hp
    | some r =>
      cases r with
      | error e => rw [hv] at hp; cases hp
      | ok q =>
        rw [hv] at hp
        cases hp
        have hq := this q hv
        show Ast.ppRegular none k.untrack (Ast.untrack q) = _
        rw [hq, h2, h1]
  | .prop, .prShorthand i, h => by
    injection h with h1
    intro p hp
    cases hp
    show Ast.ppShorthand i.untrack = _
    rw [h1]
  | .prop, .prMethod f, _ => fun p hp => by cases hp
  | .propVal, .vInit e, h => by
    injection h with h1
    have := convert_clean e h1
    intro p hp
    exact this p (Option.some.inj hp)
  | .propVal, .vGet _ _, _ => fun p hp => by cases hp
  | .propVal, .vSet _ _ _, _ => fun p hp => by cases hp
  | .item, .iExpr e, h => by
    injection h with h1
    have := convert_clean e h1
    rintro p (hp | ⟨l, hp⟩)
    · injection hp with hp; exact this p hp
    · cases hp
  | .item, .iSpread l e, h => by
    injection h with h0 h1
    have := convert_clean e h1
    rintro p (hp | ⟨l, hp⟩)
    · cases hp
    · injection hp with _ hp; exact this p hp
  | .list c, .cons x t, h => by
    injection h with _ h1 h2
    have i1 := convert_clean x h1
    have i2 := convert_clean t h2
    intro y hy
    rcases List.mem_cons.mp hy with rfl | hy
    · exact i1
    · exact i2 y hy
  | .list c, .nil, _ => fun y hy => by cases hy
  | .opt c, .some x, h => by
    injection h with _ h1
    have i1 := convert_clean x h1
    intro y hy
    cases hy
    exact i1
  | .opt c, .none, _ => fun y hy => by cases hy
  | .expr, .eThis l, h => fun p hp => simple_clean h hp
  | .expr, .eId i, h => fun p hp => simple_clean h hp
  | .expr, .eFun f, h => fun p hp => simple_clean h hp
  | .expr, .eSeq l es, h => fun p hp => simple_clean h hp
  | .expr, .eUnop l op e, h => fun p hp => simple_clean h hp
  | .expr, .eBinop l op a b, h => fun p hp => simple_clean h hp
  | .expr, .eLogop l op a b, h => fun p hp => simple_clean h hp
  | .expr, .ePreInc l t, h => fun p hp => simple_clean h hp
  | .expr, .ePostInc l t, h => fun p hp => simple_clean h hp
  | .expr, .ePreDec l t, h => fun p hp => simple_clean h hp
  | .expr, .ePostDec l t, h => fun p hp => simple_clean h hp
  | .expr, .eAssign l p e, h => fun p hp => simple_clean h hp
  | .expr, .eBinAssign l op t e, h => fun p hp => simple_clean h hp
  | .expr, .eCond l test thn alt, h => fun p hp => simple_clean h hp
  | .expr, .eCall l callee args, h => fun p hp => simple_clean h hp
  | .expr, .eNew l callee args, h => fun p hp => simple_clean h hp
  | .expr, .eDot l e k, h => fun p hp => simple_clean h hp
  | .expr, .eBrack l e prop, h => fun p hp => simple_clean h hp
  | .expr, .eNewTarget l, h => fun p hp => simple_clean h hp
  | .expr, .eTrue l, h => fun p hp => simple_clean h hp
  | .expr, .eFalse l, h => fun p hp => simple_clean h hp
  | .expr, .eNull l, h => fun p hp => simple_clean h hp
  | .expr, .eNumber l n, h => fun p hp => simple_clean h hp
  | .expr, .eRegExp l r, h => fun p hp => simple_clean h hp
  | .expr, .eString l s, h => fun p hp => simple_clean h hp
  | .id, _, _ | .propKey, _, _ | .target, _, _ | .patt _, _, _ | .comp _, _, _
  | .rest _, _, _ | .propPatt _, _, _ | .func _, _, _ | .params, _, _ | .body _, _, _
  | .sitem, _, _ | .modItem, _, _ | .«import», _, _ | .«export», _, _ | .decl, _, _ | .dtor, _, _
  | .constDtor, _, _ | .block, _, _ | .stmt, _, _ | .forHead, _, _ | .forInHead, _, _
  | .forOfHead, _, _ | .«catch», _, _ | .case, _, _ => trivial

theorem intoAssignTarget_clean {e : Expr} (he : e.untrack = e) {t : AssignTarget}
    (h : intoAssignTarget e = .ok t) : t.untrack = t := by
  have : (do return .pSimple (← intoAssignTarget e) : Except CoverError PattTarget) =
      .ok (.pSimple t) := by rw [h]; rfl
  have := simple_clean he this
  injection this

theorem intoAssignPatt_clean {e : Expr} (he : e.untrack = e) {p : PattTarget}
    (h : intoAssignPatt e = .ok p) : p.untrack = p :=
  convert_clean e he p h

end Cover

theorem Object.get_without (o : Object) (name m : Str) :
    (o.without name).get m = if m = name then none else o.get m := by
  unfold Object.without Object.get
  split
  · rename_i h
    subst h
    have : (o.filter fun e => e.1 ≠ m).find? (fun e => e.1 = m) = none := by
      rw [List.find?_eq_none]
      intro e he
      have := (List.mem_filter.mp he).2
      simpa using this
    rw [this]; rfl
  · rename_i h
    congr 1
    induction o with
    | nil => rfl
    | cons e o ih =>
      by_cases he : e.1 = name
      · rw [List.filter_cons_of_neg (by simpa using he), ih, List.find?_cons_of_neg]
        simp only [decide_eq_true_eq]
        intro h'; exact h (h' ▸ he)
      · rw [List.filter_cons_of_pos (by simpa using he)]
        by_cases hm : e.1 = m
        · rw [List.find?_cons_of_pos (by simpa using hm), List.find?_cons_of_pos (by simpa using hm)]
        · rw [List.find?_cons_of_neg (by simpa using hm), List.find?_cons_of_neg (by simpa using hm),
            ih]

namespace Estree

/-! ### Results without panic -/

/-- The outcome is an error, or a value that satisfies `Q`: no panic, and the recursion
budget suffices. -/
def Safe {α : Type} (Q : α → Prop) : Result α → Prop
  | .ok a => Q a
  | .err _ => True
  | .panic _ => False
  | .fuel => False

theorem Safe.mono {α : Type} {P Q : α → Prop} (h : ∀ a, P a → Q a) :
    {x : Result α} → Safe P x → Safe Q x
  | .ok a, hx => h a hx
  | .err _, _ => trivial
  | .panic _, hx => hx
  | .fuel, hx => hx

theorem Safe.bind {α β : Type} {P : α → Prop} {Q : β → Prop} {f : α → Result β} :
    {x : Result α} → Safe P x → (∀ a, P a → Safe Q (f a)) → Safe Q (x.bind f)
  | .ok a, hx, hf => hf a hx
  | .err _, _, _ => trivial
  | .panic _, hx, _ => hx
  | .fuel, hx, _ => hx

theorem Safe.map {α β : Type} {P : α → Prop} {Q : β → Prop} {f : α → β} :
    {x : Result α} → Safe P x → (∀ a, P a → Q (f a)) → Safe Q (x.map f)
  | .ok a, hx, hf => hf a hx
  | .err _, _, _ => trivial
  | .panic _, hx, _ => hx
  | .fuel, hx, _ => hx

theorem Safe.ofJson {α : Type} {Q : α → Prop} {x : JsonResult α} (h : ∀ a, x = .ok a → Q a) :
    Safe Q (Estree.ofJson x) := by
  cases x with
  | ok a => exact h a rfl
  | error e => exact trivial

theorem Safe.mapList {α β : Type} {P : α → Prop} {Q : β → Prop} {f : α → Result β} :
    (xs : List α) → (∀ x ∈ xs, P x) → (∀ a, P a → Safe Q (f a)) →
      Safe (fun ys => ∀ y ∈ ys, Q y) (Estree.mapList f xs)
  | [], _, _ => fun y hy => by cases hy
  | x :: xs, hx, hf => (hf x (hx x (List.mem_cons_self ..))).bind fun b hb =>
      (Safe.mapList xs (fun x h => hx x (List.mem_cons_of_mem _ h)) hf).bind fun bs hbs y hy => by
        rcases List.mem_cons.mp hy with rfl | hy
        · exact hb
        · exact hbs y hy

/-- A computation on objects of depth at most `n`. -/
def JSafe {α : Type} (n : Nat) (Q : α → Prop) (x : J α) : Prop :=
  ∀ o, depthFields o ≤ n → Safe (fun r => Q r.1 ∧ depthFields r.2 ≤ n) (x o)

namespace JSafe

theorem pure {α : Type} {n : Nat} {Q : α → Prop} {a : α} (h : Q a) :
    JSafe n Q (Pure.pure a) := fun _ ho => ⟨h, ho⟩

theorem bind {α β : Type} {n : Nat} {P : α → Prop} {Q : β → Prop} {x : J α} {f : α → J β}
    (hx : JSafe n P x) (hf : ∀ a, P a → JSafe n Q (f a)) : JSafe n Q (x >>= f) :=
  fun o ho => (hx o ho).bind fun r hr => hf r.1 hr.1 r.2 hr.2

theorem lift {α : Type} {n : Nat} {Q : α → Prop} {x : Result α} (h : Safe Q x) :
    JSafe n Q (Estree.lift x) := fun _ ho => h.map fun _ ha => ⟨ha, ho⟩

theorem run {α : Type} {n : Nat} {Q : α → Prop} {x : J α} (h : JSafe n Q x) {o : Object}
    (ho : depthFields o ≤ n) : Safe Q (x.run o) := (h o ho).map fun _ hr => hr.1

theorem ite {α : Type} {n : Nat} {Q : α → Prop} {c : Prop} [Decidable c] {x y : J α}
    (hx : c → JSafe n Q x) (hy : ¬c → JSafe n Q y) : JSafe n Q (if c then x else y) := by
  split
  · exact hx ‹_›
  · exact hy ‹_›

theorem self {n : Nat} : JSafe n (fun o => depthFields o ≤ n) (fun o => .ok (o, o) : J Object) :=
  fun _ ho => ⟨ho, ho⟩

end JSafe

/-! ### Inversion -/

theorem bind_inv {α β : Type} {x : J α} {f : α → J β} {o : Object} {p : β × Object}
    (h : (x >>= f) o = .ok p) : ∃ a o1, x o = .ok (a, o1) ∧ f a o1 = .ok p := by
  replace h : (x o).bind (fun r => f r.1 r.2) = .ok p := h
  cases hx : x o with
  | ok r => rw [hx] at h; exact ⟨r.1, r.2, rfl, h⟩
  | _ => rw [hx] at h; cases h

theorem lift_inv {α : Type} {x : Result α} {o : Object} {p : α × Object}
    (h : lift x o = .ok p) : x = .ok p.1 ∧ p.2 = o := by
  cases x with
  | ok a => cases h; exact ⟨rfl, rfl⟩
  | _ => cases h

theorem run_inv {α : Type} {x : J α} {o : Object} {a : α} (h : x.run o = .ok a) :
    ∃ o1, x o = .ok (a, o1) := by
  replace h : (x o).map (·.1) = .ok a := h
  cases hx : x o with
  | ok r => rw [hx] at h; cases h; exact ⟨r.2, rfl⟩
  | _ => rw [hx] at h; cases h

theorem extract_inv {α : Type} {f : Json → JsonResult α} {name : Str} {o : Object} {p : α × Object}
    (h : extract (Object.extractWith f name) o = .ok p) :
    ∃ v, o.get name = some v ∧ f v = .ok p.1 ∧ p.2 = o.without name := by
  unfold extract Object.extractWith Object.extractField Object.remove at h
  cases hg : o.get name with
  | none => rw [hg] at h; cases h
  | some v =>
    rw [hg] at h
    cases hf : f v with
    | ok a =>
      replace h : (ofJson (f v)).map (fun a => (a, o.without name)) = .ok p := h
      rw [hf] at h; cases h; exact ⟨v, rfl, hf, rfl⟩
    | error e =>
      replace h : (ofJson (f v)).map (fun a => (a, o.without name)) = .ok p := h
      rw [hf] at h; cases h

/-! ### Depth -/

theorem depth_get : (o : Object) → (name : Str) → (v : Json) → o.get name = some v →
    depth v ≤ depthFields o
  | [], _, _, h => by cases h
  | e :: o, name, v, h => by
    unfold Object.get at h
    by_cases he : e.1 = name
    · rw [List.find?_cons_of_pos (by simpa using he)] at h
      cases h
      unfold depthFields
      exact Nat.le_max_left _ _
    · rw [List.find?_cons_of_neg (by simpa using he)] at h
      have := depth_get o name v h
      unfold depthFields
      omega

theorem depth_without : (o : Object) → (name : Str) → depthFields (o.without name) ≤ depthFields o
  | [], _ => Nat.le_refl _
  | e :: o, name => by
    have ih := depth_without o name
    unfold Object.without at ih ⊢
    by_cases he : e.1 = name
    · rw [List.filter_cons_of_neg (by simpa using he)]
      simp only [depthFields]
      omega
    · rw [List.filter_cons_of_pos (by simpa using he)]
      simp only [depthFields]
      omega

theorem depth_mem : (xs : List Json) → ∀ x ∈ xs, depth x ≤ depthList xs
  | [], x, h => by cases h
  | y :: ys, x, h => by
    unfold depthList
    rcases List.mem_cons.mp h with rfl | h
    · omega
    · have := depth_mem ys x h
      omega

theorem JSafe.extractWith {α : Type} {n : Nat} {Q : α → Prop} {f : Json → JsonResult α} {name : Str}
    (h : ∀ v a, depth v ≤ n → f v = .ok a → Q a) :
    JSafe n Q (extract (Object.extractWith f name)) := by
  intro (o : Object) ho
  unfold extract
  refine Safe.map (P := Q) (Safe.ofJson fun a ha => ?_) fun a ha => ⟨ha, ?_⟩
  · unfold Object.extractWith Object.extractField Object.remove at ha
    cases hg : o.get name with
    | none => rw [hg] at ha; cases ha
    | some v =>
      rw [hg] at ha
      exact h v a (Nat.le_trans (depth_get o name v hg) ho) ha
  · have : (Object.extractWith f name o).2 = o.without name := by
      unfold Object.extractWith Object.extractField Object.remove
      cases o.get name <;> rfl
    rw [this]
    exact Nat.le_trans (depth_without o name) ho

theorem JSafe.extractField {n : Nat} {name : Str} :
    JSafe n (fun _ => True) (extract (Object.extractField name)) := by
  have h : (extract (Object.extractField name)) =
      extract (Object.extractWith (fun v => .ok v) name) := by
    funext o
    unfold extract Object.extractWith
    cases h : Object.extractField name o with
    | mk a b => cases a <;> rfl
  rw [h]
  exact JSafe.extractWith fun _ _ _ _ => trivial

/-- Extraction of a value without nodes. -/
theorem JSafe.extractString {n : Nat} {name : Str} :
    JSafe n (fun _ => True) (extract (Object.extractString name)) :=
  JSafe.extractWith fun _ _ _ _ => trivial

theorem JSafe.extractBool {n : Nat} {name : Str} :
    JSafe n (fun _ => True) (extract (Object.extractBool name)) :=
  JSafe.extractWith fun _ _ _ _ => trivial

theorem JSafe.extractBoolOpt {n : Nat} {name : Str} :
    JSafe n (fun _ => True) (extract (Object.extractBoolOpt name)) :=
  JSafe.extractWith fun _ _ _ _ => trivial

theorem JSafe.extractObject {n : Nat} {name : Str} :
    JSafe n (fun o => depthFields o < n) (extract (Object.extractObject name)) :=
  JSafe.extractWith fun v a hv ha => by
    cases v <;> cases ha
    simp only [depth] at hv
    omega

theorem JSafe.extractObjectOpt {n : Nat} {name : Str} :
    JSafe n (fun r => ∀ o, r = some o → depthFields o < n)
      (extract (Object.extractObjectOpt name)) :=
  JSafe.extractWith fun v a hv ha o ho => by
    subst ho
    cases v <;> cases ha
    simp only [depth] at hv
    omega

theorem JSafe.extractArray {n : Nat} {name : Str} :
    JSafe n (fun xs => ∀ x ∈ xs, depth x < n) (extract (Object.extractArray name)) :=
  JSafe.extractWith fun v a hv ha x hx => by
    cases v <;> cases ha
    simp only [depth] at hv
    have := depth_mem a x hx
    omega

theorem intoObject_depth {n : Nat} {v : Json} (hv : depth v < n) :
    Safe (fun o => depthFields o < n) (ofJson v.intoObject) :=
  Safe.ofJson fun a ha => by
    cases v <;> cases ha
    simp only [depth] at hv
    omega

theorem intoObjectOpt_depth {n : Nat} {v : Json} (hv : depth v < n) :
    Safe (fun r => ∀ o, r = some o → depthFields o < n) (ofJson v.intoObjectOpt) :=
  Safe.ofJson fun a ha o ho => by
    subst ho
    cases v <;> cases ha
    simp only [depth] at hv
    omega

theorem JSafe.extractObjects {n : Nat} {name : Str} :
    JSafe n (fun os => ∀ o ∈ os, depthFields o < n) (extractObjects name) :=
  JSafe.extractArray.bind fun xs hxs => JSafe.lift (Safe.mapList xs hxs fun _ => intoObject_depth)

theorem tag_safe (o : Object) : Safe (fun _ => True) (tag o) :=
  Safe.bind (P := fun _ => True) (Safe.ofJson fun _ _ => trivial) fun s _ => by
    cases Tag.fromStr s <;> exact trivial

/-! ### The conversion -/

/-- A tree without locations. -/
abbrev Clean {c : Cat} (x : Ast c) : Prop := x.untrack = x

theorem clean_ofList {c : Cat} : (xs : List (Ast c)) → (∀ x ∈ xs, Clean x) → Clean (Ast.ofList xs)
  | [], _ => rfl
  | x :: xs, h => by
    show Ast.cons (Ast.untrack x) (Ast.untrack (Ast.ofList xs)) = _
    rw [h x (List.mem_cons_self ..), clean_ofList xs fun y hy => h y (List.mem_cons_of_mem _ hy)]
    rfl

theorem clean_ofOption {c : Cat} : (x : Option (Ast c)) → (∀ y, x = some y → Clean y) →
    Clean (Ast.ofOption x)
  | none, _ => rfl
  | some y, h => by
    show Ast.some (Ast.untrack y) = _
    rw [h y rfl]
    rfl

/-- An identifier without location. -/
abbrev CleanId (i : Id) : Prop := i.untrack = i

theorem intoId_safe (o : Object) : Safe CleanId (intoId o) :=
  (tag_safe o).bind fun t _ => by
    show Safe _ (if _ then _ else _)
    split
    · exact trivial
    · exact Safe.bind (P := fun _ => True) (Safe.ofJson fun _ _ => trivial) fun _ _ => rfl

theorem intoPatt_safe (o : Object) : Safe Clean (intoPatt o) :=
  (intoId_safe o).map fun i (hi : i.untrack = i) => by
    show Ast.pSimple (Ast.ident i.untrack) = _
    rw [hi]

theorem intoRegExp_safe {n : Nat} : JSafe n Clean intoRegExp :=
  JSafe.extractObject.bind fun o (ho : depthFields o < n) => JSafe.lift (JSafe.run (n := n)
    (JSafe.extractString.bind fun _ _ => JSafe.extractString.bind fun _ _ =>
      JSafe.pure (Q := Clean) rfl)
    (Nat.le_of_lt ho))

theorem intoLit_safe (o : Object) : Safe Clean (intoLit o) := by
  refine JSafe.run (n := depthFields o) ?_ (Nat.le_refl _)
  refine JSafe.extractField.bind fun json _ => JSafe.self.bind fun o' _ => ?_
  cases json with
  | null =>
    refine JSafe.ite (fun _ => JSafe.pure rfl) fun _ => intoRegExp_safe
  | bool b => cases b <;> exact JSafe.pure rfl
  | i64 i => exact JSafe.pure rfl
  | u64 i => exact JSafe.pure rfl
  | f64 i => exact JSafe.pure rfl
  | string i => exact JSafe.pure rfl
  | array i => exact JSafe.lift trivial
  | object i => exact intoRegExp_safe

theorem intoPropKey_safe (o : Object) : Safe (fun k : PropKey => k.untrack = k) (intoPropKey o) :=
  (tag_safe o).bind fun t _ => by
    show Safe _ (if _ then _ else _)
    split
    · exact (intoId_safe o).bind fun _ _ => rfl
    · refine (intoLit_safe o).bind fun e _ => ?_
      split
      · exact rfl
      · exact rfl
      · exact trivial

/-- What is assumed of the recursive functions, on objects of depth less than `n`. -/
structure RecSafe (n : Nat) (r : Rec) : Prop where
  expr : ∀ o, depthFields o < n → Safe Clean (r.expr o)
  item : ∀ o b, depthFields o < n →
    Safe (fun i => Clean i ∧ (b = false → ∃ s, i = .siStmt s)) (r.item o b)

section

variable {n : Nat} {r : Rec}

theorem extractId_safe {name : Str} : JSafe n CleanId (extractId name) :=
  JSafe.extractObject.bind fun o _ => JSafe.lift (intoId_safe o)

theorem extractIdOpt_safe {name : Str} :
    JSafe n (fun i => ∀ j, i = some j → CleanId j) (extractIdOpt name) :=
  JSafe.extractObjectOpt.bind fun o _ => by
    cases o with
    | none => exact JSafe.pure fun _ h => by cases h
    | some o =>
      exact (JSafe.lift (intoId_safe o)).bind fun i hi => JSafe.pure fun j hj => by
        cases hj; exact hi

theorem extractPatt_safe {name : Str} : JSafe n Clean (extractPatt name) :=
  JSafe.extractObject.bind fun o _ => JSafe.lift (intoPatt_safe o)

theorem extractExpr_safe (hr : RecSafe n r) {name : Str} : JSafe n Clean (extractExpr r name) :=
  JSafe.extractObject.bind fun o ho => JSafe.lift (hr.expr o ho)

theorem extractExprOpt_safe (hr : RecSafe n r) {name : Str} :
    JSafe n (fun i => ∀ j, i = some j → Clean j) (extractExprOpt r name) :=
  JSafe.extractObjectOpt.bind fun o ho => by
    cases o with
    | none => exact JSafe.pure fun _ h => by cases h
    | some o =>
      exact (JSafe.lift (hr.expr o (ho o rfl))).bind fun i hi => JSafe.pure fun j hj => by
        cases hj; exact hi

theorem extractAssignTarget_safe (hr : RecSafe n r) {name : Str} :
    JSafe n Clean (extractAssignTarget r name) :=
  (extractExpr_safe hr).bind fun e he => by
    cases h : Cover.intoAssignTarget e with
    | ok t => exact JSafe.pure (Cover.intoAssignTarget_clean he h)
    | error _ => exact JSafe.lift trivial

theorem extractAssignPatt_safe (hr : RecSafe n r) {name : Str} :
    JSafe n Clean (extractAssignPatt r name) :=
  (extractExpr_safe hr).bind fun e he => by
    cases h : Cover.intoAssignPatt e with
    | ok t => exact JSafe.pure (Cover.intoAssignPatt_clean he h)
    | error _ => exact JSafe.lift trivial

theorem intoStmt_safe (hr : RecSafe n r) {o : Object} (ho : depthFields o < n) :
    Safe Clean (intoStmt r o) :=
  (hr.item o false ho).bind fun i hi => by
    obtain ⟨s, rfl⟩ := hi.2 rfl
    have := hi.1
    injection this

theorem extractStmt_safe (hr : RecSafe n r) {name : Str} : JSafe n Clean (extractStmt r name) :=
  JSafe.extractObject.bind fun _ ho => JSafe.lift (intoStmt_safe hr ho)

theorem extractStmtOpt_safe (hr : RecSafe n r) {name : Str} :
    JSafe n (fun i => ∀ j, i = some j → Clean j) (extractStmtOpt r name) :=
  JSafe.extractObjectOpt.bind fun o ho => by
    cases o with
    | none => exact JSafe.pure fun _ h => by cases h
    | some o =>
      exact (JSafe.lift (intoStmt_safe hr (ho o rfl))).bind fun i hi => JSafe.pure fun j hj => by
        cases hj; exact hi

theorem intoExprListItem_safe (hr : RecSafe n r) {o : Object} (ho : depthFields o < n) :
    Safe Clean (intoExprListItem r o) :=
  (tag_safe o).bind fun t _ => by
    split
    · refine (JSafe.run (extractExpr_safe hr) (Nat.le_of_lt ho)).bind fun e he => ?_
      show Ast.iSpread none (Ast.untrack e) = _
      rw [he]
    · refine (hr.expr o ho).map fun e he => ?_
      show Ast.iExpr (Ast.untrack e) = _
      rw [he]

theorem mapObjects {c : Cat} {name : Str} {f : Object → Result (Ast c)}
    (hf : ∀ o, depthFields o < n → Safe Clean (f o)) : JSafe n Clean (do
      let objs ← extractObjects name
      return Ast.ofList (← lift (mapList f objs))) :=
  JSafe.extractObjects.bind fun os hos =>
    (JSafe.lift (Safe.mapList os hos hf)).bind fun xs hxs => JSafe.pure (clean_ofList xs hxs)

theorem mapObjects' {c : Cat} {name : Str} {f : Object → Result (Ast c)}
    (hf : ∀ o, depthFields o < n → Safe Clean (f o)) :
    JSafe n (fun xs : List (Ast c) => ∀ x ∈ xs, Clean x) (do
      let objs ← extractObjects name
      lift (mapList f objs)) :=
  JSafe.extractObjects.bind fun os hos => JSafe.lift (Safe.mapList os hos hf)

theorem extractExprList_safe (hr : RecSafe n r) {name : Str} :
    JSafe n Clean (extractExprList r name) := mapObjects fun _ => intoExprListItem_safe hr

theorem extractExprs_safe (hr : RecSafe n r) {name : Str} :
    JSafe n Clean (extractExprs r name) := mapObjects hr.expr

theorem extractExprOptList_safe (hr : RecSafe n r) {name : Str} :
    JSafe n Clean (extractExprOptList r name) :=
  JSafe.extractArray.bind fun os hos =>
    (JSafe.lift (Safe.mapList (Q := Clean) os hos fun v hv =>
      (intoObjectOpt_depth hv).bind fun o ho => by
        cases o with
        | none => exact rfl
        | some o =>
          refine (intoExprListItem_safe hr (ho o rfl)).map fun e he => ?_
          show Ast.some (Ast.untrack e) = _
          rw [he])).bind fun xs hxs => JSafe.pure (clean_ofList xs hxs)

theorem extractStmtList_safe (hr : RecSafe n r) {name : Str} :
    JSafe n (fun xs => ∀ x ∈ xs, Clean x) (extractStmtList r name) :=
  mapObjects' fun o ho => (hr.item o true ho).mono fun _ h => h.1

theorem intoBlock_safe (hr : RecSafe n r) {o : Object} (ho : depthFields o ≤ n) :
    Safe Clean (intoBlock r o) :=
  (tag_safe o).bind fun t _ => by
    split
    · refine (JSafe.run (extractStmtList_safe hr) ho).bind fun xs hxs => ?_
      show Ast.block none (Ast.untrack _) = _
      rw [clean_ofList xs hxs]
    · exact trivial

theorem extractBlock_safe (hr : RecSafe n r) {name : Str} : JSafe n Clean (extractBlock r name) :=
  JSafe.extractObject.bind fun _ ho => JSafe.lift (intoBlock_safe hr (Nat.le_of_lt ho))

theorem splitRestParam_safe {os : List Object} (hos : ∀ o ∈ os, depthFields o < n) :
    Safe (fun p => Clean p.2) (splitRestParam os) := by
  unfold splitRestParam
  split
  · rename_i last hl
    have hd := hos last (List.mem_of_getLast? hl)
    refine (tag_safe last).bind fun t _ => ?_
    split
    · refine (JSafe.run (n := n) extractPatt_safe (Nat.le_of_lt hd)).bind fun p hp => ?_
      show Ast.some (Ast.restPatt none (Ast.untrack p)) = _
      rw [hp]
    · exact rfl
  · exact rfl

theorem extractParams_safe {name : Str} :
    JSafe n (fun p => (∀ x ∈ p.1, Clean x) ∧ Clean p.2) (extractParams name) :=
  JSafe.extractObjects.bind fun _ hos =>
    (JSafe.lift (splitRestParam_safe hos)).bind fun s hs =>
      (JSafe.lift (Safe.mapList (P := fun _ => True) s.1 (fun _ _ => trivial)
        fun o _ => intoPatt_safe o)).bind fun _ hps => JSafe.pure ⟨hps, hs⟩

theorem splitPrefix_append {α : Type} (p : α → Bool) (v : List α) :
    (splitPrefix p v).1 ++ (splitPrefix p v).2 = v := by
  unfold splitPrefix
  split
  · exact List.take_append_drop _ _
  · exact List.append_nil _

theorem body_untrack {c : Cat} (dirs : List Dir) (items : Ast (.list c)) :
    (Ast.body none dirs items).untrack = .body none (dirs.map Dir.untrack) items.untrack := rfl

theorem toDirective_clean {i : StmtListItem} {d : Dir} (hi : Clean i) (h : toDirective i = some d) :
    d.untrack = d := by
  unfold toDirective at h
  split at h
  · cases h
    injection hi with hi
    injection hi with h1 h2 h3
    show Dir.mk none _ _ = _
    rw [h3, h1]
  · cases h

theorem extractScript_safe (hr : RecSafe n r) {name : Str} :
    JSafe n Clean (extractScript r name) :=
  (extractStmtList_safe hr).bind fun xs hxs => by
    refine JSafe.pure ?_
    have hsplit := splitPrefix_append isDirective xs
    have h1 : ∀ x ∈ (splitPrefix isDirective xs).1, Clean x := fun x hx =>
      hxs x (by rw [← hsplit]; exact List.mem_append_left _ hx)
    have h2 : ∀ x ∈ (splitPrefix isDirective xs).2, Clean x := fun x hx =>
      hxs x (by rw [← hsplit]; exact List.mem_append_right _ hx)
    show Ast.untrack (Ast.body none ((splitPrefix isDirective xs).1.filterMap toDirective)
      (Ast.ofList (splitPrefix isDirective xs).2)) = _
    rw [body_untrack, clean_ofList _ h2]
    congr 1
    refine (List.map_congr_left fun d hd => ?_).trans (List.map_id _)
    obtain ⟨i, hi, hd⟩ := List.mem_filterMap.mp hd
    exact toDirective_clean (h1 i hi) hd

theorem two {α β γ : Type} (f : α → β → γ) {a a' : α} {b b' : β} (ha : a' = a) (hb : b' = b) :
    f a' b' = f a b := by rw [ha, hb]

theorem three {α β γ δ : Type} (f : α → β → γ → δ) {a a' : α} {b b' : β} {c c' : γ} (ha : a' = a)
    (hb : b' = b) (hc : c' = c) : f a' b' c' = f a b c := by rw [ha, hb, hc]

theorem four {α β γ δ ε : Type} (f : α → β → γ → δ → ε) {a a' : α} {b b' : β} {c c' : γ}
    {d d' : δ} (ha : a' = a) (hb : b' = b) (hc : c' = c) (hd : d' = d) :
    f a' b' c' d' = f a b c d := by rw [ha, hb, hc, hd]

/-- The parts of a function are untracked. -/
def CleanParts (f : FunParts) : Prop :=
  (∀ p ∈ f.params, Clean p) ∧ Clean f.rest ∧ Clean f.body

theorem intoFunParts_safe (hr : RecSafe n r) {o : Object} (ho : depthFields o ≤ n) :
    Safe CleanParts (intoFunParts r o) :=
  JSafe.run (n := n) (JSafe.extractBoolOpt.bind fun _ _ => extractParams_safe.bind fun _ hps =>
    JSafe.extractObject.bind fun _ hob => (JSafe.lift (JSafe.run (extractScript_safe hr)
      (Nat.le_of_lt hob))).bind fun _ hb => JSafe.pure (Q := CleanParts) ⟨hps.1, hps.2, hb⟩) ho

theorem clean_func {c : Cat} {id : Ast c} (hid : Clean id) {f : FunParts} (hf : CleanParts f) :
    Clean (.func none id (.params none (Ast.ofList f.params) f.rest) f.body f.generator) := by
  show Ast.func none (Ast.untrack id) (.params none (Ast.untrack _) (Ast.untrack _))
    (Ast.untrack _) _ = _
  rw [hid, clean_ofList _ hf.1, hf.2.1, hf.2.2]

theorem intoFun_safe (hr : RecSafe n r) {c : Cat} {id : Ast c} (hid : Clean id) {o : Object}
    (ho : depthFields o ≤ n) : Safe Clean (intoFun r id o) :=
  (intoFunParts_safe hr ho).map fun _ hf => clean_func hid hf

theorem clean_prop {k : PropKey} (hk : k.untrack = k) {v : Ast .propVal} (hv : Clean v) :
    Clean (.prRegular none k v) := by
  show Ast.prRegular none k.untrack (Ast.untrack v) = _
  rw [hk, hv]

theorem intoProp_safe (hr : RecSafe n r) {o : Object} (ho : depthFields o ≤ n) :
    Safe Clean (intoProp r o) := by
  refine JSafe.run (n := n) ?_ ho
  refine JSafe.extractObject.bind fun key _ => JSafe.extractObject.bind fun val hval =>
    JSafe.extractString.bind fun kind _ => JSafe.ite (fun _ => ?_) fun _ => JSafe.ite (fun _ => ?_)
    fun _ => JSafe.ite (fun _ => ?_) fun _ => ?_
  · refine JSafe.extractBool.bind fun m _ => JSafe.ite (fun _ => ?_) fun _ =>
      JSafe.extractBool.bind fun s _ => JSafe.ite (fun _ => ?_) fun _ => ?_
    · refine (JSafe.lift (intoPropKey_safe key)).bind fun k hk => (JSafe.lift
        (intoFun_safe hr (c := .propKey) (id := .key k) (congrArg Ast.key hk)
          (Nat.le_of_lt hval))).bind fun f hf => JSafe.pure (congrArg Ast.prMethod hf)
    · exact (JSafe.lift (intoId_safe key)).bind fun i hi =>
        JSafe.pure (congrArg Ast.prShorthand hi)
    · exact (JSafe.lift (hr.expr val hval)).bind fun v hv =>
        (JSafe.lift (intoPropKey_safe key)).bind fun k hk =>
          JSafe.pure (clean_prop hk (congrArg Ast.vInit hv))
  · refine (JSafe.lift (JSafe.run (n := n) JSafe.extractObject (Nat.le_of_lt hval))).bind
      fun body hb => (JSafe.lift (JSafe.run (extractScript_safe hr) (Nat.le_of_lt hb))).bind
      fun b hb => (JSafe.lift (intoPropKey_safe key)).bind fun k hk =>
        JSafe.pure (clean_prop hk (congrArg (Ast.vGet none) hb))
  · refine (JSafe.lift (intoFunParts_safe hr (Nat.le_of_lt hval))).bind fun f hf =>
      JSafe.ite (fun _ => JSafe.lift trivial) fun hl => ?_
    split
    · rename_i p ps hp
      have := hf.1 p (by rw [hp]; exact List.mem_cons_self ..)
      exact (JSafe.lift (intoPropKey_safe key)).bind fun k hk =>
        JSafe.pure (clean_prop hk (two (Ast.vSet none) this hf.2.2))
    · rename_i hp
      rw [hp] at hl
      exact absurd (fun h => by cases h) hl
  · exact JSafe.lift trivial

theorem extractPropList_safe (hr : RecSafe n r) {name : Str} :
    JSafe n Clean (extractPropList r name) :=
  mapObjects fun _ ho => intoProp_safe hr (Nat.le_of_lt ho)

theorem clean_dtor {lhs : PattId} (hl : Clean lhs) {init : Option Expr}
    (hi : ∀ e, init = some e → Clean e) {d : Ast .dtor} (h : dtorFromInitOpt lhs init = some d) :
    Clean d := by
  cases lhs with
  | pSimple t =>
    cases t with
    | ident i =>
      cases h
      injection hl with _ hl
      injection hl with hl
      have hloc : i.location = none := by rw [← hl]; rfl
      show Ast.dtSimple none i.untrack (Ast.untrack _) = _
      rw [hl, clean_ofOption _ hi, hloc]
  | pCompound p =>
    cases init with
    | none => cases h
    | some rhs =>
      cases h
      injection hl with _ hl
      have hloc : p.loc = none := by rw [← hl]; cases p <;> rfl
      show Ast.dtCompound none (Ast.untrack p) (Ast.untrack rhs) =
        Ast.dtCompound (spanLoc p.loc rhs.loc) p rhs
      rw [hl, hi rhs rfl, hloc]; rfl

theorem intoDtor_safe (hr : RecSafe n r) {o : Object} (ho : depthFields o ≤ n) :
    Safe Clean (intoDtor r o) := by
  refine JSafe.run (n := n) ?_ ho
  refine extractPatt_safe.bind fun lhs hl => (extractExprOpt_safe hr).bind fun init hi => ?_
  split
  · exact JSafe.pure (clean_dtor hl hi ‹_›)
  · exact JSafe.lift trivial

theorem extractDtorList_safe (hr : RecSafe n r) {name : Str} :
    JSafe n (fun xs => ∀ x ∈ xs, Clean x) (extractDtorList r name) :=
  mapObjects' fun _ ho => intoDtor_safe hr (Nat.le_of_lt ho)

theorem clean_loc {c : Cat} {p : Ast (.patt c)} (h : ∀ t : Ast c, t.untrack.loc = none)
    (hp : Clean p) : p.loc = none := by
  rw [← hp]
  cases p with
  | pSimple t => exact h t
  | pCompound p => cases p <;> rfl

theorem intoConstDtor_safe {d : Ast .dtor} (hd : Clean d) : Safe Clean (intoConstDtor d) := by
  cases d with
  | dtSimple l i init =>
    injection hd with h1 h2 h3
    cases init with
    | none => exact trivial
    | some e =>
      injection h3 with _ h3
      have : i.location = none := by rw [← h2]; rfl
      show Ast.constDtor none (.pSimple (.ident i.untrack)) (Ast.untrack e) =
        Ast.constDtor (spanLoc i.location e.loc) _ _
      rw [h2, h3, this]; rfl
  | dtCompound l p e =>
    injection hd with h1 h2 h3
    have : p.loc = none := by rw [← h2]; cases p <;> rfl
    show Ast.constDtor none (.pCompound (Ast.untrack p)) (Ast.untrack e) =
      Ast.constDtor (spanLoc p.loc e.loc) _ _
    rw [h2, h3, this]; rfl

theorem intoConst_safe {ds : List (Ast .dtor)} (h : ∀ d ∈ ds, Clean d) :
    Safe (fun xs => ∀ x ∈ xs, Clean x) (intoConst ds) :=
  Safe.mapList ds h fun _ => intoConstDtor_safe

theorem parseOp_safe {T : Type} {f : Str → Option T} {e s : Str} :
    Safe (fun op => op.untrack = op) (parseOp f e s) := by
  unfold parseOp
  split
  · exact rfl
  · exact trivial

theorem intoExpr_safe (hr : RecSafe n r) {o : Object} (ho : depthFields o ≤ n) :
    Safe Clean (intoExpr r o) := by
  refine (tag_safe o).bind fun t _ => ?_
  cases t with
  | identifier => exact (intoId_safe o).map fun i hi => congrArg Ast.eId hi
  | literal => exact intoLit_safe o
  | binaryExpression =>
    refine JSafe.run (n := n) ?_ ho
    exact JSafe.extractString.bind fun _ _ => (JSafe.lift parseOp_safe).bind fun op hop =>
      (extractExpr_safe hr).bind fun a ha => (extractExpr_safe hr).bind fun b hb =>
        JSafe.pure (three (Ast.eBinop none) hop ha hb)
  | assignmentExpression =>
    refine JSafe.run (n := n) ?_ ho
    refine JSafe.extractString.bind fun _ _ => (extractExpr_safe hr).bind fun b hb =>
      JSafe.ite (fun _ => ?_) fun _ => ?_
    · exact (extractAssignPatt_safe hr).bind fun p hp =>
        JSafe.pure (two (Ast.eAssign none) hp hb)
    · exact (JSafe.lift parseOp_safe).bind fun op hop => (extractAssignTarget_safe hr).bind
        fun p hp => JSafe.pure (three (Ast.eBinAssign none) hop hp hb)
  | logicalExpression =>
    refine JSafe.run (n := n) ?_ ho
    exact JSafe.extractString.bind fun _ _ => (JSafe.lift parseOp_safe).bind fun op hop =>
      (extractExpr_safe hr).bind fun a ha => (extractExpr_safe hr).bind fun b hb =>
        JSafe.pure (three (Ast.eLogop none) hop ha hb)
  | unaryExpression =>
    refine JSafe.run (n := n) ?_ ho
    exact JSafe.extractString.bind fun _ _ => (JSafe.lift parseOp_safe).bind fun op hop =>
      (extractExpr_safe hr).bind fun a ha =>
        JSafe.pure (two (Ast.eUnop none) hop ha)
  | updateExpression =>
    refine JSafe.run (n := n) ?_ ho
    refine JSafe.extractString.bind fun _ _ => (extractAssignTarget_safe hr).bind fun t ht =>
      JSafe.extractBool.bind fun _ _ => JSafe.ite (fun _ => JSafe.ite (fun _ => ?_) fun _ => ?_)
      fun _ => JSafe.ite (fun _ => JSafe.ite (fun _ => ?_) fun _ => ?_) fun _ => ?_
    · exact JSafe.pure (congrArg (Ast.ePreInc none) ht)
    · exact JSafe.pure (congrArg (Ast.ePostInc none) ht)
    · exact JSafe.pure (congrArg (Ast.ePreDec none) ht)
    · exact JSafe.pure (congrArg (Ast.ePostDec none) ht)
    · exact JSafe.lift trivial
  | memberExpression =>
    refine JSafe.run (n := n) ?_ ho
    refine (extractExpr_safe hr).bind fun a ha => JSafe.extractBool.bind fun _ _ =>
      JSafe.ite (fun _ => ?_) fun _ => ?_
    · exact (extractExpr_safe hr).bind fun b hb =>
        JSafe.pure (two (Ast.eBrack none) ha hb)
    · exact extractId_safe.bind fun i _ =>
        JSafe.pure (two (Ast.eDot none) ha rfl)
  | callExpression =>
    refine JSafe.run (n := n) ?_ ho
    exact (extractExpr_safe hr).bind fun a ha => (extractExprList_safe hr).bind fun b hb =>
      JSafe.pure (two (Ast.eCall none) ha hb)
  | newExpression =>
    refine JSafe.run (n := n) ?_ ho
    exact (extractExpr_safe hr).bind fun a ha => (extractExprList_safe hr).bind fun b hb =>
      JSafe.pure (two (Ast.eNew none) ha (congrArg Ast.some hb))
  | arrayExpression =>
    refine JSafe.run (n := n) ?_ ho
    exact (extractExprOptList_safe hr).bind fun a ha => JSafe.pure (congrArg (Ast.eArr none) ha)
  | functionExpression =>
    refine JSafe.run (n := n) ?_ ho
    refine extractIdOpt_safe.bind fun id hid => JSafe.self.bind fun o' ho' =>
      (JSafe.lift (intoFun_safe hr ?_ ho')).bind fun f hf => JSafe.pure (congrArg Ast.eFun hf)
    cases id with
    | none => exact rfl
    | some i => exact congrArg (fun i => Ast.some (Ast.ident i)) (hid i rfl)
  | sequenceExpression =>
    refine JSafe.run (n := n) ?_ ho
    exact (extractExprs_safe hr).bind fun a ha => JSafe.pure (congrArg (Ast.eSeq none) ha)
  | objectExpression =>
    refine JSafe.run (n := n) ?_ ho
    exact (extractPropList_safe hr).bind fun a ha => JSafe.pure (congrArg (Ast.eObj none) ha)
  | conditionalExpression =>
    refine JSafe.run (n := n) ?_ ho
    exact (extractExpr_safe hr).bind fun a ha => (extractExpr_safe hr).bind fun b hb =>
      (extractExpr_safe hr).bind fun c hc =>
        JSafe.pure (three (Ast.eCond none) ha hb hc)
  | thisExpression => exact rfl
  | metaProperty =>
    refine JSafe.run (n := n) ?_ ho
    exact extractId_safe.bind fun _ _ => extractId_safe.bind fun _ _ =>
      JSafe.ite (fun _ => JSafe.pure rfl) fun _ => JSafe.lift trivial
  | spreadElement | restElement | functionDeclaration | variableDeclaration | emptyStatement
  | expressionStatement | ifStatement | doWhileStatement | whileStatement | forStatement
  | forInStatement | forOfStatement | blockStatement | returnStatement | labeledStatement
  | breakStatement | continueStatement | switchStatement | withStatement | throwStatement
  | debuggerStatement | tryStatement => exact trivial

theorem intoForHead_safe (hr : RecSafe n r) {o : Object} (ho : depthFields o < n) :
    Safe Clean (intoForHead r o) := by
  refine (tag_safe o).bind fun t _ => ?_
  split
  · refine JSafe.run (n := n) ?_ (Nat.le_of_lt ho)
    refine (extractDtorList_safe hr).bind fun ds hds => JSafe.extractString.bind fun _ _ =>
      JSafe.ite (fun _ => ?_) fun _ => JSafe.ite (fun _ => ?_) fun _ => JSafe.ite (fun _ => ?_)
      fun _ => ?_
    · exact JSafe.pure (congrArg (Ast.fhVar none) (clean_ofList ds hds))
    · exact JSafe.pure (congrArg (Ast.fhLet none) (clean_ofList ds hds))
    · exact (JSafe.lift (intoConst_safe hds)).bind fun cs hcs =>
        JSafe.pure (congrArg (Ast.fhConst none) (clean_ofList cs hcs))
    · exact JSafe.lift trivial
  · exact (hr.expr o ho).map fun e he => congrArg (Ast.fhExpr none) he

theorem forInHead_safe {kind : Str} {lhs : PattId} (hl : Clean lhs) {init : Option Expr}
    (hi : ∀ e, init = some e → Clean e) : Safe Clean (forInHead kind lhs init) := by
  cases init with
  | some e =>
    cases lhs with
    | pSimple t =>
      cases t with
      | ident i =>
        injection hl with _ hl
        injection hl with hl
        show Safe _ (if _ then _ else _)
        split
        · exact two (Ast.fiVarInit none) hl (hi e rfl)
        · exact trivial
    | pCompound p => exact trivial
  | none =>
    have : forInHead kind lhs none = if kind = c!"var" then .ok (.fiVar none lhs)
      else if kind = c!"let" then .ok (.fiLet none lhs)
      else if kind = c!"const" then .ok (.fiConst none lhs)
      else stringError c!"var or let" kind := by
      cases lhs with
      | pSimple t => cases t; rfl
      | pCompound p => rfl
    rw [this]
    split
    · exact congrArg (Ast.fiVar none) hl
    · split
      · exact congrArg (Ast.fiLet none) hl
      · split
        · exact congrArg (Ast.fiConst none) hl
        · exact trivial

theorem intoForInHead_safe (hr : RecSafe n r) {o : Object} (ho : depthFields o < n) :
    Safe Clean (intoForInHead r o) := by
  refine (tag_safe o).bind fun t _ => ?_
  split
  · refine JSafe.run (n := n) ?_ (Nat.le_of_lt ho)
    refine JSafe.extractArray.bind fun ds hds => JSafe.extractString.bind fun _ _ => ?_
    split
    · rename_i d
      refine (JSafe.lift (intoObject_depth (hds d (List.mem_cons_self ..)))).bind fun obj hobj =>
        JSafe.lift (JSafe.run (n := n) ?_ (Nat.le_of_lt hobj))
      exact extractPatt_safe.bind fun lhs hl => (extractExprOpt_safe hr).bind fun init hi =>
        JSafe.lift (forInHead_safe hl hi)
    · exact JSafe.lift trivial
  · refine (hr.expr o ho).bind fun e he => ?_
    split
    · exact congrArg Ast.fiPatt (Cover.intoAssignPatt_clean he ‹_›)
    · exact trivial

theorem intoForOfHead_safe (hr : RecSafe n r) {o : Object} (ho : depthFields o < n) :
    Safe Clean (intoForOfHead r o) := by
  refine (tag_safe o).bind fun t _ => ?_
  split
  · refine JSafe.run (n := n) ?_ (Nat.le_of_lt ho)
    refine JSafe.extractArray.bind fun ds hds => JSafe.extractString.bind fun _ _ => ?_
    split
    · rename_i d
      refine (JSafe.lift (intoObject_depth (hds d (List.mem_cons_self ..)))).bind fun obj hobj =>
        (JSafe.lift (JSafe.run (n := n) extractPatt_safe (Nat.le_of_lt hobj))).bind fun p hp => ?_
      refine JSafe.ite (fun _ => ?_) fun _ => JSafe.ite (fun _ => ?_) fun _ =>
        JSafe.ite (fun _ => ?_) fun _ => ?_
      · exact JSafe.pure (congrArg (Ast.foVar none) hp)
      · exact JSafe.pure (congrArg (Ast.foLet none) hp)
      · exact JSafe.pure (congrArg (Ast.foConst none) hp)
      · exact JSafe.lift trivial
    · exact JSafe.lift trivial
  · refine (hr.expr o ho).bind fun e he => ?_
    split
    · exact congrArg Ast.foPatt (Cover.intoAssignPatt_clean he ‹_›)
    · exact trivial

theorem intoCase_safe (hr : RecSafe n r) {o : Object} (ho : depthFields o ≤ n) :
    Safe Clean (intoCase r o) := by
  refine JSafe.run (n := n) ?_ ho
  exact (extractExprOpt_safe hr).bind fun t ht => (extractStmtList_safe hr).bind
    fun b hb => JSafe.pure (two (Ast.caseClause none) (clean_ofOption t ht) (clean_ofList b hb))

theorem extractCaseList_safe (hr : RecSafe n r) {name : Str} :
    JSafe n Clean (extractCaseList r name) :=
  mapObjects fun _ ho => intoCase_safe hr (Nat.le_of_lt ho)

theorem intoCatch_safe (hr : RecSafe n r) {o : Object} (ho : depthFields o ≤ n) :
    Safe Clean (intoCatch r o) := by
  refine JSafe.run (n := n) ?_ ho
  exact extractPatt_safe.bind fun t ht => (extractBlock_safe hr).bind
    fun b hb => JSafe.pure (two (Ast.catchClause none) ht hb)

/-- An optional node in a field. -/
theorem optObject {c : Cat} {name : Str} {f : Object → Result (Ast c)}
    (hf : ∀ o, depthFields o < n → Safe Clean (f o)) :
    JSafe n (fun x : Option (Ast c) => ∀ y, x = some y → Clean y) (do
      match ← extract (Object.extractObjectOpt name) with
      | some o => return some (← lift (f o))
      | none => return none) :=
  JSafe.extractObjectOpt.bind fun o ho => by
    cases o with
    | none => exact JSafe.pure fun _ h => by cases h
    | some o =>
      exact (JSafe.lift (hf o (ho o rfl))).bind fun i hi => JSafe.pure fun j hj => by
        cases hj; exact hi

theorem extractCatchOpt_safe (hr : RecSafe n r) {name : Str} :
    JSafe n (fun x => ∀ y, x = some y → Clean y) (extractCatchOpt r name) :=
  optObject fun _ ho => intoCatch_safe hr (Nat.le_of_lt ho)

theorem extractForHeadOpt_safe (hr : RecSafe n r) {name : Str} :
    JSafe n (fun x => ∀ y, x = some y → Clean y) (extractForHeadOpt r name) :=
  optObject fun _ ho => intoForHead_safe hr ho

theorem extractBlockOpt_safe (hr : RecSafe n r) {name : Str} :
    JSafe n (fun x => ∀ y, x = some y → Clean y) (extractBlockOpt r name) :=
  optObject fun _ ho => intoBlock_safe hr (Nat.le_of_lt ho)

/-- What is proved of the conversion of a statement or declaration. -/
def CleanItem (b : Bool) (i : StmtListItem) : Prop := Clean i ∧ (b = false → ∃ s, i = .siStmt s)

theorem stmt_safe {b : Bool} {x : J Stmt} (hx : JSafe n Clean x) {o : Object}
    (ho : depthFields o ≤ n) : Safe (CleanItem b) ((J.run x o).map .siStmt) :=
  (JSafe.run hx ho).map fun s hs => ⟨congrArg Ast.siStmt hs, fun _ => ⟨s, rfl⟩⟩

theorem intoItem_safe (hr : RecSafe n r) {o : Object} (b : Bool) (ho : depthFields o ≤ n) :
    Safe (CleanItem b) (intoItem r o b) := by
  refine (tag_safe o).bind fun t _ => ?_
  cases t with
  | functionDeclaration =>
    show Safe _ (if _ then _ else _)
    split
    · exact trivial
    · rename_i hb
      refine JSafe.run (n := n) ?_ ho
      refine extractId_safe.bind fun id hid => JSafe.self.bind fun o' ho' =>
        (JSafe.lift (intoFun_safe hr (c := .id) (id := .ident id) (congrArg Ast.ident hid) ho')).bind
          fun f hf => JSafe.pure ⟨congrArg (fun f => Ast.siDecl (Ast.dFun f)) hf, fun h => ?_⟩
      rw [h] at hb; exact absurd rfl hb
  | variableDeclaration =>
    refine JSafe.run (n := n) ?_ ho
    refine (extractDtorList_safe hr).bind fun ds hds => JSafe.extractString.bind fun _ _ =>
      JSafe.ite (fun _ => ?_) fun _ => JSafe.ite (fun _ => JSafe.ite (fun _ => ?_) fun hb => ?_)
      fun _ => JSafe.ite (fun _ => JSafe.ite (fun _ => ?_) fun hb => ?_) fun _ => ?_
    · exact JSafe.pure ⟨congrArg (fun ds => Ast.siStmt (Ast.sVar none ds semi))
        (clean_ofList ds hds), fun _ => ⟨_, rfl⟩⟩
    · exact JSafe.lift trivial
    · refine JSafe.pure ⟨congrArg (fun ds => Ast.siDecl (Ast.dLet none ds semi))
        (clean_ofList ds hds), fun h => ?_⟩
      rw [h] at hb; exact absurd rfl hb
    · exact JSafe.lift trivial
    · refine (JSafe.lift (intoConst_safe hds)).bind fun cs hcs => JSafe.pure
        ⟨congrArg (fun ds => Ast.siDecl (Ast.dConst none ds semi)) (clean_ofList cs hcs), fun h => ?_⟩
      rw [h] at hb; exact absurd rfl hb
    · exact JSafe.lift trivial
  | emptyStatement => exact ⟨rfl, fun _ => ⟨_, rfl⟩⟩
  | expressionStatement =>
    refine stmt_safe ?_ ho
    exact (extractExpr_safe hr).bind fun e he =>
      JSafe.pure (congrArg (fun e => Ast.sExpr none e semi) he)
  | ifStatement =>
    refine stmt_safe ?_ ho
    exact (extractExpr_safe hr).bind fun e he => (extractStmt_safe hr).bind fun s hs =>
      (extractStmtOpt_safe hr).bind fun a ha =>
        JSafe.pure (three (Ast.sIf none) he hs (clean_ofOption a ha))
  | doWhileStatement =>
    refine stmt_safe ?_ ho
    exact (extractStmt_safe hr).bind fun s hs => (extractExpr_safe hr).bind fun e he =>
      JSafe.pure (three (Ast.sDoWhile none) hs he rfl)
  | whileStatement =>
    refine stmt_safe ?_ ho
    exact (extractExpr_safe hr).bind fun e he => (extractStmt_safe hr).bind fun s hs =>
      JSafe.pure (two (Ast.sWhile none) he hs)
  | forStatement =>
    refine stmt_safe ?_ ho
    exact (extractForHeadOpt_safe hr).bind fun h hh => (extractExprOpt_safe hr).bind
      fun t ht => (extractExprOpt_safe hr).bind fun u hu => (extractStmt_safe hr).bind fun s hs =>
      JSafe.pure (four (Ast.sFor none) (clean_ofOption h hh)
        (clean_ofOption t ht) (clean_ofOption u hu) hs)
  | forInStatement =>
    refine stmt_safe ?_ ho
    exact JSafe.extractObject.bind fun h hh => (JSafe.lift (intoForInHead_safe hr hh)).bind
      fun h hh => (extractExpr_safe hr).bind fun e he => (extractStmt_safe hr).bind fun s hs =>
      JSafe.pure (three (Ast.sForIn none) hh he hs)
  | forOfStatement =>
    refine stmt_safe ?_ ho
    exact JSafe.extractObject.bind fun h hh => (JSafe.lift (intoForOfHead_safe hr hh)).bind
      fun h hh => (extractExpr_safe hr).bind fun e he => (extractStmt_safe hr).bind fun s hs =>
      JSafe.pure (three (Ast.sForOf none) hh he hs)
  | blockStatement =>
    exact (intoBlock_safe hr ho).map fun b hb =>
      ⟨congrArg (fun b => Ast.siStmt (Ast.sBlock b)) hb, fun _ => ⟨_, rfl⟩⟩
  | returnStatement =>
    refine stmt_safe ?_ ho
    exact (extractExprOpt_safe hr).bind fun e he =>
      JSafe.pure (congrArg (fun e => Ast.sReturn none e semi) (clean_ofOption e he))
  | labeledStatement =>
    refine stmt_safe ?_ ho
    exact extractId_safe.bind fun i hi => (extractStmt_safe hr).bind fun s hs =>
      JSafe.pure (two (Ast.sLabel none) hi hs)
  | breakStatement =>
    refine stmt_safe (extractIdOpt_safe.bind fun i hi => JSafe.pure ?_) ho
    cases i with
    | none => exact rfl
    | some i => exact congrArg (fun i => Ast.sBreak none (some i) semi) (hi i rfl)
  | continueStatement =>
    refine stmt_safe (extractIdOpt_safe.bind fun i hi => JSafe.pure ?_) ho
    cases i with
    | none => exact rfl
    | some i => exact congrArg (fun i => Ast.sCont none (some i) semi) (hi i rfl)
  | switchStatement =>
    refine stmt_safe ?_ ho
    exact (extractExpr_safe hr).bind fun e he => (extractCaseList_safe hr).bind fun s hs =>
      JSafe.pure (two (Ast.sSwitch none) he hs)
  | withStatement =>
    refine stmt_safe ?_ ho
    exact (extractExpr_safe hr).bind fun e he => (extractStmt_safe hr).bind fun s hs =>
      JSafe.pure (two (Ast.sWith none) he hs)
  | throwStatement =>
    refine stmt_safe ?_ ho
    exact (extractExpr_safe hr).bind fun e he =>
      JSafe.pure (congrArg (fun e => Ast.sThrow none e semi) he)
  | debuggerStatement => exact ⟨rfl, fun _ => ⟨_, rfl⟩⟩
  | tryStatement =>
    refine stmt_safe ?_ ho
    exact (extractBlock_safe hr).bind fun b hb => (extractCatchOpt_safe hr).bind
      fun c hc => (extractBlockOpt_safe hr).bind fun f hf =>
      JSafe.pure (three (Ast.sTry none) hb (clean_ofOption c hc)
        (clean_ofOption f hf))
  | identifier | literal | binaryExpression | assignmentExpression | logicalExpression
  | unaryExpression | updateExpression | memberExpression | callExpression | newExpression
  | arrayExpression | functionExpression | sequenceExpression | objectExpression
  | conditionalExpression | thisExpression | metaProperty | spreadElement | restElement =>
    exact trivial

end

theorem recOf_safe : (n : Nat) → RecSafe n (recOf n)
  | 0 => ⟨fun _ h => absurd h (Nat.not_lt_zero _), fun _ _ h => absurd h (Nat.not_lt_zero _)⟩
  | n + 1 => ⟨fun _ h => intoExpr_safe (recOf_safe n) (Nat.le_of_lt_succ h),
      fun _ b h => intoItem_safe (recOf_safe n) b (Nat.le_of_lt_succ h)⟩

theorem intoScript_safe (o : Object) : Safe Clean (intoScript o) :=
  JSafe.run (extractScript_safe (recOf_safe _)) (Nat.le_refl _)

end Estree

end Esprit
