import Verif.Proofs.EstreeRead

/-! The ESTree conversion reads back what encodes a syntax tree: bodies, functions,
expressions and statements. -/

namespace Esprit

namespace Estree

/-- A computation on what is left of `o` without `ns`. -/
def JX {α : Type} (o : Object) (ns : List Str) (Q : α → Prop) (x : J α) : Prop :=
  ∀ o', Left o ns o' → Gives (fun r => Q r.1) (x o')

theorem JX.pure {α : Type} {o : Object} {ns : List Str} {P : α → Prop} {a : α} (h : P a) :
    JX o ns P (Pure.pure a) := fun _ _ => h

theorem JX.lift {α : Type} {o : Object} {ns : List Str} {P : α → Prop} {x : Result α}
    (h : Gives P x) : JX o ns P (Estree.lift x) := fun _ _ => h.map fun _ ha => ha

theorem JG.andThen {α β : Type} {o : Object} {ns ms : List Str} {P : α → Prop} {Q : β → Prop}
    {x : J α} {f : α → J β} (hx : JG o ns ms P x) (hf : ∀ a, P a → JX o ms Q (f a)) :
    JX o ns Q (x >>= f) := fun o' ho => (hx o' ho).bind fun r hr => hf r.1 hr.1 r.2 hr.2

theorem JX.run {α : Type} {o : Object} {P : α → Prop} {x : J α} (h : JX o [] P x) :
    Gives P (x.run o) := (h o ⟨fun _ _ => rfl, Nat.le_refl _⟩).map fun _ hr => hr

section

variable {n : Nat} {r : Rec} {o : Object} {ns : List Str} {name : Str}

/-! ### Bodies -/

/-- The statement of a directive. -/
def dirItem (d : Dir) : StmtListItem := .siStmt (.sExpr d.location (.eString none d.string) d.semi)

/-- Directives and items in one list. -/
def wholeBody (dirs : List Dir) (items : Ast (.list .sitem)) : Ast (.list .sitem) :=
  dirs.foldr (fun d l => .cons (dirItem d) l) items

theorem encodes_wholeBody {items : Ast (.list .sitem)} {is : List Json} (h : Encodes items (.array is)) :
    (dirs : List Dir) → (ds : List Json) → EncDirs dirs ds →
      Encodes (wholeBody dirs items) (.array (ds ++ is))
  | [], ds, hd => by cases hd; exact h
  | d :: dirs, ds, hd => by
    obtain ⟨j, js, rfl, h1, h2⟩ := hd
    exact ⟨j, js ++ is, rfl, h1, encodes_wholeBody h dirs js h2⟩

theorem plain_dirItem (d : Dir) : Plain (dirItem d) := by
  refine Plain.mk rfl fun y hy => ?_
  cases hy with
  | tail _ hy => cases hy
  | head =>
    refine Plain.mk rfl fun y hy => ?_
    cases hy with
    | tail _ hy => cases hy
    | head => exact Plain.mk rfl fun y hy => by cases hy

theorem plain_wholeBody {items : Ast (.list .sitem)} (h : Plain items) :
    (dirs : List Dir) → Plain (wholeBody dirs items)
  | [] => h
  | d :: dirs => by
    refine Plain.mk rfl fun y hy => ?_
    cases hy with
    | head => exact plain_dirItem d
    | tail _ hy =>
      cases hy with
      | head => exact plain_wholeBody h dirs
      | tail _ hy => cases hy

theorem splitPrefix_true {α : Type} {p : α → Bool} {a : α} (v : List α) (h : p a = true) :
    splitPrefix p (a :: v) = (a :: (splitPrefix p v).1, (splitPrefix p v).2) := by
  unfold splitPrefix
  rw [List.findIdx?_cons, h]
  cases v.findIdx? (fun x => !p x) <;> rfl

theorem splitPrefix_false {α : Type} {p : α → Bool} {a : α} (v : List α) (h : p a = false) :
    splitPrefix p (a :: v) = ([], a :: v) := by
  unfold splitPrefix
  rw [List.findIdx?_cons, h]
  rfl

theorem notString_new {l l' : Loc} {f : Expr} {args : Ast (.opt (.list .item))} {y : Expr}
    {semi : Semi} (h : Ast.Agree y (Ast.eNew l f args)) :
    isDirective (.siStmt (.sExpr l' y semi)) = false := by
  generalize hx : Ast.eNew l f args = x at h
  cases h <;> first | rfl | cases hx

theorem same_notDirective {x y : StmtListItem} (h : Same x y) (hx : isStringStmt x = false) :
    isDirective y = false := by
  cases x with
  | siDecl d => cases h; rfl
  | siStmt s =>
    cases s with
    | sExpr l e semi =>
      cases h with
      | siStmt h =>
        cases h with
        | sExpr h =>
          cases e with
          | eString l s => cases hx
          | eNew l f args => exact notString_new h
          | _ => cases h <;> rfl
    | _ => cases h with | siStmt h => cases h <;> rfl

theorem split_body {items : Ast (.list .sitem)}
    (hi : ∀ h t, items = .cons h t → isStringStmt h = false) :
    (dirs : List Dir) → (ys : List StmtListItem) → All2 Same (wholeBody dirs items).toList ys →
      DirsAgree ((splitPrefix isDirective ys).1.filterMap toDirective) (dirs.map Dir.untrack) ∧
      All2 Same items.toList (splitPrefix isDirective ys).2
  | [], ys, h => by
    cases items with
    | nil => cases h; exact ⟨.nil, .nil⟩
    | cons x xs =>
      replace h : All2 Same (x :: xs.toList) ys := h
      cases h with
      | cons h1 h2 =>
        rw [splitPrefix_false _ (same_notDirective h1 (hi x xs rfl))]
        exact ⟨.nil, .cons h1 h2⟩
  | d :: dirs, ys, h => by
    replace h : All2 Same (dirItem d :: (wholeBody dirs items).toList) ys := h
    cases h with
    | cons h1 h2 =>
      have ih := split_body hi dirs _ h2
      cases h1 with
      | siStmt h1 =>
        cases h1 with
        | sExpr h1 =>
          cases h1 with
          | eString h1 =>
            rw [splitPrefix_true _ rfl]
            exact ⟨.cons rfl h1 rfl ih.1, ih.2⟩

theorem extractScript_gives (hr : RecGives n r) {x : Script} (h : Field o name (Encodes x))
    (hp : Plain x) (hd : depthFields o ≤ n) (hn : name ∉ ns := by decide) :
    JG o ns (name :: ns) (Same x) (extractScript r name) := by
  cases x with
  | body l dirs items =>
    obtain ⟨j, hj, ds, is, rfl, h1, h2⟩ := h
    have hi : ∀ h t, items = .cons h t → isStringStmt h = false := by
      intro h t e
      subst e
      have := hp.node
      simpa [plainNode] using this
    refine (extractStmtList_gives hr ⟨_, hj, encodes_wholeBody h2 dirs ds h1⟩
      (plain_wholeBody (hp.fst rfl) dirs) hd hn).bind fun ys hys => ?_
    have := split_body hi dirs ys hys
    exact JG.pure (.body this.1 (this.2.same items))

/-! ### Functions -/

theorem mapList_objects : (os : List Object) →
    mapList (fun v : Json => ofJson v.intoObject) (os.map Json.object) = .ok os
  | [] => rfl
  | o :: os => by
    show (Res.ok o : Result Object).bind (fun b => (mapList (fun v : Json => ofJson v.intoObject)
      (os.map Json.object)).bind fun bs => .ok (b :: bs)) = _
    rw [mapList_objects os]; rfl

theorem patts_objects : (ps : Ast (.list (.patt .id))) → (js : List Json) →
    Encodes ps (.array js) → Plain ps →
      ∃ os : List Object, js = os.map .object ∧ (∀ o ∈ os, tag o = .ok .identifier) ∧
        Gives (All2 Same ps.toList) (mapList intoPatt os)
  | .nil, js, h, _ => by
    replace h : Json.array js = .array [] := h
    cases h
    exact ⟨[], rfl, fun o h => (by cases h), All2.nil⟩
  | .cons p ps, js, h, hp => by
    obtain ⟨jh, jt, h, h1, h2⟩ := h
    cases h
    obtain ⟨o, rfl⟩ := patt_obj p jh h1
    obtain ⟨os, rfl, h3, h4⟩ := patts_objects ps jt h2 (hp.snd rfl)
    refine ⟨o :: os, rfl, fun o' ho => ?_, ?_⟩
    · cases ho with
      | head =>
        have hp1 : Plain p := hp.fst rfl
        obtain ⟨t, rfl⟩ := hp1.simple
        cases t with
        | ident i =>
          obtain ⟨o', ho, ht, _⟩ := h1.1
          cases ho
          exact tag_of ht rfl
      | tail _ ho => exact h3 o' ho
    · exact (intoPatt_gives h1 (hp.fst rfl)).bind fun a ha => h4.bind fun as has => .cons ha has

/-- How parameters and a rest parameter are encoded. -/
def EncParams (ps : Ast (.list (.patt .id))) (rest : Ast (.opt (.rest .id))) (j : Json) : Prop :=
  ∃ js, Encodes ps (.array js) ∧ ((Encodes rest .null ∧ j = .array js) ∨
    ∃ jr, jr ≠ .null ∧ Encodes rest jr ∧ j = .array (js ++ [jr]))

theorem extractParams_gives {ps : Ast (.list (.patt .id))} {rest : Ast (.opt (.rest .id))}
    (h : Field o name (EncParams ps rest)) (hp : Plain ps) (hq : Plain rest)
    (hn : name ∉ ns := by decide) :
    JG o ns (name :: ns) (fun y => All2 Same ps.toList y.1 ∧ Same rest y.2) (extractParams name) := by
  obtain ⟨j, hj, js, h1, h2⟩ := h
  obtain ⟨os, rfl, h3, h4⟩ := patts_objects ps js h1 hp
  have key : ∀ (all : List Object) (y : List Object × Ast (.opt (.rest .id))),
      o.get name = some (.array (all.map .object)) → splitRestParam all = .ok y → y.1 = os →
      Same rest y.2 →
      JG o ns (name :: ns) (fun y => All2 Same ps.toList y.1 ∧ Same rest y.2) (extractParams name) := by
    intro all y ha hs hy hr
    have he : JG o ns (name :: ns) (· = all) (extractObjects name) := by
      refine (JG.extractArray ha hn).bind fun a ha => JG.lift ?_
      rw [ha, mapList_objects]
      exact rfl
    refine he.bind fun _ ha => ?_
    subst ha
    refine (JG.lift (P := (· = y)) ?_).bind fun y' hy' => ?_
    · rw [hs]; exact rfl
    · subst hy'
      rw [hy]
      exact (JG.lift h4).bind fun qs hqs => JG.pure ⟨hqs, hr⟩
  rcases h2 with ⟨h2, rfl⟩ | ⟨jr, hjr, h2, rfl⟩
  · cases rest with
    | some x => cases x with | restPatt l p => obtain ⟨_, h, _⟩ := id h2; cases h
    | none =>
      refine key os (os, .none) hj ?_ rfl .none
      unfold splitRestParam
      cases hl : os.getLast? with
      | none => rfl
      | some last =>
        dsimp only
        rw [h3 last (List.mem_of_getLast? hl)]
        rfl
  · cases rest with
    | none => exact absurd h2 hjr
    | some x =>
      cases x with
      | restPatt l p =>
        obtain ⟨orr, rfl, ht, h2⟩ := id h2
        have hq1 : Plain (Ast.restPatt l p) := hq.fst rfl
        have hg := JG.run (extractPatt_gives h2 (hq1.fst rfl))
        cases hx : J.run (extractPatt c!"argument") orr with
        | ok p' =>
          rw [hx] at hg
          refine key (os ++ [orr]) (os, .some (.restPatt none p')) (by simpa using hj) ?_ rfl
            (.some (.restPatt hg))
          unfold splitRestParam
          rw [List.getLast?_concat]
          dsimp only
          rw [tag_of ht rfl]
          show ((J.run (extractPatt c!"argument") orr).bind fun p =>
            Res.ok ((os ++ [orr]).dropLast, Ast.some (.restPatt none p))) = _
          rw [hx, List.dropLast_concat]
          rfl
        | err e => rw [hx] at hg; exact hg.elim
        | panic e => rw [hx] at hg; exact hg.elim
        | fuel => rw [hx] at hg; exact hg.elim

theorem intoFunParts_gives (hr : RecGives n r) {ps : Ast (.list (.patt .id))}
    {rest : Ast (.opt (.rest .id))} {b : Script} {gen : Bool}
    (h1 : o.get c!"generator" = some (.bool gen)) (h2 : Field o c!"params" (EncParams ps rest))
    (h3 : Field o c!"body" fun w => EncBody w (Encodes b)) (hp : Plain ps) (hq : Plain rest)
    (hb : Plain b) (hd : depthFields o ≤ n) :
    Gives (fun f => All2 Same ps.toList f.params ∧ Same rest f.rest ∧ Same b f.body ∧
      f.generator = gen) (intoFunParts r o) := by
  obtain ⟨w, hw, ow, rfl, _, hbody⟩ := h3
  unfold intoFunParts
  refine JX.run ?_
  refine (JG.extractBoolOpt h1).andThen fun g hg => ?_
  refine (extractParams_gives h2 hp hq).andThen fun y hy => ?_
  refine (JG.extractObject hw).andThen fun o' ho' => ?_
  subst ho'
  refine (JG.lift (JG.run (extractScript_gives hr hbody hb
    (Nat.le_trans (Nat.le_of_lt (depth_field hw)) hd)))).andThen fun b' hb' => ?_
  subst hg
  exact JX.pure ⟨hy.1, hy.2, hb', rfl⟩

theorem intoFun_gives (hr : RecGives n r) {c : Cat} {l : Loc} {i i' : Ast c} {ps : Ast .params}
    {b : Script} {gen : Bool} (h : Encodes (.func l i ps b gen) (.object o))
    (hp : Plain (.func l i ps b gen)) (hd : depthFields o ≤ n) (hi : Same i i') :
    Gives (Same (.func l i ps b gen)) (intoFun r i' o) := by
  obtain ⟨o', ho, h1, h2, h3⟩ := id h
  cases ho
  cases ps with
  | params lp ps rest =>
    have hps : Plain (Ast.params lp ps rest) := hp.snd rfl
    exact (intoFunParts_gives hr h1 h2 h3 (hps.fst rfl) (hps.snd rfl) (hp.thd rfl) hd).map
      fun f hf => by
        obtain ⟨h1, h2, h3, h4⟩ := hf
        rw [h4]
        exact .func hi (.params (h1.same ps) h2) h3

/-- The fields of a function do not include its name. -/
theorem encodes_func_left {c : Cat} {f : Ast (.func c)} {o' : Object} (h : Encodes f (.object o))
    (hl : Left o [c!"id"] o') : Encodes f (.object o') := by
  cases f with
  | func l i ps b gen =>
    obtain ⟨o1, ho, h1, h2, h3⟩ := id h
    cases ho
    refine ⟨o', rfl, ?_, ?_, ?_⟩
    · rw [hl.get _ (by decide)]; exact h1
    · obtain ⟨j, hj, h2⟩ := h2
      exact ⟨j, by rw [hl.get _ (by decide)]; exact hj, h2⟩
    · obtain ⟨j, hj, h3⟩ := h3
      exact ⟨j, by rw [hl.get _ (by decide)]; exact hj, h3⟩

/-! ### Properties -/

theorem intoProp_gives (hr : RecGives n r) (x : Ast .prop) (o : Object) (hd : depthFields o < n)
    (h : Encodes x (.object o)) (hp : Plain x) : Gives (Same x) (intoProp r o) := by
  unfold intoProp
  cases x with
  | prShorthand i =>
    obtain ⟨o', ho, _, ⟨h1, h2, h3, _⟩, ⟨jk, hk, h4⟩, ⟨jv, hv, h5⟩⟩ := h
    cases ho
    obtain ⟨ok, rfl⟩ := EncId.obj h4
    obtain ⟨ov, rfl⟩ := EncId.obj h5
    refine JX.run ?_
    refine (JG.extractObject hk).andThen fun key hkey => (JG.extractObject hv).andThen fun _ hval =>
      (JG.extractString h1).andThen fun kind hkind => ?_
    subst hkey hval hkind
    rw [if_pos rfl]
    refine (JG.extractBool h2).andThen fun _ h => ?_
    subst h
    refine (JG.extractBool h3).andThen fun _ h => ?_
    subst h
    rw [if_pos rfl]
    refine (JG.lift (P := (· = i.untrack)) (by rw [intoId_gives h4]; exact rfl)).andThen
      fun _ hi => ?_
    rw [hi]
    exact JX.pure .prShorthand
  | prMethod f =>
    obtain ⟨o', ho, _, h1, h2, _, _, ⟨jk, hk, h4⟩, ⟨jv, hv, ⟨ov, hov, _⟩, h5⟩⟩ := h
    cases ho
    subst hov
    cases f with
    | func l i ps b gen =>
      cases i with
      | key k =>
        have : ∃ ok, jk = .object ok := by
          cases k <;> exact NodeOf.obj h4
        obtain ⟨ok, rfl⟩ := this
        refine JX.run ?_
        refine (JG.extractObject hk).andThen fun key hkey => (JG.extractObject hv).andThen fun _ hval =>
          (JG.extractString h1).andThen fun kind hkind => ?_
        subst hkey hval hkind
        rw [if_pos rfl]
        refine (JG.extractBool h2).andThen fun _ h => ?_
        subst h
        rw [if_pos rfl]
        exact (JG.lift (intoPropKey_gives h4)).andThen fun k' hk' =>
          (JG.lift (intoFun_gives hr h5 (hp.fst rfl)
            (Nat.le_trans (Nat.le_of_lt (depth_field hv)) (Nat.le_of_lt hd)) (.key hk'))).andThen
          fun f hf => JX.pure (.prMethod hf)
  | prRegular l k v =>
    obtain ⟨o', ho, _, ⟨jk, hk, h4⟩, h⟩ := h
    cases ho
    have : ∃ ok, jk = .object ok := by
      cases k <;> exact NodeOf.obj h4
    obtain ⟨ok, rfl⟩ := this
    have hpv : Plain v := hp.fst rfl
    cases v with
    | vInit e =>
      obtain ⟨o', ho, _, ⟨h1, h2, h3, _⟩, ⟨jv, hv, h5⟩⟩ := id h
      cases ho
      obtain ⟨ov, rfl⟩ := expr_obj e jv h5
      refine JX.run ?_
      refine (JG.extractObject hk).andThen fun key hkey => (JG.extractObject hv).andThen fun _ hval =>
        (JG.extractString h1).andThen fun kind hkind => ?_
      subst hkey hval hkind
      rw [if_pos rfl]
      refine (JG.extractBool h2).andThen fun _ h => ?_
      subst h
      refine (JG.extractBool h3).andThen fun _ h => ?_
      subst h
      exact (JG.lift (hr.expr e _ (Nat.lt_trans (depth_field hv) hd) h5 (hpv.fst rfl))).andThen
        fun e' he => (JG.lift (intoPropKey_gives h4)).andThen fun k' hk' =>
        JX.pure (.prRegular hk' (.vInit he))
    | vGet lv b =>
      obtain ⟨o', ho, _, ⟨h1, h2, h3, _⟩, ⟨jv, hv, ⟨ov, hov, _, _, _, _, jb, hjb, ob, hob, _, hbody⟩⟩⟩ :=
        id h
      cases ho
      subst hov
      subst hob
      refine JX.run ?_
      refine (JG.extractObject hk).andThen fun key hkey => (JG.extractObject hv).andThen fun _ hval =>
        (JG.extractString h1).andThen fun kind hkind => ?_
      subst hkey hval hkind
      rw [if_neg (by decide), if_pos rfl]
      refine (JG.lift (JG.run (JG.extractObject hjb))).andThen fun _ h => ?_
      subst h
      have := depth_field hv
      have := depth_field hjb
      exact (JG.lift (JG.run (extractScript_gives hr hbody (hpv.fst rfl) (by omega)))).andThen
        fun b' hb => (JG.lift (intoPropKey_gives h4)).andThen fun k' hk' =>
        JX.pure (.prRegular hk' (.vGet hb))
    | vSet lv p b =>
      obtain ⟨o', ho, _, ⟨h1, h2, h3, _⟩, ⟨jv, hv, ⟨ov, hov, _, _, hgen, hps, hb⟩⟩⟩ := id h
      cases ho
      subst hov
      refine JX.run ?_
      refine (JG.extractObject hk).andThen fun key hkey => (JG.extractObject hv).andThen fun ov hval =>
        (JG.extractString h1).andThen fun kind hkind => ?_
      subst hkey hval hkind
      rw [if_neg (by decide), if_neg (by decide), if_pos rfl]
      have := depth_field hv
      have hps' : Field ov c!"params" (EncParams (.cons p .nil) .none) := by
        obtain ⟨j, hj, jp, rfl, he⟩ := hps
        exact ⟨_, hj, [jp], ⟨jp, [], rfl, he, rfl⟩, .inl ⟨rfl, rfl⟩⟩
      have hpl : Plain (Ast.cons p .nil) := Plain.mk rfl fun y hy => by
        cases hy with
        | head => exact hpv.fst rfl
        | tail _ hy =>
          cases hy with
          | head => exact Plain.mk rfl fun y hy => by cases hy
          | tail _ hy => cases hy
      have hpn : Plain (Ast.none : Ast (.opt (.rest .id))) := Plain.mk rfl fun y hy => by cases hy
      refine (JG.lift (intoFunParts_gives hr hgen hps' hb hpl hpn (hpv.snd rfl) (by omega))).andThen
        fun f hf => ?_
      obtain ⟨params, rest, body, generator⟩ := f
      obtain ⟨hf1, _, hf3, _⟩ := hf
      replace hf1 : All2 Same [p] params := hf1
      cases hf1 with
      | cons hf1 hf2 =>
        cases hf2
        exact (JG.lift (intoPropKey_gives h4)).andThen fun k' hk' =>
          JX.pure (.prRegular hk' (.vSet hf1 hf3))

theorem extractPropList_gives (hr : RecGives n r) {x : Ast (.list .prop)}
    (h : Field o name (Encodes x)) (hp : Plain x) (hd : depthFields o ≤ n)
    (hn : name ∉ ns := by decide) :
    JG o ns (name :: ns) (Same x) (extractPropList r name) :=
  listAst_gives prop_obj (intoProp_gives hr) h hp hd hn

/-! ### Declarators -/

theorem plain_id (i : Id) : Plain (Ast.pSimple (Ast.ident i)) := Plain.mk rfl fun y hy => by
  cases hy with
  | head => exact Plain.mk rfl fun y hy => by cases hy
  | tail _ hy => cases hy

theorem intoDtor_gives (hr : RecGives n r) (x : Ast .dtor) (o : Object) (hd : depthFields o < n)
    (h : Encodes x (.object o)) (hp : Plain x) : Gives (Same x) (intoDtor r o) := by
  cases x with
  | dtCompound l p e =>
    have : Plain p := hp.fst rfl
    cases p <;> cases this.node
  | dtSimple l i init =>
    obtain ⟨o', ho, _, h1, h2⟩ := h
    cases ho
    unfold intoDtor
    refine JX.run ?_
    refine (extractPatt_gives (x := .pSimple (.ident i)) h1 (plain_id i)).andThen fun p hp' => ?_
    refine (extractExprOpt_gives hr h2 (hp.fst rfl) (Nat.le_of_lt hd)).andThen fun e he => ?_
    cases hp' with
    | pSimple hp' =>
      cases hp'
      exact JX.pure (.dtSimple he)

theorem extractDtorList_gives (hr : RecGives n r) {x : Ast (.list .dtor)}
    (h : Field o name (Encodes x)) (hp : Plain x) (hd : depthFields o ≤ n)
    (hn : name ∉ ns := by decide) :
    JG o ns (name :: ns) (All2 Same x.toList) (extractDtorList r name) :=
  (list_gives dtor_obj (intoDtor_gives hr) h hp hd hn).bind fun _ hos => JG.lift hos

theorem mapList_all2 {α β γ : Type} {R : α → β → Prop} {S : α → γ → Prop} {f : β → Result γ}
    (hf : ∀ a b, R a b → Gives (S a) (f b)) : {as : List α} → {bs : List β} → All2 R as bs →
      Gives (All2 S as) (mapList f bs)
  | _, _, .nil => .nil
  | _, _, .cons h t => (hf _ _ h).bind fun _ ha => (mapList_all2 hf t).bind fun _ has => .cons ha has

theorem extractConstList_gives (hr : RecGives n r) {x : Ast (.list .constDtor)}
    (h : Field o name (Encodes x)) (hp : Plain x) (hd : depthFields o ≤ n)
    (hn : name ∉ ns := by decide) :
    JG o ns (name :: ns) (fun ds => Gives (All2 Same x.toList) (intoConst ds))
      (extractDtorList r name) := by
  refine (list_gives constDtor_obj (R := fun x d => Gives (Same x) (intoConstDtor d))
    (f := intoDtor r) ?_ h hp hd hn).bind fun os hos =>
    (JG.lift hos).mono fun ds hds => mapList_all2 (fun _ _ h => h) hds
  intro x o hd h hp
  cases x with
  | constDtor l p e =>
    have hpp : Plain p := hp.fst rfl
    obtain ⟨t, rfl⟩ := hpp.simple
    cases t with
    | ident i =>
      obtain ⟨o', ho, _, h1, h2⟩ := h
      cases ho
      unfold intoDtor
      refine JX.run ?_
      refine (extractPatt_gives (x := .pSimple (.ident i)) h1 (plain_id i)).andThen fun p hp' => ?_
      have hs : Plain (Ast.some e) := Plain.mk rfl fun y hy => by
        cases hy with
        | head => exact hp.snd rfl
        | tail _ hy => cases hy
      refine (extractExprOpt_gives hr (x := .some e) h2 hs (Nat.le_of_lt hd)).andThen fun e' he => ?_
      cases hp' with
      | pSimple hp' =>
        cases hp'
        cases e' with
        | none => cases he
        | some e' =>
          cases he with
          | some he => exact JX.pure (.constDtor (.pSimple .ident) he)

/-! ### Expressions -/

theorem parse_binop (t : BinopTag) (s : Str) : parseOp BinopTag.fromStr s t.display = .ok ⟨none, t⟩ := by
  cases t <;> rfl

theorem parse_logop (t : LogopTag) (s : Str) : parseOp LogopTag.fromStr s t.display = .ok ⟨none, t⟩ := by
  cases t <;> rfl

theorem parse_assop (t : AssopTag) (s : Str) : parseOp AssopTag.fromStr s t.display = .ok ⟨none, t⟩ := by
  cases t <;> rfl

theorem parse_unop (t : UnopTag) (s : Str) : parseOp UnopTag.fromStr s (unopText t) = .ok ⟨none, t⟩ := by
  cases t <;> rfl

theorem assop_ne (t : AssopTag) : t.display ≠ c!"=" := by cases t <;> decide

theorem JG.eq {α : Type} {o : Object} {ns : List Str} {x : Result α} {a : α} (h : x = .ok a) :
    JG o ns ns (· = a) (Estree.lift x) := JG.lift (by rw [h]; exact rfl)

theorem intoExpr_gives (hr : RecGives n r) (x : Expr) (o : Object) (hd : depthFields o ≤ n)
    (h : Encodes x (.object o)) (hp : Plain x) : Gives (Same x) (intoExpr r o) := by
  unfold intoExpr
  cases x with
  | eId i =>
    obtain ⟨o', ho, ht, _⟩ := h.1
    cases ho
    rw [tag_of ht rfl]
    show Gives _ ((intoId o).map Ast.eId)
    rw [intoId_gives h]
    exact .eId
  | eNull l =>
    obtain ⟨o', ho, ht, _⟩ := id h
    cases ho
    rw [tag_of ht rfl]
    show Gives _ (intoLit o)
    rw [intoLit_null h]
    exact .eNull
  | eTrue l =>
    obtain ⟨o', ho, ht, _⟩ := id h
    cases ho
    rw [tag_of ht rfl]
    show Gives _ (intoLit o)
    rw [intoLit_bool (b := true) h]
    exact .eTrue
  | eFalse l =>
    obtain ⟨o', ho, ht, _⟩ := id h
    cases ho
    rw [tag_of ht rfl]
    show Gives _ (intoLit o)
    rw [intoLit_bool (b := false) h]
    exact .eFalse
  | eString l s =>
    obtain ⟨o', ho, ht, _⟩ := id h
    cases ho
    rw [tag_of ht rfl]
    show Gives _ (intoLit o)
    rw [intoLit_string h]
    exact .eString rfl
  | eNumber l x =>
    obtain ⟨o', ho, ht, _⟩ := id h
    cases ho
    rw [tag_of ht rfl]
    show Gives _ (intoLit o)
    obtain ⟨y, hy, hl⟩ := intoLit_number h
    rw [hl]
    exact .eNumber hy
  | eRegExp l s =>
    obtain ⟨o', ho, ht, _⟩ := id h
    cases ho
    rw [tag_of ht rfl]
    show Gives _ (intoLit o)
    rw [intoLit_regExp h]
    exact .eRegExp rfl (List.Perm.refl _)
  | eThis l =>
    obtain ⟨o', ho, ht, _⟩ := h
    cases ho
    rw [tag_of ht rfl]
    exact .eThis
  | eBinop l op a b =>
    obtain ⟨o', ho, ht, h1, h2, h3⟩ := h
    cases ho
    rw [tag_of ht rfl]
    refine JX.run ?_
    refine (JG.extractString h1).andThen fun _ hs => ?_
    subst hs
    refine (JG.eq (parse_binop op.tag _)).andThen fun _ ho => ?_
    subst ho
    exact (extractExpr_gives hr h2 (hp.fst rfl) hd).andThen fun _ h2 =>
      (extractExpr_gives hr h3 (hp.snd rfl) hd).andThen fun _ h3 => JX.pure (.eBinop h2 h3)
  | eLogop l op a b =>
    obtain ⟨o', ho, ht, h1, h2, h3⟩ := h
    cases ho
    rw [tag_of ht rfl]
    refine JX.run ?_
    refine (JG.extractString h1).andThen fun _ hs => ?_
    subst hs
    refine (JG.eq (parse_logop op.tag _)).andThen fun _ ho => ?_
    subst ho
    exact (extractExpr_gives hr h2 (hp.fst rfl) hd).andThen fun _ h2 =>
      (extractExpr_gives hr h3 (hp.snd rfl) hd).andThen fun _ h3 => JX.pure (.eLogop h2 h3)
  | eUnop l op a =>
    obtain ⟨o', ho, ht, h1, _, h2⟩ := h
    cases ho
    rw [tag_of ht rfl]
    refine JX.run ?_
    refine (JG.extractString h1).andThen fun _ hs => ?_
    subst hs
    refine (JG.eq (parse_unop op.tag _)).andThen fun _ ho => ?_
    subst ho
    exact (extractExpr_gives hr h2 (hp.fst rfl) hd).andThen fun _ h2 => JX.pure (.eUnop h2)
  | eAssign l p e =>
    obtain ⟨o', ho, ht, h1, h2, h3⟩ := h
    cases ho
    rw [tag_of ht rfl]
    refine JX.run ?_
    refine (JG.extractString h1).andThen fun _ hs => ?_
    subst hs
    refine (extractExpr_gives hr h3 (hp.snd rfl) hd).andThen fun _ h3 => ?_
    rw [if_pos rfl]
    exact (extractAssignPatt_gives hr h2 (hp.fst rfl) hd).andThen fun _ h2 =>
      JX.pure (.eAssign h2 h3)
  | eBinAssign l op t e =>
    obtain ⟨o', ho, ht, h1, h2, h3⟩ := h
    cases ho
    rw [tag_of ht rfl]
    refine JX.run ?_
    refine (JG.extractString h1).andThen fun _ hs => ?_
    subst hs
    refine (extractExpr_gives hr h3 (hp.snd rfl) hd).andThen fun _ h3 => ?_
    rw [if_neg (assop_ne op.tag)]
    refine (JG.eq (parse_assop op.tag _)).andThen fun _ ho => ?_
    subst ho
    exact (extractAssignTarget_gives hr h2 (hp.fst rfl) hd).andThen fun _ h2 =>
      JX.pure (.eBinAssign h2 h3)
  | ePreInc l t =>
    obtain ⟨o', ho, ht, h1, h2, h3⟩ := h
    cases ho
    rw [tag_of ht rfl]
    refine JX.run ?_
    refine (JG.extractString h1).andThen fun _ hs =>
      (extractAssignTarget_gives hr h2 (hp.fst rfl) hd).andThen fun _ h2 =>
      (JG.extractBool h3).andThen fun _ hb => ?_
    subst hs hb
    exact JX.pure (.ePreInc h2)
  | ePostInc l t =>
    obtain ⟨o', ho, ht, h1, h2, h3⟩ := h
    cases ho
    rw [tag_of ht rfl]
    refine JX.run ?_
    refine (JG.extractString h1).andThen fun _ hs =>
      (extractAssignTarget_gives hr h2 (hp.fst rfl) hd).andThen fun _ h2 =>
      (JG.extractBool h3).andThen fun _ hb => ?_
    subst hs hb
    exact JX.pure (.ePostInc h2)
  | ePreDec l t =>
    obtain ⟨o', ho, ht, h1, h2, h3⟩ := h
    cases ho
    rw [tag_of ht rfl]
    refine JX.run ?_
    refine (JG.extractString h1).andThen fun _ hs =>
      (extractAssignTarget_gives hr h2 (hp.fst rfl) hd).andThen fun _ h2 =>
      (JG.extractBool h3).andThen fun _ hb => ?_
    subst hs hb
    exact JX.pure (.ePreDec h2)
  | ePostDec l t =>
    obtain ⟨o', ho, ht, h1, h2, h3⟩ := h
    cases ho
    rw [tag_of ht rfl]
    refine JX.run ?_
    refine (JG.extractString h1).andThen fun _ hs =>
      (extractAssignTarget_gives hr h2 (hp.fst rfl) hd).andThen fun _ h2 =>
      (JG.extractBool h3).andThen fun _ hb => ?_
    subst hs hb
    exact JX.pure (.ePostDec h2)
  | eCond l test thn alt =>
    obtain ⟨o', ho, ht, h1, h2, h3⟩ := h
    cases ho
    rw [tag_of ht rfl]
    refine JX.run ?_
    exact (extractExpr_gives hr h1 (hp.fst rfl) hd).andThen fun _ h1 =>
      (extractExpr_gives hr h2 (hp.snd rfl) hd).andThen fun _ h2 =>
      (extractExpr_gives hr h3 (hp.thd rfl) hd).andThen fun _ h3 => JX.pure (.eCond h1 h2 h3)
  | eCall l callee args =>
    obtain ⟨o', ho, ht, h1, h2⟩ := h
    cases ho
    rw [tag_of ht rfl]
    refine JX.run ?_
    exact (extractExpr_gives hr h1 (hp.fst rfl) hd).andThen fun _ h1 =>
      (extractExprList_gives hr h2 (hp.snd rfl) hd).andThen fun _ h2 => JX.pure (.eCall h1 h2)
  | eNew l callee args =>
    obtain ⟨o', ho, ht, h1, j, hj, h2⟩ := h
    cases ho
    rw [tag_of ht rfl]
    refine JX.run ?_
    refine (extractExpr_gives hr h1 (hp.fst rfl) hd).andThen fun _ h1 => ?_
    have hpa : Plain args := hp.snd rfl
    have hnil : Plain (Ast.nil : Ast (.list .item)) := Plain.mk rfl fun y hy => by cases hy
    cases args with
    | none =>
      have : Encodes (Ast.nil : Ast (.list .item)) j := by
        rcases h2 with ⟨hne, h2⟩ | ⟨h2, _⟩
        · exact absurd h2 hne
        · exact h2
      refine (extractExprList_gives hr ⟨j, hj, this⟩ hnil hd).andThen fun a ha => ?_
      cases ha
      exact JX.pure (.newEmptyArgs h1)
    | some args =>
      have : Encodes args j := by
        rcases h2 with ⟨_, h2⟩ | ⟨_, h2⟩
        · exact h2
        · cases args with
          | nil => cases h2
          | cons a as => obtain ⟨_, _, h, _⟩ := id h2; cases h
      exact (extractExprList_gives hr ⟨j, hj, this⟩ (hpa.fst rfl) hd).andThen fun a ha =>
        JX.pure (.eNew h1 (.some ha))
  | eDot l e k =>
    obtain ⟨o', ho, ht, h1, h2, h3⟩ := h
    cases ho
    rw [tag_of ht rfl]
    refine JX.run ?_
    refine (extractExpr_gives hr h1 (hp.fst rfl) hd).andThen fun _ h1 =>
      (JG.extractBool h2).andThen fun _ hb => ?_
    subst hb
    refine (extractName_gives h3).andThen fun i hi => ?_
    rw [hi]
    exact JX.pure (.eDot h1)
  | eBrack l e p =>
    obtain ⟨o', ho, ht, h1, h2, h3⟩ := h
    cases ho
    rw [tag_of ht rfl]
    refine JX.run ?_
    refine (extractExpr_gives hr h1 (hp.fst rfl) hd).andThen fun _ h1 =>
      (JG.extractBool h2).andThen fun _ hb => ?_
    subst hb
    exact (extractExpr_gives hr h3 (hp.snd rfl) hd).andThen fun _ h3 => JX.pure (.eBrack h1 h3)
  | eNewTarget l =>
    obtain ⟨o', ho, ht, h1, h2⟩ := h
    cases ho
    rw [tag_of ht rfl]
    refine JX.run ?_
    refine (extractName_gives h1).andThen fun i hi => (extractName_gives h2).andThen fun j hj => ?_
    rw [hi, hj]
    exact JX.pure .eNewTarget
  | eArr l es =>
    obtain ⟨o', ho, ht, h1⟩ := h
    cases ho
    rw [tag_of ht rfl]
    refine JX.run ?_
    exact (extractExprOptList_gives hr h1 (hp.fst rfl) hd).andThen fun _ h1 => JX.pure (.eArr h1)
  | eObj l ps =>
    obtain ⟨o', ho, ht, h1⟩ := h
    cases ho
    rw [tag_of ht rfl]
    refine JX.run ?_
    exact (extractPropList_gives hr h1 (hp.fst rfl) hd).andThen fun _ h1 => JX.pure (.eObj h1)
  | eSeq l es =>
    obtain ⟨o', ho, ht, h1⟩ := h
    cases ho
    rw [tag_of ht rfl]
    refine JX.run ?_
    exact (extractExprs_gives hr h1 (hp.fst rfl) hd).andThen fun _ h1 => JX.pure (.eSeq h1)
  | eFun f =>
    obtain ⟨o', ho, ht, h1, h2⟩ := h
    cases ho
    rw [tag_of ht rfl]
    refine JX.run ?_
    have hpf : Plain f := hp.fst rfl
    cases f with
    | func lf i ps b gen =>
      have key : ∀ i' : Option Id, Field o c!"id" (EncIdOpt i') →
          i.untrack = Ast.ofOption ((i'.map Id.untrack).map .ident) →
          JX o [] (Same (.eFun (.func lf i ps b gen))) (do
            let id ← extractIdOpt c!"id"
            let o ← (fun o => .ok (o, o) : J Object)
            return .eFun (← lift (intoFun r (Ast.ofOption (id.map .ident)) o))) := by
        intro i' h1 hi'
        refine (extractIdOpt_gives h1).andThen fun i1 hi1 => JG.self.andThen fun ol hl => ?_
        subst hi1
        refine (JG.lift (intoFun_gives hr (encodes_func_left h2 hl) hpf
          (Nat.le_trans hl.depth hd) ?_)).andThen fun f hf => JX.pure (.eFun hf)
        show Ast.Agree _ i.untrack
        rw [hi']
        cases i' with
        | none => exact .none
        | some i' => exact .some .ident
      cases i with
      | none => exact key none h1 rfl
      | some i => cases i with | ident i => exact key (some i) h1 rfl

/-! ### Statements -/

theorem expr_not_var (e : Expr) (o : Object) (h : Encodes e (.object o)) :
    ∃ t, tag o = .ok t ∧ t ≠ .variableDeclaration := by
  have key : ∀ {s : Str} {t : Tag} {P : Object → Prop}, NodeOf s (.object o) P →
      Tag.fromStr s = some t → t ≠ .variableDeclaration →
      ∃ t, tag o = .ok t ∧ t ≠ .variableDeclaration :=
    fun h hs hne => by
      obtain ⟨o', ho, ht, _⟩ := h
      cases ho
      exact ⟨_, tag_of ht hs, hne⟩
  cases e with
  | eId i => exact key h.1 rfl (by decide)
  | _ => exact key h rfl (by decide)

theorem intoForHead_gives (hr : RecGives n r) (x : Ast .forHead) (o : Object)
    (hd : depthFields o < n) (h : Encodes x (.object o)) (hp : Plain x) :
    Gives (Same x) (intoForHead r o) := by
  unfold intoForHead
  cases x with
  | fhExpr l e =>
    have hx := (hr.expr e o hd h (hp.fst rfl)).map (f := .fhExpr none) (Q := Same (.fhExpr l e))
      fun y hy => .fhExpr hy
    obtain ⟨t, ht, hne⟩ := expr_not_var e o h
    rw [ht]
    cases t with
    | variableDeclaration => exact absurd rfl hne
    | _ => exact hx
  | fhVar l ds =>
    obtain ⟨o', ho, ht, h1, h2⟩ := h
    cases ho
    rw [tag_of ht rfl]
    refine JX.run ?_
    refine (extractDtorList_gives hr h2 (hp.fst rfl) (Nat.le_of_lt hd)).andThen fun ys hys =>
      (JG.extractString h1).andThen fun _ hs => ?_
    subst hs
    exact JX.pure (.fhVar (hys.same ds))
  | fhLet l ds =>
    obtain ⟨o', ho, ht, h1, h2⟩ := h
    cases ho
    rw [tag_of ht rfl]
    refine JX.run ?_
    refine (extractDtorList_gives hr h2 (hp.fst rfl) (Nat.le_of_lt hd)).andThen fun ys hys =>
      (JG.extractString h1).andThen fun _ hs => ?_
    subst hs
    exact JX.pure (.fhLet (hys.same ds))
  | fhConst l ds =>
    obtain ⟨o', ho, ht, h1, h2⟩ := h
    cases ho
    rw [tag_of ht rfl]
    refine JX.run ?_
    refine (extractConstList_gives hr h2 (hp.fst rfl) (Nat.le_of_lt hd)).andThen fun ys hys =>
      (JG.extractString h1).andThen fun _ hs => ?_
    subst hs
    exact (JG.lift hys).andThen fun zs hzs => JX.pure (.fhConst (hzs.same ds))

theorem assignPatt_gives (hr : RecGives n r) {p : PattTarget} {o : Object} (hd : depthFields o < n)
    (h : Encodes p (.object o)) (hp : Plain p) :
    (∃ t, tag o = .ok t ∧ t ≠ .variableDeclaration) ∧
      Gives (fun e => ∃ p', Cover.intoAssignPatt e = .ok p' ∧ Same p p') (r.expr o) := by
  obtain ⟨t, rfl⟩ := hp.simple
  have he := encodes_targetExpr (t := t) h
  refine ⟨expr_not_var _ o he, (hr.expr _ o hd he (plain_targetExpr (hp.fst rfl))).mono
    fun e he => ?_⟩
  obtain ⟨t', _, h1, h2⟩ := same_target he
  exact ⟨_, h1, .pSimple h2⟩

/-- A declaration with one declarator. -/
theorem oneVar {j : Json} {kind : Str} {id init : Json → Prop} (h : EncOneVar j kind id init)
    (hj : j = .object o) : tag o = .ok .variableDeclaration ∧ o.get c!"kind" = some (.string kind) ∧
      ∃ d : Object, o.get c!"declarations" = some (.array [.object d]) ∧ Field d c!"id" id ∧
        Field d c!"init" init ∧ depthFields d < depthFields o := by
  obtain ⟨o', rfl, ht, h1, j, hj', d, rfl, od, rfl, _, h2, h3⟩ := h
  cases hj
  refine ⟨tag_of ht rfl, h1, od, hj', h2, h3, ?_⟩
  have := depth_elem hj'
  simp only [depthList, depth] at this
  omega

theorem plain_none : Plain (Ast.none : Ast (.opt .expr)) := Plain.mk rfl fun y hy => by cases hy

theorem intoForInHead_gives (hr : RecGives n r) (x : Ast .forInHead) (o : Object)
    (hd : depthFields o < n) (h : Encodes x (.object o)) (hp : Plain x) :
    Gives (Same x) (intoForInHead r o) := by
  have key : ∀ {kind : Str} {p : PattId} {init : Ast (.opt .expr)},
      EncOneVar (.object o) kind (Encodes p) (Encodes init) → Plain p → Plain init →
      (∀ p' e', Same p p' → Same init (Ast.ofOption e') → Gives (Same x) (forInHead kind p' e')) →
      Gives (Same x) (intoForInHead r o) := by
    intro kind p init h hp hi hf
    obtain ⟨ht, hk, d, h1, h2, h3, hlt⟩ := oneVar h rfl
    unfold intoForInHead
    rw [ht]
    refine JX.run ?_
    refine (JG.extractArray h1).andThen fun ds hds => (JG.extractString hk).andThen fun _ hs => ?_
    subst hds hs
    refine (JG.eq (x := ofJson (Json.object d).intoObject) rfl).andThen fun _ ho => ?_
    subst ho
    refine JX.lift (JX.run ?_)
    exact (extractPatt_gives h2 hp).andThen fun p' hp' =>
      (extractExprOpt_gives hr h3 hi (by omega)).andThen fun e' he' => JX.lift (hf p' e' hp' he')
  cases x with
  | fiPatt p =>
    obtain ⟨⟨t, ht, hne⟩, hg⟩ := assignPatt_gives hr hd h (hp.fst rfl)
    have hx : Gives (Same (.fiPatt p)) ((r.expr o).bind fun expr =>
        match Cover.intoAssignPatt expr with
        | .ok patt => .ok (.fiPatt patt)
        | .error _ => .err (.invalidLHS c!"left")) := hg.bind fun e he => by
      obtain ⟨p', h1, h2⟩ := he
      rw [h1]
      exact .fiPatt h2
    unfold intoForInHead
    rw [ht]
    cases t with
    | variableDeclaration => exact absurd rfl hne
    | _ => exact hx
  | fiVarInit l i e =>
    refine key (p := .pSimple (.ident i)) (init := .some e) h (plain_id i)
      (Plain.mk rfl fun y hy => ?_) fun p' e' h1 h2 => ?_
    · cases hy with
      | head => exact hp.fst rfl
      | tail _ hy => cases hy
    · cases h1 with
      | pSimple h1 =>
        cases h1
        cases e' with
        | none => cases h2
        | some e' => cases h2 with | some h2 => exact .fiVarInit h2
  | fiVar l p =>
    refine key (p := p) (init := .none) h (hp.fst rfl) plain_none fun p' e' h1 h2 => ?_
    cases e' with
    | some e' => cases h2
    | none =>
      cases p' with
      | pSimple t => cases t; exact Ast.Agree.fiVar h1
      | pCompound q => exact Ast.Agree.fiVar h1
  | fiLet l p =>
    refine key (p := p) (init := .none) h (hp.fst rfl) plain_none fun p' e' h1 h2 => ?_
    cases e' with
    | some e' => cases h2
    | none =>
      cases p' with
      | pSimple t => cases t; exact Ast.Agree.fiLet h1
      | pCompound q => exact Ast.Agree.fiLet h1
  | fiConst l p =>
    refine key (p := p) (init := .none) h (hp.fst rfl) plain_none fun p' e' h1 h2 => ?_
    cases e' with
    | some e' => cases h2
    | none =>
      cases p' with
      | pSimple t => cases t; exact Ast.Agree.fiConst h1
      | pCompound q => exact Ast.Agree.fiConst h1

theorem intoForOfHead_gives (hr : RecGives n r) (x : Ast .forOfHead) (o : Object)
    (hd : depthFields o < n) (h : Encodes x (.object o)) (hp : Plain x) :
    Gives (Same x) (intoForOfHead r o) := by
  unfold intoForOfHead
  cases x with
  | foPatt p =>
    obtain ⟨⟨t, ht, hne⟩, hg⟩ := assignPatt_gives hr hd h (hp.fst rfl)
    have hx : Gives (Same (.foPatt p)) ((r.expr o).bind fun expr =>
        match Cover.intoAssignPatt expr with
        | .ok patt => .ok (.foPatt patt)
        | .error _ => .err (.invalidLHS c!"left")) := hg.bind fun e he => by
      obtain ⟨p', h1, h2⟩ := he
      rw [h1]
      exact .foPatt h2
    rw [ht]
    cases t with
    | variableDeclaration => exact absurd rfl hne
    | _ => exact hx
  | foVar l p =>
    obtain ⟨ht, hk, d, h1, h2, h3, hlt⟩ := oneVar h rfl
    rw [ht]
    refine JX.run ?_
    refine (JG.extractArray h1).andThen fun ds hds => (JG.extractString hk).andThen fun _ hs => ?_
    subst hds hs
    refine (JG.eq (x := ofJson (Json.object d).intoObject) rfl).andThen fun _ ho => ?_
    subst ho
    exact (JG.lift (JG.run (extractPatt_gives h2 (hp.fst rfl)))).andThen fun _ hp =>
      JX.pure (.foVar hp)
  | foLet l p =>
    obtain ⟨ht, hk, d, h1, h2, h3, hlt⟩ := oneVar h rfl
    rw [ht]
    refine JX.run ?_
    refine (JG.extractArray h1).andThen fun ds hds => (JG.extractString hk).andThen fun _ hs => ?_
    subst hds hs
    refine (JG.eq (x := ofJson (Json.object d).intoObject) rfl).andThen fun _ ho => ?_
    subst ho
    exact (JG.lift (JG.run (extractPatt_gives h2 (hp.fst rfl)))).andThen fun _ hp =>
      JX.pure (.foLet hp)
  | foConst l p =>
    obtain ⟨ht, hk, d, h1, h2, h3, hlt⟩ := oneVar h rfl
    rw [ht]
    refine JX.run ?_
    refine (JG.extractArray h1).andThen fun ds hds => (JG.extractString hk).andThen fun _ hs => ?_
    subst hds hs
    refine (JG.eq (x := ofJson (Json.object d).intoObject) rfl).andThen fun _ ho => ?_
    subst ho
    exact (JG.lift (JG.run (extractPatt_gives h2 (hp.fst rfl)))).andThen fun _ hp =>
      JX.pure (.foConst hp)

theorem intoCase_gives (hr : RecGives n r) (x : Ast .case) (o : Object) (hd : depthFields o < n)
    (h : Encodes x (.object o)) (hp : Plain x) : Gives (Same x) (intoCase r o) := by
  cases x with
  | caseClause l test items =>
    obtain ⟨o', ho, _, h1, h2⟩ := h
    cases ho
    unfold intoCase
    refine JX.run ?_
    exact (extractExprOpt_gives hr h1 (hp.fst rfl) (Nat.le_of_lt hd)).andThen fun _ h1 =>
      (extractStmtList_gives hr h2 (hp.snd rfl) (Nat.le_of_lt hd)).andThen fun _ h2 =>
      JX.pure (.caseClause h1 (h2.same items))

theorem intoCatch_gives (hr : RecGives n r) (x : Ast .«catch») (o : Object) (hd : depthFields o < n)
    (h : Encodes x (.object o)) (hp : Plain x) : Gives (Same x) (intoCatch r o) := by
  cases x with
  | catchClause l p b =>
    obtain ⟨o', ho, _, h1, h2⟩ := h
    cases ho
    unfold intoCatch
    refine JX.run ?_
    exact (extractPatt_gives h1 (hp.fst rfl)).andThen fun _ h1 =>
      (extractBlock_gives hr h2 (hp.snd rfl) (Nat.le_of_lt hd)).andThen fun _ h2 =>
      JX.pure (.catchClause h1 h2)

/-- What is read for a statement. -/
abbrev SameStmt (x : Stmt) (i : StmtListItem) : Prop := ∃ s, i = .siStmt s ∧ Same x s

theorem stmt_run {x : Stmt} {p : J Stmt} (h : JX o [] (Same x) p) :
    Gives (SameStmt x) ((J.run p o).map .siStmt) := (JX.run h).map fun s hs => ⟨s, rfl, hs⟩

theorem stmtItem_gives (hr : RecGives n r) (x : Stmt) (b : Bool) (o : Object)
    (hd : depthFields o ≤ n) (h : Encodes x (.object o)) (hp : Plain x) :
    Gives (SameStmt x) (intoItem r o b) := by
  unfold intoItem
  cases x with
  | sEmpty l =>
    obtain ⟨o', ho, ht, _⟩ := h
    cases ho
    rw [tag_of ht rfl]
    exact ⟨_, rfl, .sEmpty⟩
  | sDebugger l s =>
    obtain ⟨o', ho, ht, _⟩ := h
    cases ho
    rw [tag_of ht rfl]
    exact ⟨_, rfl, .sDebugger⟩
  | sBlock bl =>
    cases bl with
    | block l items =>
      obtain ⟨o', ho, ht, h1⟩ := h
      cases ho
      rw [tag_of ht rfl]
      show Gives _ ((intoBlock r o).map fun b => (Ast.siStmt (.sBlock b) : StmtListItem))
      unfold intoBlock
      rw [tag_of ht rfl]
      have hpb : Plain (Ast.block l items) := hp.fst rfl
      exact ((JG.run (extractStmtList_gives hr h1 (hpb.fst rfl) hd)).bind
        (Q := Same (.block l items)) (f := fun items => .ok (.block none (Ast.ofList items)))
        fun ys hys => .block (hys.same items)).map fun bl hb => ⟨_, rfl, .sBlock hb⟩
  | sVar l ds s =>
    obtain ⟨o', ho, ht, h1, h2⟩ := h
    cases ho
    rw [tag_of ht rfl]
    refine JX.run ?_
    refine (extractDtorList_gives hr h2 (hp.fst rfl) hd).andThen fun ys hys =>
      (JG.extractString h1).andThen fun _ hs => ?_
    subst hs
    exact JX.pure ⟨_, rfl, .sVar (hys.same ds)⟩
  | sExpr l e s =>
    obtain ⟨o', ho, ht, h1⟩ := h
    cases ho
    rw [tag_of ht rfl]
    refine stmt_run ?_
    exact (extractExpr_gives hr h1 (hp.fst rfl) hd).andThen fun _ h1 => JX.pure (.sExpr h1)
  | sIf l test thn alt =>
    obtain ⟨o', ho, ht, h1, h2, h3⟩ := h
    cases ho
    rw [tag_of ht rfl]
    refine stmt_run ?_
    exact (extractExpr_gives hr h1 (hp.fst rfl) hd).andThen fun _ h1 =>
      (extractStmt_gives hr h2 (hp.snd rfl) hd).andThen fun _ h2 =>
      (extractStmtOpt_gives hr h3 (hp.thd rfl) hd).andThen fun _ h3 => JX.pure (.sIf h1 h2 h3)
  | sLabel l i s =>
    obtain ⟨o', ho, ht, h1, h2⟩ := h
    cases ho
    rw [tag_of ht rfl]
    refine stmt_run ?_
    refine (extractId_gives h1).andThen fun _ h1 =>
      (extractStmt_gives hr h2 (hp.fst rfl) hd).andThen fun _ h2 => ?_
    subst h1
    exact JX.pure (.sLabel h2)
  | sBreak l i s =>
    obtain ⟨o', ho, ht, h1⟩ := h
    cases ho
    rw [tag_of ht rfl]
    refine stmt_run ?_
    refine (extractIdOpt_gives h1).andThen fun _ h1 => ?_
    subst h1
    exact JX.pure .sBreak
  | sCont l i s =>
    obtain ⟨o', ho, ht, h1⟩ := h
    cases ho
    rw [tag_of ht rfl]
    refine stmt_run ?_
    refine (extractIdOpt_gives h1).andThen fun _ h1 => ?_
    subst h1
    exact JX.pure .sCont
  | sWith l e s =>
    obtain ⟨o', ho, ht, h1, h2⟩ := h
    cases ho
    rw [tag_of ht rfl]
    refine stmt_run ?_
    exact (extractExpr_gives hr h1 (hp.fst rfl) hd).andThen fun _ h1 =>
      (extractStmt_gives hr h2 (hp.snd rfl) hd).andThen fun _ h2 => JX.pure (.sWith h1 h2)
  | sSwitch l e cases' =>
    obtain ⟨o', ho, ht, h1, h2⟩ := h
    cases ho
    rw [tag_of ht rfl]
    refine stmt_run ?_
    exact (extractExpr_gives hr h1 (hp.fst rfl) hd).andThen fun _ h1 =>
      (listAst_gives case_obj (intoCase_gives hr) h2 (hp.snd rfl) hd).andThen fun _ h2 =>
      JX.pure (.sSwitch h1 h2)
  | sReturn l e s =>
    obtain ⟨o', ho, ht, h1⟩ := h
    cases ho
    rw [tag_of ht rfl]
    refine stmt_run ?_
    exact (extractExprOpt_gives hr h1 (hp.fst rfl) hd).andThen fun _ h1 => JX.pure (.sReturn h1)
  | sThrow l e s =>
    obtain ⟨o', ho, ht, h1⟩ := h
    cases ho
    rw [tag_of ht rfl]
    refine stmt_run ?_
    exact (extractExpr_gives hr h1 (hp.fst rfl) hd).andThen fun _ h1 => JX.pure (.sThrow h1)
  | sTry l bl c f =>
    obtain ⟨o', ho, ht, h1, h2, h3⟩ := h
    cases ho
    rw [tag_of ht rfl]
    refine stmt_run ?_
    exact (extractBlock_gives hr h1 (hp.fst rfl) hd).andThen fun _ h1 =>
      (option_gives catch_obj (intoCatch_gives hr) h2 (hp.snd rfl) hd).andThen fun _ h2 =>
      (option_gives block_obj (intoBlock_gives hr) h3 (hp.thd rfl) hd).andThen fun _ h3 =>
      JX.pure (.sTry h1 h2 h3)
  | sWhile l e s =>
    obtain ⟨o', ho, ht, h1, h2⟩ := h
    cases ho
    rw [tag_of ht rfl]
    refine stmt_run ?_
    exact (extractExpr_gives hr h1 (hp.fst rfl) hd).andThen fun _ h1 =>
      (extractStmt_gives hr h2 (hp.snd rfl) hd).andThen fun _ h2 => JX.pure (.sWhile h1 h2)
  | sDoWhile l s e semi =>
    obtain ⟨o', ho, ht, h1, h2⟩ := h
    cases ho
    rw [tag_of ht rfl]
    refine stmt_run ?_
    exact (extractStmt_gives hr h1 (hp.fst rfl) hd).andThen fun _ h1 =>
      (extractExpr_gives hr h2 (hp.snd rfl) hd).andThen fun _ h2 => JX.pure (.sDoWhile h1 h2)
  | sFor l head test update s =>
    obtain ⟨o', ho, ht, h1, h2, h3, h4⟩ := h
    cases ho
    rw [tag_of ht rfl]
    refine stmt_run ?_
    exact (option_gives forHead_obj (intoForHead_gives hr) h1 (hp.fst rfl) hd).andThen fun _ h1 =>
      (extractExprOpt_gives hr h2 (hp.snd rfl) hd).andThen fun _ h2 =>
      (extractExprOpt_gives hr h3 (hp.thd rfl) hd).andThen fun _ h3 =>
      (extractStmt_gives hr h4 (hp.fth rfl) hd).andThen fun _ h4 => JX.pure (.sFor h1 h2 h3 h4)
  | sForIn l head e s =>
    obtain ⟨o', ho, ht, h1, h2, h3⟩ := h
    cases ho
    rw [tag_of ht rfl]
    refine stmt_run ?_
    obtain ⟨j, hj, h1⟩ := h1
    obtain ⟨oh, rfl⟩ := forInHead_obj head j h1
    refine (JG.extractObject hj).andThen fun _ ho => ?_
    subst ho
    exact (JG.lift (intoForInHead_gives hr head _ (Nat.lt_of_lt_of_le (depth_field hj) hd) h1
      (hp.fst rfl))).andThen fun _ h1 =>
      (extractExpr_gives hr h2 (hp.snd rfl) hd).andThen fun _ h2 =>
      (extractStmt_gives hr h3 (hp.thd rfl) hd).andThen fun _ h3 => JX.pure (.sForIn h1 h2 h3)
  | sForOf l head e s =>
    obtain ⟨o', ho, ht, h1, h2, h3⟩ := h
    cases ho
    rw [tag_of ht rfl]
    refine stmt_run ?_
    obtain ⟨j, hj, h1⟩ := h1
    obtain ⟨oh, rfl⟩ := forOfHead_obj head j h1
    refine (JG.extractObject hj).andThen fun _ ho => ?_
    subst ho
    exact (JG.lift (intoForOfHead_gives hr head _ (Nat.lt_of_lt_of_le (depth_field hj) hd) h1
      (hp.fst rfl))).andThen fun _ h1 =>
      (extractExpr_gives hr h2 (hp.snd rfl) hd).andThen fun _ h2 =>
      (extractStmt_gives hr h3 (hp.thd rfl) hd).andThen fun _ h3 => JX.pure (.sForOf h1 h2 h3)

theorem item_gives (hr : RecGives n r) (x : StmtListItem) (o : Object)
    (hd : depthFields o ≤ n) (h : Encodes x (.object o)) (hp : Plain x) :
    Gives (Same x) (intoItem r o true) := by
  cases x with
  | siStmt s =>
    exact (stmtItem_gives hr s true o hd h (hp.fst rfl)).mono fun i hi => by
      obtain ⟨s', rfl, hs⟩ := hi
      exact .siStmt hs
  | siDecl d =>
    unfold intoItem
    have hpd : Plain d := hp.fst rfl
    cases d with
    | dFun f =>
      obtain ⟨o', ho, ht, h1, h2⟩ := h
      cases ho
      rw [tag_of ht rfl]
      have hpf : Plain f := hpd.fst rfl
      cases f with
      | func lf i ps b gen =>
        cases i with
        | ident i =>
          refine JX.run ?_
          refine (extractId_gives h1).andThen fun i1 hi1 => JG.self.andThen fun ol hl => ?_
          subst hi1
          exact (JG.lift (intoFun_gives hr (encodes_func_left h2 hl) hpf
            (Nat.le_trans hl.depth hd) .ident)).andThen fun f hf => JX.pure (.siDecl (.dFun hf))
    | dLet l ds s =>
      obtain ⟨o', ho, ht, h1, h2⟩ := h
      cases ho
      rw [tag_of ht rfl]
      refine JX.run ?_
      refine (extractDtorList_gives hr h2 (hpd.fst rfl) hd).andThen fun ys hys =>
        (JG.extractString h1).andThen fun _ hs => ?_
      subst hs
      exact JX.pure (.siDecl (.dLet (hys.same ds)))
    | dConst l ds s =>
      obtain ⟨o', ho, ht, h1, h2⟩ := h
      cases ho
      rw [tag_of ht rfl]
      refine JX.run ?_
      refine (extractConstList_gives hr h2 (hpd.fst rfl) hd).andThen fun ys hys =>
        (JG.extractString h1).andThen fun _ hs => ?_
      subst hs
      exact (JG.lift hys).andThen fun zs hzs => JX.pure (.siDecl (.dConst (hzs.same ds)))

end

theorem recOf_gives : (n : Nat) → RecGives n (recOf n)
  | 0 => ⟨fun _ _ h => absurd h (Nat.not_lt_zero _), fun _ _ _ h => absurd h (Nat.not_lt_zero _),
      fun _ _ h => absurd h (Nat.not_lt_zero _)⟩
  | n + 1 => ⟨fun x o h => intoExpr_gives (recOf_gives n) x o (Nat.le_of_lt_succ h),
      fun x b o h => stmtItem_gives (recOf_gives n) x b o (Nat.le_of_lt_succ h),
      fun x o h => item_gives (recOf_gives n) x o (Nat.le_of_lt_succ h)⟩

theorem intoScript_gives {x : Script} {o : Object} (h : EncodesScript x o) (hp : Plain x) :
    Gives (Same x) (intoScript o) :=
  JG.run (extractScript_gives (recOf_gives _) h.2 hp (Nat.le_refl _))

end Estree

end Esprit
