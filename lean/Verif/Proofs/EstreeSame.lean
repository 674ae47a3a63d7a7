import Verif.Spec.EstreeReads
import Verif.Spec.EstreeSame

/-! Only the fields with a meaning matter to what a JSON value reads as. -/

namespace Esprit

namespace Estree

mutual

theorem Alike.symm : {j j' : Json} → Alike j j' → Alike j' j
  | _, _, .null => .null
  | _, _, .bool => .bool
  | _, _, .i64 => .i64
  | _, _, .u64 => .u64
  | _, _, .f64 => .f64
  | _, _, .string => .string
  | _, _, .array h => .array h.symm
  | _, _, .object h => .object fun name hn => (h name hn).symm

theorem AlikeList.symm : {js js' : List Json} → AlikeList js js' → AlikeList js' js
  | _, _, .nil => .nil
  | _, _, .cons h hs => .cons h.symm hs.symm

theorem AlikeField.symm : {a b : Option Json} → AlikeField a b → AlikeField b a
  | _, _, .none => .none
  | _, _, .some h => .some h.symm

end

/-- The objects agree on the fields with a meaning. -/
def AlikeFields (o o' : Object) : Prop := ∀ name ∈ readFields, AlikeField (o.get name) (o'.get name)

theorem Alike.obj {o : Object} {j : Json} (h : Alike (.object o) j) :
    ∃ o', j = .object o' ∧ AlikeFields o o' := by
  cases h with
  | object h => exact ⟨_, rfl, h⟩

theorem Alike.arr {js : List Json} {j : Json} (h : Alike (.array js) j) :
    ∃ js', j = .array js' ∧ AlikeList js js' := by
  cases h with
  | array h => exact ⟨_, rfl, h⟩

namespace AlikeFields

variable {o o' : Object} {name : Str}

theorem node {j : Json} (f : AlikeFields o o') (h : o.get name = some j)
    (hm : name ∈ readFields := by decide) : ∃ j', o'.get name = some j' ∧ Alike j j' := by
  have hf := f name hm
  rw [h] at hf
  generalize hg : o'.get name = a at hf
  cases hf with
  | some hs => exact ⟨_, rfl, hs⟩

theorem absent (f : AlikeFields o o') (h : o.get name = none)
    (hm : name ∈ readFields := by decide) : o'.get name = none := by
  have hf := f name hm
  rw [h] at hf
  generalize hg : o'.get name = a at hf
  cases hf with
  | none => rfl

theorem str {s : Str} (f : AlikeFields o o') (h : o.get name = some (.string s))
    (hm : name ∈ readFields := by decide) : o'.get name = some (.string s) := by
  obtain ⟨_, h', hs⟩ := f.node h hm
  cases hs
  exact h'

theorem bool {b : Bool} (f : AlikeFields o o') (h : o.get name = some (.bool b))
    (hm : name ∈ readFields := by decide) : o'.get name = some (.bool b) := by
  obtain ⟨_, h', hs⟩ := f.node h hm
  cases hs
  exact h'

theorem null (f : AlikeFields o o') (h : o.get name = some .null)
    (hm : name ∈ readFields := by decide) : o'.get name = some .null := by
  obtain ⟨_, h', hs⟩ := f.node h hm
  cases hs
  exact h'

theorem single {od : Object} (f : AlikeFields o o') (h : o.get name = some (.array [.object od]))
    (hm : name ∈ readFields := by decide) :
    ∃ od', o'.get name = some (.array [.object od']) ∧ AlikeFields od od' := by
  obtain ⟨_, h', hs⟩ := f.node h hm
  cases hs with
  | array hs =>
    cases hs with
    | cons hj hs =>
      cases hs
      obtain ⟨od', rfl, hf⟩ := hj.obj
      exact ⟨od', h', hf⟩

end AlikeFields

theorem ReadsId.same {i : Id} {j j' : Json} (h : ReadsId i j) (hs : Alike j j') : ReadsId i j' := by
  obtain ⟨o, s, rfl, h1, h2, rfl⟩ := h
  obtain ⟨o', rfl, f⟩ := hs.obj
  exact ⟨o', s, rfl, f.str h1, f.str h2, rfl⟩

theorem ReadsNumber.same {n : NumberLiteral} {j j' : Json} (h : ReadsNumber n j) (hs : Alike j j') :
    ReadsNumber n j' := by
  cases h <;> cases hs <;> constructor

theorem ReadsKey.same {k : PropKey} {j j' : Json} (h : ReadsKey k j) (hs : Alike j j') :
    ReadsKey k j' := by
  obtain ⟨o', rfl, f⟩ : ∃ o', j' = .object o' ∧ True := by
    cases h <;> obtain ⟨o', rfl, _⟩ := hs.obj <;> exact ⟨o', rfl, trivial⟩
  cases hs with
  | object f =>
    replace f : AlikeFields _ _ := f
    cases h with
    | id h1 h2 => exact .id (f.str h1) (f.str h2)
    | number h1 h2 h3 h4 h5 =>
      obtain ⟨_, g, s⟩ := f.node h4
      exact .number (f.str h1) h2 h3 g (h5.same s)
    | string h1 h2 h3 h4 => exact .string (f.str h1) h2 h3 (f.str h4)

theorem HasRegExp.same {o o' : Object} {p fl : Str} (h : HasRegExp o p fl) (f : AlikeFields o o') :
    HasRegExp o' p fl := by
  obtain ⟨ro, h1, h2, h3⟩ := h
  obtain ⟨_, g, s⟩ := f.node h1
  obtain ⟨ro', rfl, f'⟩ := s.obj
  exact ⟨ro', g, f'.str h2, f'.str h3⟩

theorem ReadsFlag.same {b : Bool} {j j' : Json} (h : ReadsFlag b j) (hs : Alike j j') :
    ReadsFlag b j' := by
  cases b with
  | true => cases h; cases hs; rfl
  | false =>
    obtain rfl | rfl := h <;> cases hs
    · exact .inl rfl
    · exact .inr rfl

theorem null_or_obj {j j' : Json} (h : j = .null ∨ ∃ fields, j = .object fields) (hs : Alike j j') :
    j' = .null ∨ ∃ fields, j' = .object fields := by
  obtain rfl | ⟨o, rfl⟩ := h
  · cases hs; exact .inl rfl
  · obtain ⟨o', rfl, _⟩ := hs.obj
    exact .inr ⟨o', rfl⟩

theorem ReadsDir.same {d : Dir} {j j' : Json} (h : ReadsDir d j) (hs : Alike j j') :
    ReadsDir d j' := by
  obtain ⟨o, oe, s, rfl, h1, h2, h3, h4, h5⟩ := h
  obtain ⟨o', rfl, f⟩ := hs.obj
  obtain ⟨_, g2, s2⟩ := f.node h2
  obtain ⟨oe', rfl, f'⟩ := s2.obj
  exact ⟨o', oe', s, rfl, f.str h1, g2, f'.str h3, f'.str h4, h5⟩

theorem ReadsDirs.same {ds : List Dir} {js js' : List Json} (h : ReadsDirs ds js)
    (hs : AlikeList js js') : ReadsDirs ds js' := by
  induction h generalizing js' with
  | nil => cases hs; exact .nil
  | cons h _ ih => cases hs with | cons hj hs => exact .cons (h.same hj) (ih hs)

theorem AlikeList.append {as bs : List Json} : {js' : List Json} → AlikeList (as ++ bs) js' →
    ∃ as' bs', js' = as' ++ bs' ∧ AlikeList as as' ∧ AlikeList bs bs' := by
  induction as with
  | nil => exact fun h => ⟨[], _, rfl, .nil, h⟩
  | cons a as ih =>
    intro js' h
    cases h with
    | cons h hs =>
      obtain ⟨as', bs', rfl, h1, h2⟩ := ih hs
      exact ⟨_ :: as', bs', rfl, .cons h h1, h2⟩

theorem AlikeList.last {js js' : List Json} (h : AlikeList js js') :
    AlikeField js.getLast? js'.getLast? := by
  induction js generalizing js' with
  | nil => cases h; exact .none
  | cons j js ih =>
    cases h with
    | cons hj hs =>
      cases hs with
      | nil => exact .some hj
      | cons h1 h2 =>
        have := ih (.cons h1 h2)
        rwa [List.getLast?_cons_cons, List.getLast?_cons_cons]

theorem NoRest.same {js js' : List Json} (h : NoRest js) (hs : AlikeList js js') : NoRest js' := by
  intro j' o' hj ho ht
  have hl := hs.symm.last
  rw [hj] at hl
  generalize hg : js.getLast? = a at hl
  cases hl with
  | some hl =>
    subst ho
    obtain ⟨o, rfl, f⟩ := hl.obj
    exact h _ o hg rfl (f.str ht)

theorem Reads.same {c : Cat} {x : Ast c} {j j' : Json} (h : Reads x j) (hs : Alike j j') :
    Reads x j' := by
  induction h generalizing j' with
  | nil => obtain ⟨_, rfl, h⟩ := hs.arr; cases h; exact .nil
  | cons _ _ ih1 ih2 =>
    obtain ⟨_, rfl, h⟩ := hs.arr
    cases h with
    | cons h1 h2 => exact .cons (ih1 h1) (ih2 (.array h2))
  | none => cases hs; exact .none
  | some _ ih => exact .some (ih hs)
  | params h1 _ ih2 =>
    obtain ⟨_, rfl, h⟩ := hs.arr
    exact .params (h1.same h) (ih2 (.array h))
  | paramsRest _ h2 h3 _ ih1 ih4 =>
    obtain ⟨_, rfl, h⟩ := hs.arr
    obtain ⟨as', bs', rfl, ha, hb⟩ := h.append
    cases hb with
    | cons hj hb =>
      cases hb
      obtain ⟨_, rfl, f_o⟩ := hj.obj
      obtain ⟨_, g3, s3⟩ := f_o.node h3
      exact .paramsRest (ih1 (.array ha)) (f_o.str h2) g3 (ih4 s3)
  | body h1 _ h3 ih2 =>
    obtain ⟨_, rfl, h⟩ := hs.arr
    obtain ⟨as', bs', rfl, ha, hb⟩ := h.append
    exact .body (h1.same ha) (ih2 (.array hb)) h3
  | ident h1 =>
    exact .ident (h1.same hs)
  | key h1 =>
    exact .key (h1.same hs)
  | iExpr _ ih1 =>
    exact .iExpr (ih1 hs)
  | iSpread h1 h2 _ ih3 =>
    obtain ⟨_, rfl, f_o⟩ := hs.obj
    obtain ⟨_, g2, s2⟩ := f_o.node h2
    exact .iSpread (f_o.str h1) g2 (ih3 s2)
  | this h1 =>
    obtain ⟨_, rfl, f_o⟩ := hs.obj
    exact .this (f_o.str h1)
  | id h1 =>
    exact .id (h1.same hs)
  | arr h1 h2 _ ih3 =>
    obtain ⟨_, rfl, f_o⟩ := hs.obj
    obtain ⟨_, g2, s2⟩ := f_o.node h2
    exact .arr (f_o.str h1) g2 (ih3 s2)
  | obj h1 h2 _ ih3 =>
    obtain ⟨_, rfl, f_o⟩ := hs.obj
    obtain ⟨_, g2, s2⟩ := f_o.node h2
    exact .obj (f_o.str h1) g2 (ih3 s2)
  | «fun» h1 h2 _ _ ih3 ih4 =>
    obtain ⟨_, rfl, f_o⟩ := hs.obj
    obtain ⟨_, g2, s2⟩ := f_o.node h2
    exact .«fun» (f_o.str h1) g2 (ih3 s2) (ih4 hs)
  | seq h1 h2 _ ih3 =>
    obtain ⟨_, rfl, f_o⟩ := hs.obj
    obtain ⟨_, g2, s2⟩ := f_o.node h2
    exact .seq (f_o.str h1) g2 (ih3 s2)
  | unop h1 h2 h3 _ ih4 =>
    obtain ⟨_, rfl, f_o⟩ := hs.obj
    obtain ⟨_, g3, s3⟩ := f_o.node h3
    exact .unop (f_o.str h1) (f_o.str h2) g3 (ih4 s3)
  | binop h1 h2 h3 _ h5 _ ih4 ih6 =>
    obtain ⟨_, rfl, f_o⟩ := hs.obj
    obtain ⟨_, g3, s3⟩ := f_o.node h3
    obtain ⟨_, g5, s5⟩ := f_o.node h5
    exact .binop (f_o.str h1) (f_o.str h2) g3 (ih4 s3) g5 (ih6 s5)
  | logop h1 h2 h3 _ h5 _ ih4 ih6 =>
    obtain ⟨_, rfl, f_o⟩ := hs.obj
    obtain ⟨_, g3, s3⟩ := f_o.node h3
    obtain ⟨_, g5, s5⟩ := f_o.node h5
    exact .logop (f_o.str h1) (f_o.str h2) g3 (ih4 s3) g5 (ih6 s5)
  | preInc h1 h2 h3 h4 _ ih5 =>
    obtain ⟨_, rfl, f_o⟩ := hs.obj
    obtain ⟨_, g4, s4⟩ := f_o.node h4
    exact .preInc (f_o.str h1) (f_o.str h2) (f_o.bool h3) g4 (ih5 s4)
  | postInc h1 h2 h3 h4 _ ih5 =>
    obtain ⟨_, rfl, f_o⟩ := hs.obj
    obtain ⟨_, g4, s4⟩ := f_o.node h4
    exact .postInc (f_o.str h1) (f_o.str h2) (f_o.bool h3) g4 (ih5 s4)
  | preDec h1 h2 h3 h4 _ ih5 =>
    obtain ⟨_, rfl, f_o⟩ := hs.obj
    obtain ⟨_, g4, s4⟩ := f_o.node h4
    exact .preDec (f_o.str h1) (f_o.str h2) (f_o.bool h3) g4 (ih5 s4)
  | postDec h1 h2 h3 h4 _ ih5 =>
    obtain ⟨_, rfl, f_o⟩ := hs.obj
    obtain ⟨_, g4, s4⟩ := f_o.node h4
    exact .postDec (f_o.str h1) (f_o.str h2) (f_o.bool h3) g4 (ih5 s4)
  | assign h1 h2 h3 h4 _ h6 _ ih5 ih7 =>
    obtain ⟨_, rfl, f_o⟩ := hs.obj
    obtain ⟨_, g3, s3⟩ := f_o.node h3
    obtain ⟨_, g6, s6⟩ := f_o.node h6
    exact .assign (f_o.str h1) (f_o.str h2) g3 h4 (ih5 s3) g6 (ih7 s6)
  | binAssign h1 h2 h3 _ h5 _ ih4 ih6 =>
    obtain ⟨_, rfl, f_o⟩ := hs.obj
    obtain ⟨_, g3, s3⟩ := f_o.node h3
    obtain ⟨_, g5, s5⟩ := f_o.node h5
    exact .binAssign (f_o.str h1) (f_o.str h2) g3 (ih4 s3) g5 (ih6 s5)
  | cond h1 h2 _ h4 _ h6 _ ih3 ih5 ih7 =>
    obtain ⟨_, rfl, f_o⟩ := hs.obj
    obtain ⟨_, g2, s2⟩ := f_o.node h2
    obtain ⟨_, g4, s4⟩ := f_o.node h4
    obtain ⟨_, g6, s6⟩ := f_o.node h6
    exact .cond (f_o.str h1) g2 (ih3 s2) g4 (ih5 s4) g6 (ih7 s6)
  | call h1 h2 _ h4 _ ih3 ih5 =>
    obtain ⟨_, rfl, f_o⟩ := hs.obj
    obtain ⟨_, g2, s2⟩ := f_o.node h2
    obtain ⟨_, g4, s4⟩ := f_o.node h4
    exact .call (f_o.str h1) g2 (ih3 s2) g4 (ih5 s4)
  | new h1 h2 _ h4 _ ih3 ih5 =>
    obtain ⟨_, rfl, f_o⟩ := hs.obj
    obtain ⟨_, g2, s2⟩ := f_o.node h2
    obtain ⟨_, g4, s4⟩ := f_o.node h4
    exact .new (f_o.str h1) g2 (ih3 s2) g4 (ih5 s4)
  | dot h1 h2 _ h4 h5 h6 ih3 =>
    obtain ⟨_, rfl, f_o⟩ := hs.obj
    obtain ⟨_, g2, s2⟩ := f_o.node h2
    obtain ⟨_, g5, s5⟩ := f_o.node h5
    exact .dot (f_o.str h1) g2 (ih3 s2) (f_o.bool h4) g5 (h6.same s5)
  | brack h1 h2 _ h4 h5 _ ih3 ih6 =>
    obtain ⟨_, rfl, f_o⟩ := hs.obj
    obtain ⟨_, g2, s2⟩ := f_o.node h2
    obtain ⟨_, g5, s5⟩ := f_o.node h5
    exact .brack (f_o.str h1) g2 (ih3 s2) (f_o.bool h4) g5 (ih6 s5)
  | newTarget h1 h2 h3 h4 h5 =>
    obtain ⟨_, rfl, f_o⟩ := hs.obj
    obtain ⟨_, g2, s2⟩ := f_o.node h2
    obtain ⟨_, g4, s4⟩ := f_o.node h4
    exact .newTarget (f_o.str h1) g2 (h3.same s2) g4 (h5.same s4)
  | true h1 h2 =>
    obtain ⟨_, rfl, f_o⟩ := hs.obj
    exact .true (f_o.str h1) (f_o.bool h2)
  | false h1 h2 =>
    obtain ⟨_, rfl, f_o⟩ := hs.obj
    exact .false (f_o.str h1) (f_o.bool h2)
  | null h1 h2 h3 =>
    obtain ⟨_, rfl, f_o⟩ := hs.obj
    exact .null (f_o.str h1) (f_o.null h2) (f_o.absent h3)
  | number h1 h2 h3 =>
    obtain ⟨_, rfl, f_o⟩ := hs.obj
    obtain ⟨_, g2, s2⟩ := f_o.node h2
    exact .number (f_o.str h1) g2 (h3.same s2)
  | regExp h1 h2 h3 h4 =>
    obtain ⟨_, rfl, f_o⟩ := hs.obj
    obtain ⟨_, g2, s2⟩ := f_o.node h2
    exact .regExp (f_o.str h1) g2 (null_or_obj h3 s2) (h4.same f_o)
  | string h1 h2 =>
    obtain ⟨_, rfl, f_o⟩ := hs.obj
    exact .string (f_o.str h1) (f_o.str h2)
  | init h1 h2 h3 h4 h5 h6 _ ih7 =>
    obtain ⟨_, rfl, f_o⟩ := hs.obj
    obtain ⟨_, g4, s4⟩ := f_o.node h4
    obtain ⟨_, g6, s6⟩ := f_o.node h6
    obtain ⟨_, rfl, f_ov⟩ := s6.obj
    exact .init (f_o.str h1) (f_o.bool h2) (f_o.bool h3) g4 (h5.same s4) g6 (ih7 s6)
  | shorthand h1 h2 h3 h4 h5 h6 =>
    obtain ⟨_, rfl, f_o⟩ := hs.obj
    obtain ⟨_, g4, s4⟩ := f_o.node h4
    obtain ⟨_, g6, s6⟩ := f_o.node h6
    obtain ⟨_, rfl, f_ov⟩ := s6.obj
    exact .shorthand (f_o.str h1) (f_o.bool h2) (f_o.bool h3) g4 (h5.same s4) g6
  | method h1 h2 h3 h4 h5 _ ih6 =>
    obtain ⟨_, rfl, f_o⟩ := hs.obj
    obtain ⟨_, g3, s3⟩ := f_o.node h3
    obtain ⟨_, g5, s5⟩ := f_o.node h5
    obtain ⟨_, rfl, f_ov⟩ := s5.obj
    exact .method (f_o.str h1) (f_o.bool h2) g3 (h4.same s3) g5 (ih6 s5)
  | get h1 h2 h3 h4 h5 h6 _ ih7 =>
    obtain ⟨_, rfl, f_o⟩ := hs.obj
    obtain ⟨_, g2, s2⟩ := f_o.node h2
    obtain ⟨_, g4, s4⟩ := f_o.node h4
    obtain ⟨_, rfl, f_ov⟩ := s4.obj
    obtain ⟨_, g5, s5⟩ := f_ov.node h5
    obtain ⟨_, rfl, f_ob⟩ := s5.obj
    obtain ⟨_, g6, s6⟩ := f_ob.node h6
    exact .get (f_o.str h1) g2 (h3.same s2) g4 g5 g6 (ih7 s6)
  | set h1 h2 h3 h4 _ ih5 =>
    obtain ⟨_, rfl, f_o⟩ := hs.obj
    obtain ⟨_, g2, s2⟩ := f_o.node h2
    obtain ⟨_, g4, s4⟩ := f_o.node h4
    obtain ⟨_, rfl, f_ov⟩ := s4.obj
    exact .set (f_o.str h1) g2 (h3.same s2) g4 (ih5 s4)
  | func h1 h2 h3 _ h5 h6 _ ih4 ih7 =>
    obtain ⟨_, rfl, f_o⟩ := hs.obj
    obtain ⟨_, g1, s1⟩ := f_o.node h1
    obtain ⟨_, g3, s3⟩ := f_o.node h3
    obtain ⟨_, g5, s5⟩ := f_o.node h5
    obtain ⟨_, rfl, f_ob⟩ := s5.obj
    obtain ⟨_, g6, s6⟩ := f_ob.node h6
    exact .func g1 (h2.same s1) g3 (ih4 s3) g5 g6 (ih7 s6)
  | simple h1 =>
    exact .simple (h1.same hs)
  | declFun h1 h2 h3 _ ih4 =>
    obtain ⟨_, rfl, f_o⟩ := hs.obj
    obtain ⟨_, g2, s2⟩ := f_o.node h2
    exact .declFun (f_o.str h1) g2 (h3.same s2) (ih4 hs)
  | declLet h1 h2 h3 _ ih4 =>
    obtain ⟨_, rfl, f_o⟩ := hs.obj
    obtain ⟨_, g3, s3⟩ := f_o.node h3
    exact .declLet (f_o.str h1) (f_o.str h2) g3 (ih4 s3)
  | declConst h1 h2 h3 _ ih4 =>
    obtain ⟨_, rfl, f_o⟩ := hs.obj
    obtain ⟨_, g3, s3⟩ := f_o.node h3
    exact .declConst (f_o.str h1) (f_o.str h2) g3 (ih4 s3)
  | dtor h1 h2 h3 _ ih4 =>
    obtain ⟨_, rfl, f_o⟩ := hs.obj
    obtain ⟨_, g1, s1⟩ := f_o.node h1
    obtain ⟨_, g3, s3⟩ := f_o.node h3
    exact .dtor g1 (h2.same s1) g3 (ih4 s3)
  | constDtor h1 h2 h3 _ ih4 =>
    obtain ⟨_, rfl, f_o⟩ := hs.obj
    obtain ⟨_, g1, s1⟩ := f_o.node h1
    obtain ⟨_, g3, s3⟩ := f_o.node h3
    exact .constDtor g1 (h2.same s1) g3 (ih4 s3)
  | item _ ih1 =>
    exact .item (ih1 hs)
  | block h1 h2 _ ih3 =>
    obtain ⟨_, rfl, f_o⟩ := hs.obj
    obtain ⟨_, g2, s2⟩ := f_o.node h2
    exact .block (f_o.str h1) g2 (ih3 s2)
  | sEmpty h1 =>
    obtain ⟨_, rfl, f_o⟩ := hs.obj
    exact .sEmpty (f_o.str h1)
  | sBlock _ ih1 =>
    exact .sBlock (ih1 hs)
  | sVar h1 h2 h3 _ ih4 =>
    obtain ⟨_, rfl, f_o⟩ := hs.obj
    obtain ⟨_, g3, s3⟩ := f_o.node h3
    exact .sVar (f_o.str h1) (f_o.str h2) g3 (ih4 s3)
  | sExpr h1 h2 _ ih3 =>
    obtain ⟨_, rfl, f_o⟩ := hs.obj
    obtain ⟨_, g2, s2⟩ := f_o.node h2
    exact .sExpr (f_o.str h1) g2 (ih3 s2)
  | sIf h1 h2 _ h4 _ h6 _ ih3 ih5 ih7 =>
    obtain ⟨_, rfl, f_o⟩ := hs.obj
    obtain ⟨_, g2, s2⟩ := f_o.node h2
    obtain ⟨_, g4, s4⟩ := f_o.node h4
    obtain ⟨_, g6, s6⟩ := f_o.node h6
    exact .sIf (f_o.str h1) g2 (ih3 s2) g4 (ih5 s4) g6 (ih7 s6)
  | sLabel h1 h2 h3 h4 _ ih5 =>
    obtain ⟨_, rfl, f_o⟩ := hs.obj
    obtain ⟨_, g2, s2⟩ := f_o.node h2
    obtain ⟨_, g4, s4⟩ := f_o.node h4
    exact .sLabel (f_o.str h1) g2 (h3.same s2) g4 (ih5 s4)
  | sBreak h1 h2 =>
    obtain ⟨_, rfl, f_o⟩ := hs.obj
    exact .sBreak (f_o.str h1) (f_o.null h2)
  | sBreakLabel h1 h2 h3 =>
    obtain ⟨_, rfl, f_o⟩ := hs.obj
    obtain ⟨_, g2, s2⟩ := f_o.node h2
    exact .sBreakLabel (f_o.str h1) g2 (h3.same s2)
  | sCont h1 h2 =>
    obtain ⟨_, rfl, f_o⟩ := hs.obj
    exact .sCont (f_o.str h1) (f_o.null h2)
  | sContLabel h1 h2 h3 =>
    obtain ⟨_, rfl, f_o⟩ := hs.obj
    obtain ⟨_, g2, s2⟩ := f_o.node h2
    exact .sContLabel (f_o.str h1) g2 (h3.same s2)
  | sWith h1 h2 _ h4 _ ih3 ih5 =>
    obtain ⟨_, rfl, f_o⟩ := hs.obj
    obtain ⟨_, g2, s2⟩ := f_o.node h2
    obtain ⟨_, g4, s4⟩ := f_o.node h4
    exact .sWith (f_o.str h1) g2 (ih3 s2) g4 (ih5 s4)
  | sSwitch h1 h2 _ h4 _ ih3 ih5 =>
    obtain ⟨_, rfl, f_o⟩ := hs.obj
    obtain ⟨_, g2, s2⟩ := f_o.node h2
    obtain ⟨_, g4, s4⟩ := f_o.node h4
    exact .sSwitch (f_o.str h1) g2 (ih3 s2) g4 (ih5 s4)
  | sReturn h1 h2 _ ih3 =>
    obtain ⟨_, rfl, f_o⟩ := hs.obj
    obtain ⟨_, g2, s2⟩ := f_o.node h2
    exact .sReturn (f_o.str h1) g2 (ih3 s2)
  | sThrow h1 h2 _ ih3 =>
    obtain ⟨_, rfl, f_o⟩ := hs.obj
    obtain ⟨_, g2, s2⟩ := f_o.node h2
    exact .sThrow (f_o.str h1) g2 (ih3 s2)
  | sTry h1 h2 _ h4 _ h6 _ ih3 ih5 ih7 =>
    obtain ⟨_, rfl, f_o⟩ := hs.obj
    obtain ⟨_, g2, s2⟩ := f_o.node h2
    obtain ⟨_, g4, s4⟩ := f_o.node h4
    obtain ⟨_, g6, s6⟩ := f_o.node h6
    exact .sTry (f_o.str h1) g2 (ih3 s2) g4 (ih5 s4) g6 (ih7 s6)
  | sWhile h1 h2 _ h4 _ ih3 ih5 =>
    obtain ⟨_, rfl, f_o⟩ := hs.obj
    obtain ⟨_, g2, s2⟩ := f_o.node h2
    obtain ⟨_, g4, s4⟩ := f_o.node h4
    exact .sWhile (f_o.str h1) g2 (ih3 s2) g4 (ih5 s4)
  | sDoWhile h1 h2 _ h4 _ ih3 ih5 =>
    obtain ⟨_, rfl, f_o⟩ := hs.obj
    obtain ⟨_, g2, s2⟩ := f_o.node h2
    obtain ⟨_, g4, s4⟩ := f_o.node h4
    exact .sDoWhile (f_o.str h1) g2 (ih3 s2) g4 (ih5 s4)
  | sFor h1 h2 _ h4 _ h6 _ h8 _ ih3 ih5 ih7 ih9 =>
    obtain ⟨_, rfl, f_o⟩ := hs.obj
    obtain ⟨_, g2, s2⟩ := f_o.node h2
    obtain ⟨_, g4, s4⟩ := f_o.node h4
    obtain ⟨_, g6, s6⟩ := f_o.node h6
    obtain ⟨_, g8, s8⟩ := f_o.node h8
    exact .sFor (f_o.str h1) g2 (ih3 s2) g4 (ih5 s4) g6 (ih7 s6) g8 (ih9 s8)
  | sForIn h1 h2 _ h4 _ h6 _ ih3 ih5 ih7 =>
    obtain ⟨_, rfl, f_o⟩ := hs.obj
    obtain ⟨_, g2, s2⟩ := f_o.node h2
    obtain ⟨_, g4, s4⟩ := f_o.node h4
    obtain ⟨_, g6, s6⟩ := f_o.node h6
    exact .sForIn (f_o.str h1) g2 (ih3 s2) g4 (ih5 s4) g6 (ih7 s6)
  | sForOf h1 h2 _ h4 _ h6 _ ih3 ih5 ih7 =>
    obtain ⟨_, rfl, f_o⟩ := hs.obj
    obtain ⟨_, g2, s2⟩ := f_o.node h2
    obtain ⟨_, g4, s4⟩ := f_o.node h4
    obtain ⟨_, g6, s6⟩ := f_o.node h6
    exact .sForOf (f_o.str h1) g2 (ih3 s2) g4 (ih5 s4) g6 (ih7 s6)
  | sDebugger h1 =>
    obtain ⟨_, rfl, f_o⟩ := hs.obj
    exact .sDebugger (f_o.str h1)
  | fhVar h1 h2 h3 _ ih4 =>
    obtain ⟨_, rfl, f_o⟩ := hs.obj
    obtain ⟨_, g3, s3⟩ := f_o.node h3
    exact .fhVar (f_o.str h1) (f_o.str h2) g3 (ih4 s3)
  | fhLet h1 h2 h3 _ ih4 =>
    obtain ⟨_, rfl, f_o⟩ := hs.obj
    obtain ⟨_, g3, s3⟩ := f_o.node h3
    exact .fhLet (f_o.str h1) (f_o.str h2) g3 (ih4 s3)
  | fhConst h1 h2 h3 _ ih4 =>
    obtain ⟨_, rfl, f_o⟩ := hs.obj
    obtain ⟨_, g3, s3⟩ := f_o.node h3
    exact .fhConst (f_o.str h1) (f_o.str h2) g3 (ih4 s3)
  | fhExpr _ ih1 =>
    exact .fhExpr (ih1 hs)
  | fiVarInit h1 h2 h3 h4 h5 h6 _ ih7 =>
    obtain ⟨_, rfl, f_o⟩ := hs.obj
    obtain ⟨_, g3, f_od⟩ := f_o.single h3
    obtain ⟨_, g4, s4⟩ := f_od.node h4
    obtain ⟨_, g6, s6⟩ := f_od.node h6
    exact .fiVarInit (f_o.str h1) (f_o.str h2) g3 g4 (h5.same s4) g6 (ih7 s6)
  | fiVar h1 h2 h3 h4 _ h6 ih5 =>
    obtain ⟨_, rfl, f_o⟩ := hs.obj
    obtain ⟨_, g3, f_od⟩ := f_o.single h3
    obtain ⟨_, g4, s4⟩ := f_od.node h4
    exact .fiVar (f_o.str h1) (f_o.str h2) g3 g4 (ih5 s4) (f_od.null h6)
  | fiLet h1 h2 h3 h4 _ h6 ih5 =>
    obtain ⟨_, rfl, f_o⟩ := hs.obj
    obtain ⟨_, g3, f_od⟩ := f_o.single h3
    obtain ⟨_, g4, s4⟩ := f_od.node h4
    exact .fiLet (f_o.str h1) (f_o.str h2) g3 g4 (ih5 s4) (f_od.null h6)
  | fiConst h1 h2 h3 h4 _ h6 ih5 =>
    obtain ⟨_, rfl, f_o⟩ := hs.obj
    obtain ⟨_, g3, f_od⟩ := f_o.single h3
    obtain ⟨_, g4, s4⟩ := f_od.node h4
    exact .fiConst (f_o.str h1) (f_o.str h2) g3 g4 (ih5 s4) (f_od.null h6)
  | fiPatt h1 _ ih2 =>
    exact .fiPatt h1 (ih2 hs)
  | foVar h1 h2 h3 h4 _ ih5 =>
    obtain ⟨_, rfl, f_o⟩ := hs.obj
    obtain ⟨_, g3, f_od⟩ := f_o.single h3
    obtain ⟨_, g4, s4⟩ := f_od.node h4
    exact .foVar (f_o.str h1) (f_o.str h2) g3 g4 (ih5 s4)
  | foLet h1 h2 h3 h4 _ ih5 =>
    obtain ⟨_, rfl, f_o⟩ := hs.obj
    obtain ⟨_, g3, f_od⟩ := f_o.single h3
    obtain ⟨_, g4, s4⟩ := f_od.node h4
    exact .foLet (f_o.str h1) (f_o.str h2) g3 g4 (ih5 s4)
  | foConst h1 h2 h3 h4 _ ih5 =>
    obtain ⟨_, rfl, f_o⟩ := hs.obj
    obtain ⟨_, g3, f_od⟩ := f_o.single h3
    obtain ⟨_, g4, s4⟩ := f_od.node h4
    exact .foConst (f_o.str h1) (f_o.str h2) g3 g4 (ih5 s4)
  | foPatt h1 _ ih2 =>
    exact .foPatt h1 (ih2 hs)
  | «catch» h1 _ h3 _ ih2 ih4 =>
    obtain ⟨_, rfl, f_o⟩ := hs.obj
    obtain ⟨_, g1, s1⟩ := f_o.node h1
    obtain ⟨_, g3, s3⟩ := f_o.node h3
    exact .«catch» g1 (ih2 s1) g3 (ih4 s3)
  | case h1 _ h3 _ ih2 ih4 =>
    obtain ⟨_, rfl, f_o⟩ := hs.obj
    obtain ⟨_, g1, s1⟩ := f_o.node h1
    obtain ⟨_, g3, s3⟩ := f_o.node h3
    exact .case g1 (ih2 s1) g3 (ih4 s3)

theorem ReadsScript.same {x : Script} {o o' : Object} (h : ReadsScript x o)
    (hs : Alike (.object o) (.object o')) : ReadsScript x o' := by
  cases hs with
  | object f =>
    obtain ⟨j, hj, hx⟩ := h
    obtain ⟨j', g, s⟩ := AlikeFields.node f hj
    exact ⟨j', g, hx.same s⟩

theorem get_cons_self {o : Object} {name : Str} {j : Json} :
    Object.get ((name, j) :: o) name = some j := by
  simp [Object.get]

theorem get_cons_ne {o : Object} {name n : Str} {j : Json} (h : name ≠ n) :
    Object.get ((name, j) :: o) n = o.get n := by
  simp [Object.get, List.find?_cons, h]

mutual

theorem same_strip : (j : Json) → Alike j (strip j)
  | .null => by simp only [strip]; exact .null
  | .bool _ => by simp only [strip]; exact .bool
  | .i64 _ => by simp only [strip]; exact .i64
  | .u64 _ => by simp only [strip]; exact .u64
  | .f64 _ => by simp only [strip]; exact .f64
  | .string _ => by simp only [strip]; exact .string
  | .array js => by rw [strip]; exact .array (same_stripList js)
  | .object o => by rw [strip]; exact .object (same_stripFields o)

theorem same_stripList : (js : List Json) → AlikeList js (stripList js)
  | [] => by rw [stripList]; exact .nil
  | j :: js => by rw [stripList]; exact .cons (same_strip j) (same_stripList js)

theorem same_stripFields : (o : Object) → AlikeFields o (stripFields o)
  | [] => fun _ _ => by rw [stripFields]; exact .none
  | (name, j) :: o => fun n hn => by
    have ih := same_stripFields o n hn
    rw [stripFields]
    by_cases h : name = n
    · subst h
      rw [if_pos hn, get_cons_self, get_cons_self]
      exact .some (same_strip j)
    · rw [get_cons_ne h]
      split
      · rw [get_cons_ne h]; exact ih
      · exact ih

end

end Estree

end Esprit
