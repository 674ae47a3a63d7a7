import Verif.Spec.Ast

/-! Untracking and equality of syntax trees. -/

set_option linter.unusedSimpArgs false

namespace Esprit

namespace PropKey

theorem locs_untrack (k : PropKey) : ∀ l ∈ k.untrack.locs, l = none := by
  cases k <;> simp [untrack, setLoc, locs]

theorem similar_untrack (k : PropKey) : k.Similar k.untrack := by
  cases k <;> constructor

theorem Similar.untrack_eq {k k' : PropKey} (h : k.Similar k') : k.untrack = k'.untrack := by
  cases h <;> rfl

theorem Similar.symm {k k' : PropKey} (h : k.Similar k') : k'.Similar k := by
  cases h <;> constructor

theorem Similar.trans {k k' k'' : PropKey} (h : k.Similar k') (h' : k'.Similar k'') :
    k.Similar k'' := by
  cases h <;> cases h' <;> constructor

end PropKey

namespace Ast

theorem locs_untrack {c : Cat} (a : Ast c) : ∀ l ∈ a.untrack.locs, l = Option.none := by
  induction a with
  | key k => exact k.locs_untrack
  | ppRegular l k p ih =>
    simp only [untrack, locs, List.mem_append, List.mem_singleton]
    rintro x ((h | h) | h)
    · exact h
    · exact k.locs_untrack x h
    · exact ih x h
  | prRegular l k v ih =>
    simp only [untrack, locs, List.mem_append, List.mem_singleton]
    rintro x ((h | h) | h)
    · exact h
    · exact k.locs_untrack x h
    · exact ih x h
  | _ =>
    simp [untrack, locs, Id.untrack, DotKey.untrack, Op.untrack, Dir.untrack, or_imp,
      forall_and]
    try (and_intros <;> assumption)

theorem semis_untrack {c : Cat} (a : Ast c) : ∀ x ∈ a.untrack.semis, x = .explicit Option.none := by
  induction a with
  | _ =>
    simp [untrack, semis, Semi.untrack, Dir.untrack, or_imp, forall_and]
    try (and_intros <;> assumption)

theorem similar_untrack {c : Cat} (a : Ast c) : Similar a a.untrack := by
  induction a with
  | key k => exact .key k.similar_untrack
  | ppRegular l k p ih => exact .ppRegular k.similar_untrack ih
  | prRegular l k v ih => exact .prRegular k.similar_untrack ih
  | body l dirs items ih => exact .body (by simp [Dir.untrack, Function.comp_def]) ih
  | sBreak l i semi => exact .sBreak (by cases i <;> rfl)
  | sCont l i semi => exact .sCont (by cases i <;> rfl)
  | _ => constructor <;> first | rfl | assumption

theorem Similar.symm {c : Cat} {a b : Ast c} (h : Similar a b) : Similar b a := by
  induction h with
  | key h => exact .key h.symm
  | ppRegular h _ ih => exact .ppRegular h.symm ih
  | prRegular h _ ih => exact .prRegular h.symm ih
  | _ => constructor <;> first | assumption | (symm; assumption)

theorem Similar.trans {c : Cat} {a b d : Ast c} (h : Similar a b) (h' : Similar b d) :
    Similar a d := by
  induction h with
  | key h => cases h' with | key h' => exact .key (h.trans h')
  | ppRegular h _ ih => cases h' with | ppRegular h' h1 => exact .ppRegular (h.trans h') (ih h1)
  | prRegular h _ ih => cases h' with | prRegular h' h1 => exact .prRegular (h.trans h') (ih h1)
  | ppShorthand h => cases h' with | ppShorthand h' => exact .ppShorthand (h.trans h')
  | _ =>
    cases h'
    constructor <;> first
      | (apply_assumption; assumption)
      | (apply Eq.trans <;> assumption)

theorem map_untrack_eq {ds ds' : List Dir} (h : ds.map Dir.string = ds'.map Dir.string) :
    ds.map Dir.untrack = ds'.map Dir.untrack := by
  have : ∀ ds : List Dir, ds.map Dir.untrack =
      (ds.map Dir.string).map (fun s => ⟨Option.none, s, .explicit Option.none⟩) := by
    intro ds
    rw [List.map_map]
    rfl
  rw [this, this, h]

theorem map_idUntrack_eq {i i' : Option Id} (h : i.map Id.name = i'.map Id.name) :
    i.map Id.untrack = i'.map Id.untrack := by
  cases i <;> cases i' <;> simp_all [Id.untrack]

theorem Similar.untrack_eq {c : Cat} {a b : Ast c} (h : Similar a b) : a.untrack = b.untrack := by
  induction h with
  | key h => simp only [untrack, h.untrack_eq]
  | ppRegular h _ ih => simp only [untrack, h.untrack_eq, ih]
  | prRegular h _ ih => simp only [untrack, h.untrack_eq, ih]
  | body h _ ih => simp only [untrack, map_untrack_eq h, ih]
  | sBreak h => simp only [untrack, map_idUntrack_eq h]; rfl
  | sCont h => simp only [untrack, map_idUntrack_eq h]; rfl
  | _ => simp_all [untrack, Id.untrack, DotKey.untrack, Op.untrack, Semi.untrack]

theorem untrack_eq_iff {c : Cat} (a b : Ast c) : a.untrack = b.untrack ↔ Similar a b := by
  refine ⟨fun h => ?_, Similar.untrack_eq⟩
  have h1 := similar_untrack a
  rw [h] at h1
  exact h1.trans (similar_untrack b).symm

end Ast

/-! ### Equality -/

theorem alphabetize_eq_iff (a b : Str) : alphabetize a = alphabetize b ↔ List.Perm a b := by
  unfold alphabetize
  constructor
  · intro h
    have h1 := List.mergeSort_perm a (fun a b : Char => decide (a.toNat ≤ b.toNat))
    have h2 := List.mergeSort_perm b (fun a b : Char => decide (a.toNat ≤ b.toNat))
    rw [h] at h1
    exact h1.symm.trans h2
  · intro h
    have htr : ∀ a b c : Char, decide (a.toNat ≤ b.toNat) = true →
        decide (b.toNat ≤ c.toNat) = true → decide (a.toNat ≤ c.toNat) = true := by
      intro a b c
      simp only [decide_eq_true_eq]
      omega
    have htot : ∀ a b : Char,
        (decide (a.toNat ≤ b.toNat) || decide (b.toNat ≤ a.toNat)) = true := by
      intro a b
      simp only [Bool.or_eq_true, decide_eq_true_eq]
      omega
    have s1 := List.pairwise_mergeSort htr htot a
    have s2 := List.pairwise_mergeSort htr htot b
    have hp := ((List.mergeSort_perm a (fun a b : Char => decide (a.toNat ≤ b.toNat))).trans h).trans
      (List.mergeSort_perm b (fun a b : Char => decide (a.toNat ≤ b.toNat))).symm
    refine List.Perm.eq_of_pairwise (fun x y _ _ h1 h2 => ?_) s1 s2 hp
    simp only [decide_eq_true_eq] at h1 h2
    have hxy : x.toNat = y.toNat := by omega
    have := congrArg Char.ofNat hxy
    rwa [Char.ofNat_toNat, Char.ofNat_toNat] at this

theorem feq_iff (x y : F64) : F64.feq x y = true ↔ SameNumber x y := by
  constructor
  · intro h
    cases x <;> cases y <;> simp only [F64.feq, decide_eq_true_eq] at h
    · cases h
    · cases h
    · cases h
    · cases h
    · subst h; exact .inf
    · cases h
    · cases h
    · cases h
    · exact .num (q := _) rfl (by simp only [F64.toRat?]; rw [h])
  · intro h
    cases h with
    | inf => simp [F64.feq]
    | @num x y q h1 h2 =>
      cases x <;> simp only [F64.toRat?] at h1
      · cases h1
      · cases h1
      cases y <;> simp only [F64.toRat?] at h2
      · cases h2
      · cases h2
      simp only [F64.feq, decide_eq_true_eq]
      injection h1 with h1
      injection h2 with h2
      rw [h1, h2]

theorem NumberLiteral.eqv_iff (a b : NumberLiteral) :
    a.eqv b = true ↔ SameNumber a.value b.value := feq_iff _ _

theorem StringLiteral.eqv_iff (a b : StringLiteral) : a.eqv b = true ↔ a.value = b.value := by
  simp [StringLiteral.eqv]

theorem RegExpLiteral.eqv_iff (a b : RegExpLiteral) :
    a.eqv b = true ↔ a.pattern = b.pattern ∧ List.Perm a.flags b.flags := by
  simp [RegExpLiteral.eqv, alphabetize_eq_iff]

theorem PropKey.eqv_iff (a b : PropKey) : a.eqv b = true ↔ a.Agree b := by
  constructor
  · intro h
    cases a <;> cases b <;>
      simp only [PropKey.eqv, Bool.and_eq_true, beq_iff_eq, StringLiteral.eqv_iff,
        NumberLiteral.eqv_iff, Bool.false_eq_true] at h
    · obtain ⟨rfl, rfl⟩ := h; exact .id
    · obtain ⟨rfl, h⟩ := h; exact .string h
    · obtain ⟨rfl, h⟩ := h; exact .number h
  · intro h
    cases h with
    | id => simp [PropKey.eqv]
    | string h => simp [PropKey.eqv, StringLiteral.eqv_iff, h]
    | number h => simp [PropKey.eqv, NumberLiteral.eqv_iff, h]

theorem dirs_eqv_iff (a b : List Dir) : listEqv Dir.eqv a b = true ↔ DirsAgree a b := by
  induction a generalizing b with
  | nil =>
    cases b with
    | nil => exact ⟨fun _ => .nil, fun _ => rfl⟩
    | cons d b => exact ⟨fun h => Bool.noConfusion h, fun h => nomatch h⟩
  | cons d a ih =>
    cases b with
    | nil => exact ⟨fun h => Bool.noConfusion h, fun h => nomatch h⟩
    | cons d' b =>
      simp only [listEqv, Dir.eqv, Bool.and_eq_true, beq_iff_eq, StringLiteral.eqv_iff, ih]
      constructor
      · rintro ⟨⟨⟨h1, h2⟩, h3⟩, h4⟩
        exact .cons h1 h2 h3 h4
      · rintro ⟨⟩
        simp_all

namespace Ast

theorem agree_of_eqv {c : Cat} {a b : Ast c} (hq : a.eqv b = true) : Agree a b := by
  induction a with
  | nil =>
    cases b with
    | nil =>
      exact .nil
    | _ => exact Bool.noConfusion hq
  | cons h t ih_h ih_t =>
    cases b with
    | cons h' t' =>
      have hq : (h.eqv h' && t.eqv t') = true := hq
      simp only [Bool.and_eq_true, beq_iff_eq] at hq
      obtain ⟨h_h, h_t⟩ := hq
      exact .cons (ih_h h_h) (ih_t h_t)
    | _ => exact Bool.noConfusion hq
  | none =>
    cases b with
    | none =>
      exact .none
    | _ => exact Bool.noConfusion hq
  | some x ih_x =>
    cases b with
    | some x' =>
      have hq : (x.eqv x') = true := hq
      have h_x := hq
      exact .some (ih_x h_x)
    | _ => exact Bool.noConfusion hq
  | ident i =>
    cases b with
    | ident i' =>
      have hq : (i == i') = true := hq
      simp only [Bool.and_eq_true, beq_iff_eq] at hq
      obtain rfl := hq
      exact .ident
  | key k =>
    cases b with
    | key k' =>
      have hq : (k.eqv k') = true := hq
      have h_k := hq
      exact .key ((PropKey.eqv_iff _ _).1 h_k)
  | iExpr e ih_e =>
    cases b with
    | iExpr e' =>
      have hq : (e.eqv e') = true := hq
      have h_e := hq
      exact .iExpr (ih_e h_e)
    | _ => exact Bool.noConfusion hq
  | iSpread l e ih_e =>
    cases b with
    | iSpread l' e' =>
      have hq : (l == l' && e.eqv e') = true := hq
      simp only [Bool.and_eq_true, beq_iff_eq] at hq
      obtain ⟨rfl, h_e⟩ := hq
      exact .iSpread (ih_e h_e)
    | _ => exact Bool.noConfusion hq
  | eThis l =>
    cases b with
    | eThis l' =>
      have hq : (l == l') = true := hq
      simp only [Bool.and_eq_true, beq_iff_eq] at hq
      obtain rfl := hq
      exact .eThis
    | _ => exact Bool.noConfusion hq
  | eId i =>
    cases b with
    | eId i' =>
      have hq : (i == i') = true := hq
      simp only [Bool.and_eq_true, beq_iff_eq] at hq
      obtain rfl := hq
      exact .eId
    | _ => exact Bool.noConfusion hq
  | eArr l es ih_es =>
    cases b with
    | eArr l' es' =>
      have hq : (l == l' && es.eqv es') = true := hq
      simp only [Bool.and_eq_true, beq_iff_eq] at hq
      obtain ⟨rfl, h_es⟩ := hq
      exact .eArr (ih_es h_es)
    | _ => exact Bool.noConfusion hq
  | eObj l ps ih_ps =>
    cases b with
    | eObj l' ps' =>
      have hq : (l == l' && ps.eqv ps') = true := hq
      simp only [Bool.and_eq_true, beq_iff_eq] at hq
      obtain ⟨rfl, h_ps⟩ := hq
      exact .eObj (ih_ps h_ps)
    | _ => exact Bool.noConfusion hq
  | eFun f ih_f =>
    cases b with
    | eFun f' =>
      have hq : (f.eqv f') = true := hq
      have h_f := hq
      exact .eFun (ih_f h_f)
    | _ => exact Bool.noConfusion hq
  | eSeq l es ih_es =>
    cases b with
    | eSeq l' es' =>
      have hq : (l == l' && es.eqv es') = true := hq
      simp only [Bool.and_eq_true, beq_iff_eq] at hq
      obtain ⟨rfl, h_es⟩ := hq
      exact .eSeq (ih_es h_es)
    | _ => exact Bool.noConfusion hq
  | eUnop l op e ih_e =>
    cases b with
    | eUnop l' op' e' =>
      have hq : (l == l' && op == op' && e.eqv e') = true := hq
      simp only [Bool.and_eq_true, beq_iff_eq] at hq
      obtain ⟨⟨rfl, rfl⟩, h_e⟩ := hq
      exact .eUnop (ih_e h_e)
    | _ => exact Bool.noConfusion hq
  | eBinop l op a b ih_a ih_b =>
    cases b with
    | eBinop l' op' a' b' =>
      have hq : (l == l' && op == op' && a.eqv a' && b.eqv b') = true := hq
      simp only [Bool.and_eq_true, beq_iff_eq] at hq
      obtain ⟨⟨⟨rfl, rfl⟩, h_a⟩, h_b⟩ := hq
      exact .eBinop (ih_a h_a) (ih_b h_b)
    | _ => exact Bool.noConfusion hq
  | eLogop l op a b ih_a ih_b =>
    cases b with
    | eLogop l' op' a' b' =>
      have hq : (l == l' && op == op' && a.eqv a' && b.eqv b') = true := hq
      simp only [Bool.and_eq_true, beq_iff_eq] at hq
      obtain ⟨⟨⟨rfl, rfl⟩, h_a⟩, h_b⟩ := hq
      exact .eLogop (ih_a h_a) (ih_b h_b)
    | _ => exact Bool.noConfusion hq
  | ePreInc l t ih_t =>
    cases b with
    | ePreInc l' t' =>
      have hq : (l == l' && t.eqv t') = true := hq
      simp only [Bool.and_eq_true, beq_iff_eq] at hq
      obtain ⟨rfl, h_t⟩ := hq
      exact .ePreInc (ih_t h_t)
    | _ => exact Bool.noConfusion hq
  | ePostInc l t ih_t =>
    cases b with
    | ePostInc l' t' =>
      have hq : (l == l' && t.eqv t') = true := hq
      simp only [Bool.and_eq_true, beq_iff_eq] at hq
      obtain ⟨rfl, h_t⟩ := hq
      exact .ePostInc (ih_t h_t)
    | _ => exact Bool.noConfusion hq
  | ePreDec l t ih_t =>
    cases b with
    | ePreDec l' t' =>
      have hq : (l == l' && t.eqv t') = true := hq
      simp only [Bool.and_eq_true, beq_iff_eq] at hq
      obtain ⟨rfl, h_t⟩ := hq
      exact .ePreDec (ih_t h_t)
    | _ => exact Bool.noConfusion hq
  | ePostDec l t ih_t =>
    cases b with
    | ePostDec l' t' =>
      have hq : (l == l' && t.eqv t') = true := hq
      simp only [Bool.and_eq_true, beq_iff_eq] at hq
      obtain ⟨rfl, h_t⟩ := hq
      exact .ePostDec (ih_t h_t)
    | _ => exact Bool.noConfusion hq
  | eAssign l p e ih_p ih_e =>
    cases b with
    | eAssign l' p' e' =>
      have hq : (l == l' && p.eqv p' && e.eqv e') = true := hq
      simp only [Bool.and_eq_true, beq_iff_eq] at hq
      obtain ⟨⟨rfl, h_p⟩, h_e⟩ := hq
      exact .eAssign (ih_p h_p) (ih_e h_e)
    | _ => exact Bool.noConfusion hq
  | eBinAssign l op t e ih_t ih_e =>
    cases b with
    | eBinAssign l' op' t' e' =>
      have hq : (l == l' && op == op' && t.eqv t' && e.eqv e') = true := hq
      simp only [Bool.and_eq_true, beq_iff_eq] at hq
      obtain ⟨⟨⟨rfl, rfl⟩, h_t⟩, h_e⟩ := hq
      exact .eBinAssign (ih_t h_t) (ih_e h_e)
    | _ => exact Bool.noConfusion hq
  | eCond l test thn alt ih_test ih_thn ih_alt =>
    cases b with
    | eCond l' test' thn' alt' =>
      have hq : (l == l' && test.eqv test' && thn.eqv thn' && alt.eqv alt') = true := hq
      simp only [Bool.and_eq_true, beq_iff_eq] at hq
      obtain ⟨⟨⟨rfl, h_test⟩, h_thn⟩, h_alt⟩ := hq
      exact .eCond (ih_test h_test) (ih_thn h_thn) (ih_alt h_alt)
    | _ => exact Bool.noConfusion hq
  | eCall l callee args ih_callee ih_args =>
    cases b with
    | eCall l' callee' args' =>
      have hq : (l == l' && callee.eqv callee' && args.eqv args') = true := hq
      simp only [Bool.and_eq_true, beq_iff_eq] at hq
      obtain ⟨⟨rfl, h_callee⟩, h_args⟩ := hq
      exact .eCall (ih_callee h_callee) (ih_args h_args)
    | _ => exact Bool.noConfusion hq
  | eNew l callee args ih_callee ih_args =>
    cases b with
    | eNew l' callee' args' =>
      cases args with
      | none =>
        cases args' with
        | none =>
          have hq : (l == l' && callee.eqv callee' && true) = true := hq
          simp only [Bool.and_eq_true, beq_iff_eq] at hq
          obtain ⟨⟨rfl, h1⟩, _⟩ := hq
          exact .eNew (ih_callee h1) .none
        | some as =>
          have hq : (l == l' && callee.eqv callee' && as.isNil) = true := hq
          simp only [Bool.and_eq_true, beq_iff_eq] at hq
          obtain ⟨⟨rfl, h1⟩, h2⟩ := hq
          cases as with
          | nil => exact .newNoArgs (ih_callee h1)
          | cons => exact Bool.noConfusion h2
      | some as =>
        cases args' with
        | none =>
          have hq : (l == l' && callee.eqv callee' && as.isNil) = true := hq
          simp only [Bool.and_eq_true, beq_iff_eq] at hq
          obtain ⟨⟨rfl, h1⟩, h2⟩ := hq
          cases as with
          | nil => exact .newEmptyArgs (ih_callee h1)
          | cons => exact Bool.noConfusion h2
        | some as' =>
          have hq : (l == l' && callee.eqv callee' && as.eqv as') = true := hq
          simp only [Bool.and_eq_true, beq_iff_eq] at hq
          obtain ⟨⟨rfl, h1⟩, h2⟩ := hq
          exact .eNew (ih_callee h1) (ih_args h2)
    | _ => exact Bool.noConfusion hq
  | eDot l e k ih_e =>
    cases b with
    | eDot l' e' k' =>
      have hq : (l == l' && e.eqv e' && k == k') = true := hq
      simp only [Bool.and_eq_true, beq_iff_eq] at hq
      obtain ⟨⟨rfl, h_e⟩, rfl⟩ := hq
      exact .eDot (ih_e h_e)
    | _ => exact Bool.noConfusion hq
  | eBrack l e prop ih_e ih_prop =>
    cases b with
    | eBrack l' e' prop' =>
      have hq : (l == l' && e.eqv e' && prop.eqv prop') = true := hq
      simp only [Bool.and_eq_true, beq_iff_eq] at hq
      obtain ⟨⟨rfl, h_e⟩, h_prop⟩ := hq
      exact .eBrack (ih_e h_e) (ih_prop h_prop)
    | _ => exact Bool.noConfusion hq
  | eNewTarget l =>
    cases b with
    | eNewTarget l' =>
      have hq : (l == l') = true := hq
      simp only [Bool.and_eq_true, beq_iff_eq] at hq
      obtain rfl := hq
      exact .eNewTarget
    | _ => exact Bool.noConfusion hq
  | eTrue l =>
    cases b with
    | eTrue l' =>
      have hq : (l == l') = true := hq
      simp only [Bool.and_eq_true, beq_iff_eq] at hq
      obtain rfl := hq
      exact .eTrue
    | _ => exact Bool.noConfusion hq
  | eFalse l =>
    cases b with
    | eFalse l' =>
      have hq : (l == l') = true := hq
      simp only [Bool.and_eq_true, beq_iff_eq] at hq
      obtain rfl := hq
      exact .eFalse
    | _ => exact Bool.noConfusion hq
  | eNull l =>
    cases b with
    | eNull l' =>
      have hq : (l == l') = true := hq
      simp only [Bool.and_eq_true, beq_iff_eq] at hq
      obtain rfl := hq
      exact .eNull
    | _ => exact Bool.noConfusion hq
  | eNumber l n =>
    cases b with
    | eNumber l' n' =>
      have hq : (l == l' && n.eqv n') = true := hq
      simp only [Bool.and_eq_true, beq_iff_eq] at hq
      obtain ⟨rfl, h_n⟩ := hq
      exact .eNumber ((NumberLiteral.eqv_iff _ _).1 h_n)
    | _ => exact Bool.noConfusion hq
  | eRegExp l r =>
    cases b with
    | eRegExp l' r' =>
      have hq : (l == l' && r.eqv r') = true := hq
      simp only [Bool.and_eq_true, beq_iff_eq] at hq
      obtain ⟨rfl, h_r⟩ := hq
      exact .eRegExp ((RegExpLiteral.eqv_iff _ _).1 h_r).1 ((RegExpLiteral.eqv_iff _ _).1 h_r).2
    | _ => exact Bool.noConfusion hq
  | eString l s =>
    cases b with
    | eString l' s' =>
      have hq : (l == l' && s.eqv s') = true := hq
      simp only [Bool.and_eq_true, beq_iff_eq] at hq
      obtain ⟨rfl, h_s⟩ := hq
      exact .eString ((StringLiteral.eqv_iff _ _).1 h_s)
    | _ => exact Bool.noConfusion hq
  | tId i =>
    cases b with
    | tId i' =>
      have hq : (i == i') = true := hq
      simp only [Bool.and_eq_true, beq_iff_eq] at hq
      obtain rfl := hq
      exact .tId
    | _ => exact Bool.noConfusion hq
  | tDot l e k ih_e =>
    cases b with
    | tDot l' e' k' =>
      have hq : (l == l' && e.eqv e' && k == k') = true := hq
      simp only [Bool.and_eq_true, beq_iff_eq] at hq
      obtain ⟨⟨rfl, h_e⟩, rfl⟩ := hq
      exact .tDot (ih_e h_e)
    | _ => exact Bool.noConfusion hq
  | tBrack l e prop ih_e ih_prop =>
    cases b with
    | tBrack l' e' prop' =>
      have hq : (l == l' && e.eqv e' && prop.eqv prop') = true := hq
      simp only [Bool.and_eq_true, beq_iff_eq] at hq
      obtain ⟨⟨rfl, h_e⟩, h_prop⟩ := hq
      exact .tBrack (ih_e h_e) (ih_prop h_prop)
    | _ => exact Bool.noConfusion hq
  | pSimple t ih_t =>
    cases b with
    | pSimple t' =>
      have hq : (t.eqv t') = true := hq
      have h_t := hq
      exact .pSimple (ih_t h_t)
    | _ => exact Bool.noConfusion hq
  | pCompound p ih_p =>
    cases b with
    | pCompound p' =>
      have hq : (p.eqv p') = true := hq
      have h_p := hq
      exact .pCompound (ih_p h_p)
    | _ => exact Bool.noConfusion hq
  | cArr l es r ih_es ih_r =>
    cases b with
    | cArr l' es' r' =>
      have hq : (l == l' && es.eqv es' && r.eqv r') = true := hq
      simp only [Bool.and_eq_true, beq_iff_eq] at hq
      obtain ⟨⟨rfl, h_es⟩, h_r⟩ := hq
      exact .cArr (ih_es h_es) (ih_r h_r)
    | _ => exact Bool.noConfusion hq
  | cObj l ps ih_ps =>
    cases b with
    | cObj l' ps' =>
      have hq : (l == l' && ps.eqv ps') = true := hq
      simp only [Bool.and_eq_true, beq_iff_eq] at hq
      obtain ⟨rfl, h_ps⟩ := hq
      exact .cObj (ih_ps h_ps)
    | _ => exact Bool.noConfusion hq
  | restPatt l p ih_p =>
    cases b with
    | restPatt l' p' =>
      have hq : (l == l' && p.eqv p') = true := hq
      simp only [Bool.and_eq_true, beq_iff_eq] at hq
      obtain ⟨rfl, h_p⟩ := hq
      exact .restPatt (ih_p h_p)
  | ppRegular l k p ih_p =>
    cases b with
    | ppRegular l' k' p' =>
      have hq : (l == l' && k.eqv k' && p.eqv p') = true := hq
      simp only [Bool.and_eq_true, beq_iff_eq] at hq
      obtain ⟨⟨rfl, h_k⟩, h_p⟩ := hq
      exact .ppRegular ((PropKey.eqv_iff _ _).1 h_k) (ih_p h_p)
    | _ => exact Bool.noConfusion hq
  | ppShorthand i =>
    cases b with
    | ppShorthand i' =>
      have hq : (i == i') = true := hq
      simp only [Bool.and_eq_true, beq_iff_eq] at hq
      obtain rfl := hq
      exact .ppShorthand
    | _ => exact Bool.noConfusion hq
  | prRegular l k v ih_v =>
    cases b with
    | prRegular l' k' v' =>
      have hq : (l == l' && k.eqv k' && v.eqv v') = true := hq
      simp only [Bool.and_eq_true, beq_iff_eq] at hq
      obtain ⟨⟨rfl, h_k⟩, h_v⟩ := hq
      exact .prRegular ((PropKey.eqv_iff _ _).1 h_k) (ih_v h_v)
    | _ => exact Bool.noConfusion hq
  | prMethod f ih_f =>
    cases b with
    | prMethod f' =>
      have hq : (f.eqv f') = true := hq
      have h_f := hq
      exact .prMethod (ih_f h_f)
    | _ => exact Bool.noConfusion hq
  | prShorthand i =>
    cases b with
    | prShorthand i' =>
      have hq : (i == i') = true := hq
      simp only [Bool.and_eq_true, beq_iff_eq] at hq
      obtain rfl := hq
      exact .prShorthand
    | _ => exact Bool.noConfusion hq
  | vInit e ih_e =>
    cases b with
    | vInit e' =>
      have hq : (e.eqv e') = true := hq
      have h_e := hq
      exact .vInit (ih_e h_e)
    | _ => exact Bool.noConfusion hq
  | vGet l b ih_b =>
    cases b with
    | vGet l' b' =>
      have hq : (l == l' && b.eqv b') = true := hq
      simp only [Bool.and_eq_true, beq_iff_eq] at hq
      obtain ⟨rfl, h_b⟩ := hq
      exact .vGet (ih_b h_b)
    | _ => exact Bool.noConfusion hq
  | vSet l p b ih_p ih_b =>
    cases b with
    | vSet l' p' b' =>
      have hq : (l == l' && p.eqv p' && b.eqv b') = true := hq
      simp only [Bool.and_eq_true, beq_iff_eq] at hq
      obtain ⟨⟨rfl, h_p⟩, h_b⟩ := hq
      exact .vSet (ih_p h_p) (ih_b h_b)
    | _ => exact Bool.noConfusion hq
  | func l id ps b gen ih_id ih_ps ih_b =>
    cases b with
    | func l' id' ps' b' gen' =>
      have hq : (l == l' && id.eqv id' && ps.eqv ps' && b.eqv b' && gen == gen') = true := hq
      simp only [Bool.and_eq_true, beq_iff_eq] at hq
      obtain ⟨⟨⟨⟨rfl, h_id⟩, h_ps⟩, h_b⟩, rfl⟩ := hq
      exact .func (ih_id h_id) (ih_ps h_ps) (ih_b h_b)
  | params l ps r ih_ps ih_r =>
    cases b with
    | params l' ps' r' =>
      have hq : (l == l' && ps.eqv ps' && r.eqv r') = true := hq
      simp only [Bool.and_eq_true, beq_iff_eq] at hq
      obtain ⟨⟨rfl, h_ps⟩, h_r⟩ := hq
      exact .params (ih_ps h_ps) (ih_r h_r)
  | body l dirs items ih_items =>
    cases b with
    | body l' dirs' items' =>
      have hq : (l == l' && listEqv Dir.eqv dirs dirs' && items.eqv items') = true := hq
      simp only [Bool.and_eq_true, beq_iff_eq] at hq
      obtain ⟨⟨rfl, h_dirs⟩, h_items⟩ := hq
      exact .body ((dirs_eqv_iff _ _).1 h_dirs) (ih_items h_items)
  | siDecl d ih_d =>
    cases b with
    | siDecl d' =>
      have hq : (d.eqv d') = true := hq
      have h_d := hq
      exact .siDecl (ih_d h_d)
    | _ => exact Bool.noConfusion hq
  | siStmt s ih_s =>
    cases b with
    | siStmt s' =>
      have hq : (s.eqv s') = true := hq
      have h_s := hq
      exact .siStmt (ih_s h_s)
    | _ => exact Bool.noConfusion hq
  | miImport i ih_i =>
    cases b with
    | miImport i' =>
      have hq : (i.eqv i') = true := hq
      have h_i := hq
      exact .miImport (ih_i h_i)
    | _ => exact Bool.noConfusion hq
  | miExport e ih_e =>
    cases b with
    | miExport e' =>
      have hq : (e.eqv e') = true := hq
      have h_e := hq
      exact .miExport (ih_e h_e)
    | _ => exact Bool.noConfusion hq
  | miItem i ih_i =>
    cases b with
    | miItem i' =>
      have hq : (i.eqv i') = true := hq
      have h_i := hq
      exact .miItem (ih_i h_i)
    | _ => exact Bool.noConfusion hq
  | importForEffect l s =>
    cases b with
    | importForEffect l' s' =>
      have hq : (l == l' && s.eqv s') = true := hq
      simp only [Bool.and_eq_true, beq_iff_eq] at hq
      obtain ⟨rfl, h_s⟩ := hq
      exact .importForEffect ((StringLiteral.eqv_iff _ _).1 h_s)
  | exportVar l ds semi ih_ds =>
    cases b with
    | exportVar l' ds' semi' =>
      have hq : (l == l' && ds.eqv ds' && semi == semi') = true := hq
      simp only [Bool.and_eq_true, beq_iff_eq] at hq
      obtain ⟨⟨rfl, h_ds⟩, rfl⟩ := hq
      exact .exportVar (ih_ds h_ds)
    | _ => exact Bool.noConfusion hq
  | exportDecl d ih_d =>
    cases b with
    | exportDecl d' =>
      have hq : (d.eqv d') = true := hq
      have h_d := hq
      exact .exportDecl (ih_d h_d)
    | _ => exact Bool.noConfusion hq
  | dFun f ih_f =>
    cases b with
    | dFun f' =>
      have hq : (f.eqv f') = true := hq
      have h_f := hq
      exact .dFun (ih_f h_f)
    | _ => exact Bool.noConfusion hq
  | dLet l ds semi ih_ds =>
    cases b with
    | dLet l' ds' semi' =>
      have hq : (l == l' && ds.eqv ds' && semi == semi') = true := hq
      simp only [Bool.and_eq_true, beq_iff_eq] at hq
      obtain ⟨⟨rfl, h_ds⟩, rfl⟩ := hq
      exact .dLet (ih_ds h_ds)
    | _ => exact Bool.noConfusion hq
  | dConst l ds semi ih_ds =>
    cases b with
    | dConst l' ds' semi' =>
      have hq : (l == l' && ds.eqv ds' && semi == semi') = true := hq
      simp only [Bool.and_eq_true, beq_iff_eq] at hq
      obtain ⟨⟨rfl, h_ds⟩, rfl⟩ := hq
      exact .dConst (ih_ds h_ds)
    | _ => exact Bool.noConfusion hq
  | dtSimple l i init ih_init =>
    cases b with
    | dtSimple l' i' init' =>
      have hq : (l == l' && i == i' && init.eqv init') = true := hq
      simp only [Bool.and_eq_true, beq_iff_eq] at hq
      obtain ⟨⟨rfl, rfl⟩, h_init⟩ := hq
      exact .dtSimple (ih_init h_init)
    | _ => exact Bool.noConfusion hq
  | dtCompound l p init ih_p ih_init =>
    cases b with
    | dtCompound l' p' init' =>
      have hq : (l == l' && p.eqv p' && init.eqv init') = true := hq
      simp only [Bool.and_eq_true, beq_iff_eq] at hq
      obtain ⟨⟨rfl, h_p⟩, h_init⟩ := hq
      exact .dtCompound (ih_p h_p) (ih_init h_init)
    | _ => exact Bool.noConfusion hq
  | constDtor l p value ih_p ih_value =>
    cases b with
    | constDtor l' p' value' =>
      have hq : (l == l' && p.eqv p' && value.eqv value') = true := hq
      simp only [Bool.and_eq_true, beq_iff_eq] at hq
      obtain ⟨⟨rfl, h_p⟩, h_value⟩ := hq
      exact .constDtor (ih_p h_p) (ih_value h_value)
  | block l items ih_items =>
    cases b with
    | block l' items' =>
      have hq : (l == l' && items.eqv items') = true := hq
      simp only [Bool.and_eq_true, beq_iff_eq] at hq
      obtain ⟨rfl, h_items⟩ := hq
      exact .block (ih_items h_items)
  | sEmpty l =>
    cases b with
    | sEmpty l' =>
      have hq : (l == l') = true := hq
      simp only [Bool.and_eq_true, beq_iff_eq] at hq
      obtain rfl := hq
      exact .sEmpty
    | _ => exact Bool.noConfusion hq
  | sBlock b ih_b =>
    cases b with
    | sBlock b' =>
      have hq : (b.eqv b') = true := hq
      have h_b := hq
      exact .sBlock (ih_b h_b)
    | _ => exact Bool.noConfusion hq
  | sVar l ds semi ih_ds =>
    cases b with
    | sVar l' ds' semi' =>
      have hq : (l == l' && ds.eqv ds' && semi == semi') = true := hq
      simp only [Bool.and_eq_true, beq_iff_eq] at hq
      obtain ⟨⟨rfl, h_ds⟩, rfl⟩ := hq
      exact .sVar (ih_ds h_ds)
    | _ => exact Bool.noConfusion hq
  | sExpr l e semi ih_e =>
    cases b with
    | sExpr l' e' semi' =>
      have hq : (l == l' && e.eqv e' && semi == semi') = true := hq
      simp only [Bool.and_eq_true, beq_iff_eq] at hq
      obtain ⟨⟨rfl, h_e⟩, rfl⟩ := hq
      exact .sExpr (ih_e h_e)
    | _ => exact Bool.noConfusion hq
  | sIf l test thn alt ih_test ih_thn ih_alt =>
    cases b with
    | sIf l' test' thn' alt' =>
      have hq : (l == l' && test.eqv test' && thn.eqv thn' && alt.eqv alt') = true := hq
      simp only [Bool.and_eq_true, beq_iff_eq] at hq
      obtain ⟨⟨⟨rfl, h_test⟩, h_thn⟩, h_alt⟩ := hq
      exact .sIf (ih_test h_test) (ih_thn h_thn) (ih_alt h_alt)
    | _ => exact Bool.noConfusion hq
  | sLabel l i s ih_s =>
    cases b with
    | sLabel l' i' s' =>
      have hq : (l == l' && i == i' && s.eqv s') = true := hq
      simp only [Bool.and_eq_true, beq_iff_eq] at hq
      obtain ⟨⟨rfl, rfl⟩, h_s⟩ := hq
      exact .sLabel (ih_s h_s)
    | _ => exact Bool.noConfusion hq
  | sBreak l i semi =>
    cases b with
    | sBreak l' i' semi' =>
      have hq : (l == l' && i == i' && semi == semi') = true := hq
      simp only [Bool.and_eq_true, beq_iff_eq] at hq
      obtain ⟨⟨rfl, rfl⟩, rfl⟩ := hq
      exact .sBreak
    | _ => exact Bool.noConfusion hq
  | sCont l i semi =>
    cases b with
    | sCont l' i' semi' =>
      have hq : (l == l' && i == i' && semi == semi') = true := hq
      simp only [Bool.and_eq_true, beq_iff_eq] at hq
      obtain ⟨⟨rfl, rfl⟩, rfl⟩ := hq
      exact .sCont
    | _ => exact Bool.noConfusion hq
  | sWith l obj s ih_obj ih_s =>
    cases b with
    | sWith l' obj' s' =>
      have hq : (l == l' && obj.eqv obj' && s.eqv s') = true := hq
      simp only [Bool.and_eq_true, beq_iff_eq] at hq
      obtain ⟨⟨rfl, h_obj⟩, h_s⟩ := hq
      exact .sWith (ih_obj h_obj) (ih_s h_s)
    | _ => exact Bool.noConfusion hq
  | sSwitch l disc cases ih_disc ih_cases =>
    cases b with
    | sSwitch l' disc' cases' =>
      have hq : (l == l' && disc.eqv disc' && cases.eqv cases') = true := hq
      simp only [Bool.and_eq_true, beq_iff_eq] at hq
      obtain ⟨⟨rfl, h_disc⟩, h_cases⟩ := hq
      exact .sSwitch (ih_disc h_disc) (ih_cases h_cases)
    | _ => exact Bool.noConfusion hq
  | sReturn l arg semi ih_arg =>
    cases b with
    | sReturn l' arg' semi' =>
      have hq : (l == l' && arg.eqv arg' && semi == semi') = true := hq
      simp only [Bool.and_eq_true, beq_iff_eq] at hq
      obtain ⟨⟨rfl, h_arg⟩, rfl⟩ := hq
      exact .sReturn (ih_arg h_arg)
    | _ => exact Bool.noConfusion hq
  | sThrow l arg semi ih_arg =>
    cases b with
    | sThrow l' arg' semi' =>
      have hq : (l == l' && arg.eqv arg' && semi == semi') = true := hq
      simp only [Bool.and_eq_true, beq_iff_eq] at hq
      obtain ⟨⟨rfl, h_arg⟩, rfl⟩ := hq
      exact .sThrow (ih_arg h_arg)
    | _ => exact Bool.noConfusion hq
  | sTry l b c f ih_b ih_c ih_f =>
    cases b with
    | sTry l' b' c' f' =>
      have hq : (l == l' && b.eqv b' && c.eqv c' && f.eqv f') = true := hq
      simp only [Bool.and_eq_true, beq_iff_eq] at hq
      obtain ⟨⟨⟨rfl, h_b⟩, h_c⟩, h_f⟩ := hq
      exact .sTry (ih_b h_b) (ih_c h_c) (ih_f h_f)
    | _ => exact Bool.noConfusion hq
  | sWhile l test s ih_test ih_s =>
    cases b with
    | sWhile l' test' s' =>
      have hq : (l == l' && test.eqv test' && s.eqv s') = true := hq
      simp only [Bool.and_eq_true, beq_iff_eq] at hq
      obtain ⟨⟨rfl, h_test⟩, h_s⟩ := hq
      exact .sWhile (ih_test h_test) (ih_s h_s)
    | _ => exact Bool.noConfusion hq
  | sDoWhile l s test semi ih_s ih_test =>
    cases b with
    | sDoWhile l' s' test' semi' =>
      have hq : (l == l' && s.eqv s' && test.eqv test' && semi == semi') = true := hq
      simp only [Bool.and_eq_true, beq_iff_eq] at hq
      obtain ⟨⟨⟨rfl, h_s⟩, h_test⟩, rfl⟩ := hq
      exact .sDoWhile (ih_s h_s) (ih_test h_test)
    | _ => exact Bool.noConfusion hq
  | sFor l head test update s ih_head ih_test ih_update ih_s =>
    cases b with
    | sFor l' head' test' update' s' =>
      have hq : (l == l' && head.eqv head' && test.eqv test' && update.eqv update' && s.eqv s') = true := hq
      simp only [Bool.and_eq_true, beq_iff_eq] at hq
      obtain ⟨⟨⟨⟨rfl, h_head⟩, h_test⟩, h_update⟩, h_s⟩ := hq
      exact .sFor (ih_head h_head) (ih_test h_test) (ih_update h_update) (ih_s h_s)
    | _ => exact Bool.noConfusion hq
  | sForIn l head obj s ih_head ih_obj ih_s =>
    cases b with
    | sForIn l' head' obj' s' =>
      have hq : (l == l' && head.eqv head' && obj.eqv obj' && s.eqv s') = true := hq
      simp only [Bool.and_eq_true, beq_iff_eq] at hq
      obtain ⟨⟨⟨rfl, h_head⟩, h_obj⟩, h_s⟩ := hq
      exact .sForIn (ih_head h_head) (ih_obj h_obj) (ih_s h_s)
    | _ => exact Bool.noConfusion hq
  | sForOf l head obj s ih_head ih_obj ih_s =>
    cases b with
    | sForOf l' head' obj' s' =>
      have hq : (l == l' && head.eqv head' && obj.eqv obj' && s.eqv s') = true := hq
      simp only [Bool.and_eq_true, beq_iff_eq] at hq
      obtain ⟨⟨⟨rfl, h_head⟩, h_obj⟩, h_s⟩ := hq
      exact .sForOf (ih_head h_head) (ih_obj h_obj) (ih_s h_s)
    | _ => exact Bool.noConfusion hq
  | sDebugger l semi =>
    cases b with
    | sDebugger l' semi' =>
      have hq : (l == l' && semi == semi') = true := hq
      simp only [Bool.and_eq_true, beq_iff_eq] at hq
      obtain ⟨rfl, rfl⟩ := hq
      exact .sDebugger
    | _ => exact Bool.noConfusion hq
  | fhVar l ds ih_ds =>
    cases b with
    | fhVar l' ds' =>
      have hq : (l == l' && ds.eqv ds') = true := hq
      simp only [Bool.and_eq_true, beq_iff_eq] at hq
      obtain ⟨rfl, h_ds⟩ := hq
      exact .fhVar (ih_ds h_ds)
    | _ => exact Bool.noConfusion hq
  | fhLet l ds ih_ds =>
    cases b with
    | fhLet l' ds' =>
      have hq : (l == l' && ds.eqv ds') = true := hq
      simp only [Bool.and_eq_true, beq_iff_eq] at hq
      obtain ⟨rfl, h_ds⟩ := hq
      exact .fhLet (ih_ds h_ds)
    | _ => exact Bool.noConfusion hq
  | fhConst l ds ih_ds =>
    cases b with
    | fhConst l' ds' =>
      have hq : (l == l' && ds.eqv ds') = true := hq
      simp only [Bool.and_eq_true, beq_iff_eq] at hq
      obtain ⟨rfl, h_ds⟩ := hq
      exact .fhConst (ih_ds h_ds)
    | _ => exact Bool.noConfusion hq
  | fhExpr l e ih_e =>
    cases b with
    | fhExpr l' e' =>
      have hq : (l == l' && e.eqv e') = true := hq
      simp only [Bool.and_eq_true, beq_iff_eq] at hq
      obtain ⟨rfl, h_e⟩ := hq
      exact .fhExpr (ih_e h_e)
    | _ => exact Bool.noConfusion hq
  | fiVarInit l i init ih_init =>
    cases b with
    | fiVarInit l' i' init' =>
      have hq : (l == l' && i == i' && init.eqv init') = true := hq
      simp only [Bool.and_eq_true, beq_iff_eq] at hq
      obtain ⟨⟨rfl, rfl⟩, h_init⟩ := hq
      exact .fiVarInit (ih_init h_init)
    | _ => exact Bool.noConfusion hq
  | fiVar l p ih_p =>
    cases b with
    | fiVar l' p' =>
      have hq : (l == l' && p.eqv p') = true := hq
      simp only [Bool.and_eq_true, beq_iff_eq] at hq
      obtain ⟨rfl, h_p⟩ := hq
      exact .fiVar (ih_p h_p)
    | _ => exact Bool.noConfusion hq
  | fiLet l p ih_p =>
    cases b with
    | fiLet l' p' =>
      have hq : (l == l' && p.eqv p') = true := hq
      simp only [Bool.and_eq_true, beq_iff_eq] at hq
      obtain ⟨rfl, h_p⟩ := hq
      exact .fiLet (ih_p h_p)
    | _ => exact Bool.noConfusion hq
  | fiConst l p ih_p =>
    cases b with
    | fiConst l' p' =>
      have hq : (l == l' && p.eqv p') = true := hq
      simp only [Bool.and_eq_true, beq_iff_eq] at hq
      obtain ⟨rfl, h_p⟩ := hq
      exact .fiConst (ih_p h_p)
    | _ => exact Bool.noConfusion hq
  | fiPatt p ih_p =>
    cases b with
    | fiPatt p' =>
      have hq : (p.eqv p') = true := hq
      have h_p := hq
      exact .fiPatt (ih_p h_p)
    | _ => exact Bool.noConfusion hq
  | foVar l p ih_p =>
    cases b with
    | foVar l' p' =>
      have hq : (l == l' && p.eqv p') = true := hq
      simp only [Bool.and_eq_true, beq_iff_eq] at hq
      obtain ⟨rfl, h_p⟩ := hq
      exact .foVar (ih_p h_p)
    | _ => exact Bool.noConfusion hq
  | foLet l p ih_p =>
    cases b with
    | foLet l' p' =>
      have hq : (l == l' && p.eqv p') = true := hq
      simp only [Bool.and_eq_true, beq_iff_eq] at hq
      obtain ⟨rfl, h_p⟩ := hq
      exact .foLet (ih_p h_p)
    | _ => exact Bool.noConfusion hq
  | foConst l p ih_p =>
    cases b with
    | foConst l' p' =>
      have hq : (l == l' && p.eqv p') = true := hq
      simp only [Bool.and_eq_true, beq_iff_eq] at hq
      obtain ⟨rfl, h_p⟩ := hq
      exact .foConst (ih_p h_p)
    | _ => exact Bool.noConfusion hq
  | foPatt p ih_p =>
    cases b with
    | foPatt p' =>
      have hq : (p.eqv p') = true := hq
      have h_p := hq
      exact .foPatt (ih_p h_p)
    | _ => exact Bool.noConfusion hq
  | catchClause l p b ih_p ih_b =>
    cases b with
    | catchClause l' p' b' =>
      have hq : (l == l' && p.eqv p' && b.eqv b') = true := hq
      simp only [Bool.and_eq_true, beq_iff_eq] at hq
      obtain ⟨⟨rfl, h_p⟩, h_b⟩ := hq
      exact .catchClause (ih_p h_p) (ih_b h_b)
  | caseClause l test items ih_test ih_items =>
    cases b with
    | caseClause l' test' items' =>
      have hq : (l == l' && test.eqv test' && items.eqv items') = true := hq
      simp only [Bool.and_eq_true, beq_iff_eq] at hq
      obtain ⟨⟨rfl, h_test⟩, h_items⟩ := hq
      exact .caseClause (ih_test h_test) (ih_items h_items)

theorem Agree.eqv {c : Cat} {a b : Ast c} (h : Agree a b) : a.eqv b = true := by
  induction h with
  | @nil c =>
    rfl
  | @cons c h h' t t' h_h h_t ih_h ih_t =>
    show (h.eqv h' && t.eqv t') = true
    simp only [beq_self_eq_true, Bool.and_true, Bool.true_and, ih_h, ih_t]
  | @none c =>
    rfl
  | @some c x x' h_x ih_x =>
    show (x.eqv x') = true
    simp only [beq_self_eq_true, Bool.and_true, Bool.true_and, ih_x]
  | @ident i =>
    show (i == i) = true
    simp only [beq_self_eq_true, Bool.and_true, Bool.true_and]
  | @key k k' h_k =>
    show (k.eqv k') = true
    simp only [beq_self_eq_true, Bool.and_true, Bool.true_and, (PropKey.eqv_iff _ _).2 h_k]
  | @iExpr e e' h_e ih_e =>
    show (e.eqv e') = true
    simp only [beq_self_eq_true, Bool.and_true, Bool.true_and, ih_e]
  | @iSpread l e e' h_e ih_e =>
    show (l == l && e.eqv e') = true
    simp only [beq_self_eq_true, Bool.and_true, Bool.true_and, ih_e]
  | @eThis l =>
    show (l == l) = true
    simp only [beq_self_eq_true, Bool.and_true, Bool.true_and]
  | @eId i =>
    show (i == i) = true
    simp only [beq_self_eq_true, Bool.and_true, Bool.true_and]
  | @eArr l es es' h_es ih_es =>
    show (l == l && es.eqv es') = true
    simp only [beq_self_eq_true, Bool.and_true, Bool.true_and, ih_es]
  | @eObj l ps ps' h_ps ih_ps =>
    show (l == l && ps.eqv ps') = true
    simp only [beq_self_eq_true, Bool.and_true, Bool.true_and, ih_ps]
  | @eFun f f' h_f ih_f =>
    show (f.eqv f') = true
    simp only [beq_self_eq_true, Bool.and_true, Bool.true_and, ih_f]
  | @eSeq l es es' h_es ih_es =>
    show (l == l && es.eqv es') = true
    simp only [beq_self_eq_true, Bool.and_true, Bool.true_and, ih_es]
  | @eUnop l op e e' h_e ih_e =>
    show (l == l && op == op && e.eqv e') = true
    simp only [beq_self_eq_true, Bool.and_true, Bool.true_and, ih_e]
  | @eBinop l op a a' b b' h_a h_b ih_a ih_b =>
    show (l == l && op == op && a.eqv a' && b.eqv b') = true
    simp only [beq_self_eq_true, Bool.and_true, Bool.true_and, ih_a, ih_b]
  | @eLogop l op a a' b b' h_a h_b ih_a ih_b =>
    show (l == l && op == op && a.eqv a' && b.eqv b') = true
    simp only [beq_self_eq_true, Bool.and_true, Bool.true_and, ih_a, ih_b]
  | @ePreInc l t t' h_t ih_t =>
    show (l == l && t.eqv t') = true
    simp only [beq_self_eq_true, Bool.and_true, Bool.true_and, ih_t]
  | @ePostInc l t t' h_t ih_t =>
    show (l == l && t.eqv t') = true
    simp only [beq_self_eq_true, Bool.and_true, Bool.true_and, ih_t]
  | @ePreDec l t t' h_t ih_t =>
    show (l == l && t.eqv t') = true
    simp only [beq_self_eq_true, Bool.and_true, Bool.true_and, ih_t]
  | @ePostDec l t t' h_t ih_t =>
    show (l == l && t.eqv t') = true
    simp only [beq_self_eq_true, Bool.and_true, Bool.true_and, ih_t]
  | @eAssign l p p' e e' h_p h_e ih_p ih_e =>
    show (l == l && p.eqv p' && e.eqv e') = true
    simp only [beq_self_eq_true, Bool.and_true, Bool.true_and, ih_p, ih_e]
  | @eBinAssign l op t t' e e' h_t h_e ih_t ih_e =>
    show (l == l && op == op && t.eqv t' && e.eqv e') = true
    simp only [beq_self_eq_true, Bool.and_true, Bool.true_and, ih_t, ih_e]
  | @eCond l test test' thn thn' alt alt' h_test h_thn h_alt ih_test ih_thn ih_alt =>
    show (l == l && test.eqv test' && thn.eqv thn' && alt.eqv alt') = true
    simp only [beq_self_eq_true, Bool.and_true, Bool.true_and, ih_test, ih_thn, ih_alt]
  | @eCall l callee callee' args args' h_callee h_args ih_callee ih_args =>
    show (l == l && callee.eqv callee' && args.eqv args') = true
    simp only [beq_self_eq_true, Bool.and_true, Bool.true_and, ih_callee, ih_args]
  | @eNew l callee callee' args args' h_callee h_args ih_callee ih_args =>
    cases h_args with
    | none =>
      show (l == l && callee.eqv callee' && true) = true
      simp only [beq_self_eq_true, Bool.and_true, ih_callee]
    | @some _ x x' h =>
      have ih_args : x.eqv x' = true := ih_args
      show (l == l && callee.eqv callee' && x.eqv x') = true
      simp only [beq_self_eq_true, Bool.and_true, ih_callee, ih_args]
  | @eDot l e e' k h_e ih_e =>
    show (l == l && e.eqv e' && k == k) = true
    simp only [beq_self_eq_true, Bool.and_true, Bool.true_and, ih_e]
  | @eBrack l e e' prop prop' h_e h_prop ih_e ih_prop =>
    show (l == l && e.eqv e' && prop.eqv prop') = true
    simp only [beq_self_eq_true, Bool.and_true, Bool.true_and, ih_e, ih_prop]
  | @eNewTarget l =>
    show (l == l) = true
    simp only [beq_self_eq_true, Bool.and_true, Bool.true_and]
  | @eTrue l =>
    show (l == l) = true
    simp only [beq_self_eq_true, Bool.and_true, Bool.true_and]
  | @eFalse l =>
    show (l == l) = true
    simp only [beq_self_eq_true, Bool.and_true, Bool.true_and]
  | @eNull l =>
    show (l == l) = true
    simp only [beq_self_eq_true, Bool.and_true, Bool.true_and]
  | @eNumber l n n' h_n =>
    show (l == l && n.eqv n') = true
    simp only [beq_self_eq_true, Bool.and_true, Bool.true_and, (NumberLiteral.eqv_iff _ _).2 h_n]
  | @eRegExp l r r' h_r g_r =>
    show (l == l && r.eqv r') = true
    simp only [beq_self_eq_true, Bool.and_true, Bool.true_and, (RegExpLiteral.eqv_iff _ _).2 ⟨h_r, g_r⟩]
  | @eString l s s' h_s =>
    show (l == l && s.eqv s') = true
    simp only [beq_self_eq_true, Bool.and_true, Bool.true_and, (StringLiteral.eqv_iff _ _).2 h_s]
  | @tId i =>
    show (i == i) = true
    simp only [beq_self_eq_true, Bool.and_true, Bool.true_and]
  | @tDot l e e' k h_e ih_e =>
    show (l == l && e.eqv e' && k == k) = true
    simp only [beq_self_eq_true, Bool.and_true, Bool.true_and, ih_e]
  | @tBrack l e e' prop prop' h_e h_prop ih_e ih_prop =>
    show (l == l && e.eqv e' && prop.eqv prop') = true
    simp only [beq_self_eq_true, Bool.and_true, Bool.true_and, ih_e, ih_prop]
  | @pSimple c t t' h_t ih_t =>
    show (t.eqv t') = true
    simp only [beq_self_eq_true, Bool.and_true, Bool.true_and, ih_t]
  | @pCompound c p p' h_p ih_p =>
    show (p.eqv p') = true
    simp only [beq_self_eq_true, Bool.and_true, Bool.true_and, ih_p]
  | @cArr c l es es' r r' h_es h_r ih_es ih_r =>
    show (l == l && es.eqv es' && r.eqv r') = true
    simp only [beq_self_eq_true, Bool.and_true, Bool.true_and, ih_es, ih_r]
  | @cObj c l ps ps' h_ps ih_ps =>
    show (l == l && ps.eqv ps') = true
    simp only [beq_self_eq_true, Bool.and_true, Bool.true_and, ih_ps]
  | @restPatt c l p p' h_p ih_p =>
    show (l == l && p.eqv p') = true
    simp only [beq_self_eq_true, Bool.and_true, Bool.true_and, ih_p]
  | @ppRegular c l k k' p p' h_k h_p ih_p =>
    show (l == l && k.eqv k' && p.eqv p') = true
    simp only [beq_self_eq_true, Bool.and_true, Bool.true_and, (PropKey.eqv_iff _ _).2 h_k, ih_p]
  | @ppShorthand c i =>
    show (i == i) = true
    simp only [beq_self_eq_true, Bool.and_true, Bool.true_and]
  | @prRegular l k k' v v' h_k h_v ih_v =>
    show (l == l && k.eqv k' && v.eqv v') = true
    simp only [beq_self_eq_true, Bool.and_true, Bool.true_and, (PropKey.eqv_iff _ _).2 h_k, ih_v]
  | @prMethod f f' h_f ih_f =>
    show (f.eqv f') = true
    simp only [beq_self_eq_true, Bool.and_true, Bool.true_and, ih_f]
  | @prShorthand i =>
    show (i == i) = true
    simp only [beq_self_eq_true, Bool.and_true, Bool.true_and]
  | @vInit e e' h_e ih_e =>
    show (e.eqv e') = true
    simp only [beq_self_eq_true, Bool.and_true, Bool.true_and, ih_e]
  | @vGet l b b' h_b ih_b =>
    show (l == l && b.eqv b') = true
    simp only [beq_self_eq_true, Bool.and_true, Bool.true_and, ih_b]
  | @vSet l p p' b b' h_p h_b ih_p ih_b =>
    show (l == l && p.eqv p' && b.eqv b') = true
    simp only [beq_self_eq_true, Bool.and_true, Bool.true_and, ih_p, ih_b]
  | @func c l id id' ps ps' b b' gen h_id h_ps h_b ih_id ih_ps ih_b =>
    show (l == l && id.eqv id' && ps.eqv ps' && b.eqv b' && gen == gen) = true
    simp only [beq_self_eq_true, Bool.and_true, Bool.true_and, ih_id, ih_ps, ih_b]
  | @params l ps ps' r r' h_ps h_r ih_ps ih_r =>
    show (l == l && ps.eqv ps' && r.eqv r') = true
    simp only [beq_self_eq_true, Bool.and_true, Bool.true_and, ih_ps, ih_r]
  | @body c l dirs dirs' items items' h_dirs h_items ih_items =>
    show (l == l && listEqv Dir.eqv dirs dirs' && items.eqv items') = true
    simp only [beq_self_eq_true, Bool.and_true, Bool.true_and, (dirs_eqv_iff _ _).2 h_dirs, ih_items]
  | @siDecl d d' h_d ih_d =>
    show (d.eqv d') = true
    simp only [beq_self_eq_true, Bool.and_true, Bool.true_and, ih_d]
  | @siStmt s s' h_s ih_s =>
    show (s.eqv s') = true
    simp only [beq_self_eq_true, Bool.and_true, Bool.true_and, ih_s]
  | @miImport i i' h_i ih_i =>
    show (i.eqv i') = true
    simp only [beq_self_eq_true, Bool.and_true, Bool.true_and, ih_i]
  | @miExport e e' h_e ih_e =>
    show (e.eqv e') = true
    simp only [beq_self_eq_true, Bool.and_true, Bool.true_and, ih_e]
  | @miItem i i' h_i ih_i =>
    show (i.eqv i') = true
    simp only [beq_self_eq_true, Bool.and_true, Bool.true_and, ih_i]
  | @importForEffect l s s' h_s =>
    show (l == l && s.eqv s') = true
    simp only [beq_self_eq_true, Bool.and_true, Bool.true_and, (StringLiteral.eqv_iff _ _).2 h_s]
  | @exportVar l ds ds' semi h_ds ih_ds =>
    show (l == l && ds.eqv ds' && semi == semi) = true
    simp only [beq_self_eq_true, Bool.and_true, Bool.true_and, ih_ds]
  | @exportDecl d d' h_d ih_d =>
    show (d.eqv d') = true
    simp only [beq_self_eq_true, Bool.and_true, Bool.true_and, ih_d]
  | @dFun f f' h_f ih_f =>
    show (f.eqv f') = true
    simp only [beq_self_eq_true, Bool.and_true, Bool.true_and, ih_f]
  | @dLet l ds ds' semi h_ds ih_ds =>
    show (l == l && ds.eqv ds' && semi == semi) = true
    simp only [beq_self_eq_true, Bool.and_true, Bool.true_and, ih_ds]
  | @dConst l ds ds' semi h_ds ih_ds =>
    show (l == l && ds.eqv ds' && semi == semi) = true
    simp only [beq_self_eq_true, Bool.and_true, Bool.true_and, ih_ds]
  | @dtSimple l i init init' h_init ih_init =>
    show (l == l && i == i && init.eqv init') = true
    simp only [beq_self_eq_true, Bool.and_true, Bool.true_and, ih_init]
  | @dtCompound l p p' init init' h_p h_init ih_p ih_init =>
    show (l == l && p.eqv p' && init.eqv init') = true
    simp only [beq_self_eq_true, Bool.and_true, Bool.true_and, ih_p, ih_init]
  | @constDtor l p p' value value' h_p h_value ih_p ih_value =>
    show (l == l && p.eqv p' && value.eqv value') = true
    simp only [beq_self_eq_true, Bool.and_true, Bool.true_and, ih_p, ih_value]
  | @block l items items' h_items ih_items =>
    show (l == l && items.eqv items') = true
    simp only [beq_self_eq_true, Bool.and_true, Bool.true_and, ih_items]
  | @sEmpty l =>
    show (l == l) = true
    simp only [beq_self_eq_true, Bool.and_true, Bool.true_and]
  | @sBlock b b' h_b ih_b =>
    show (b.eqv b') = true
    simp only [beq_self_eq_true, Bool.and_true, Bool.true_and, ih_b]
  | @sVar l ds ds' semi h_ds ih_ds =>
    show (l == l && ds.eqv ds' && semi == semi) = true
    simp only [beq_self_eq_true, Bool.and_true, Bool.true_and, ih_ds]
  | @sExpr l e e' semi h_e ih_e =>
    show (l == l && e.eqv e' && semi == semi) = true
    simp only [beq_self_eq_true, Bool.and_true, Bool.true_and, ih_e]
  | @sIf l test test' thn thn' alt alt' h_test h_thn h_alt ih_test ih_thn ih_alt =>
    show (l == l && test.eqv test' && thn.eqv thn' && alt.eqv alt') = true
    simp only [beq_self_eq_true, Bool.and_true, Bool.true_and, ih_test, ih_thn, ih_alt]
  | @sLabel l i s s' h_s ih_s =>
    show (l == l && i == i && s.eqv s') = true
    simp only [beq_self_eq_true, Bool.and_true, Bool.true_and, ih_s]
  | @sBreak l i semi =>
    show (l == l && i == i && semi == semi) = true
    simp only [beq_self_eq_true, Bool.and_true, Bool.true_and]
  | @sCont l i semi =>
    show (l == l && i == i && semi == semi) = true
    simp only [beq_self_eq_true, Bool.and_true, Bool.true_and]
  | @sWith l obj obj' s s' h_obj h_s ih_obj ih_s =>
    show (l == l && obj.eqv obj' && s.eqv s') = true
    simp only [beq_self_eq_true, Bool.and_true, Bool.true_and, ih_obj, ih_s]
  | @sSwitch l disc disc' cases cases' h_disc h_cases ih_disc ih_cases =>
    show (l == l && disc.eqv disc' && cases.eqv cases') = true
    simp only [beq_self_eq_true, Bool.and_true, Bool.true_and, ih_disc, ih_cases]
  | @sReturn l arg arg' semi h_arg ih_arg =>
    show (l == l && arg.eqv arg' && semi == semi) = true
    simp only [beq_self_eq_true, Bool.and_true, Bool.true_and, ih_arg]
  | @sThrow l arg arg' semi h_arg ih_arg =>
    show (l == l && arg.eqv arg' && semi == semi) = true
    simp only [beq_self_eq_true, Bool.and_true, Bool.true_and, ih_arg]
  | @sTry l b b' c c' f f' h_b h_c h_f ih_b ih_c ih_f =>
    show (l == l && b.eqv b' && c.eqv c' && f.eqv f') = true
    simp only [beq_self_eq_true, Bool.and_true, Bool.true_and, ih_b, ih_c, ih_f]
  | @sWhile l test test' s s' h_test h_s ih_test ih_s =>
    show (l == l && test.eqv test' && s.eqv s') = true
    simp only [beq_self_eq_true, Bool.and_true, Bool.true_and, ih_test, ih_s]
  | @sDoWhile l s s' test test' semi h_s h_test ih_s ih_test =>
    show (l == l && s.eqv s' && test.eqv test' && semi == semi) = true
    simp only [beq_self_eq_true, Bool.and_true, Bool.true_and, ih_s, ih_test]
  | @sFor l head head' test test' update update' s s' h_head h_test h_update h_s ih_head ih_test ih_update ih_s =>
    show (l == l && head.eqv head' && test.eqv test' && update.eqv update' && s.eqv s') = true
    simp only [beq_self_eq_true, Bool.and_true, Bool.true_and, ih_head, ih_test, ih_update, ih_s]
  | @sForIn l head head' obj obj' s s' h_head h_obj h_s ih_head ih_obj ih_s =>
    show (l == l && head.eqv head' && obj.eqv obj' && s.eqv s') = true
    simp only [beq_self_eq_true, Bool.and_true, Bool.true_and, ih_head, ih_obj, ih_s]
  | @sForOf l head head' obj obj' s s' h_head h_obj h_s ih_head ih_obj ih_s =>
    show (l == l && head.eqv head' && obj.eqv obj' && s.eqv s') = true
    simp only [beq_self_eq_true, Bool.and_true, Bool.true_and, ih_head, ih_obj, ih_s]
  | @sDebugger l semi =>
    show (l == l && semi == semi) = true
    simp only [beq_self_eq_true, Bool.and_true, Bool.true_and]
  | @fhVar l ds ds' h_ds ih_ds =>
    show (l == l && ds.eqv ds') = true
    simp only [beq_self_eq_true, Bool.and_true, Bool.true_and, ih_ds]
  | @fhLet l ds ds' h_ds ih_ds =>
    show (l == l && ds.eqv ds') = true
    simp only [beq_self_eq_true, Bool.and_true, Bool.true_and, ih_ds]
  | @fhConst l ds ds' h_ds ih_ds =>
    show (l == l && ds.eqv ds') = true
    simp only [beq_self_eq_true, Bool.and_true, Bool.true_and, ih_ds]
  | @fhExpr l e e' h_e ih_e =>
    show (l == l && e.eqv e') = true
    simp only [beq_self_eq_true, Bool.and_true, Bool.true_and, ih_e]
  | @fiVarInit l i init init' h_init ih_init =>
    show (l == l && i == i && init.eqv init') = true
    simp only [beq_self_eq_true, Bool.and_true, Bool.true_and, ih_init]
  | @fiVar l p p' h_p ih_p =>
    show (l == l && p.eqv p') = true
    simp only [beq_self_eq_true, Bool.and_true, Bool.true_and, ih_p]
  | @fiLet l p p' h_p ih_p =>
    show (l == l && p.eqv p') = true
    simp only [beq_self_eq_true, Bool.and_true, Bool.true_and, ih_p]
  | @fiConst l p p' h_p ih_p =>
    show (l == l && p.eqv p') = true
    simp only [beq_self_eq_true, Bool.and_true, Bool.true_and, ih_p]
  | @fiPatt p p' h_p ih_p =>
    show (p.eqv p') = true
    simp only [beq_self_eq_true, Bool.and_true, Bool.true_and, ih_p]
  | @foVar l p p' h_p ih_p =>
    show (l == l && p.eqv p') = true
    simp only [beq_self_eq_true, Bool.and_true, Bool.true_and, ih_p]
  | @foLet l p p' h_p ih_p =>
    show (l == l && p.eqv p') = true
    simp only [beq_self_eq_true, Bool.and_true, Bool.true_and, ih_p]
  | @foConst l p p' h_p ih_p =>
    show (l == l && p.eqv p') = true
    simp only [beq_self_eq_true, Bool.and_true, Bool.true_and, ih_p]
  | @foPatt p p' h_p ih_p =>
    show (p.eqv p') = true
    simp only [beq_self_eq_true, Bool.and_true, Bool.true_and, ih_p]
  | @catchClause l p p' b b' h_p h_b ih_p ih_b =>
    show (l == l && p.eqv p' && b.eqv b') = true
    simp only [beq_self_eq_true, Bool.and_true, Bool.true_and, ih_p, ih_b]
  | @caseClause l test test' items items' h_test h_items ih_test ih_items =>
    show (l == l && test.eqv test' && items.eqv items') = true
    simp only [beq_self_eq_true, Bool.and_true, Bool.true_and, ih_test, ih_items]
  | @newNoArgs l callee callee' h ih =>
    show (l == l && callee.eqv callee' && true) = true
    simp only [beq_self_eq_true, Bool.and_true, ih]
  | @newEmptyArgs l callee callee' h ih =>
    show (l == l && callee.eqv callee' && true) = true
    simp only [beq_self_eq_true, Bool.and_true, ih]

theorem eqv_iff {c : Cat} (a b : Ast c) : a.eqv b = true ↔ Agree a b :=
  ⟨agree_of_eqv, Agree.eqv⟩

end Ast

end Esprit
