import Verif.Spec.Tree

/-! The categories of nodes in a syntax tree. -/

namespace Esprit

/-- The categories that correspond to types of the syntax tree. -/
def Cat.reach : Cat → Bool
  | .list .sitem | .list .modItem | .list .expr | .list .item | .list (.opt .item) | .list .prop
  | .list (.patt .id) | .list (.opt (.patt .target)) | .list (.opt (.patt .id))
  | .list (.propPatt .target) | .list (.propPatt .id) | .list .dtor | .list .constDtor
  | .list .case => true
  | .list _ => false
  | .opt .id | .opt .item | .opt .expr | .opt .stmt | .opt .forHead | .opt .«catch» | .opt .block
  | .opt (.list .item) | .opt (.patt .id) | .opt (.patt .target) | .opt (.rest .id)
  | .opt (.rest .target) => true
  | .opt _ => false
  | .patt .id | .patt .target => true
  | .patt _ => false
  | .comp .id | .comp .target => true
  | .comp _ => false
  | .rest .id | .rest .target => true
  | .rest _ => false
  | .propPatt .id | .propPatt .target => true
  | .propPatt _ => false
  | .func .id | .func (.opt .id) | .func .propKey => true
  | .func _ => false
  | .body .sitem | .body .modItem => true
  | .body _ => false
  | _ => true

theorem Cat.reach_list {c : Cat} (h : (Cat.list c).reach = true) :
    c ∈ [.sitem, .modItem, .expr, .item, .opt .item, .prop, .patt .id, .opt (.patt .target),
      .opt (.patt .id), .propPatt .target, .propPatt .id, .dtor, .constDtor, .case] := by
  unfold Cat.reach at h
  split at h <;> simp_all

theorem Cat.reach_opt {c : Cat} (h : (Cat.opt c).reach = true) :
    c ∈ [.id, .item, .expr, .stmt, .forHead, .«catch», .block, .list .item, .patt .id,
      .patt .target, .rest .id, .rest .target] := by
  unfold Cat.reach at h
  split at h <;> simp_all

theorem Cat.reach_patt {c : Cat} (h : (Cat.patt c).reach = true) : c ∈ [.id, .target] := by
  unfold Cat.reach at h
  split at h <;> simp_all

theorem Cat.reach_comp {c : Cat} (h : (Cat.comp c).reach = true) : c ∈ [.id, .target] := by
  unfold Cat.reach at h
  split at h <;> simp_all

theorem Cat.reach_rest {c : Cat} (h : (Cat.rest c).reach = true) : c ∈ [.id, .target] := by
  unfold Cat.reach at h
  split at h <;> simp_all

theorem Cat.reach_propPatt {c : Cat} (h : (Cat.propPatt c).reach = true) : c ∈ [.id, .target] := by
  unfold Cat.reach at h
  split at h <;> simp_all

theorem Cat.reach_func {c : Cat} (h : (Cat.func c).reach = true) : c ∈ [.id, .opt .id, .propKey] := by
  unfold Cat.reach at h
  split at h <;> simp_all

theorem Cat.reach_body {c : Cat} (h : (Cat.body c).reach = true) : c ∈ [.sitem, .modItem] := by
  unfold Cat.reach at h
  split at h <;> simp_all

/-- The categories of the subtrees. -/
def kidCats : {c : Cat} → Ast c → List Cat := fun x => (x.kids .top).map fun k => k.2.1

theorem mem_kidCats {c : Cat} {x : Ast c} {w : Place} {k : Place × Node} (h : k ∈ x.kids w) :
    k.2.1 ∈ kidCats x := by
  have : (x.kids w).map (fun k => k.2.1) = kidCats x := by cases x <;> rfl
  rw [← this]
  exact List.mem_map_of_mem h

theorem reach_kids {c : Cat} (x : Ast c) (h : c.reach = true) : ∀ d ∈ kidCats x, d.reach = true := by
  cases x
  case cons c _ _ =>
    have := Cat.reach_list h
    simp only [List.mem_cons, List.not_mem_nil, or_false] at this
    rcases this with rfl | rfl | rfl | rfl | rfl | rfl | rfl | rfl | rfl | rfl | rfl | rfl | rfl | rfl <;>
      simp [kidCats, Ast.kids, Cat.reach]
  case some c _ =>
    have := Cat.reach_opt h
    simp only [List.mem_cons, List.not_mem_nil, or_false] at this
    rcases this with rfl | rfl | rfl | rfl | rfl | rfl | rfl | rfl | rfl | rfl | rfl | rfl <;>
      simp [kidCats, Ast.kids, Cat.reach]
  case pSimple =>
    have := Cat.reach_patt h
    simp only [List.mem_cons, List.not_mem_nil, or_false] at this
    rcases this with rfl | rfl <;> simp [kidCats, Ast.kids, Cat.reach]
  case pCompound =>
    have := Cat.reach_patt h
    simp only [List.mem_cons, List.not_mem_nil, or_false] at this
    rcases this with rfl | rfl <;> simp [kidCats, Ast.kids, Cat.reach]
  case cArr =>
    have := Cat.reach_comp h
    simp only [List.mem_cons, List.not_mem_nil, or_false] at this
    rcases this with rfl | rfl <;> simp [kidCats, Ast.kids, Cat.reach]
  case cObj =>
    have := Cat.reach_comp h
    simp only [List.mem_cons, List.not_mem_nil, or_false] at this
    rcases this with rfl | rfl <;> simp [kidCats, Ast.kids, Cat.reach]
  case restPatt =>
    have := Cat.reach_rest h
    simp only [List.mem_cons, List.not_mem_nil, or_false] at this
    rcases this with rfl | rfl <;> simp [kidCats, Ast.kids, Cat.reach]
  case ppRegular =>
    have := Cat.reach_propPatt h
    simp only [List.mem_cons, List.not_mem_nil, or_false] at this
    rcases this with rfl | rfl <;> simp [kidCats, Ast.kids, Cat.reach]
  case func =>
    have := Cat.reach_func h
    simp only [List.mem_cons, List.not_mem_nil, or_false] at this
    rcases this with rfl | rfl | rfl <;> simp [kidCats, Ast.kids, Cat.reach]
  case body =>
    have := Cat.reach_body h
    simp only [List.mem_cons, List.not_mem_nil, or_false] at this
    rcases this with rfl | rfl <;> simp [kidCats, Ast.kids, Cat.reach]
  all_goals simp [kidCats, Ast.kids, Cat.reach]

theorem Occurs.reach {w v : Place} {x y : Node} (ho : Occurs w x v y) (h : x.1.reach = true) :
    y.1.reach = true := by
  induction ho with
  | here => exact h
  | under hk _ ih => exact ih (reach_kids _ h _ (mem_kidCats hk))

theorem decl_parent {c : Cat} {x : Ast c} {d : Ast .decl} {w w' : Place} (h : c.reach = true)
    (hk : (w', ⟨.decl, d⟩) ∈ x.kids w) :
    (⟨c, x⟩ : Node) = ⟨.sitem, .siDecl d⟩ ∨ (⟨c, x⟩ : Node) = ⟨.export, .exportDecl d⟩ := by
  cases x
  case siDecl d' =>
    cases List.mem_singleton.1 hk
    exact .inl rfl
  case exportDecl d' =>
    cases List.mem_singleton.1 hk
    exact .inr rfl
  all_goals
    exfalso
    have := mem_kidCats hk
    simp only [kidCats, Ast.kids, List.map_cons, List.map_nil, List.mem_cons, List.not_mem_nil,
      or_false, reduceCtorEq, or_self] at this
    try
      rcases this with rfl | this
      · cases h
      · cases this
    try
      subst this
      cases h

theorem item_parent {c : Cat} {x : Ast c} {d : Ast .sitem} {w w' : Place} (h : c.reach = true)
    (hk : (w', ⟨.sitem, d⟩) ∈ x.kids w) :
    (∃ ds, (⟨c, x⟩ : Node) = ⟨.list .sitem, .cons d ds⟩) ∨ (⟨c, x⟩ : Node) = ⟨.modItem, .miItem d⟩ := by
  cases x
  case miItem d' =>
    cases List.mem_singleton.1 hk
    exact .inr rfl
  case cons c' h' t' =>
    rcases List.mem_cons.1 hk with hk | hk
    · cases hk
      exact .inl ⟨_, rfl⟩
    · cases List.mem_singleton.1 hk
  all_goals
    exfalso
    have := mem_kidCats hk
    simp only [kidCats, Ast.kids, List.map_cons, List.map_nil, List.mem_cons, List.not_mem_nil,
      or_false, reduceCtorEq, or_self] at this
    try
      rcases this with rfl | this
      · cases h
      · cases this
    try
      subst this
      cases h

end Esprit
