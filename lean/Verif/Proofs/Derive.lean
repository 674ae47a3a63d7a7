import Verif.Spec.Derive
import Verif.Proofs.Text

/-! Lemmas for C65: the derived implementations. -/

namespace Esprit.Derive

variable {T α β : Type}

theorem collect_map {γ : Type} (f : β → Option γ) (g : α → β) (l : List α) :
    collect f (l.map g) = collect (fun a => f (g a)) l := by
  induction l with
  | nil => rfl
  | cons a l ih => simp only [List.map, collect, ih]

theorem collect_none {f : α → Option β} {l : List α} :
    collect f l = none ↔ ∃ a ∈ l, f a = none := by
  induction l with
  | nil => simp [collect]
  | cons a l ih =>
    cases h : f a with
    | none => simp [collect, h]
    | some b => simp [collect, h, ih]

theorem collect_some_map {f : α → Option β} {g : α → β} {l : List α} (h : ∀ a ∈ l, f a = some (g a)) :
    collect f l = some (l.map g) := by
  induction l with
  | nil => rfl
  | cons a l ih =>
    rw [collect, h a (by simp), ih fun a m => h a (by simp [m])]
    rfl

/-- The path of a pattern. -/
def Pat.head : Pat → Option Path
  | .struct p _ _ => some p
  | .tupleStruct p _ => some p
  | .path p => some p
  | _ => none

theorem Pat.bind_head {p : Pat} {v : Value α} {env : List (Str × Nat)} (h : p.bind v = some env) :
    p.head = some v.path := by
  unfold Pat.bind at h
  split at h
  · split at h
    · rename_i hp; rw [Pat.head, hp.1]
    · cases h
  · split at h
    · rename_i hp; rw [Pat.head, hp.1]
    · cases h
  · split at h
    · rename_i hp; rw [Pat.head, hp]
    · cases h
  · cases h

/-- The arm of the value's constructor is selected. -/
theorem select_arm {g : Path × VariantData T → Option Arm}
    (hg : ∀ c arm, g c = some arm → arm.pat.head = some c.1) {v : Value α} {data : VariantData T}
    {arm : Arm} {env : List (Str × Nat)} (ha : g (v.path, data) = some arm)
    (hb : arm.pat.bind v = some env) :
    ∀ {cs : List (Path × VariantData T)} {arms : List Arm}, collect g cs = some arms →
      (cs.map (·.1)).Nodup → (v.path, data) ∈ cs → select v arms = some (arm.body, env) := by
  intro cs
  induction cs with
  | nil => intro arms _ _ hm; cases hm
  | cons c cs ih =>
    intro arms hc hn hm
    cases hgc : g c with
    | none => simp [collect, hgc] at hc
    | some a =>
      cases hcs : collect g cs with
      | none => simp [collect, hgc, hcs] at hc
      | some as =>
        simp only [collect, hgc, hcs, Option.bind_some, Option.map_some, Option.some.injEq] at hc
        subst hc
        rw [List.map, List.nodup_cons] at hn
        rcases List.mem_cons.1 hm with rfl | hm
        · rw [hgc] at ha
          cases ha
          rw [select, hb]
        · rw [select]
          cases hx : a.pat.bind v with
          | none => exact ih hcs hn.2 hm
          | some env' =>
            have := (hg c a hgc).symm.trans (Pat.bind_head hx)
            exact absurd (List.mem_map.2 ⟨_, hm, (Option.some.inj this).symm⟩) hn.1

theorem expandUntrack_eq (d : MacroInput T) : expandUntrack d =
    (collect (fun c => expandUntrackData c.1 c.2) d.constructors).map fun arms =>
      { traitName := c!"Untrack", method := c!"untrack", ident := d.ident,
        params := d.params.map fun p => (p.1, p.2 ++ [c!"Untrack"]), arms := arms } := by
  unfold expandUntrack MacroInput.constructors
  cases d.body with
  | struct data => rfl
  | enum vs => simp only [collect_map]

theorem expandTracking_eq [DecidableEq T] (L : T) (d : MacroInput T) (m : Bool) : expandTracking L d m =
    (collect (fun c => expandTrackingData L c.1 c.2 m) d.constructors).map fun arms =>
      { traitName := if m then c!"TrackingMut" else c!"TrackingRef",
        method := if m then c!"tracking_mut" else c!"tracking_ref",
        ident := d.ident, params := d.params, arms := arms } := by
  unfold expandTracking MacroInput.constructors
  cases d.body with
  | struct data => rfl
  | enum vs => simp only [collect_map]

theorem expandUntrackData_head {path : Path} {data : VariantData T} {arm : Arm}
    (h : expandUntrackData path data = some arm) : arm.pat.head = some path := by
  cases data with
  | struct fields =>
    simp only [expandUntrackData] at h
    cases hc : collect Field.ident fields with
    | none => rw [hc] at h; cases h
    | some ids => rw [hc] at h; cases h; rfl
  | tuple fields => cases h; rfl
  | unit => cases h; rfl

theorem expandTrackingData_head [DecidableEq T] {L : T} {path : Path} {data : VariantData T} {m : Bool}
    {arm : Arm} (h : expandTrackingData L path data m = some arm) : arm.pat.head = some path := by
  cases data with
  | struct fields =>
    simp only [expandTrackingData] at h
    split at h
    · cases h; rfl
    · cases h
  | tuple fields =>
    cases fields with
    | nil => cases h
    | cons f fs => cases h; rfl
  | unit => cases h

theorem bind_struct {path : Path} {ps : List (Str × Pat)} {rest : Bool} {fs : List (Str × α)}
    (h : rest = true ∨ ∀ f ∈ fs, f.1 ∈ ps.map (·.1)) :
    Pat.bind (.struct path ps rest) (⟨path, .named fs⟩ : Value α) = bindStruct (fs.map (·.1)) ps :=
  if_pos ⟨rfl, h⟩

theorem bind_tuple {path : Path} {ps : List Pat} {fs : List α} (h : ps.length = fs.length) :
    Pat.bind (.tupleStruct path ps) (⟨path, .positional fs⟩ : Value α) = bindTuple ps 0 :=
  if_pos ⟨rfl, h⟩

theorem bind_path {path : Path} :
    Pat.bind (.path path) (⟨path, .unit⟩ : Value α) = some [] :=
  if_pos rfl

theorem nodup_of_some {xs : List (Str × α)} (h : (xs.map fun f => some f.1).Nodup) :
    (xs.map (·.1)).Nodup := by
  rw [List.Nodup, List.pairwise_map] at *
  exact h.imp fun hne e => hne (congrArg some e)

/-! ### Running the block -/

theorem lookup_cons {env : List (Str × Nat)} {x y : Str} {i : Nat} :
    lookup ((x, i) :: env) y = if x = y then some i else lookup env y := by
  unfold lookup
  rw [List.find?_cons]
  by_cases h : x = y <;> simp [h]

/-- The variables of a list refer to the fields in order. -/
theorem lookup_zip : ∀ {xs : List Str} {k : Nat}, xs.Nodup → ∀ i (h : i < xs.length),
    lookup (xs.zipIdx k) xs[i] = some (k + i)
  | [], _, _, i, h => absurd h (by simp)
  | x :: xs, k, hn, 0, h => by
    rw [List.zipIdx_cons, List.getElem_cons_zero, lookup_cons, if_pos rfl, Nat.add_zero]
  | x :: xs, k, hn, i + 1, h => by
    rw [List.nodup_cons] at hn
    have hne : x ≠ xs[i]'(by simpa using h) := fun e => hn.1 (e ▸ List.getElem_mem _)
    rw [List.zipIdx_cons, List.getElem_cons_succ, lookup_cons, if_neg hne,
      lookup_zip hn.2 i (by simpa using h)]
    congr 1; omega

theorem runBlock_all {call : Str → α → α} {env : List (Str × Nat)} {m : Str} :
    ∀ {xs : List Str} {k : Nat} {fs : Fields α}, (∀ i (h : i < xs.length), lookup env xs[i] = some (k + i)) →
      runBlock call env (xs.map fun x => .method m x) fs =
        some ((List.range' k xs.length).foldl (fun fs i => fs.modify (call m) i) fs)
  | [], k, fs, _ => rfl
  | x :: xs, k, fs, h => by
    have h0 := h 0 (by simp)
    rw [List.getElem_cons_zero, Nat.add_zero] at h0
    rw [List.map, runBlock, h0, Option.bind_some, runBlock_all (k := k + 1)]
    · rfl
    · intro i hi
      have := h (i + 1) (by simpa using hi)
      rw [List.getElem_cons_succ] at this
      rw [this]; congr 1; omega

theorem modify_all (f : α → α) : ∀ (n k : Nat) (l : List α) (j : Nat),
    ((List.range' k n).foldl (fun l i => l.modify i f) l)[j]? =
      if k ≤ j ∧ j < k + n then l[j]?.map f else l[j]?
  | 0, k, l, j => by rw [if_neg (by omega)]; rfl
  | n + 1, k, l, j => by
    rw [List.range'_succ, List.foldl_cons, modify_all f n, List.getElem?_modify]
    by_cases h : k = j
    · subst h
      rw [if_neg (by omega), if_pos (by omega)]
      simp
    · simp only [if_neg h]
      by_cases hj : k + 1 ≤ j ∧ j < k + 1 + n
      · rw [if_pos hj, if_pos (by omega)]; simp
      · rw [if_neg hj, if_neg (by omega)]; simp

theorem modify_list (f : α → α) (l : List α) :
    (List.range' 0 l.length).foldl (fun l i => l.modify i f) l = l.map f := by
  apply List.ext_getElem?
  intro j
  rw [modify_all, List.getElem?_map]
  by_cases h : j < l.length
  · rw [if_pos (by omega)]
  · rw [if_neg (by omega), List.getElem?_eq_none (by omega)]
    rfl

theorem modify_named (f : α → α) (is : List Nat) (fs : List (Str × α)) :
    is.foldl (fun fs i => fs.modify f i) (Fields.named fs) =
      .named (is.foldl (fun l i => l.modify i fun x => (x.1, f x.2)) fs) := by
  induction is generalizing fs with
  | nil => rfl
  | cons i is ih => exact ih _

theorem modify_positional (f : α → α) (is : List Nat) (fs : List α) :
    is.foldl (fun fs i => fs.modify f i) (Fields.positional fs) =
      .positional (is.foldl (fun l i => l.modify i f) fs) := by
  induction is generalizing fs with
  | nil => rfl
  | cons i is ih => exact ih _

theorem tupleIdent_injective {i j : Nat} (h : tupleIdent i = tupleIdent j) : i = j := by
  unfold tupleIdent at h
  exact decimal_injective (List.append_cancel_left h)

theorem bindTuple_idents : ∀ {xs : List Str} {k : Nat},
    bindTuple (xs.map fun x => .ident true x) k = some (xs.zipIdx k)
  | [], _ => rfl
  | x :: xs, k => by rw [List.map, bindTuple, bindTuple_idents, List.zipIdx_cons]; rfl

theorem bindStruct_idents {names : List Str} (hn : names.Nodup) : ∀ {xs : List Str} {k : Nat},
    (∀ i (h : i < xs.length), names[k + i]? = some xs[i]) →
      bindStruct names (xs.map fun x => (x, .ident true x)) = some (xs.zipIdx k)
  | [], _, _ => rfl
  | x :: xs, k, h => by
    have h0 := h 0 (by simp)
    rw [List.getElem_cons_zero, Nat.add_zero] at h0
    have hi : names.findIdx? (fun n => n = x) = some k := by
      rw [List.findIdx?_eq_some_iff_getElem]
      obtain ⟨hk, hx⟩ := List.getElem?_eq_some_iff.1 h0
      refine ⟨hk, by simpa using hx, fun j hj => ?_⟩
      simp only [decide_eq_true_eq]
      intro e
      exact absurd (e.trans hx.symm) ((List.pairwise_iff_getElem.1 hn) j k (by omega) hk hj)
    rw [List.map, bindStruct, hi, Option.bind_some, bindStruct_idents hn (k := k + 1), List.zipIdx_cons]
    · rfl
    · intro i hlt
      have := h (i + 1) (by simpa using hlt)
      rw [List.getElem_cons_succ] at this
      rw [← this]; congr 1; omega

end Esprit.Derive
