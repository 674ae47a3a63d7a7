import Verif.Proofs.Derive

/-! C65: the derive macros. -/

namespace Esprit.Derive

variable {T α : Type}

/-- `derive(Untrack)` works for every declaration: it generates an implementation of
`Untrack` for the declared type, with the bound `Untrack` on every type parameter, that
calls `untrack` once on every field of every value of the type, and changes nothing
else. -/
theorem C65_untrack (d : MacroInput T) (hd : d.Legal) : ∃ impl, expandUntrack d = some impl ∧
    impl.traitName = c!"Untrack" ∧ impl.method = c!"untrack" ∧ impl.ident = d.ident ∧
    impl.params = d.params.map (fun p => (p.1, p.2 ++ [c!"Untrack"])) ∧
    ∀ {α : Type} (call : Str → α → α) (v : Value α) (data : VariantData T), d.Built v data →
      impl.run call v = some ⟨v.path, v.fields.map (call c!"untrack")⟩ := by
  have hs : ∀ c ∈ d.constructors, ∃ arm, expandUntrackData c.1 c.2 = some arm := by
    intro c hc
    have hl := hd.2 c hc
    cases hdata : c.2 with
    | struct fields =>
      rw [hdata] at hl
      cases h : collect Field.ident fields with
      | some ids => exact ⟨_, by rw [expandUntrackData, h]; rfl⟩
      | none =>
        obtain ⟨f, hf, hn⟩ := collect_none.1 h
        exact absurd hn (hl.1 f hf)
    | tuple fields => exact ⟨_, rfl⟩
    | unit => exact ⟨_, rfl⟩
  cases harms : collect (fun c => expandUntrackData c.1 c.2) d.constructors with
  | none =>
    obtain ⟨c, hc, hn⟩ := collect_none.1 harms
    obtain ⟨arm, h⟩ := hs c hc
    rw [h] at hn; cases hn
  | some arms =>
    refine ⟨_, by rw [expandUntrack_eq, harms]; rfl, rfl, rfl, rfl, rfl, ?_⟩
    intro α call v data hv
    have hsel {arm : Arm} {env} (ha : expandUntrackData v.path data = some arm)
        (hb : arm.pat.bind v = some env) : select v arms = some (arm.body, env) :=
      select_arm (g := fun c => expandUntrackData c.1 c.2) (fun c arm h => expandUntrackData_head h)
        ha hb harms hd.1 hv.1
    have hl := hd.2 _ hv.1
    obtain ⟨path, fs⟩ := v
    have hh := hv.2
    cases data with
    | struct fields =>
      cases fs with
      | positional _ => exact hh.elim
      | unit => exact hh.elim
      | named fs =>
        simp only [VariantData.Has] at hh
        have hids : collect Field.ident fields = some (fs.map (·.1)) := by
          have := collect_map (fun x : Option Str => x) Field.ident fields
          rw [← this, hh, show (fun f : Str × α => some f.1) = (fun f => some ((·.1) f)) from rfl,
            collect_map, collect_some_map (g := fun f : Str × α => f.1) fun _ _ => rfl]
        have hnd : (fs.map (·.1)).Nodup := by
          have := hl.2
          rw [hh] at this
          exact nodup_of_some this
        have ha : expandUntrackData path (VariantData.struct fields) =
            some ⟨.struct path ((fs.map (·.1)).map fun x => (x, .ident true x)) false,
              .block ((fs.map (·.1)).map fun x => .method c!"untrack" x)⟩ := by
          rw [expandUntrackData, hids]; rfl
        have hb : Pat.bind (.struct path ((fs.map (·.1)).map fun x => (x, .ident true x)) false)
            (⟨path, .named fs⟩ : Value α) = some ((fs.map (·.1)).zipIdx 0) := by
          rw [bind_struct]
          · exact bindStruct_idents hnd (k := 0) fun i h => by
              rw [Nat.zero_add]; exact List.getElem?_eq_getElem h
          · refine .inr fun f hf => ?_
            simp only [List.map_map, List.mem_map, Function.comp]
            exact ⟨f, hf, rfl⟩
        rw [Impl.run, hsel ha hb, Option.bind_some]
        simp only
        rw [runBlock_all (k := 0) fun i h => lookup_zip hnd i h, modify_named, List.length_map, modify_list]
        rfl
    | tuple fields =>
      cases fs with
      | named _ => exact hh.elim
      | unit => exact hh.elim
      | positional fs =>
        simp only [VariantData.Has] at hh
        have hnd : ((List.range fields.length).map tupleIdent).Nodup :=
          List.Pairwise.map _ (fun i j hne e => hne (tupleIdent_injective e)) List.nodup_range
        have hb : Pat.bind (.tupleStruct path
            (((List.range fields.length).map tupleIdent).map fun x => .ident true x))
            (⟨path, .positional fs⟩ : Value α) = some (((List.range fields.length).map tupleIdent).zipIdx 0) := by
          rw [bind_tuple (by simpa using hh), bindTuple_idents]
        rw [Impl.run, hsel rfl hb, Option.bind_some]
        simp only
        rw [runBlock_all (k := 0) fun i h => lookup_zip hnd i h, modify_positional, List.length_map,
          List.length_range, hh, modify_list]
        rfl
    | unit =>
      cases fs with
      | named _ => exact hh.elim
      | positional _ => exact hh.elim
      | unit =>
        have hb : Pat.bind (.path path) (⟨path, .unit⟩ : Value α) = some [] := by
          exact bind_path
        rw [Impl.run, hsel rfl hb]
        rfl

variable [DecidableEq T]

/-- Constructors whose values have a location. -/
def Locates (locationType : T) (data : VariantData T) : Prop :=
  ∃ m p, LocatedAt locationType m data p

theorem expandTrackingData_isSome {L : T} {path : Path} {data : VariantData T} {m : Bool} :
    (∃ arm, expandTrackingData L path data m = some arm) ↔ Locates L data := by
  cases data with
  | struct fields =>
    rw [expandTrackingData]
    constructor
    · rintro ⟨arm, h⟩
      split at h
      · rename_i ha
        obtain ⟨f, hf, he⟩ := List.any_eq_true.1 ha
        obtain ⟨i, hi⟩ := List.getElem?_of_mem hf
        obtain ⟨h1, h2⟩ := of_decide_eq_true he
        obtain ⟨x, y⟩ := f
        cases h1; cases h2
        exact ⟨[], _, .struct hi⟩
      · cases h
    · rintro ⟨_, _, ⟨hi⟩⟩
      rw [if_pos (List.any_eq_true.2 ⟨_, List.mem_of_getElem? hi, by simp⟩)]
      exact ⟨_, rfl⟩
  | tuple fields =>
    cases fields with
    | nil => exact ⟨nofun, nofun⟩
    | cons f fs =>
      refine ⟨fun _ => ?_, fun _ => ⟨_, rfl⟩⟩
      by_cases h : f.ty = L
      · exact ⟨[], _, .first h⟩
      · exact ⟨[], _, .inside h⟩
  | unit => exact ⟨nofun, nofun⟩

/-- `derive(TrackingRef)` and `derive(TrackingMut)` work exactly for the declarations all
of whose constructors have a location: a field `location: Option<Span>`, or a first
field. -/
theorem C65_trackable (L : T) (d : MacroInput T) (m : Bool) :
    (∃ impl, expandTracking L d m = some impl) ↔ ∀ c ∈ d.constructors, Locates L c.2 := by
  rw [expandTracking_eq]
  cases h : collect (fun c => expandTrackingData L c.1 c.2 m) d.constructors with
  | none =>
    obtain ⟨c, hc, hn⟩ := collect_none.1 h
    refine ⟨nofun, fun ha => ?_⟩
    obtain ⟨arm, he⟩ := (expandTrackingData_isSome (path := c.1) (m := m)).2 (ha c hc)
    rw [he] at hn; cases hn
  | some arms =>
    refine ⟨fun _ c hc => ?_, fun _ => ⟨_, rfl⟩⟩
    cases hx : expandTrackingData L c.1 c.2 m with
    | some arm => exact expandTrackingData_isSome.1 ⟨arm, hx⟩
    | none => rw [collect_none.2 ⟨c, hc, hx⟩] at h; cases h

theorem collect_mem {α β : Type} {f : α → Option β} : ∀ {as : List α} {bs : List β} {b : β},
    collect f as = some bs → b ∈ bs → ∃ a ∈ as, f a = some b
  | [], _, _, h, hb => by cases h; cases hb
  | a :: as, bs, b, h, hb => by
    rw [collect] at h
    obtain ⟨b', hb', h⟩ := Option.bind_eq_some_iff.1 h
    obtain ⟨bs', hbs, rfl⟩ := Option.map_eq_some_iff.1 h
    rcases List.mem_cons.1 hb with rfl | hb
    · exact ⟨a, List.mem_cons_self, hb'⟩
    · obtain ⟨a', ha, h⟩ := collect_mem hbs hb
      exact ⟨a', List.mem_cons_of_mem _ ha, h⟩

/-- `derive(TrackingRef)` implements `TrackingRef::tracking_ref` with shared references
and `derive(TrackingMut)` implements `TrackingMut::tracking_mut` with mutable ones, for
the declared type with its type parameters. -/
theorem C65_tracking_impl (L : T) (d : MacroInput T) {m : Bool} {impl : Impl}
    (hi : expandTracking L d m = some impl) :
    impl.traitName = (if m then c!"TrackingMut" else c!"TrackingRef") ∧
    impl.method = (if m then c!"tracking_mut" else c!"tracking_ref") ∧
    impl.ident = d.ident ∧ impl.params = d.params ∧
    ∀ arm ∈ impl.arms, arm.pat.vars = [(m, c!"location")] := by
  rw [expandTracking_eq] at hi
  obtain ⟨arms, harms, rfl⟩ := Option.map_eq_some_iff.1 hi
  refine ⟨rfl, rfl, rfl, rfl, fun arm ha => ?_⟩
  obtain ⟨c, _, hc⟩ := collect_mem harms ha
  cases hd : c.2 with
  | struct fields =>
    rw [hd, expandTrackingData] at hc
    split at hc
    · cases hc; rfl
    · cases hc
  | tuple fields =>
    rw [hd] at hc
    cases fields with
    | nil => cases hc
    | cons f fs =>
      cases hc
      simp only [Pat.vars, List.flatMap_cons, Pat.vars.var, List.singleton_append, List.cons.injEq,
        true_and, List.flatMap_eq_nil_iff, List.mem_map]
      rintro _ ⟨_, _, rfl⟩
      rfl
  | unit => rw [hd] at hc; cases hc

/-- The generated `tracking_ref` and `tracking_mut` refer, in every value, to its
location. -/
theorem C65_tracking (L : T) (d : MacroInput T) (hd : d.Legal) (m : Bool) {impl : Impl}
    (hi : expandTracking L d m = some impl) {v : Value α} {data : VariantData T} (hv : d.Built v data) :
    ∃ p, impl.refer v = some p ∧
      LocatedAt L (if m then c!"tracking_mut" else c!"tracking_ref") data p := by
  rw [expandTracking_eq] at hi
  cases harms : collect (fun c => expandTrackingData L c.1 c.2 m) d.constructors with
  | none => rw [harms] at hi; cases hi
  | some arms =>
    rw [harms] at hi
    cases hi
    have hsel {arm : Arm} {env} (ha : expandTrackingData L v.path data m = some arm)
        (hb : arm.pat.bind v = some env) : select v arms = some (arm.body, env) :=
      select_arm (g := fun c => expandTrackingData L c.1 c.2 m) (fun c arm h => expandTrackingData_head h)
        ha hb harms hd.1 hv.1
    have hl := hd.2 _ hv.1
    have hh := hv.2
    have hex : ∃ arm, expandTrackingData L v.path data m = some arm := by
      cases hx : expandTrackingData L v.path data m with
      | some arm => exact ⟨arm, rfl⟩
      | none =>
        have := collect_none (f := fun c => expandTrackingData L c.1 c.2 m).2 ⟨_, hv.1, hx⟩
        rw [this] at harms; cases harms
    obtain ⟨path, fs⟩ := v
    cases data with
    | struct fields =>
      cases fs with
      | positional _ => exact hh.elim
      | unit => exact hh.elim
      | named fs =>
        obtain ⟨arm, ha⟩ := hex
        have ha' := ha
        rw [expandTrackingData] at ha'
        split at ha'
        · rename_i hany
          obtain ⟨f, hf, he⟩ := List.any_eq_true.1 hany
          obtain ⟨i, hfi⟩ := List.getElem?_of_mem hf
          obtain ⟨h1, h2⟩ := of_decide_eq_true he
          obtain ⟨x, y⟩ := f
          cases h1; cases h2
          cases ha'
          simp only [VariantData.Has] at hh
          have hnd : (fs.map (·.1)).Nodup := by
            have := hl.2
            rw [hh] at this
            exact nodup_of_some this
          have hname : (fs.map (·.1))[i]? = some c!"location" := by
            have := congrArg (·[i]?) hh
            simp only [List.getElem?_map, hfi, Option.map_some] at this
            rw [List.getElem?_map]
            cases hfs : fs[i]? with
            | none => rw [hfs] at this; cases this
            | some g =>
              rw [hfs] at this
              simp only [Option.map_some, Option.some.injEq] at this
              rw [this]; rfl
          have hb : Pat.bind (.struct path [(c!"location", .ident m c!"location")] true)
              (⟨path, .named fs⟩ : Value α) = some [(c!"location", i)] := by
            rw [bind_struct (.inl rfl)]
            have hidx : (fs.map (·.1)).findIdx? (fun n => n = c!"location") = some i := by
              rw [List.findIdx?_eq_some_iff_getElem]
              obtain ⟨hk, hx⟩ := List.getElem?_eq_some_iff.1 hname
              refine ⟨hk, by simpa using hx, fun j hj => ?_⟩
              simp only [decide_eq_true_eq]
              intro e
              exact absurd (e.trans hx.symm) ((List.pairwise_iff_getElem.1 hnd) j i (by omega) hk hj)
            rw [bindStruct, hidx]
            rfl
          refine ⟨.field i, ?_, .struct hfi⟩
          rw [Impl.refer, hsel ha hb, Option.bind_some]
          simp only
          rw [lookup_cons, if_pos rfl]
          rfl
        · cases ha'
    | tuple fields =>
      cases fields with
      | nil => obtain ⟨arm, ha⟩ := hex; cases ha
      | cons f fields =>
        cases fs with
        | named _ => exact hh.elim
        | unit => exact hh.elim
        | positional fs =>
          simp only [VariantData.Has] at hh
          have hw : ∀ (l : List (Field T)) k, bindTuple (l.map fun _ => .wild) k = some [] := by
            intro l
            induction l with
            | nil => intro k; rfl
            | cons a l ih => intro k; exact ih (k + 1)
          have hb : Pat.bind (.tupleStruct path (.ident m c!"location" :: fields.map fun _ => .wild))
              (⟨path, .positional fs⟩ : Value α) = some [(c!"location", 0)] := by
            rw [bind_tuple (by simpa using hh), bindTuple, hw]
            rfl
          have hs := hsel rfl hb
          by_cases hf : f.ty = L
          · refine ⟨.field 0, ?_, .first hf⟩
            rw [Impl.refer, hs, Option.bind_some]
            simp only [if_pos hf]
            rw [lookup_cons, if_pos rfl]
            rfl
          · refine ⟨.via _ 0, ?_, .inside hf⟩
            rw [Impl.refer, hs, Option.bind_some]
            simp only [if_neg hf]
            rw [lookup_cons, if_pos rfl]
            rfl
    | unit => obtain ⟨arm, ha⟩ := hex; cases ha

/-- `enum E { A(Option<Span>, X), B(X, X), C { x: X, location: Option<Span> } }`, where
`true` stands for the type of locations. -/
def sampleEnum : MacroInput Bool := ⟨c!"E", [(c!"T", [])], .enum [
  ⟨c!"A", .tuple [⟨none, true⟩, ⟨none, false⟩]⟩, ⟨c!"B", .tuple [⟨none, false⟩, ⟨none, false⟩]⟩,
  ⟨c!"C", .struct [⟨some c!"x", false⟩, ⟨some c!"location", true⟩]⟩]⟩

/-- The declaration is legal, and all its constructors have a location. -/
example : sampleEnum.Legal ∧ ∀ c ∈ sampleEnum.constructors, Locates true c.2 := by
  refine ⟨⟨by decide, ?_⟩, ?_⟩
  · intro c hc
    simp only [sampleEnum, MacroInput.constructors, List.map_cons, List.map_nil, List.mem_cons,
      List.not_mem_nil, or_false] at hc
    rcases hc with rfl | rfl | rfl
    · trivial
    · trivial
    · exact ⟨by decide, by decide⟩
  · intro c hc
    simp only [sampleEnum, MacroInput.constructors, List.map_cons, List.map_nil, List.mem_cons,
      List.not_mem_nil, or_false] at hc
    rcases hc with rfl | rfl | rfl
    · exact ⟨[], _, .first rfl⟩
    · exact ⟨[], _, .inside (by decide)⟩
    · exact ⟨[], _, .struct (i := 1) rfl⟩

/-- Values of each constructor, and where their locations are. -/
example : ∃ impl, expandTrackingRef true sampleEnum = some impl ∧
    impl.refer (⟨[c!"E", c!"A"], .positional [1, 2]⟩ : Value Nat) = some (.field 0) ∧
    impl.refer (⟨[c!"E", c!"B"], .positional [1, 2]⟩ : Value Nat) = some (.via c!"tracking_ref" 0) ∧
    impl.refer (⟨[c!"E", c!"C"], .named [(c!"x", 1), (c!"location", 2)]⟩ : Value Nat) = some (.field 1) :=
  ⟨_, rfl, rfl, rfl, rfl⟩

/-- All fields are untracked once. -/
example : ∃ impl, expandUntrack sampleEnum = some impl ∧
    impl.run (fun _ n => n + 10) (⟨[c!"E", c!"B"], .positional [1, 2]⟩ : Value Nat) =
      some ⟨[c!"E", c!"B"], .positional [11, 12]⟩ :=
  ⟨_, rfl, rfl⟩

/-- A constructor without fields has no location: the macro panics. -/
example : expandTrackingRef true (⟨c!"E", [], .enum [⟨c!"A", .unit⟩]⟩ : MacroInput Bool) = none := rfl

end Esprit.Derive
