import Verif.Model.Unjson

/-!
# Fields of JSON objects (C42)

`HasType` says which values a requested type admits and what is returned for
them; `Extracts` and `Gets` state exactness of a function for a requested type.
-/

namespace Esprit

/-- The types of values that can be requested from a field. -/
inductive JsonType where
  | any | string | array | object | bool | i64 | u64 | f64
  /-- any number, as a double -/
  | number
  /-- an integer that fits into 64 bits with sign, however it is stored -/
  | int
  /-- an integer that fits into 64 bits without sign, however it is stored -/
  | nat
  /-- the type, or null -/
  | orNull (t : JsonType)

/-- What is returned for a value of the type. -/
def JsonType.Val : JsonType → Type
  | any => Json
  | string => Str
  | array => List Json
  | object => Object
  | bool => Bool
  | i64 => Int
  | u64 => Nat
  | f64 => F64
  | number => F64
  | int => Int
  | nat => Nat
  | orNull t => Option t.Val

/-- `HasType t v a`: the JSON value `v` is of type `t`, and denotes `a`. -/
def HasType : (t : JsonType) → (v : Json) → t.Val → Prop
  | .any, v, a => v = a
  | .string, v, a => v = .string a
  | .array, v, a => v = .array a
  | .object, v, a => v = .object a
  | .bool, v, a => v = .bool a
  | .i64, v, a => v = .i64 a
  | .u64, v, a => v = .u64 a
  | .f64, v, a => v = .f64 a
  | .number, v, a => (∃ i : Int, v = .i64 i ∧ a = F64.ofRat i) ∨
      (∃ n : Nat, v = .u64 n ∧ a = F64.ofRat (n : Int)) ∨ v = .f64 a
  | .int, v, a => v = .i64 a ∨ ∃ n : Nat, v = .u64 n ∧ n < 9223372036854775808 ∧ a = Int.ofNat n
  | .nat, v, a => v = .u64 a ∨ v = .i64 (Int.ofNat a)
  | .orNull _, v, none => v = .null
  | .orNull t, v, some a => HasType t v a

/-- The outcome of requesting a value of type `t`, called `expected` in errors, from the
field `name`. -/
structure Outcome (t : JsonType) (expected : Str) (name : Str) (o : Object) (r : JsonResult t.Val) :
    Prop where
  /-- success exactly when the field is present with that type, with its value -/
  ok : ∀ a, r = .ok a ↔ ∃ v, o.get name = some v ∧ HasType t v a
  /-- absence of the field, and nothing else, is reported as a missing field -/
  missing : ∀ m, r = .error (.missingField m) ↔ o.get name = none ∧ m = name
  /-- a value of another type is reported with its actual type and the type asked for -/
  mismatch : ∀ v, o.get name = some v → (∀ a, ¬HasType t v a) →
    r = .error (.typeMismatch expected v.ty)

/-- A function that reads a field of the requested type. -/
def Gets (t : JsonType) (expected : Str) (f : Str → Object → JsonResult t.Val) : Prop :=
  ∀ name o, Outcome t expected name o (f name o)

/-- A function that takes a field of the requested type out of an object: the
outcome is that of reading the field, and afterwards the object has all its fields
but that one. -/
def Extracts (t : JsonType) (expected : Str) (f : Str → Object → JsonResult t.Val × Object) : Prop :=
  ∀ name o, Outcome t expected name o (f name o).1 ∧
    ∀ m, (f name o).2.get m = if m = name then none else o.get m

private theorem get_without (o : Object) (name m : Str) :
    (o.without name).get m = if m = name then none else o.get m := by
  unfold Object.without Object.get
  split
  · rename_i h
    subst h
    have : (o.filter fun e => e.1 ≠ m).find? (fun e => e.1 = m) = none := by
      rw [List.find?_eq_none]
      intro e he
      have := (List.mem_filter.mp he).2
      simpa using this
    rw [this]; rfl
  · rename_i h
    congr 1
    induction o with
    | nil => rfl
    | cons e o ih =>
      by_cases he : e.1 = name
      · rw [List.filter_cons_of_neg (by simpa using he), ih, List.find?_cons_of_neg]
        simp only [decide_eq_true_eq]
        intro h'; exact h (h' ▸ he)
      · rw [List.filter_cons_of_pos (by simpa using he)]
        by_cases hm : e.1 = m
        · rw [List.find?_cons_of_pos (by simpa using hm), List.find?_cons_of_pos (by simpa using hm)]
        · rw [List.find?_cons_of_neg (by simpa using hm), List.find?_cons_of_neg (by simpa using hm),
            ih]

/-- What is to be checked of the conversion of the value of a field. -/
private structure Converts (t : JsonType) (expected : Str) (f : Json → JsonResult t.Val) : Prop where
  ok : ∀ v a, f v = .ok a → HasType t v a
  has : ∀ v a, HasType t v a → f v = .ok a
  err : ∀ v e, f v = .error e → e = .typeMismatch expected v.ty

private theorem Converts.outcome {t : JsonType} {x : Str} {f : Json → JsonResult t.Val}
    (h : Converts t x f) (name : Str) (o : Object) :
    Outcome t x name o ((o.getField name).bind f) := by
  unfold Object.getField
  cases hg : o.get name with
  | none =>
    refine ⟨fun a => ⟨fun hr => (by cases hr), fun ⟨v, hv, _⟩ => (by rw [hg] at hv; cases hv)⟩,
      fun m => ⟨fun hr => (by cases hr; exact ⟨hg, rfl⟩), fun ⟨_, hm⟩ => (by rw [hm]; rfl)⟩,
      fun v hv => (by rw [hg] at hv; cases hv)⟩
  | some v =>
    refine ⟨fun a => ⟨fun hr => ⟨v, hg, h.ok v a hr⟩, fun ⟨w, hw, ht⟩ => ?_⟩,
      fun m => ⟨fun hr => ?_, fun ⟨h', _⟩ => (by rw [hg] at h'; cases h')⟩, fun w hw hn => ?_⟩
    · rw [hg] at hw; cases hw; exact h.has v a ht
    · cases h.err v _ hr
    · rw [hg] at hw
      cases hw
      cases hf : f v with
      | ok a => exact absurd (h.ok v a hf) (hn a)
      | error e =>
        cases h.err v e hf
        exact hf

private theorem Converts.extracts {t : JsonType} {x : Str} {f : Json → JsonResult t.Val}
    (h : Converts t x f) : Extracts t x (Object.extractWith f) := by
  intro name o
  refine ⟨?_, fun m => ?_⟩
  · have := h.outcome name o
    have he : (Object.extractWith f name o).1 = (o.getField name).bind f := by
      unfold Object.extractWith Object.extractField Object.getField Object.remove
      cases o.get name <;> rfl
    rwa [he]
  · have he : (Object.extractWith f name o).2 = o.without name := by
      unfold Object.extractWith Object.extractField Object.remove
      cases o.get name <;> rfl
    rw [he]
    exact get_without o name m

private theorem Converts.gets {t : JsonType} {x : Str} {f : Json → JsonResult t.Val}
    (h : Converts t x f) : Gets t x (fun name o => (o.getField name).bind f) :=
  fun name o => h.outcome name o

private theorem number_has {α : Type} {v : Json} {x : F64} {f : Json → JsonResult α} {g : F64 → α}
    (h : HasType .number v x) (hi : ∀ i : Int, f (.i64 i) = .ok (g (F64.ofRat i)))
    (hu : ∀ n : Nat, f (.u64 n) = .ok (g (F64.ofRat (n : Int)))) (hx : ∀ x, f (.f64 x) = .ok (g x)) :
    f v = .ok (g x) := by
  rcases h with ⟨i, rfl, rfl⟩ | ⟨i, rfl, rfl⟩ | h
  · exact hi i
  · exact hu i
  · rw [h]; exact hx x

local macro "conv" : tactic => `(tactic|
  (refine ⟨fun v a h => ?_, fun v a h => ?_, fun v e h => ?_⟩
   · cases v <;> cases h <;> first
      | rfl
      | exact .inl ⟨_, rfl, rfl⟩
      | exact .inr (.inl ⟨_, rfl, rfl⟩)
      | exact .inr (.inr rfl)
   · first
      | (cases h; rfl)
      | exact number_has (g := id) h (fun _ => rfl) (fun _ => rfl) (fun _ => rfl)
      | (cases a <;> first
          | (cases h; rfl)
          | exact number_has (g := some) h (fun _ => rfl) (fun _ => rfl) (fun _ => rfl))
   · cases v <;> cases h <;> rfl))

/-! ## Extraction -/

/-- **C42** for `extract_field`, at any type. -/
theorem C42_extract_field : Extracts .any [] Object.extractField := by
  have h : Converts .any [] (fun v => .ok v) := ⟨fun v a h => by cases h; rfl,
    fun v a h => by cases h; rfl, fun v e h => by cases h⟩
  have := h.extracts
  intro name o
  have he : Object.extractWith (fun v => .ok v) name o = Object.extractField name o := by
    unfold Object.extractWith Object.extractField
    cases ho : o.remove name with
    | mk a b => cases a <;> rfl
  rw [← he]
  exact this name o

/-- **C42** for `extract_string`. -/
theorem C42_extract_string : Extracts .string c!"string" Object.extractString :=
  Converts.extracts (by conv)

/-- **C42** for `extract_string_opt`. -/
theorem C42_extract_string_opt : Extracts (.orNull .string) c!"string or null" Object.extractStringOpt :=
  Converts.extracts (by conv)

/-- **C42** for `extract_array`. -/
theorem C42_extract_array : Extracts .array c!"array" Object.extractArray :=
  Converts.extracts (by conv)

/-- **C42** for `extract_array_opt`. -/
theorem C42_extract_array_opt : Extracts (.orNull .array) c!"array or null" Object.extractArrayOpt :=
  Converts.extracts (by conv)

/-- **C42** for `extract_object`. -/
theorem C42_extract_object : Extracts .object c!"object" Object.extractObject :=
  Converts.extracts (by conv)

/-- **C42** for `extract_object_opt`. -/
theorem C42_extract_object_opt : Extracts (.orNull .object) c!"object or null" Object.extractObjectOpt :=
  Converts.extracts (by conv)

/-- **C42** for `extract_bool`. -/
theorem C42_extract_bool : Extracts .bool c!"boolean" Object.extractBool :=
  Converts.extracts (by conv)

/-- **C42** for `extract_bool_opt`. -/
theorem C42_extract_bool_opt : Extracts (.orNull .bool) c!"boolean" Object.extractBoolOpt :=
  Converts.extracts (by conv)

/-- **C42** for `extract_i64`. -/
theorem C42_extract_i64 : Extracts .i64 c!"i64" Object.extractI64 :=
  Converts.extracts (by conv)

/-- **C42** for `extract_i64_opt`. -/
theorem C42_extract_i64_opt : Extracts (.orNull .i64) c!"i64" Object.extractI64Opt :=
  Converts.extracts (by conv)

/-- **C42** for `extract_u64`. -/
theorem C42_extract_u64 : Extracts .u64 c!"u64" Object.extractU64 :=
  Converts.extracts (by conv)

/-- **C42** for `extract_u64_opt`. -/
theorem C42_extract_u64_opt : Extracts (.orNull .u64) c!"u64" Object.extractU64Opt :=
  Converts.extracts (by conv)

/-- **C42** for `extract_f64`. -/
theorem C42_extract_f64 : Extracts .f64 c!"f64" Object.extractF64 :=
  Converts.extracts (by conv)

/-- **C42** for `extract_f64_opt`. -/
theorem C42_extract_f64_opt : Extracts (.orNull .f64) c!"f64" Object.extractF64Opt :=
  Converts.extracts (by conv)

/-- **C42** for `extract_number`. -/
theorem C42_extract_number : Extracts .number c!"number" Object.extractNumber :=
  Converts.extracts (by conv)

/-- **C42** for `extract_number_opt`. -/
theorem C42_extract_number_opt : Extracts (.orNull .number) c!"number" Object.extractNumberOpt :=
  Converts.extracts (by conv)

/-! ## Reading (the object is not an output: it is not changed) -/

/-- **C42** for `get_field`. -/
theorem C42_get_field : Gets .any [] Object.getField := by
  have h : Converts .any [] (fun v => .ok v) := ⟨fun v a h => by cases h; rfl,
    fun v a h => by cases h; rfl, fun v e h => by cases h⟩
  intro name o
  have he : (o.getField name).bind (fun v => .ok v) = o.getField name := by
    cases o.getField name <;> rfl
  rw [← he]
  exact h.outcome name o

/-- **C42** for `get_string`. -/
theorem C42_get_string : Gets .string c!"string" Object.getString := Converts.gets (by conv)

/-- **C42** for `get_string_opt`. -/
theorem C42_get_string_opt : Gets (.orNull .string) c!"string or null" Object.getStringOpt := Converts.gets (by conv)

/-- **C42** for `get_array`. -/
theorem C42_get_array : Gets .array c!"array" Object.getArray := Converts.gets (by conv)

/-- **C42** for `get_array_opt`. -/
theorem C42_get_array_opt : Gets (.orNull .array) c!"array or null" Object.getArrayOpt := Converts.gets (by conv)

/-- **C42** for `get_object`. -/
theorem C42_get_object : Gets .object c!"object" Object.getObject := Converts.gets (by conv)

/-- **C42** for `get_object_opt`. -/
theorem C42_get_object_opt : Gets (.orNull .object) c!"object or null" Object.getObjectOpt := Converts.gets (by conv)

/-- **C42** for `get_bool`. -/
theorem C42_get_bool : Gets .bool c!"boolean" Object.getBool := Converts.gets (by conv)

/-- **C42** for `get_bool_opt`. -/
theorem C42_get_bool_opt : Gets (.orNull .bool) c!"boolean or null" Object.getBoolOpt := Converts.gets (by conv)

/-- **C42** for `get_i64`. -/
theorem C42_get_i64 : Gets .int c!"i64" Object.getI64 := by
  refine Converts.gets ⟨fun v a h => ?_, fun v a h => ?_, fun v e h => ?_⟩
  · cases v with
    | i64 i => cases h; exact .inl rfl
    | u64 n =>
      simp only [Json.asI64] at h
      split at h
      · rename_i hn
        cases h
        exact .inr ⟨n, rfl, hn, rfl⟩
      · cases h
    | _ => cases h
  · rcases h with rfl | ⟨n, rfl, hn, rfl⟩
    · rfl
    · show Json.okType (if n < 2 ^ 63 then _ else _) _ _ = _
      rw [if_pos hn]; rfl
  · cases v with
    | u64 n =>
      simp only [Json.asI64] at h
      split at h <;> cases h
      rfl
    | _ => cases h <;> rfl

/-- **C42** for `get_u64`. -/
theorem C42_get_u64 : Gets .nat c!"u64" Object.getU64 := by
  refine Converts.gets ⟨fun v a h => ?_, fun v a h => ?_, fun v e h => ?_⟩
  · cases v with
    | i64 i =>
      simp only [Json.asU64] at h
      split at h
      · rename_i hi
        cases h
        exact .inr (congrArg Json.i64 (Int.toNat_of_nonneg hi).symm)
      · cases h
    | u64 n => cases h; exact .inl rfl
    | _ => cases h
  · rcases h with rfl | rfl
    · rfl
    · have key : ∀ n : Nat, Json.okType (Json.asU64 (.i64 (Int.ofNat n))) c!"u64" .number = .ok n :=
        fun n => by rw [Json.asU64, if_pos (show (0 : Int) ≤ Int.ofNat n from Int.natCast_nonneg n)]; rfl
      exact key a
  · cases v with
    | i64 i =>
      simp only [Json.asU64] at h
      split at h <;> cases h
      rfl
    | _ => cases h <;> rfl

/-- **C42** for `get_f64`. -/
theorem C42_get_f64 : Gets .number c!"f64" Object.getF64 := by
  refine Converts.gets ⟨fun v a h => ?_, fun v a h => ?_, fun v e h => ?_⟩
  · cases v <;> cases h
    · exact .inl ⟨_, rfl, rfl⟩
    · exact .inr (.inl ⟨_, rfl, rfl⟩)
    · exact .inr (.inr rfl)
  · rcases h with ⟨i, rfl, rfl⟩ | ⟨i, rfl, rfl⟩ | rfl <;> rfl
  · cases v <;> cases h <;> rfl

/-- **C42** for `get_i64_opt`. -/
theorem C42_get_i64_opt : Gets (.orNull .i64) c!"i64 or null" Object.getI64Opt := Converts.gets (by conv)

/-- **C42** for `get_u64_opt`. -/
theorem C42_get_u64_opt : Gets (.orNull .u64) c!"u64 or null" Object.getU64Opt := Converts.gets (by conv)

/-- **C42** for `get_f64_opt`. -/
theorem C42_get_f64_opt : Gets (.orNull .f64) c!"f64 or null" Object.getF64Opt := Converts.gets (by conv)

/-- **C42** for `get_number`. -/
theorem C42_get_number : Gets .number c!"number" Object.getNumber := Converts.gets (by conv)

/-- **C42** for `get_number_opt`. -/
theorem C42_get_number_opt : Gets (.orNull .number) c!"number or null" Object.getNumberOpt := Converts.gets (by conv)

/-! ## The functions agree with each other (C63) -/

/-- `FieldsAgree t f fo g go`: of four functions that read a field of a type, read it or null,
take it out, or take it or null out, the first and third succeed together, and so do
the second and fourth, with the same values; and the optional ones return `none` for null
and what the others return for anything else. -/
def FieldsAgree {α : Type} (get : Str → Object → JsonResult α) (getOpt : Str → Object → JsonResult (Option α))
    (extract : Str → Object → JsonResult α × Object)
    (extractOpt : Str → Object → JsonResult (Option α) × Object) : Prop :=
  ∀ name o a, ((extract name o).1 = .ok a ↔ get name o = .ok a) ∧
    (getOpt name o = .ok (some a) ↔ get name o = .ok a) ∧
    ((extractOpt name o).1 = .ok (some a) ↔ get name o = .ok a) ∧
    (getOpt name o = .ok none ↔ o.get name = some .null) ∧
    ((extractOpt name o).1 = .ok none ↔ o.get name = some .null)

private theorem fieldsAgree {t : JsonType} {get : Str → Object → JsonResult t.Val}
    {getOpt : Str → Object → JsonResult (Option t.Val)}
    {extract : Str → Object → JsonResult t.Val × Object}
    {extractOpt : Str → Object → JsonResult (Option t.Val) × Object}
    {x1 x2 x3 x4 : Str} (h1 : Gets t x1 get) (h2 : Gets (.orNull t) x2 getOpt) (h3 : Extracts t x3 extract)
    (h4 : Extracts (.orNull t) x4 extractOpt) : FieldsAgree get getOpt extract extractOpt := by
  intro name o a
  have null : (∃ v, o.get name = some v ∧ HasType (.orNull t) v none) ↔ o.get name = some .null :=
    ⟨fun ⟨v, h, hv⟩ => by rw [h, show v = .null from hv], fun h => ⟨_, h, rfl⟩⟩
  exact ⟨((h3 name o).1.ok a).trans ((h1 name o).ok a).symm,
    ((h2 name o).ok (some a)).trans ((h1 name o).ok a).symm,
    ((h4 name o).1.ok (some a)).trans ((h1 name o).ok a).symm,
    ((h2 name o).ok none).trans null, ((h4 name o).1.ok none).trans null⟩

/-- **C63** (partial: all but the functions for `i64`, `u64` and `f64`). -/
theorem C63_partial :
    FieldsAgree Object.getString Object.getStringOpt Object.extractString Object.extractStringOpt ∧
    FieldsAgree Object.getArray Object.getArrayOpt Object.extractArray Object.extractArrayOpt ∧
    FieldsAgree Object.getObject Object.getObjectOpt Object.extractObject Object.extractObjectOpt ∧
    FieldsAgree Object.getBool Object.getBoolOpt Object.extractBool Object.extractBoolOpt ∧
    FieldsAgree Object.getNumber Object.getNumberOpt Object.extractNumber Object.extractNumberOpt :=
  ⟨fieldsAgree (t := .string) C42_get_string C42_get_string_opt C42_extract_string C42_extract_string_opt,
    fieldsAgree (t := .array) C42_get_array C42_get_array_opt C42_extract_array C42_extract_array_opt,
    fieldsAgree (t := .object) C42_get_object C42_get_object_opt C42_extract_object C42_extract_object_opt,
    fieldsAgree (t := .bool) C42_get_bool C42_get_bool_opt C42_extract_bool C42_extract_bool_opt,
    fieldsAgree (t := .number) C42_get_number C42_get_number_opt C42_extract_number
      C42_extract_number_opt⟩

/-- **C63 fails** for `i64`, `u64` and `f64`: `get_i64` accepts integers in either
representation, and `get_f64` accepts integers, but the other functions do not. -/
theorem C63_fails :
    ¬FieldsAgree Object.getI64 Object.getI64Opt Object.extractI64 Object.extractI64Opt ∧
    ¬FieldsAgree Object.getU64 Object.getU64Opt Object.extractU64 Object.extractU64Opt ∧
    ¬FieldsAgree Object.getF64 Object.getF64Opt Object.extractF64 Object.extractF64Opt := by
  refine ⟨fun h => ?_, fun h => ?_, fun h => ?_⟩
  · have := ((h c!"n" [(c!"n", .u64 3)] 3).1).mpr rfl
    cases this
  · have := ((h c!"n" [(c!"n", .i64 3)] 3).1).mpr rfl
    cases this
  · have := ((h c!"n" [(c!"n", .u64 3)] (F64.ofInt 3)).1).mpr rfl
    cases this

/-! ## Histories -/

/-- An extraction history: names of fields that were extracted, one after the other. -/
def Object.extractAll (o : Object) : List Str → Object
  | [] => o
  | n :: ns => Object.extractAll (Object.extractField n o).2 ns

/-- **C42**, over histories of extraction: after any sequence of extractions, a
field has the value that it had at the beginning, unless it was extracted, and
then it is missing. -/
theorem C42_history (o : Object) (names : List Str) (name : Str) :
    (o.extractAll names).getField name =
      if name ∈ names then .error (.missingField name) else o.getField name := by
  have key : ∀ (names : List Str) (o : Object), (o.extractAll names).get name =
      if name ∈ names then none else o.get name := by
    intro names
    induction names with
    | nil => intro o; simp [Object.extractAll]
    | cons n ns ih =>
      intro o
      rw [Object.extractAll, ih, (C42_extract_field n o).2]
      by_cases h1 : name ∈ ns <;> by_cases h2 : name = n <;> simp [h1, h2]
  unfold Object.getField
  rw [key]
  by_cases h : name ∈ names
  · rw [if_pos h, if_pos h]
  · rw [if_neg h, if_neg h]

/-! ## The hypotheses are met -/

/-- An object with fields of several types. -/
private def sample : Object :=
  [(c!"type", .string c!"Literal"), (c!"value", .null), (c!"n", .u64 3)]

example : ∃ v, sample.get c!"type" = some v ∧ HasType .string v c!"Literal" :=
  ⟨_, rfl, rfl⟩

example : (Object.extractStringOpt c!"value" sample).1 = .ok none := rfl

example : ∃ v, sample.get c!"value" = some v ∧ ∀ a, ¬HasType .string v a :=
  ⟨_, rfl, fun _ h => by cases h⟩

example : (Object.extractString c!"value" sample).1 = .error (.typeMismatch c!"string" .null) := rfl

example : (Object.extractString c!"x" sample).1 = .error (.missingField c!"x") := rfl

example : ((sample.extractAll [c!"type"]).getField c!"type") = .error (.missingField c!"type") ∧
    (sample.extractAll [c!"type"]).get c!"n" = some (.u64 3) := ⟨rfl, rfl⟩

end Esprit
