import Verif.Spec.Debug
import Verif.Proofs.AstSame
import Verif.Proofs.Text

/-! The texts of calls of the builders of `std::fmt` identify the calls. -/

namespace Esprit

/-- A word: not empty, and without delimiters. -/
def IsWord (s : Str) : Prop := s ≠ [] ∧ ∀ c ∈ s, ¬Delimiter c

instance (s : Str) : Decidable (IsWord s) := inferInstanceAs (Decidable (_ ∧ _))

namespace Dbg

/-- What a call is part of. -/
inductive Kind where
  | value | items | fields
  deriving DecidableEq

/-- Well-formed calls. -/
def Ok : Kind → Dbg → Prop
  | .value, .word s => IsWord s
  | .value, .str _ => True
  | .value, .chr _ => True
  | .value, .tuple n fs => IsWord n ∧ Ok .items fs
  | .value, .struct n fs => IsWord n ∧ Ok .fields fs
  | .value, .list xs => Ok .items xs
  | .items, .nil => True
  | .items, .cons n x rest => n = [] ∧ Ok .value x ∧ Ok .items rest
  | .fields, .nil => True
  | .fields, .cons n x rest => (IsWord n ∧ ':' ∉ n) ∧ Ok .value x ∧ Ok .fields rest
  | _, _ => False

/-- What follows a call. -/
def Follow : Kind → Str → Prop
  | .value, r => r = [] ∨ (∃ t, r = ',' :: t) ∨ (∃ t, r = ')' :: t) ∨ (∃ t, r = ']' :: t) ∨
      ∃ t, r = ' ' :: '}' :: t
  | .items, r => (∃ t, r = ')' :: t) ∨ ∃ t, r = ']' :: t
  | .fields, r => ∃ t, r = ' ' :: '}' :: t

/-- Nothing, or something that begins with a delimiter. -/
def Stop (r : Str) : Prop := ∀ c t, r = c :: t → Delimiter c

theorem word_split {s s' r r' : Str} (hs : ∀ c ∈ s, ¬Delimiter c) (hs' : ∀ c ∈ s', ¬Delimiter c)
    (hr : Stop r) (hr' : Stop r') (h : s ++ r = s' ++ r') : s = s' ∧ r = r' := by
  induction s generalizing s' with
  | nil =>
    cases s' with
    | nil => exact ⟨rfl, h⟩
    | cons c t => exact absurd (hr c _ h) (hs' c List.mem_cons_self)
  | cons c t ih =>
    cases s' with
    | nil => exact absurd (hr' c _ h.symm) (hs c List.mem_cons_self)
    | cons c' t' =>
      simp only [List.cons_append, List.cons.injEq] at h
      obtain ⟨rfl, h⟩ := h
      obtain ⟨rfl, rfl⟩ := ih (fun c hc => hs c (List.mem_cons_of_mem _ hc))
        (fun c hc => hs' c (List.mem_cons_of_mem _ hc)) h
      exact ⟨rfl, rfl⟩

theorem Follow.stop {r : Str} (h : Follow .value r) : Stop r := by
  rintro c t rfl
  rcases h with h | ⟨_, h⟩ | ⟨_, h⟩ | ⟨_, h⟩ | ⟨_, h⟩
  · cases h
  all_goals cases h; decide

theorem stop_cons {c : Char} (t : Str) (h : Delimiter c) : Stop (c :: t) := by
  rintro _ _ h'
  cases h'
  exact h

/-- The name that a call begins with. -/
def lead : Dbg → Str
  | .word s => s
  | .tuple n _ => n
  | .struct n _ => n
  | _ => []

/-- The text after that name, and what follows. -/
def after [DebugStd] (d : Dbg) (r : Str) : Str :=
  match d with
  | .word _ => r
  | .str s => DebugStd.str s ++ r
  | .chr c => DebugStd.char c ++ r
  | .tuple _ fs => '(' :: (text fs ++ ')' :: r)
  | .struct _ fs => ' ' :: '{' :: ' ' :: (text fs ++ ' ' :: '}' :: r)
  | .list xs => '[' :: (text xs ++ ']' :: r)
  | _ => []

theorem text_lead [DebugStd] {d : Dbg} (h : Ok .value d) (r : Str) :
    d.text ++ r = d.lead ++ d.after r := by
  cases d <;> simp [Ok] at h <;> simp [text, lead, after]

theorem lead_chars {d : Dbg} (h : Ok .value d) : ∀ c ∈ d.lead, ¬Delimiter c := by
  cases d <;> simp only [Ok] at h <;> simp only [lead, List.not_mem_nil, false_imp_iff, implies_true]
  · exact h.2
  · exact h.1.2
  · exact h.1.2

theorem after_stop [L : LawfulDebugStd] {d : Dbg} (h : Ok .value d) {r : Str} (hr : Follow .value r) :
    Stop (d.after r) := by
  cases d <;> simp only [Ok] at h <;> simp only [after]
  · exact hr.stop
  · rename_i s
    have := L.str_head s
    cases hs : DebugStd.str s with
    | nil => rw [hs] at this; cases this
    | cons c t => rw [hs] at this; cases this; exact stop_cons _ (by decide)
  · rename_i s
    have := L.char_head s
    cases hs : DebugStd.char s with
    | nil => rw [hs] at this; cases this
    | cons c t => rw [hs] at this; cases this; exact stop_cons _ (by decide)
  all_goals exact stop_cons _ (by decide)

/-- A value begins with a name, a quote or a bracket. -/
theorem text_head [L : LawfulDebugStd] {d : Dbg} (h : Ok .value d) :
    ∃ c t, d.text = c :: t ∧ (¬Delimiter c ∨ c = '"' ∨ c = '\'' ∨ c = '[') := by
  have word {n r : Str} (hn : IsWord n) :
      ∃ c t, n ++ r = c :: t ∧ (¬Delimiter c ∨ c = '"' ∨ c = '\'' ∨ c = '[') := by
    cases n with
    | nil => exact absurd rfl hn.1
    | cons c t => exact ⟨c, t ++ r, rfl, .inl (hn.2 c List.mem_cons_self)⟩
  cases d <;> simp only [Ok] at h <;> simp only [text]
  · simpa using word (r := []) h
  · rename_i s
    have := L.str_head s
    cases hs : DebugStd.str s with
    | nil => rw [hs] at this; cases this
    | cons c t => rw [hs] at this; cases this; exact ⟨_, _, rfl, .inr (.inl rfl)⟩
  · rename_i s
    have := L.char_head s
    cases hs : DebugStd.char s with
    | nil => rw [hs] at this; cases this
    | cons c t => rw [hs] at this; cases this; exact ⟨_, _, rfl, .inr (.inr (.inl rfl))⟩
  · simpa using word h.1
  · simpa using word h.1
  · exact ⟨_, _, rfl, .inr (.inr (.inr rfl))⟩

/-- The text of further fields. -/
def restText [DebugStd] (d : Dbg) : Str := if d.text = [] then [] else c!", " ++ d.text

theorem text_cons [DebugStd] (n : Str) (x rest : Dbg) :
    (cons n x rest).text = (if n = [] then [] else n ++ c!": ") ++ x.text ++ rest.restText := by
  simp only [text, joinText, fieldText, restText]
  split <;> split <;> simp

theorem text_eq_nil [LawfulDebugStd] {k : Kind} {d : Dbg} (hk : k ≠ .value) (h : Ok k d)
    (hd : d.text = []) : d = nil := by
  cases d <;> cases k <;> simp [Ok] at h hk
  · rfl
  · rfl
  all_goals
    rw [text_cons] at hd
    obtain ⟨c, t, hx, _⟩ := text_head h.2.1
    rw [hx] at hd
    simp at hd

theorem follow_rest [DebugStd] {k : Kind} {d : Dbg} {r : Str} (hk : k ≠ .value)
    (hr : Follow k r) : Follow .value (d.restText ++ r) := by
  rw [restText]
  split
  · rw [List.nil_append]
    cases k with
    | value => exact absurd rfl hk
    | items => rcases hr with h | h <;> simp [Follow, h]
    | fields => simp only [Follow] at hr ⊢; exact .inr (.inr (.inr (.inr hr)))
  · exact .inr (.inl ⟨_, rfl⟩)

theorem follow_items {r : Str} (h : Follow .items r) : ∀ t, r ≠ ',' :: t := by
  rintro t rfl
  rcases h with ⟨_, h⟩ | ⟨_, h⟩ <;> cases h

theorem follow_fields {r : Str} (h : Follow .fields r) : ∀ t, r ≠ ',' :: t := by
  rintro t rfl
  obtain ⟨_, h⟩ := h
  cases h

private theorem colon_split {n n' r r' : Str} (h : ':' ∉ n) (h' : ':' ∉ n')
    (he : n ++ ':' :: r = n' ++ ':' :: r') : n = n' ∧ r = r' := by
  induction n generalizing n' with
  | nil =>
    cases n' with
    | nil => simpa using he
    | cons c t => simp at he; exact absurd (he.1 ▸ List.mem_cons_self) h'
  | cons c t ih =>
    cases n' with
    | nil => simp at he; exact absurd (he.1 ▸ List.mem_cons_self) h
    | cons c' t' =>
      simp only [List.cons_append, List.cons.injEq] at he
      simp only [List.mem_cons, not_or] at h h'
      obtain ⟨rfl, rfl⟩ := ih h.2 h'.2 he.2
      exact ⟨by rw [he.1], rfl⟩

/-- Fields and entries do not begin like what follows them. -/
theorem cons_head [LawfulDebugStd] {k : Kind} {n : Str} {x rest : Dbg} (hk : k ≠ .value)
    (ho : Ok k (cons n x rest)) {r s : Str} (hr : Follow k r) : r ≠ (cons n x rest).text ++ s := by
  intro h
  rw [text_cons] at h
  cases k with
  | value => exact hk rfl
  | items =>
    simp only [Ok] at ho
    obtain ⟨rfl, hx, _⟩ := ho
    obtain ⟨c, t, hx, hc⟩ := text_head hx
    rw [hx] at h
    have : c = ')' ∨ c = ']' := by
      rcases hr with ⟨_, hr⟩ | ⟨_, hr⟩ <;> subst hr <;> simp at h
      · exact .inl h.1.symm
      · exact .inr h.1.symm
    rcases this with rfl | rfl <;> exact absurd hc (by decide)
  | fields =>
    simp only [Ok] at ho
    obtain ⟨_, hr⟩ := hr
    subst hr
    have hn := ho.1.1
    rw [if_neg hn.1] at h
    cases n with
    | nil => exact absurd rfl hn.1
    | cons a b =>
      simp at h
      exact absurd (show Delimiter a by rw [← h.1]; decide) (hn.2 a List.mem_cons_self)

/-- Calls are identified by their texts, which can be told from what follows them. -/
theorem decode [L : LawfulDebugStd] (d : Dbg) : ∀ {k : Kind} {d' : Dbg} {r r' : Str},
    Ok k d → Ok k d' → Follow k r → Follow k r' → d.text ++ r = d'.text ++ r' → d = d' ∧ r = r' := by
  have rests {k : Kind} {rest rest' : Dbg} {r r' : Str} (hk : k ≠ .value)
      (ih : ∀ {k : Kind} {d' : Dbg} {r r' : Str}, Ok k rest → Ok k d' → Follow k r → Follow k r' →
        rest.text ++ r = d'.text ++ r' → rest = d' ∧ r = r')
      (ho : Ok k rest) (ho' : Ok k rest') (hr : Follow k r) (hr' : Follow k r')
      (h : rest.restText ++ r = rest'.restText ++ r') : rest = rest' ∧ r = r' := by
    have nc {r : Str} (hr : Follow k r) : ∀ t, r ≠ ',' :: t := by
      cases k
      · exact absurd rfl hk
      · exact follow_items hr
      · exact follow_fields hr
    rw [restText, restText] at h
    split at h <;> rename_i h1 <;> split at h <;> rename_i h2
    · rw [text_eq_nil hk ho h1, text_eq_nil hk ho' h2]
      exact ⟨rfl, by simpa using h⟩
    · exact absurd h (nc hr _)
    · exact absurd h.symm (nc hr' _)
    · exact ih ho ho' hr hr' (by simpa using h)
  have value {d d' : Dbg} {r r' : Str} (ho : Ok .value d) (ho' : Ok .value d') (hr : Follow .value r)
      (hr' : Follow .value r') (h : d.text ++ r = d'.text ++ r') :
      d.lead = d'.lead ∧ d.after r = d'.after r' :=
    word_split (lead_chars ho) (lead_chars ho') (after_stop ho hr) (after_stop ho' hr')
      (by rw [← text_lead ho, ← text_lead ho', h])
  have sh (s : Str) : ∃ t, DebugStd.str s = '"' :: t := by
    have := L.str_head s
    cases hs : DebugStd.str s with
    | nil => rw [hs] at this; cases this
    | cons c t => rw [hs] at this; cases this; exact ⟨_, rfl⟩
  have ch (c : Char) : ∃ t, DebugStd.char c = '\'' :: t := by
    have := L.char_head c
    cases hs : DebugStd.char c with
    | nil => rw [hs] at this; cases this
    | cons c t => rw [hs] at this; cases this; exact ⟨_, rfl⟩
  induction d with
  | word s =>
    intro k d' r r' ho ho' hr hr' h
    cases k <;> simp only [Ok] at ho
    obtain ⟨h1, h2⟩ := value (d := .word s) ho ho' hr hr' h
    have hne := ho.1
    cases d' <;> simp only [Ok] at ho' <;> simp only [lead, after] at h1 h2
    · exact ⟨by rw [h1], h2⟩
    · exact absurd h1 hne
    · exact absurd h1 hne
    · subst h2; simp [Follow] at hr
    · subst h2; simp [Follow] at hr
    · exact absurd h1 hne
  | str s =>
    intro k d' r r' ho ho' hr hr' h
    cases k <;> simp only [Ok] at ho
    obtain ⟨h1, h2⟩ := value (d := .str s) trivial ho' hr hr' h
    obtain ⟨t, ht⟩ := sh s
    cases d' <;> simp only [Ok] at ho' <;> simp only [lead, after] at h1 h2
    · exact absurd h1.symm ho'.1
    · obtain ⟨rfl, rfl⟩ := L.str_code h2; exact ⟨rfl, rfl⟩
    · rename_i c
      obtain ⟨t', ht'⟩ := ch c
      rw [ht, ht'] at h2; simp at h2
    · exact absurd h1.symm ho'.1.1
    · exact absurd h1.symm ho'.1.1
    · rw [ht] at h2; simp at h2
  | chr c =>
    intro k d' r r' ho ho' hr hr' h
    cases k <;> simp only [Ok] at ho
    obtain ⟨h1, h2⟩ := value (d := .chr c) trivial ho' hr hr' h
    obtain ⟨t, ht⟩ := ch c
    cases d' <;> simp only [Ok] at ho' <;> simp only [lead, after] at h1 h2
    · exact absurd h1.symm ho'.1
    · rename_i s
      obtain ⟨t', ht'⟩ := sh s
      rw [ht, ht'] at h2; simp at h2
    · obtain ⟨rfl, rfl⟩ := L.char_code h2; exact ⟨rfl, rfl⟩
    · exact absurd h1.symm ho'.1.1
    · exact absurd h1.symm ho'.1.1
    · rw [ht] at h2; simp at h2
  | tuple n fs ih =>
    intro k d' r r' ho ho' hr hr' h
    cases k <;> simp only [Ok] at ho
    obtain ⟨h1, h2⟩ := value (d := .tuple n fs) ho ho' hr hr' h
    have hne := ho.1.1
    cases d' <;> simp only [Ok] at ho' <;> simp only [lead, after] at h1 h2
    · subst h2; simp [Follow] at hr'
    · exact absurd h1 hne
    · exact absurd h1 hne
    · obtain ⟨rfl, h3⟩ := ih ho.2 ho'.2 (.inl ⟨_, rfl⟩) (.inl ⟨_, rfl⟩) (List.cons.inj h2).2
      exact ⟨by rw [h1], (List.cons.inj h3).2⟩
    · simp at h2
    · simp at h2
  | struct n fs ih =>
    intro k d' r r' ho ho' hr hr' h
    cases k <;> simp only [Ok] at ho
    obtain ⟨h1, h2⟩ := value (d := .struct n fs) ho ho' hr hr' h
    have hne := ho.1.1
    cases d' <;> simp only [Ok] at ho' <;> simp only [lead, after] at h1 h2
    · subst h2; simp [Follow] at hr'
    · exact absurd h1 hne
    · exact absurd h1 hne
    · simp at h2
    · simp only [List.cons.injEq, true_and] at h2
      obtain ⟨rfl, h3⟩ := ih ho.2 ho'.2 ⟨_, rfl⟩ ⟨_, rfl⟩ h2
      exact ⟨by rw [h1], by simpa using h3⟩
    · simp at h2
  | list xs ih =>
    intro k d' r r' ho ho' hr hr' h
    cases k <;> simp only [Ok] at ho
    obtain ⟨h1, h2⟩ := value (d := .list xs) ho ho' hr hr' h
    cases d' <;> simp only [Ok] at ho' <;> simp only [lead, after] at h1 h2
    · exact absurd h1.symm ho'.1
    · rename_i s
      obtain ⟨t', ht'⟩ := sh s
      rw [ht'] at h2; simp at h2
    · rename_i c
      obtain ⟨t', ht'⟩ := ch c
      rw [ht'] at h2; simp at h2
    · simp at h2
    · simp at h2
    · obtain ⟨rfl, h3⟩ := ih ho ho' (.inr ⟨_, rfl⟩) (.inr ⟨_, rfl⟩) (List.cons.inj h2).2
      exact ⟨rfl, (List.cons.inj h3).2⟩
  | nil =>
    intro k d' r r' ho ho' hr hr' h
    cases d' with
    | nil => exact ⟨rfl, h⟩
    | cons n x rest =>
      refine absurd h (cons_head ?_ ho' hr)
      rintro rfl
      exact ho
    | _ => cases k <;> first | exact ho.elim | exact ho'.elim
  | cons n x rest ihx ihr =>
    intro k d' r r' ho ho' hr hr' h
    cases k <;> simp only [Ok] at ho
    · cases d' <;> simp only [Ok] at ho'
      · exact absurd h.symm (cons_head (k := .items) (by decide) ho hr')
      · rw [text_cons, text_cons, if_pos ho.1, if_pos ho'.1] at h
        simp only [List.nil_append, List.append_assoc] at h
        obtain ⟨rfl, h2⟩ := ihx ho.2.1 ho'.2.1 (follow_rest (by decide) hr)
          (follow_rest (by decide) hr') h
        obtain ⟨rfl, h3⟩ := rests (by decide) ihr ho.2.2 ho'.2.2 hr hr' h2
        exact ⟨by rw [ho.1, ho'.1], h3⟩
    · cases d' <;> simp only [Ok] at ho'
      · exact absurd h.symm (cons_head (k := .fields) (by decide) ho hr')
      · rw [text_cons, text_cons, if_neg ho.1.1.1, if_neg ho'.1.1.1] at h
        simp only [List.append_assoc, List.cons_append, List.nil_append] at h
        obtain ⟨rfl, h1⟩ := colon_split ho.1.2 ho'.1.2 h
        obtain ⟨rfl, h2⟩ := ihx ho.2.1 ho'.2.1 (follow_rest (by decide) hr)
          (follow_rest (by decide) hr') (List.cons.inj h1).2
        obtain ⟨rfl, h3⟩ := rests (by decide) ihr ho.2.2 ho'.2.2 hr hr' h2
        exact ⟨rfl, h3⟩

/-- The text of a value identifies it. -/
theorem text_injective [LawfulDebugStd] {d d' : Dbg} (ho : Ok .value d) (ho' : Ok .value d')
    (h : d.text = d'.text) : d = d' :=
  (decode d ho ho' (.inl rfl) (.inl rfl) (by rw [h])).1

end Dbg

end Esprit
