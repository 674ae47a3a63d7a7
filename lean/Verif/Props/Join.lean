import Verif.Spec.Join
import Verif.Proofs.Complete.JoinText
import Verif.Props.Exact
import Verif.Props.Layout

/-!
Programs can be joined (C68): if two texts are programs, then so is the text in which the
second follows the first on the next line, and its statements are those of the first and then
those of the second; unless the second begins in a way in which it could also continue the
first.
-/

set_option linter.unusedSectionVars false

namespace Esprit

open Lex ReaderSpec Grammar

section Theorems

variable [Env] [LawfulEnv] {s1 s2 : Str}

/-- What is found out about two texts that can be joined. -/
private theorem join_setup (hcr : s1.getLast? ≠ some '\r')
    (hf : ∀ v, FirstToken ('\n' :: s2) v → StartsLine v ∧ LetsFollow s1 v)
    {ops1 ops2 : List Bool} {ts1 ts2 : List Token} {k1 k2 : Nat} (ht1 : Tokens s1 0 true ops1 ts1 k1)
    (ht2 : Tokens (s1.map Join.blank ++ '\n' :: s2) 0 true ops2 ts2 k2) (hne : ts2 ≠ [])
    (he : ∃ t ∈ ts1, t.value = .eof) :
    ∃ t0 R', ts2 = t0 :: R' ∧ t0.newline = true ∧ StartsLine t0.value ∧
      Join.LetSafe t0 ts1 ∧ (∀ i r l, Located s1 i r l → StartsBefore l (t0 :: R')) ∧
      ∃ ops k, Tokens (s1 ++ '\n' :: s2) 0 true ops (Join.join (t0 :: R') ts1) k := by
  have ht2' := ht2
  cases ht2 with
  | nil => exact absurd rfl hne
  | @cons _ k' _ _ op ops t0 R' h1 h2 =>
    obtain ⟨ts', m, a1, a2⟩ := Join.tokens_unblank ht2'
    have hfirst : FirstToken ('\n' :: s2) t0.value := by
      cases a1 with
      | @cons _ _ _ _ _ _ u _ b1 _ =>
        refine ⟨_, u, _, b1, ?_⟩
        simp only [List.map_cons, List.cons.injEq] at a2
        exact (Prod.mk.inj a2.1).2
    obtain ⟨f1, f2⟩ := hf _ hfirst
    obtain ⟨g1, g2, g3⟩ := Join.first_start h1
    obtain ⟨ops', hj⟩ := Join.tokens_join hcr h1 h2 ht1 (Nat.zero_le _) he
    refine ⟨t0, R', rfl, g1, f1, ?_, ?_, ops', _, hj⟩
    · rintro a b r ⟨pre, rfl⟩ ha hb hbind
      have hlast : LastToken s1 (.identifier (.atom .«let»)) := by
        obtain ⟨km, c1, _, _⟩ := tokens_split_at ht1 (i := pre.length + 2) (by simp)
        refine ⟨ops1.take (pre.length + 2), pre, a, b, km, ?_, ha, hb⟩
        have : (pre ++ a :: b :: r).take (pre.length + 2) = pre ++ [a, b] := by
          rw [List.take_append]
          simp [List.take_of_length_le]
        rw [this] at c1
        exact c1
      obtain ⟨n1, n2⟩ := f2 hlast
      rcases hbind with h | h | ⟨n, h⟩
      · exact n1 h
      · exact f1.1 (by rw [h]; simp)
      · exact n2 n h
    · rintro i r l ⟨p, q, c, rfl, _, ⟨⟨j, hj, hp⟩, _, _, _⟩, _⟩ sp hsp u hu
      cases hsp
      have : s1.length ≤ u.location.start.offset := by
        rcases List.mem_cons.1 hu with rfl | hu
        · omega
        · have := Join.tokens_start h2 u hu
          omega
      rw [hp.offset]
      omega

private theorem head_eof {L : LocSpec} {c : Cat} {env : Scope} {nt : NT c} {ts rest : List Token}
    {x : Ast c} (h : Derives L env nt ts rest x) (he : NextIs rest .eof) : ∃ t ∈ ts, t.value = .eof := by
  obtain ⟨t, r, rfl, ht⟩ := he
  exact ⟨t, h.suffix.subset (by simp), ht⟩

private theorem derives_ne {L : LocSpec} {c : Cat} {env : Scope} {nt : NT (.list c)}
    {ts rest : List Token} {x : Ast (.body c)} (h : Derives L env (.body nt) ts rest x)
    (he : NextIs rest .eof) : ts ≠ [] := by
  rintro rfl
  obtain ⟨t, ht, _⟩ := head_eof h he
  cases ht

private theorem first_any {ops : List Bool} {ts : List Token} {k : Nat} {s : Str}
    (hs : ∀ t r, ts = t :: r → t.value ≠ .slash ∧ t.value ≠ .slashAssign)
    (h : Tokens s 0 true ops ts k) (hne : ts ≠ []) (op : Bool) : ∃ t k, TokenAt s 0 true op t k := by
  cases h with
  | nil => exact absurd rfl hne
  | @cons _ _ _ _ _ _ t ts h1 h2 =>
    obtain ⟨a1, a2⟩ := hs _ _ rfl
    exact Join.tokenAt_any h1 a1 a2 op

private theorem similar_append {c : Cat} {ys ys' : Ast (.list c)} (h : Ast.Similar ys ys') :
    ∀ xs : List (Ast c), Ast.Similar (Ast.ofList (xs ++ ys.toList)) (Ast.ofList (xs ++ ys'.toList))
  | [] => by simpa [Ast.ofList_toList] using h
  | x :: xs => .cons (((Ast.untrack_eq_iff x x).1 rfl)) (similar_append h xs)

/-- C68: if `program` accepts two texts, of which the second begins with a line terminator and
then with a token that cannot continue the first, then it accepts the two texts joined.  The
statements are those of the first and then those of the second (up to locations and the
origin of semicolons).  No statement is labelled twice with the same name, and the line terminators of the texts do not form one of two characters. -/
theorem C68_program {c1 c2 : List Check} {l1 l2 : Loc} {ds1 ds2 : List Dir} {xs1 xs2 : Ast (.list .sitem)}
    (h1 : program s1 = .ok (.ambiguous c1 (.body l1 ds1 xs1)))
    (h2 : program ('\n' :: s2) = .ok (.ambiguous c2 (.body l2 ds2 xs2)))
    (hf : ∀ v, FirstToken ('\n' :: s2) v → StartsLine v ∧ LetsFollow s1 v)
    (hd1 : DistinctLabels (Ast.body l1 ds1 xs1)) (hd2 : DistinctLabels (Ast.body l2 ds2 xs2))
    (hcr : s1.getLast? ≠ some '\r') :
    ds2 = [] ∧ ∃ c y, program (s1 ++ '\n' :: s2) = .ok (.ambiguous c y) ∧
      Ast.Similar y (.body l1 ds1 (Ast.ofList (xs1.toList ++ xs2.toList))) := by
  obtain ⟨_, _, e1, ops1, ts1, k1, rest1, ht1, hD1, he1⟩ := C34_program _ _ h1
  cases e1
  obtain ⟨_, _, e2, ops0, ts0, k0, rest0, ht0, hD0, he0⟩ := C34_program _ _ h2
  cases e2
  have hb := Join.outcome_blank s1 (C55_program_separators ('\n' :: s2))
    (first_any (fun _ _ e => Join.body_slash (e ▸ hD0) he0) ht0 (derives_ne hD0 he0))
  rw [h2] at hb
  cases hp : program (s1.map Join.blank ++ '\n' :: s2) with
  | err _ | panic _ | fuel => rw [hp] at hb; exact hb.elim
  | ok p =>
    rw [hp] at hb
    obtain ⟨c3, y2, e3, ops2, ts2, k2, rest2, ht2, hD2, he2⟩ := C34_program _ _ hp
    subst e3
    have hsim : Ast.Similar y2 (.body l2 ds2 xs2) := by
      refine Ast.similar_of_blur ?_
      have : Program.blur _ = Program.blur _ := hb
      simp only [Program.blur, Program.ambiguous.injEq] at this
      exact this.2.symm
    obtain ⟨t0, R', rfl, g1, g2, g4, g5, ops, k, hT⟩ :=
      join_setup hcr hf ht1 ht2 (derives_ne hD2 he2) (head_eof hD1 he1)
    have hP2 := derives_plain ht2 hD2 rfl (distinctLabels_similar hsim hd2)
    have hP1 := derives_plain ht1 hD1 rfl hd1
    cases hsim with
    | @body _ l3 _ ds3 _ xs3 _ hds hxs =>
      obtain ⟨rfl, hI⟩ := Join.no_directives g2.2.1 hP2
      have hfresh : Join.Fresh t0 :=
        { newline := g1
          start := .inl (Join.items_first hI he2 fun h => g2.1 (by rw [h]; simp))
          punctuator := fun h => g2.1 (List.mem_cons_of_mem _ h)
          string := g2.2.1
          regExp := g2.2.2 }
      have hJ := Join.glue_body hfresh g5 he1 (Join.mono (L' := Join.anyLoc) (fun _ _ _ _ => trivial) hI)
        g4 hP1
      obtain ⟨c, y, hy, hys⟩ := C50_program _ hT hJ he2
      refine ⟨by simpa using hds.symm, c, y, hy, hys.trans (.body rfl ?_)⟩
      exact similar_append hxs _

private theorem module_eof {L : LocSpec} {env : Scope} {ts rest : List Token} {x : Ast (.body .modItem)}
    (h : Derives L env (.body .modItems) ts rest x) : NextIs rest .eof := by
  have hi : ∀ (xs : Ast (.list .modItem)) {i : List Token}, Derives L env .modItems i rest xs →
      NextIs rest .eof := by
    intro xs
    induction hn : xs.toList generalizing xs with
    | nil =>
      intro i h
      cases h with
      | modItemsNil he => exact ⟨_, _, rfl, he⟩
      | modItemsCons => rw [Ast.toList_cons] at hn; cases hn
    | cons y ys ih =>
      intro i h
      cases h with
      | modItemsNil he => exact ⟨_, _, rfl, he⟩
      | modItemsCons _ h2 =>
        rw [Ast.toList_cons] at hn
        injection hn with _ hn
        exact ih _ hn h2
  have hp : ∀ (ds : List Dir) {xs : Ast (.list .modItem)} {i : List Token},
      Derives L env (.prologue .modItems) i rest (.body none ds xs) → NextIs rest .eof := by
    intro ds
    induction ds with
    | nil => intro xs i h; cases h with | prologueEnd _ _ h => exact hi _ h
    | cons d ds ih => intro xs i h; cases h with | directive _ _ _ _ h => exact ih h
  cases h with
  | body h _ => exact hp _ h

/-- C68 for modules: the same for `module`. -/
theorem C68_module {l1 l2 : Loc} {ds1 ds2 : List Dir} {xs1 xs2 : Ast (.list .modItem)}
    (h1 : parseModule s1 = .ok (.body l1 ds1 xs1))
    (h2 : parseModule ('\n' :: s2) = .ok (.body l2 ds2 xs2))
    (hf : ∀ v, FirstToken ('\n' :: s2) v → StartsLine v ∧ LetsFollow s1 v)
    (hd1 : DistinctLabels (Ast.body l1 ds1 xs1)) (hd2 : DistinctLabels (Ast.body l2 ds2 xs2))
    (hcr : s1.getLast? ≠ some '\r') :
    ds2 = [] ∧ ∃ y, parseModule (s1 ++ '\n' :: s2) = .ok y ∧
      Ast.Similar y (.body l1 ds1 (Ast.ofList (xs1.toList ++ xs2.toList))) := by
  obtain ⟨ops1, ts1, k1, rest1, ht1, hD1⟩ := C34_module _ _ h1
  obtain ⟨ops0, ts0, k0, rest0, ht0, hD0⟩ := C34_module _ _ h2
  have hb := Join.outcome_blank s1 (C55_module_separators ('\n' :: s2))
    (first_any (fun _ _ e => Join.modBody_slash (e ▸ hD0)) ht0 (derives_ne hD0 (module_eof hD0)))
  rw [h2] at hb
  cases hp : parseModule (s1.map Join.blank ++ '\n' :: s2) with
  | err _ | panic _ | fuel => rw [hp] at hb; exact hb.elim
  | ok y2 =>
    rw [hp] at hb
    obtain ⟨ops2, ts2, k2, rest2, ht2, hD2⟩ := C34_module _ _ hp
    have hsim : Ast.Similar y2 (.body l2 ds2 xs2) := Ast.similar_of_blur hb.symm
    obtain ⟨t0, R', rfl, g1, g2, g4, g5, ops, k, hT⟩ :=
      join_setup hcr hf ht1 ht2 (derives_ne hD2 (module_eof hD2)) (head_eof hD1 (module_eof hD1))
    have hP2 := derives_plain ht2 hD2 rfl (distinctLabels_similar hsim hd2)
    have hP1 := derives_plain ht1 hD1 rfl hd1
    cases hsim with
    | @body _ l3 _ ds3 _ xs3 _ hds hxs =>
      obtain ⟨rfl, hI⟩ := Join.no_directives g2.2.1 hP2
      have hfresh : Join.Fresh t0 :=
        { newline := g1
          start := .inl (Join.modItems_first hI fun h => g2.1 (by rw [h]; simp))
          punctuator := fun h => g2.1 (List.mem_cons_of_mem _ h)
          string := g2.2.1
          regExp := g2.2.2 }
      have hJ := Join.glue_modBody hfresh g5 (Join.mono (L' := Join.anyLoc) (fun _ _ _ _ => trivial) hI)
        g4 hP1
      obtain ⟨y, hy, hys⟩ := C50_module _ hT hJ
      refine ⟨by simpa using hds.symm, y, hy, hys.trans (.body rfl ?_)⟩
      exact similar_append hxs _

end Theorems

section Examples

local instance joinEnv : Env := asciiEnv true
local instance joinEnvLawful : LawfulEnv := asciiEnv_lawful true

/-- The first token of a text is the one that is read in both modes. -/
private theorem firstToken_of {s : Str} {v v0 : TokenData} (h : FirstToken s v)
    (h0 : ∀ op, (match readTokens s [op] with
      | .ok (ts, _) => decide (ts.map Token.value = [v0])
      | _ => false) = true) : v = v0 := by
  obtain ⟨op, t, k, ht, rfl⟩ := h
  obtain ⟨l, hl⟩ := readAll_complete (.cons ht .nil) (Lexer.At.new s) rfl
  have := h0 op
  rw [show readTokens s [op] = .ok ([t], l) from hl] at this
  simpa using this

/-- The hypotheses of C68 are met by two programs, the first with a directive and a label. -/
example : ∃ c1 c2 l1 l2 ds1 ds2 xs1 xs2,
    program c!"'d'\na: b = function () { return /c/ }" = .ok (.ambiguous c1 (.body l1 ds1 xs1)) ∧
    program ('\n' :: c!"while (x / y) break;") = .ok (.ambiguous c2 (.body l2 ds2 xs2)) ∧
    (∀ v, FirstToken ('\n' :: c!"while (x / y) break;") v →
      StartsLine v ∧ LetsFollow c!"'d'\na: b = function () { return /c/ }" v) ∧
    DistinctLabels (Ast.body l1 ds1 xs1) ∧ DistinctLabels (Ast.body l2 ds2 xs2) ∧
    (c!"'d'\na: b = function () { return /c/ }").getLast? ≠ some '\r' := by
  have h1 : (match program c!"'d'\na: b = function () { return /c/ }" with
    | .ok (.ambiguous _ (.body l ds xs)) => labelsCheck 20 Place.top ⟨_, .body l ds xs⟩
    | _ => false) = true := by decide +kernel
  have h2 : (match program ('\n' :: c!"while (x / y) break;") with
    | .ok (.ambiguous _ (.body l ds xs)) => labelsCheck 20 Place.top ⟨_, .body l ds xs⟩
    | _ => false) = true := by decide +kernel
  split at h1
  case h_2 => cases h1
  case h_1 c1 l1 ds1 xs1 e1 =>
    split at h2
    case h_2 => cases h2
    case h_1 c2 l2 ds2 xs2 e2 =>
      refine ⟨c1, c2, l1, l2, ds1, ds2, xs1, xs2, e1, e2, ?_, labelsCheck_ok 20 h1,
        labelsCheck_ok 20 h2, by decide⟩
      · intro v hv
        cases firstToken_of (v0 := .reserved .«while») hv (by decide +kernel)
        exact ⟨⟨by decide, nofun, nofun⟩, fun _ => ⟨nofun, nofun⟩⟩

/-- The number of directives and of statements of a program. -/
private def sizes (s : Str) : Option (Nat × Nat) :=
  match program s with
  | .ok (.ambiguous _ (.body _ ds xs)) => some (ds.length, xs.toList.length)
  | _ => none

/-- The line terminator ends a statement that could have been continued in other ways. -/
example : sizes c!"a" = some (0, 1) ∧ sizes c!"\n++b" = some (0, 1) ∧ sizes c!"a\n++b" = some (0, 2) := by
  decide +kernel

/-- Without `StartsLine` the claim is false: a call, a member, a sum, a division, and a statement
that needs no semicolon of its own. -/
example : sizes c!"a" = some (0, 1) ∧
    sizes c!"\n(b)" = some (0, 1) ∧ sizes c!"a\n(b)" = some (0, 1) ∧
    sizes c!"\n[b]" = some (0, 1) ∧ sizes c!"a\n[b]" = some (0, 1) ∧
    sizes c!"\n+b" = some (0, 1) ∧ sizes c!"a\n+b" = some (0, 1) ∧
    sizes c!"\n/b/g" = some (0, 1) ∧ sizes c!"a\n/b/g" = some (0, 1) ∧
    sizes c!"\n;" = some (0, 1) ∧ sizes c!"a\n;" = some (0, 1) := by
  decide +kernel

/-- A string literal can be a directive only in front of all statements. -/
example : sizes c!"a" = some (0, 1) ∧ sizes c!"\n'b'" = some (1, 0) ∧
    sizes c!"a\n'b'" = some (0, 2) := by
  decide +kernel

/-- Without `LetsFollow` it is false as well: `let` alone is an expression. -/
example : sizes c!"let" = some (0, 1) ∧ sizes c!"\nx" = some (0, 1) ∧
    sizes c!"let\nx" = some (0, 1) := by
  decide +kernel

end Examples

end Esprit
