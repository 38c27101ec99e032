import Verif.SpecMac
import Verif.MacroLemmas
/-!
# C73: the text of macros.rs: what the macros expand to

For every list of tokens, the arm that the matcher of `macro_rules!` selects and the expansion.
-/
set_option autoImplicit false
set_option linter.unusedSimpArgs false

namespace Enumset.Src
open MacrosRs

theorem matchToks_nil : ∀ ts, matchToks ts [] = .fail
  | [] => rfl
  | .punct _ :: ts => matchToks_nil ts
  | .path _ :: _ => rfl

/-! ### the states of the matcher -/

/-- `$(|)*` -/
def barsPat : MPat := .rep [.tok "|"] none .star
/-- `$(,)?` -/
def commaPat : MPat := .rep [.tok ","] none .opt
/-- after a round of `$($rest:path) sep *` -/
def restAgain (sep : String) : MPat := .again [.path "rest"] (some sep) .star

/-- in `$(|)*` -/
def stB (b : List (String × Expr)) : List MThread :=
  [⟨[], b⟩, ⟨[.atom (.tok "|"), .again [.tok "|"] none .star], b⟩]
/-- before `$($rest:path)|* $(|)*` -/
def stR (b : List (String × Expr)) : List MThread :=
  stB b ++ [⟨[.atom (.path "rest"), restAgain "|", barsPat], b⟩]
/-- after a path in `$($rest:path)|* $(|)*` -/
def stQ (b : List (String × Expr)) : List MThread :=
  stB b ++ [⟨[.atom (.tok "|"), .atom (.path "rest"), restAgain "|", barsPat], b⟩]
/-- at the end -/
def stE (b : List (String × Expr)) : List MThread := [⟨[], b⟩]
/-- before `$(,)?` -/
def stO (b : List (String × Expr)) : List MThread :=
  [⟨[], b⟩, ⟨[.atom (.tok ","), .again [.tok ","] none .opt], b⟩]
/-- before `$($rest:path),* $(,)?` -/
def stRc (b : List (String × Expr)) : List MThread :=
  stO b ++ [⟨[.atom (.path "rest"), restAgain ",", commaPat], b⟩]
/-- after a path in `$($rest:path),* $(,)?` -/
def stQc (b : List (String × Expr)) : List MThread :=
  stO b ++ [⟨[.atom (.tok ","), .atom (.path "rest"), restAgain ",", commaPat], b⟩]
/-- after a path and a comma in `$($rest:path),* $(,)?` -/
def stS (b : List (String × Expr)) : List MThread :=
  stE b ++ [⟨[.atom (.path "rest"), restAgain ",", commaPat], b⟩]

section
variable (b : List (String × Expr)) (ts : List MTok) (e : Expr)

/-- What a boolean test of the rest gives. -/
def okIf (c : Bool) (b : List (String × Expr)) : MMatch := if c then .ok b else .fail

/-- What the paths of a repetition give. -/
def okRest (r : Option (List Expr)) (b : List (String × Expr)) : MMatch :=
  match r with
  | some l => .ok (b ++ l.map fun e => ("rest", e))
  | none => .fail

theorem okRest_nil : okRest (some []) b = .ok b := by simp [okRest]

theorem match_E : matchToks ts (stE b) = okIf ts.isEmpty b := by
  cases ts with
  | nil => rfl
  | cons t ts => cases t with
    | path e => rfl
    | punct s => exact matchToks_nil ts

theorem punct_B (s : String) : (stB b).flatMap (MThread.punct s) = if s = "|" then stB b else [] := by
  by_cases h : s = "|" <;> simp [stB, MThread.punct, h, threads, MPat.starts]

theorem punct_R (s : String) : (stR b).flatMap (MThread.punct s) = if s = "|" then stB b else [] := by
  rw [stR, List.flatMap_append, punct_B]; simp [MThread.punct]

theorem punct_Q (s : String) : (stQ b).flatMap (MThread.punct s) = if s = "|" then stR b else [] := by
  rw [stQ, List.flatMap_append, punct_B]
  by_cases h : s = "|" <;> simp [MThread.punct, h, threads, MPat.starts, stR]

theorem punct_O (s : String) : (stO b).flatMap (MThread.punct s) = if s = "," then stE b else [] := by
  by_cases h : s = "," <;> simp [stO, stE, MThread.punct, h, threads, MPat.starts]

theorem punct_Rc (s : String) : (stRc b).flatMap (MThread.punct s) = if s = "," then stE b else [] := by
  rw [stRc, List.flatMap_append, punct_O]; simp [MThread.punct]

theorem punct_Qc (s : String) : (stQc b).flatMap (MThread.punct s) = if s = "," then stS b else [] := by
  rw [stQc, List.flatMap_append, punct_O]
  by_cases h : s = "," <;> simp [MThread.punct, h, threads, MPat.starts, stS]

theorem punct_S (s : String) : (stS b).flatMap (MThread.punct s) = [] := by
  simp [stS, stE, MThread.punct]

theorem path_R : (stR b).flatMap (MThread.path e) = [stQ (b ++ [("rest", e)])] := rfl
theorem path_Rc : (stRc b).flatMap (MThread.path e) = [stQc (b ++ [("rest", e)])] := rfl
theorem path_S : (stS b).flatMap (MThread.path e) = [stQc (b ++ [("rest", e)])] := rfl

theorem tok_bar {s : String} (h : s = "|") : (MTok.punct s).tok = .bar := by simp [MTok.tok, h]
theorem tok_comma {s : String} (h : s = ",") : (MTok.punct s).tok = .comma := by subst h; rfl
theorem tok_not_bar {s : String} (h : s ≠ "|") : (MTok.punct s).tok = .comma ∨ (MTok.punct s).tok = .other := by
  by_cases hc : s = "," <;> simp [MTok.tok, h, hc]
theorem tok_not_comma {s : String} (h : s ≠ ",") : (MTok.punct s).tok = .bar ∨ (MTok.punct s).tok = .other := by
  by_cases hc : s = "|" <;> simp [MTok.tok, h, hc]

theorem match_B : matchToks ts (stB b) = okIf (Tok.bars (ts.map MTok.tok)) b := by
  induction ts with
  | nil => rfl
  | cons t ts ih => cases t with
    | path e => rfl
    | punct s =>
      rw [matchToks, punct_B]
      by_cases h : s = "|"
      · rw [if_pos h, ih, List.map_cons, tok_bar h, Tok.bars]
      · rw [if_neg h, matchToks_nil, List.map_cons]
        rcases tok_not_bar h with h | h <;> rw [h] <;> rfl

theorem match_O : matchToks ts (stO b) = okIf (Tok.optComma (ts.map MTok.tok)) b := by
  cases ts with
  | nil => rfl
  | cons t ts => cases t with
    | path e => rfl
    | punct s =>
      rw [matchToks, punct_O]
      by_cases h : s = ","
      · rw [if_pos h, match_E, List.map_cons, tok_comma h]; cases ts <;> rfl
      · rw [if_neg h, matchToks_nil, List.map_cons]
        rcases tok_not_comma h with h | h <;> rw [h] <;> rfl

theorem barTail_bar (ts : List (Tok Expr)) : Tok.barTail (.bar :: ts) = Tok.barList ts := by
  cases ts with
  | nil => rfl
  | cons t ts => cases t <;> first | rfl | simp [Tok.barTail, Tok.barList, Tok.bars]

theorem match_RQ : ∀ (n : Nat) (ts : List MTok) (b : List (String × Expr)), ts.length ≤ n →
    matchToks ts (stR b) = okRest (Tok.barList (ts.map MTok.tok)) b ∧
    matchToks ts (stQ b) = okRest (Tok.barTail (ts.map MTok.tok)) b := by
  intro n
  induction n with
  | zero =>
    intro ts b h
    rw [List.length_eq_zero_iff.1 (Nat.le_zero.1 h)]
    exact ⟨(okRest_nil b).symm,
      (okRest_nil b).symm⟩
  | succ n ih =>
    intro ts b h
    cases ts with
    | nil =>
      exact ⟨(okRest_nil b).symm,
        (okRest_nil b).symm⟩
    | cons t ts =>
      have hn : ts.length ≤ n := by simpa using h
      cases t with
      | path e =>
        constructor
        · rw [matchToks, path_R]
          show matchToks ts (stQ _) = _
          rw [(ih ts _ hn).2]
          simp only [List.map_cons, MTok.tok, Tok.barList]
          cases Tok.barTail (ts.map MTok.tok) <;> simp [okRest]
        · rfl
      | punct s =>
        rw [matchToks, matchToks, punct_R, punct_Q]
        by_cases hs : s = "|"
        · rw [if_pos hs, if_pos hs, match_B, (ih ts b hn).1, List.map_cons, tok_bar hs, barTail_bar]
          refine ⟨?_, rfl⟩
          rw [show Tok.barList (.bar :: ts.map MTok.tok) = if Tok.bars (ts.map MTok.tok) then some [] else none from rfl]
          cases Tok.bars (ts.map MTok.tok) <;> simp [okIf, okRest]
        · rw [if_neg hs, if_neg hs, matchToks_nil, List.map_cons]
          rcases tok_not_bar hs with h | h <;> rw [h] <;> exact ⟨rfl, rfl⟩

theorem match_R : matchToks ts (stR b) = okRest (Tok.barList (ts.map MTok.tok)) b :=
  (match_RQ _ ts b (Nat.le_refl _)).1

theorem match_Qc : ∀ (n : Nat) (ts : List MTok) (b : List (String × Expr)), ts.length ≤ n →
    matchToks ts (stQc b) = okRest (Tok.commaTail (ts.map MTok.tok)) b := by
  intro n
  induction n with
  | zero =>
    intro ts b h
    rw [List.length_eq_zero_iff.1 (Nat.le_zero.1 h)]
    exact (okRest_nil b).symm
  | succ n ih =>
    intro ts b h
    cases ts with
    | nil => exact (okRest_nil b).symm
    | cons t ts =>
      have hn : ts.length ≤ n := by simpa using h
      cases t with
      | path e => rfl
      | punct s =>
        rw [matchToks, punct_Qc]
        by_cases hs : s = ","
        · rw [if_pos hs, List.map_cons, tok_comma hs]
          cases ts with
          | nil => exact (okRest_nil b).symm
          | cons t ts =>
            cases t with
            | path e =>
              rw [matchToks, path_S]
              show matchToks ts (stQc _) = _
              rw [ih ts _ (by simp only [List.length_cons] at hn; omega)]
              simp only [List.map_cons, MTok.tok, Tok.commaTail]
              cases Tok.commaTail (ts.map MTok.tok) <;> simp [okRest]
            | punct s =>
              rw [matchToks, punct_S, matchToks_nil]
              by_cases hs : s = "|"
              · rw [List.map_cons, tok_bar hs]; rfl
              · rw [List.map_cons]
                rcases tok_not_bar hs with h | h <;> rw [h] <;> rfl
        · rw [if_neg hs, matchToks_nil, List.map_cons]
          rcases tok_not_comma hs with h | h <;> rw [h] <;> rfl

theorem match_Rc : matchToks ts (stRc b) = okRest (Tok.commaList (ts.map MTok.tok)) b := by
  cases ts with
  | nil => exact (okRest_nil b).symm
  | cons t ts =>
    cases t with
    | path e =>
      rw [matchToks, path_Rc]
      show matchToks ts (stQc _) = _
      rw [match_Qc _ _ _ (Nat.le_refl _)]
      simp only [List.map_cons, MTok.tok, Tok.commaList]
      cases Tok.commaTail (ts.map MTok.tok) <;> simp [okRest]
    | punct s =>
      rw [matchToks, punct_Rc]
      by_cases hs : s = ","
      · rw [if_pos hs, match_E, List.map_cons, tok_comma hs]
        cases ts <;> first | exact (okRest_nil b).symm | rfl
      · rw [if_neg hs, matchToks_nil, List.map_cons]
        rcases tok_not_comma hs with h | h <;> rw [h] <;> rfl

end

/-! ### the arms -/

/-- The bindings of a list of operands. -/
def bindsOf (a : Expr) (rest : List Expr) : List (String × Expr) := ("value", a) :: rest.map fun e => ("rest", e)

theorem select_bars (a : MArm) (as : List MArm) (h : a.lhs = [barsPat]) (ts : List MTok) :
    selectArm (a :: as) ts = if Tok.bars (ts.map MTok.tok) then some (a, []) else selectArm as ts := by
  rw [selectArm, h, show threads [] [barsPat] = stB [] from rfl, match_B]
  cases Tok.bars (ts.map MTok.tok) <;> rfl

theorem select_path_bars (a : MArm) (as : List MArm) (h : a.lhs = [.atom (.path "value"), barsPat])
    (e : Expr) (ts : List MTok) :
    selectArm (a :: as) (.path e :: ts) =
      if Tok.bars (ts.map MTok.tok) then some (a, bindsOf e []) else selectArm as (.path e :: ts) := by
  rw [selectArm, h, show matchToks (.path e :: ts) (threads [] [.atom (.path "value"), barsPat]) =
    matchToks ts (stB [("value", e)]) from rfl, match_B]
  cases Tok.bars (ts.map MTok.tok) <;> rfl

theorem select_path_comma (a : MArm) (as : List MArm) (h : a.lhs = [.atom (.path "value"), commaPat])
    (e : Expr) (ts : List MTok) :
    selectArm (a :: as) (.path e :: ts) =
      if Tok.optComma (ts.map MTok.tok) then some (a, bindsOf e []) else selectArm as (.path e :: ts) := by
  rw [selectArm, h, show matchToks (.path e :: ts) (threads [] [.atom (.path "value"), commaPat]) =
    matchToks ts (stO [("value", e)]) from rfl, match_O]
  cases Tok.optComma (ts.map MTok.tok) <;> rfl

/-- An arm that begins with a path does not match anything else. -/
theorem select_skip (a : MArm) (as : List MArm) (r : List MPat) (h : a.lhs = .atom (.path "value") :: r)
    (ts : List MTok) (hts : ∀ e ts', ts ≠ .path e :: ts') : selectArm (a :: as) ts = selectArm as ts := by
  rw [selectArm, h]
  cases ts with
  | nil => rfl
  | cons t ts => cases t with
    | path e => exact absurd rfl (hts e ts)
    | punct s =>
      rw [matchToks, show (threads [] (.atom (.path "value") :: r)).flatMap (MThread.punct s) = [] from rfl,
        matchToks_nil]

/-- `$value:path sep $($rest:path) sep * …` -/
theorem select_sep (sep : String) (tail : MPat) (st : List (String × Expr) → List MThread)
    (a : MArm) (as : List MArm)
    (h : a.lhs = [.atom (.path "value"), .atom (.tok sep), .rep [.path "rest"] (some sep) .star, tail])
    (hst : ∀ b, threads b [.rep [.path "rest"] (some sep) .star, tail] = st b)
    (e : Expr) (ts : List MTok) :
    selectArm (a :: as) (.path e :: ts) =
      match ts with
      | .punct s :: ts' =>
        if s = sep then
          match matchToks ts' (st [("value", e)]) with
          | .ok b => some (a, b)
          | .fail => selectArm as (.path e :: ts)
          | .error => none
        else selectArm as (.path e :: ts)
      | _ => selectArm as (.path e :: ts) := by
  rw [selectArm, h]
  cases ts with
  | nil => rfl
  | cons t ts => cases t with
    | path e => rfl
    | punct s =>
      rw [show matchToks (.path e :: .punct s :: ts) (threads [] [.atom (.path "value"), .atom (.tok sep),
          .rep [.path "rest"] (some sep) .star, tail]) =
        matchToks ts (((if s = sep then threads [("value", e)] [.rep [.path "rest"] (some sep) .star, tail] else [])
          ++ [])) from rfl, List.append_nil, hst]
      by_cases hs : s = sep
      · simp only [if_pos hs]; rfl
      · simp only [if_neg hs, matchToks_nil]

/-- The arms of `enum_set!`. -/
theorem select_enum_set (a₀ a₁ a₂ : MArm) (h₀ : a₀.lhs = [barsPat]) (h₁ : a₁.lhs = [.atom (.path "value"), barsPat])
    (h₂ : a₂.lhs = [.atom (.path "value"), .atom (.tok "|"), .rep [.path "rest"] (some "|") .star, barsPat])
    (ts : List MTok) :
    selectArm [a₀, a₁, a₂] ts =
      match Tok.expandEnumSet (ts.map MTok.tok) with
      | none => none
      | some [] => some (a₀, [])
      | some [a] => some (a₁, bindsOf a [])
      | some (a :: r) => some (a₂, bindsOf a r) := by
  rw [select_bars _ _ h₀]
  unfold Tok.expandEnumSet
  by_cases hb : Tok.bars (ts.map MTok.tok) = true
  · simp only [if_pos hb]
  simp only [if_neg hb]
  by_cases hp : ∃ e ts', ts = .path e :: ts'
  · obtain ⟨e, ts', rfl⟩ := hp
    rw [select_path_bars _ _ h₁]
    simp only [List.map_cons, show (MTok.path e).tok = .path e from rfl]
    by_cases hb' : Tok.bars (ts'.map MTok.tok) = true
    · simp only [if_pos hb']
    rw [if_neg hb', select_sep "|" barsPat stR _ _ h₂ fun _ => rfl]
    simp only [if_neg hb']
    cases ts' with
    | nil => rfl
    | cons t ts'' => cases t with
      | path e => rfl
      | punct s =>
        by_cases hs : s = "|"
        · simp only [if_pos hs, match_R, List.map_cons, tok_bar hs]
          rw [List.map_cons, tok_bar hs, Tok.bars] at hb'
          cases hl : Tok.barList (ts''.map MTok.tok) with
          | none => rfl
          | some l =>
            cases l with
            | cons x l => rfl
            | nil =>
              exfalso
              revert hl hb'
              generalize ts''.map MTok.tok = us
              intro hb' hl
              cases us with
              | nil => exact hb' rfl
              | cons u us =>
                cases u <;> simp_all [Tok.barList, Tok.bars]
        · simp only [if_neg hs, List.map_cons]
          rcases tok_not_bar hs with h | h <;> rw [h] <;> rfl
  · have hp' : ∀ e ts', ts ≠ .path e :: ts' := fun e ts' h => hp ⟨e, ts', h⟩
    rw [select_skip _ _ _ h₁ ts hp', select_skip _ _ _ h₂ ts hp']
    cases ts with
    | nil => exact absurd rfl hb
    | cons t ts => cases t with
      | path e => exact absurd rfl (hp' e ts)
      | punct s =>
        simp only [List.map_cons]
        by_cases hs : s = "|"
        · rw [tok_bar hs]; rfl
        · rcases tok_not_bar hs with h | h <;> rw [h] <;> rfl

/-- The arms of the macros that take a list.  `A,,` is matched by the second arm. -/
theorem select_list (a₀ a₁ : MArm) (h₀ : a₀.lhs = [.atom (.path "value"), commaPat])
    (h₁ : a₁.lhs = [.atom (.path "value"), .atom (.tok ","), .rep [.path "rest"] (some ",") .star, commaPat])
    (ts : List MTok) :
    selectArm [a₀, a₁] ts =
      match Tok.expandList (ts.map MTok.tok) with
      | none => none
      | some [] => none
      | some (a :: r) => some (if Tok.optComma (ts.map MTok.tok).tail then a₀ else a₁, bindsOf a r) := by
  by_cases hp : ∃ e ts', ts = .path e :: ts'
  · obtain ⟨e, ts', rfl⟩ := hp
    rw [select_path_comma _ _ h₀]
    simp only [List.map_cons, show (MTok.path e).tok = .path e from rfl, Tok.expandList, List.tail_cons]
    by_cases hb' : Tok.optComma (ts'.map MTok.tok) = true
    · simp only [if_pos hb']
    rw [if_neg hb', select_sep "," commaPat stRc _ _ h₁ fun _ => rfl]
    simp only [if_neg hb']
    cases ts' with
    | nil => rfl
    | cons t ts'' => cases t with
      | path e => rfl
      | punct s =>
        by_cases hs : s = ","
        · simp only [if_pos hs, match_Rc, List.map_cons, tok_comma hs]
          cases Tok.commaList (ts''.map MTok.tok) <;> rfl
        · simp only [if_neg hs, List.map_cons]
          rcases tok_not_comma hs with h | h <;> rw [h] <;> rfl
  · have hp' : ∀ e ts', ts ≠ .path e :: ts' := fun e ts' h => hp ⟨e, ts', h⟩
    rw [select_skip _ _ _ h₀ ts hp', select_skip _ _ _ h₁ ts hp']
    cases ts with
    | nil => rfl
    | cons t ts => cases t with
      | path e => exact absurd rfl (hp' e ts)
      | punct s =>
        simp only [List.map_cons]
        by_cases hs : s = "|"
        · rw [tok_bar hs]; rfl
        · rcases tok_not_bar hs with h | h <;> rw [h] <;> rfl

/-- The arm of `enum_set_complement!`. -/
theorem select_complement (a : MArm) (h : a.lhs = [.atom (.path "value"), commaPat]) (ts : List MTok) :
    selectArm [a] ts =
      match Tok.expandComplement (ts.map MTok.tok) with
      | none => none
      | some e => some (a, bindsOf e []) := by
  by_cases hp : ∃ e ts', ts = .path e :: ts'
  · obtain ⟨e, ts', rfl⟩ := hp
    rw [select_path_comma _ _ h]
    simp only [List.map_cons, show (MTok.path e).tok = .path e from rfl, Tok.expandComplement]
    cases Tok.optComma (ts'.map MTok.tok) <;> rfl
  · have hp' : ∀ e ts', ts ≠ .path e :: ts' := fun e ts' h => hp ⟨e, ts', h⟩
    rw [select_skip _ _ _ h ts hp']
    cases ts with
    | nil => rfl
    | cons t ts => cases t with
      | path e => exact absurd rfl (hp' e ts)
      | punct s =>
        simp only [List.map_cons]
        by_cases hs : s = "|"
        · rw [tok_bar hs]; rfl
        · rcases tok_not_bar hs with h | h <;> rw [h] <;> rfl

/-! ### the expansions -/

/-- `{ let value = a.__impl_enumset_internal__const_only(); value }` -/
def oneCode (a : Expr) : Expr :=
  .block [.let (.var "m:value") none (.mcall a "__impl_enumset_internal__const_only" [] []),
    .tail (.var "m:value")]

/-- `let value = { let new = b.__impl_enumset_internal__const_only(); f };` -/
def restCode (f b : Expr) : Stmt :=
  .let (.var "m:value") none (.block
    [.let (.var "m:new") none (.mcall b "__impl_enumset_internal__const_only" [] []), .tail f])

/-- `{ let helper = …; let value = …; $( … )* value }` -/
def chainCode (f a : Expr) (rest : List Expr) : Expr :=
  .block (.let (.var "m:helper") none (.mcall a "__impl_enumset_internal__const_helper" [] []) ::
    .let (.var "m:value") none (.mcall a "__impl_enumset_internal__const_only" [] []) ::
    (rest.map (restCode f) ++ [.tail (.var "m:value")]))

/-- `helper.m(value, new)` -/
def helperCall (m : String) : Expr := .mcall (.var "m:helper") m [] [.var "m:value", .var "m:new"]

/-- The calls of the five macros that take a list. -/
def listFn : String → Option Expr
  | "enum_set_union" => some (helperCall "const_union")
  | "enum_set_intersection" => some (helperCall "const_intersection")
  | "enum_set_difference" => some (.mcall (.var "m:helper") "const_intersection" []
      [.var "m:value", .mcall (.var "m:helper") "const_complement" [] [.var "m:new"]])
  | "enum_set_symmetric_difference" => some (helperCall "const_symmetric_difference")
  | _ => none

theorem valuesOf_value (a : Expr) (r : List Expr) : valuesOf "value" (bindsOf a r) = a :: valuesOf "value" (r.map fun e => ("rest", e)) := rfl

theorem valuesOf_rest (a : Expr) (r : List Expr) : valuesOf "rest" (bindsOf a r) = r := by
  show valuesOf "rest" (r.map fun e => ("rest", e)) = r
  induction r with
  | nil => rfl
  | cons e r ih => simp [valuesOf, ih]

/-- What is written for the fragments. -/
def subOf (a : Expr) (r : List Expr) : Sub :=
  [("#value", .host "path" (.expr a)), ("#rest", .arr (r.map fun e => .host "path" (.expr e)))]

theorem rows_rest (a : Expr) (r : List Expr) :
    (subOf a r).rows ["#rest"] = r.map fun e => ("#rest", .host "path" (.expr e)) :: subOf a r := by
  have h : (subOf a r).lengths ["#rest"] = [r.length] := by
    show [(r.map _).length] = _
    rw [List.length_map]
  rw [Sub.rows, h]
  refine List.ext_getElem (by simp) fun i h1 h2 => ?_
  have hi : i < r.length := by simpa using h2
  simp only [List.getElem_map, List.getElem_range, List.flatMap_cons, List.flatMap_nil, List.append_nil]
  rw [Sub.at, show lookup "#rest" (subOf a r) = some (.arr (r.map fun e => .host "path" (.expr e))) from rfl]
  simp [hi]

theorem frags_list (a : Expr) (r : List Expr) (b : List MPat) (hb : MPat.frags b = [("value", false), ("rest", true)]) :
    (MPat.frags b).map (fragVal (bindsOf a r)) = subOf a r := by
  rw [hb]
  simp only [List.map_cons, List.map_nil, fragVal, valuesOf_value, valuesOf_rest]
  rfl

theorem subst_chain (f a : Expr) (r : List Expr)
    (hf : ∀ e, f.subst (("#rest", .host "path" (.expr e)) :: subOf a r) = f) :
    toExpr (.host "path" ((Code.expr (.block [.let (.var "m:helper") none (.mcall (.var "#value")
    "__impl_enumset_internal__const_helper" [] []), .let (.var "m:value") none (.mcall (.var
    "#value") "__impl_enumset_internal__const_only" [] []), .rep ["#rest"] (.let (.var "m:value")
    none (.block [.let (.var "m:new") none (.mcall (.var "#rest")
    "__impl_enumset_internal__const_only" [] []), .tail f])), .tail (.var "m:value")])).subst (subOf a r))) = chainCode f a r := by
  have h : ∀ l : List Expr, (l.map fun e => (("#rest", .host "path" (.expr e)) :: subOf a r : Sub)).flatMap
      (fun σ => Stmt.subst (.rep ["#rest"] (.let (.var "m:value")
    none (.block [.let (.var "m:new") none (.mcall (.var "#rest")
    "__impl_enumset_internal__const_only" [] []), .tail f]))) σ) = l.map (restCode f) := by
    intro l
    induction l with
    | nil => rfl
    | cons e l ih =>
      rw [List.map_cons, List.flatMap_cons, ih]
      show [Stmt.let _ none (.block [_, .tail (f.subst _)])] ++ _ = _
      rw [hf]
      rfl
  show Expr.block (_ :: _ :: (((subOf a r).rows ["#rest"]).flatMap _ ++ _)) = _
  rw [rows_rest, h]
  rfl

/-- `enum_set!(a)` -/
theorem expand_enum_set_one (fuel : Nat) (a : Expr) :
    expandMacro macros (fuel + 1) "enum_set" [.path a] = some (oneCode a) := rfl

/-- `enum_set_union!` and the others: `rest` may be empty for the second arm, too -/
theorem C73_list {m : String} {f : Expr} (hm : listFn m = some f) (fuel : Nat) (ts : List MTok) :
    expandMacro macros (fuel + 2) m ts =
      (Tok.expandList (ts.map MTok.tok)).bind fun
        | [] => none
        | a :: r => some (if Tok.optComma (ts.map MTok.tok).tail then oneCode a else chainCode f a r) := by
  have key : ∀ (a₀ a₁ : MArm) (h₀ : a₀ = .mk [.atom (.path "value"), commaPat] (.call "enum_set" [.one (.var "value")]))
      (h₁ : a₁ = .mk [.atom (.path "value"), .atom (.tok ","), .rep [.path "rest"] (some ",") .star, commaPat]
        (.code (.mk ["#value", "#rest"] (.expr (.block [.let (.var "m:helper") none (.mcall (.var "#value")
    "__impl_enumset_internal__const_helper" [] []), .let (.var "m:value") none (.mcall (.var
    "#value") "__impl_enumset_internal__const_only" [] []), .rep ["#rest"] (.let (.var "m:value")
    none (.block [.let (.var "m:new") none (.mcall (.var "#rest")
    "__impl_enumset_internal__const_only" [] []), .tail f])), .tail (.var "m:value")])))))
      (hl : macros.lookup m = some [a₀, a₁])
      (hf : ∀ a r e, f.subst (("#rest", .host "path" (.expr e)) :: subOf a r) = f),
      expandMacro macros (fuel + 2) m ts =
      (Tok.expandList (ts.map MTok.tok)).bind fun
        | [] => none
        | a :: r => some (if Tok.optComma (ts.map MTok.tok).tail then oneCode a else chainCode f a r) := by
    intro a₀ a₁ h₀ h₁ hl hf
    rw [expandMacro, hl]
    simp only
    rw [select_list a₀ a₁ (by rw [h₀]) (by rw [h₁])]
    cases Tok.expandList (ts.map MTok.tok) with
    | none => rfl
    | some l =>
      cases l with
      | nil => rfl
      | cons a r =>
        simp only [Option.bind_some]
        cases Tok.optComma (ts.map MTok.tok).tail with
        | true => subst h₀; rfl
        | false =>
          subst h₁
          simp only [Bool.false_eq_true, if_false]
          rw [frags_list a r _ rfl, subst_chain f a r (hf a r)]
  unfold listFn at hm
  split at hm <;> first | cases hm; exact key _ _ rfl rfl rfl fun _ _ _ => rfl | cases hm

/-- `enum_set_complement!` -/
theorem C73_complement (fuel : Nat) (ts : List MTok) :
    expandMacro macros (fuel + 1) "enum_set_complement" ts =
      (Tok.expandComplement (ts.map MTok.tok)).map fun a =>
        .block [.let (.var "m:helper") none (.mcall a "__impl_enumset_internal__const_helper" [] []),
          .let (.var "m:value") none (.mcall a "__impl_enumset_internal__const_only" [] []),
          .tail (.mcall (.var "m:helper") "const_complement" [] [.var "m:value"])] := by
  rw [expandMacro, show macros.lookup "enum_set_complement" = some enum_set_complement from rfl]
  simp only [enum_set_complement]
  rw [select_complement _ rfl]
  cases Tok.expandComplement (ts.map MTok.tok) <;> rfl

/-- `enum_set!`: with two operands or more it is `enum_set_union!`. -/
theorem C73_enum_set (fuel : Nat) (ts : List MTok) :
    expandMacro macros (fuel + 3) "enum_set" ts =
      (Tok.expandEnumSet (ts.map MTok.tok)).map fun
        | [] => .pcall "EnumSet" "empty" [] []
        | [a] => oneCode a
        | a :: r => chainCode (helperCall "const_union") a r := by
  rw [expandMacro, show macros.lookup "enum_set" = some enum_set from rfl]
  simp only [enum_set]
  rw [select_enum_set _ _ _ rfl rfl rfl]
  cases Tok.expandEnumSet (ts.map MTok.tok) with
  | none => rfl
  | some l =>
    match l with
    | [] => rfl
    | [a] => rfl
    | a :: b :: r =>
      simp only [Option.map_some]
      rw [frags_list a (b :: r) _ rfl]
      have hargs : ([.one (.var "value"), .one (.tok ","), .rep [.var "rest", .tok ","]] : List MArgs).flatMap
          (·.inst (subOf a (b :: r))) = .path a :: .punct "," :: (b :: r).flatMap fun e => [.path e, .punct ","] := by
        show MTok.path a :: .punct "," :: ((((subOf a (b :: r)).rows ["#rest"]).flatMap _) ++ []) = _
        rw [rows_rest, List.append_nil, List.flatMap_map]
        rfl
      rw [hargs, C73_list (f := helperCall "const_union") rfl]
      have hl : ∀ (l : List Expr), Tok.commaTail (.comma :: (l.flatMap fun e => [MTok.path e, .punct ","]).map MTok.tok) = some l := by
        intro l
        induction l with
        | nil => rfl
        | cons e l ih =>
          show (Tok.commaTail (.comma :: (l.flatMap _).map _)).map _ = _
          rw [ih]; rfl
      have hx : Tok.expandList ((MTok.path a :: .punct "," :: (b :: r).flatMap fun e => [MTok.path e, .punct ","]).map MTok.tok) =
          some (a :: b :: r) := by
        show (((Tok.commaTail (.comma :: (r.flatMap fun e => [MTok.path e, .punct ","]).map MTok.tok)).map (b :: ·)).map _) = _
        rw [hl]; rfl
      rw [hx]
      rfl

/-- The text of the macros accepts exactly the calls of the grammar. -/
theorem C73_accepts (m : ConstMac) (ts : List MTok) :
    (∃ e, expandMacro macros 128 m.name ts = some e) ↔ ∃ l, m.Grammar (ts.map MTok.tok) l := by
  have hl : ∀ {m : String} {f : Expr}, listFn m = some f →
      ((∃ e, expandMacro macros 128 m ts = some e) ↔ ∃ l, ConstMac.Grammar .enum_set_union (ts.map MTok.tok) l) := by
    intro m f hm
    rw [C73_list hm 126]
    constructor
    · rintro ⟨e, h⟩
      obtain ⟨l, h, -⟩ := Option.bind_eq_some_iff.1 h
      exact ⟨l, (Tok.expandList_iff _ _).1 h⟩
    · rintro ⟨l, h⟩
      rw [(Tok.expandList_iff _ l).2 h]
      cases l with
      | nil => exact absurd rfl h.1
      | cons a r => exact ⟨_, rfl⟩
  cases m with
  | enum_set =>
    show (∃ e, expandMacro macros 128 "enum_set" ts = some e) ↔ _
    rw [C73_enum_set 125]
    constructor
    · rintro ⟨e, h⟩
      obtain ⟨l, h, -⟩ := Option.map_eq_some_iff.1 h
      exact ⟨l, (Tok.expandEnumSet_iff _ _).1 h⟩
    · rintro ⟨l, h⟩
      rw [(Tok.expandEnumSet_iff _ l).2 h]
      exact ⟨_, rfl⟩
  | enum_set_complement =>
    show (∃ e, expandMacro macros 128 "enum_set_complement" ts = some e) ↔ _
    rw [C73_complement 127]
    constructor
    · rintro ⟨e, h⟩
      obtain ⟨a, h, -⟩ := Option.map_eq_some_iff.1 h
      exact ⟨[a], a, rfl, (Tok.expandComplement_iff _ _).1 h⟩
    · rintro ⟨l, a, -, h⟩
      rw [(Tok.expandComplement_iff _ a).2 h]
      exact ⟨_, rfl⟩
  | enum_set_union => exact hl (f := helperCall "const_union") rfl
  | enum_set_intersection => exact hl (f := helperCall "const_intersection") rfl
  | enum_set_difference => exact hl (m := "enum_set_difference") rfl
  | enum_set_symmetric_difference => exact hl (f := helperCall "const_symmetric_difference") rfl

end Enumset.Src
