import Verif.Props.SrcArray
import Verif.Set
/-!
# C68: the source text of `set.rs` and the model

For every function of `enumset/src/set.rs`: running its text (`Verif/Src/SetRs.lean`, as parsed from the
repository) in the interpreter has the outcome of the function of the model (`Verif/Set.lean`).  The
functions are generic in the enum type `T`; what they call are the functions of `T::Repr` and the items
generated by the derive macro for `T`.  `Storage` and `EnumItems` say what those do; they are
proved for every storage type and every derived enum in `SrcStorage.lean`.

`EnumSet<T>` is the struct with the field `__priv_repr`, an enum value is a value of a type the
interpreter knows nothing about (`Val.host`).  This file has the functions that neither convert,
iterate nor take a generic operand.
-/
set_option autoImplicit false
set_option linter.unusedSectionVars false
set_option linter.unusedSimpArgs false
set_option maxRecDepth 10000

namespace Enumset.Src
open SetRs

section agreement
variable {H : Type} [Platform]

/-- What the functions of a storage type do, as seen from set.rs. -/
structure Storage (P : Prog H) (R : Type) [EnumSetTypeRepr R] (enc : R → Val H)
    (encI : EnumSetTypeRepr.Iter R → Val H) (okI : EnumSetTypeRepr.Iter R → Prop) : Prop where
  params : ∀ x, x ≠ "N" → lookup x P.params = none
  adopt : ∀ (e : Exp) r, e.adopt (enc r) = enc r
  tag : ∀ r, (enc r).tag = P.alias "T::Repr"
  adoptI : ∀ (e : Exp) it, e.adopt (encI it) = encI it
  okI_iter : ∀ r it, EnumSetTypeRepr.iter r = .ok it → okI it
  okI_next : ∀ it x it', okI it → EnumSetTypeRepr.iter_next it = .ok (x, it') → okI it'
  okI_next_back : ∀ it x it', okI it → EnumSetTypeRepr.iter_next_back it = .ok (x, it') → okI it'
  EMPTY : ∀ k env, lookup "N" env = lookup "N" P.params →
    P.call (k + 3) (P.alias "T::Repr") "EMPTY" env [] [] = .ok (enc EnumSetTypeRepr.EMPTY, [])
  PREFERRED_ARRAY_LEN : ∀ k env, lookup "N" env = lookup "N" P.params →
    P.call (k + 3) (P.alias "T::Repr") "PREFERRED_ARRAY_LEN" env [] [] =
      .ok (.int .usize (EnumSetTypeRepr.PREFERRED_ARRAY_LEN R), [])
  eq : ∀ k s a b, binVal (P.ctx s (P.link k)) .eq (enc a) (enc b) =
    .ok (.bool (EnumSetTypeRepr.eq a b))
  eqVal : ∀ a b, eqVal (derives · "PartialEq") (enc a) (enc b) = .ok (EnumSetTypeRepr.eq a b)
  cmp : ∀ k env a b, P.call k (P.alias "T::Repr") "cmp" env [] [enc a, enc b] =
    .ok (ordering (EnumSetTypeRepr.cmp a b), [])
  partial_cmp : ∀ k env a b, P.call k (P.alias "T::Repr") "partial_cmp" env [] [enc a, enc b] =
    .ok (opt ordering (EnumSetTypeRepr.partial_cmp a b), [])
  bitand : ∀ k s a b, binVal (P.ctx s (P.link (k + 3))) .band (enc a) (enc b) =
    EnumSetTypeRepr.bitand a b >>= fun r => .ok (enc r)
  bitor : ∀ k s a b, binVal (P.ctx s (P.link (k + 3))) .bor (enc a) (enc b) =
    EnumSetTypeRepr.bitor a b >>= fun r => .ok (enc r)
  bitxor : ∀ k s a b, binVal (P.ctx s (P.link (k + 3))) .bxor (enc a) (enc b) =
    EnumSetTypeRepr.bitxor a b >>= fun r => .ok (enc r)
  not : ∀ k s a, notVal (P.ctx s (P.link (k + 3))) (enc a) =
    EnumSetTypeRepr.not a >>= fun r => .ok (enc r)
  is_empty : ∀ k env a, P.call (k + 3) (P.alias "T::Repr") "is_empty" env [] [enc a] =
    EnumSetTypeRepr.is_empty a >>= fun r => .ok (.bool r, [])
  add_bit : ∀ k env a b, P.call (k + 3) (P.alias "T::Repr") "add_bit" env [] [enc a, .int .u32 b] =
    EnumSetTypeRepr.add_bit a b >>= fun r => .ok (.unit, [(0, enc r)])
  remove_bit : ∀ k env a b,
    P.call (k + 3) (P.alias "T::Repr") "remove_bit" env [] [enc a, .int .u32 b] =
      EnumSetTypeRepr.remove_bit a b >>= fun r => .ok (.unit, [(0, enc r)])
  has_bit : ∀ k env a b, P.call (k + 3) (P.alias "T::Repr") "has_bit" env [] [enc a, .int .u32 b] =
    EnumSetTypeRepr.has_bit a b >>= fun r => .ok (.bool r, [])
  count_ones : ∀ k s env a, method (P.ctx s (P.link (k + 3))) "count_ones" [] (enc a) [] env =
    EnumSetTypeRepr.count_ones a >>= fun r => .ok (.int .u32 r, [])
  and_not : ∀ k env a b, P.call (k + 3) (P.alias "T::Repr") "and_not" env [] [enc a, enc b] =
    EnumSetTypeRepr.and_not a b >>= fun r => .ok (enc r, [])
  iter : ∀ k s env a, method (P.ctx s (P.link (k + 3))) "iter" [] (enc a) [] env =
    EnumSetTypeRepr.iter a >>= fun r => .ok (encI r, [])
  next : ∀ k env it, okI it → P.call (k + 3) (encI it).tag "next" env [] [encI it] =
    EnumSetTypeRepr.iter_next it >>= fun r => .ok (opt (.int .u32) r.1, [(0, encI r.2)])
  next_back : ∀ k env it, okI it → P.call (k + 3) (encI it).tag "next_back" env [] [encI it] =
    EnumSetTypeRepr.iter_next_back it >>= fun r => .ok (opt (.int .u32) r.1, [(0, encI r.2)])
  size_hint : ∀ k env it, P.call (k + 3) (encI it).tag "size_hint" env [] [encI it] =
    EnumSetTypeRepr.iter_size_hint it >>= fun r =>
      .ok (.tup [.int .usize r.1, opt (.int .usize) r.2], [])
  from_num : ∀ k env n v, lookup "N" env = lookup "N" P.params →
    P.call (k + 3) (P.alias "T::Repr") ("from_" ++ NumTy.name n) env [] [bv n v] =
      EnumSetTypeRepr.from_num n v >>= fun r => .ok (enc r, [])
  from_num_opt : ∀ k env n v, lookup "N" env = lookup "N" P.params →
    P.call (k + 3) (P.alias "T::Repr") ("from_" ++ NumTy.name n ++ "_opt") env [] [bv n v] =
      EnumSetTypeRepr.from_num_opt n v >>= fun r => .ok (opt enc r, [])
  to_num : ∀ k env n a, P.call (k + 3) (P.alias "T::Repr") ("to_" ++ NumTy.name n) env [] [enc a] =
    EnumSetTypeRepr.to_num n a >>= fun r => .ok (bv n r, [])
  to_num_opt : ∀ k env n a,
    P.call (k + 3) (P.alias "T::Repr") ("to_" ++ NumTy.name n ++ "_opt") env [] [enc a] =
      EnumSetTypeRepr.to_num_opt n a >>= fun r => .ok (opt (bv n) r, [])
  to_u64_array : ∀ k env O a, lookup "O" env = some (.int .usize O) →
    P.call (k + 3) (P.alias "T::Repr") "to_u64_array" env [] [enc a] =
      EnumSetTypeRepr.to_u64_array O a >>= fun r => .ok (vec r, [])
  to_u64_array_opt : ∀ k env O a, lookup "O" env = some (.int .usize O) →
    P.call (k + 3) (P.alias "T::Repr") "to_u64_array_opt" env [] [enc a] =
      EnumSetTypeRepr.to_u64_array_opt O a >>= fun r => .ok (opt vec r, [])
  from_u64_array : ∀ k env O v, lookup "N" env = lookup "N" P.params →
    P.call (k + 3) (P.alias "T::Repr") "from_u64_array" env [] [vec v] =
      EnumSetTypeRepr.from_u64_array O v >>= fun r => .ok (enc r, [])
  from_u64_array_opt : ∀ k env O v, lookup "N" env = lookup "N" P.params →
    P.call (k + 3) (P.alias "T::Repr") "from_u64_array_opt" env [.int .usize O] [vec v] =
      EnumSetTypeRepr.from_u64_array_opt O v >>= fun r => .ok (opt enc r, [])
  to_u64_slice : ∀ k env a out,
    P.call (k + 3) (P.alias "T::Repr") "to_u64_slice" env [] [enc a, words out] =
      EnumSetTypeRepr.to_u64_slice a out >>= fun r => .ok (.unit, [(1, words r)])
  to_u64_slice_opt : ∀ k env a out,
    P.call (k + 3) (P.alias "T::Repr") "to_u64_slice_opt" env [] [enc a, words out] =
      EnumSetTypeRepr.to_u64_slice_opt a out >>= fun r =>
        .ok (opt (fun _ => .unit) r.1, [(1, words r.2)])
  from_u64_slice : ∀ k env v, lookup "N" env = lookup "N" P.params →
    P.call (k + 3) (P.alias "T::Repr") "from_u64_slice" env [] [words v] =
      EnumSetTypeRepr.from_u64_slice v >>= fun r => .ok (enc r, [])
  from_u64_slice_opt : ∀ k env v, lookup "N" env = lookup "N" P.params →
    P.call (k + 3) (P.alias "T::Repr") "from_u64_slice_opt" env [] [words v] =
      EnumSetTypeRepr.from_u64_slice_opt v >>= fun r => .ok (opt enc r, [])

/-- What the items generated by the derive macro for the enum type `T` do. -/
structure EnumItems (P : Prog H) (T : EnumSetType) (enc : T.Repr → Val H) (encV : T.Val → H) :
    Prop where
  alias : P.alias "T" = "T"
  ALL_BITS : ∀ k env, P.call k "T" "ALL_BITS" env [] [] = .ok (enc T.ALL_BITS, [])
  BIT_WIDTH : ∀ k env, P.call k "T" "BIT_WIDTH" env [] [] = .ok (.int .u32 T.BIT_WIDTH, [])
  VARIANT_COUNT : ∀ k env,
    P.call k "T" "VARIANT_COUNT" env [] [] = .ok (.int .u32 T.VARIANT_COUNT, [])
  enum_into_u32 : ∀ k env v, P.call k "T" "enum_into_u32" env [] [.host "T" (encV v)] =
    T.enum_into_u32 v >>= fun n => .ok (.int .u32 n, [])
  enum_from_u32 : ∀ k env n, P.call k "T" "enum_from_u32" env [] [.int .u32 n] =
    T.enum_from_u32 n >>= fun v => .ok (.host "T" (encV v), [])

variable {P : Prog H} {T : EnumSetType} {enc : T.Repr → Val H}
  {encI : EnumSetTypeRepr.Iter T.Repr → Val H} {okI : EnumSetTypeRepr.Iter T.Repr → Prop}
  {encV : T.Val → H}

/-- A set. -/
def setOf (enc : T.Repr → Val H) (s : EnumSet T) : Val H :=
  .struct "EnumSet" [("__priv_repr", enc s.priv_repr)]
/-- An iterator over a set. -/
def setIterOf (encI : EnumSetTypeRepr.Iter T.Repr → Val H) (it : EnumSetIter T) : Val H :=
  .struct "EnumSetIter" [("iter", encI it.iter)]


theorem tag_host (s : String) (h : H) : (Val.host s h).tag = s := rfl
theorem exp_host (s : String) (h : H) : (Val.host s h).exp = .any := rfl
theorem not_bool (C : Ctx H) (b : Bool) : notVal C (.bool b) = .ok (.bool !b) := rfl
theorem tag_set (s : EnumSet T) : (setOf enc s).tag = "EnumSet" := rfl
theorem exp_set (s : EnumSet T) : (setOf enc s).exp = .any := rfl
theorem adopt_set (e : Exp) (s : EnumSet T) : e.adopt (setOf enc s) = setOf enc s := by cases e <;> rfl
theorem get_repr (s : EnumSet T) :
    (Proj.field "__priv_repr").get (setOf enc s) = .ok (enc s.priv_repr) := rfl
theorem tag_setIter (s : EnumSetIter T) : (setIterOf encI s).tag = "EnumSetIter" := rfl
theorem exp_setIter (s : EnumSetIter T) : (setIterOf encI s).exp = .any := rfl
theorem adopt_setIter (e : Exp) (s : EnumSetIter T) : e.adopt (setIterOf encI s) = setIterOf encI s := by
  cases e <;> rfl
theorem get_iter (s : EnumSetIter T) :
    (Proj.field "iter").get (setIterOf encI s) = .ok (encI s.iter) := rfl

theorem len_1_1 (n : Nat) : n + 1 - (1 + n) = 0 := by omega
theorem len_1_1' (n : Nat) : n + 1 - (n + 1) = 0 := by omega
theorem len_2_1 (n : Nat) : n + 1 + 1 - (1 + n) = 1 := by omega
theorem len_2_1' (n : Nat) : n + 1 + 1 - (n + 1) = 1 := by omega
theorem len_2_2 (n : Nat) : n + 1 + 1 - (2 + n) = 0 := by omega
theorem len_2_2' (n : Nat) : n + 1 + 1 - (n + 1 + 1) = 0 := by omega
theorem len_3_1 (n : Nat) : n + 1 + 1 + 1 - (1 + n) = 2 := by omega
theorem len_3_1' (n : Nat) : n + 1 + 1 + 1 - (n + 1) = 2 := by omega
theorem len_3_2 (n : Nat) : n + 1 + 1 + 1 - (2 + n) = 1 := by omega
theorem len_3_2' (n : Nat) : n + 1 + 1 + 1 - (n + 1 + 1) = 1 := by omega
theorem len_3_3 (n : Nat) : n + 1 + 1 + 1 - (3 + n) = 0 := by omega
theorem len_3_3' (n : Nat) : n + 1 + 1 + 1 - (n + 1 + 1 + 1) = 0 := by omega
theorem len_4_1 (n : Nat) : n + 1 + 1 + 1 + 1 - (1 + n) = 3 := by omega
theorem len_4_1' (n : Nat) : n + 1 + 1 + 1 + 1 - (n + 1) = 3 := by omega
theorem len_4_2 (n : Nat) : n + 1 + 1 + 1 + 1 - (2 + n) = 2 := by omega
theorem len_4_2' (n : Nat) : n + 1 + 1 + 1 + 1 - (n + 1 + 1) = 2 := by omega
theorem len_4_3 (n : Nat) : n + 1 + 1 + 1 + 1 - (3 + n) = 1 := by omega
theorem len_4_3' (n : Nat) : n + 1 + 1 + 1 + 1 - (n + 1 + 1 + 1) = 1 := by omega
theorem len_4_4 (n : Nat) : n + 1 + 1 + 1 + 1 - (4 + n) = 0 := by omega
theorem len_4_4' (n : Nat) : n + 1 + 1 + 1 + 1 - (n + 1 + 1 + 1 + 1) = 0 := by omega

variable (S : Storage P T.Repr enc encI okI) (E : EnumItems P T enc encV) (k : Nat) (caller : Env H)

section
include S
theorem set_repr (s : EnumSet T) (r : T.Repr) :
    (Proj.field "__priv_repr").set (setOf enc s) (enc r) = .ok (setOf enc ⟨r⟩) := by
  simp [setOf, set_field, lookup, update, S.adopt, need]
theorem set_fold (r : T.Repr) :
    Val.struct "EnumSet" [("__priv_repr", enc r)] = setOf enc ⟨r⟩ := rfl
theorem set_iter (s : EnumSetIter T) (r : EnumSetTypeRepr.Iter T.Repr) :
    (Proj.field "iter").set (setIterOf encI s) (encI r) = .ok (setIterOf encI ⟨r⟩) := by
  simp [setIterOf, set_field, lookup, update, S.adoptI, need]
theorem setIter_fold (r : EnumSetTypeRepr.Iter T.Repr) :
    Val.struct "EnumSetIter" [("iter", encI r)] = setIterOf encI ⟨r⟩ := rfl
theorem params_T : lookup "T" P.params = none := S.params _ (by decide)
theorem params_Repr : lookup "T::Repr" P.params = none := S.params _ (by decide)
theorem params_Set : lookup "EnumSet" P.params = none := S.params _ (by decide)
theorem params_SetIter : lookup "EnumSetIter" P.params = none := S.params _ (by decide)
end

/-- Evaluate, in the body of a function of set.rs. -/
macro "step_set" s:ident "[" ls:Lean.Parser.Tactic.simpLemma,* "]" : tactic =>
  `(tactic| run [extra_set, extra_setIter, tag_host, exp_host, not_bool, tag_set, exp_set,
      adopt_set, get_repr, tag_setIter, exp_setIter, adopt_setIter, get_iter, set_repr $s,
      set_fold $s, set_iter $s, setIter_fold $s, params_T $s, params_Repr $s, params_Set $s,
      params_SetIter $s, ($s).tag, ($s).adopt, len_1_1, len_1_1', len_2_1, len_2_1', len_2_2,
      len_2_2', len_3_1, len_3_1', len_3_2, len_3_2', len_3_3, len_3_3', len_4_1, len_4_1',
      len_4_2, len_4_2', len_4_3, len_4_3', len_4_4, len_4_4', $ls,*])

/-- Evaluate a call of a function of set.rs. -/
macro "run_set" s:ident d:ident "[" ls:Lean.Parser.Tactic.simpLemma,* "]" : tactic =>
  `(tactic| (rw [call_of (d := $d) rfl, bound]; step_set $s [$d:ident, $ls,*]))

section
include S
theorem C68_EMPTY_REPR :
    P.call (k + 4) "EnumSet" "EMPTY_REPR" caller [] [] = .ok (setOf enc EnumSet.EMPTY_REPR, []) := by
  run_set S EnumSet_EMPTY_REPR [S.EMPTY, EnumSet.EMPTY_REPR]
theorem C68_new :
    P.call (k + 5) "EnumSet" "new" caller [] [] = .ok (setOf enc EnumSet.new, []) := by
  run_set S EnumSet_new [C68_EMPTY_REPR S, EnumSet.new]
theorem C68_empty :
    P.call (k + 5) "EnumSet" "empty" caller [] [] = .ok (setOf enc EnumSet.empty, []) := by
  run_set S EnumSet_empty [C68_EMPTY_REPR S, EnumSet.empty]
theorem C68_EMPTY :
    P.call (k + 5) "EnumSet" "EMPTY" caller [] [] = .ok (setOf enc EnumSet.EMPTY, []) := by
  run_set S EnumSet_EMPTY [C68_EMPTY_REPR S, EnumSet.EMPTY]
theorem C68_default :
    P.call (k + 6) "EnumSet" "default" caller [] [] = .ok (setOf enc EnumSet.default, []) := by
  run_set S EnumSet_default [C68_new S, EnumSet.default]
theorem C68_len (s : EnumSet T) :
    P.call (k + 4) "EnumSet" "len" caller [] [setOf enc s] =
      s.len >>= fun n => .ok (.int .usize n, []) := by
  run_set S EnumSet_len [S.count_ones, EnumSet.len]
theorem C68_is_empty (s : EnumSet T) :
    P.call (k + 4) "EnumSet" "is_empty" caller [] [setOf enc s] =
      s.is_empty >>= fun r => .ok (.bool r, []) := by
  run_set S EnumSet_is_empty [S.is_empty, EnumSet.is_empty]
theorem C68_clear (s : EnumSet T) :
    P.call (k + 4) "EnumSet" "clear" caller [] [setOf enc s] = .ok (.unit, [(0, setOf enc s.clear)]) := by
  run_set S EnumSet_clear [S.EMPTY, EnumSet.clear]
theorem C68_union (s o : EnumSet T) :
    P.call (k + 4) "EnumSet" "union" caller [] [setOf enc s, setOf enc o] =
      s.union o >>= fun r => .ok (setOf enc r, []) := by
  run_set S EnumSet_union [S.bitor, EnumSet.union]
theorem C68_intersection (s o : EnumSet T) :
    P.call (k + 4) "EnumSet" "intersection" caller [] [setOf enc s, setOf enc o] =
      s.intersection o >>= fun r => .ok (setOf enc r, []) := by
  run_set S EnumSet_intersection [S.bitand, EnumSet.intersection]
theorem C68_difference (s o : EnumSet T) :
    P.call (k + 4) "EnumSet" "difference" caller [] [setOf enc s, setOf enc o] =
      s.difference o >>= fun r => .ok (setOf enc r, []) := by
  run_set S EnumSet_difference [S.and_not, EnumSet.difference]
theorem C68_symmetrical_difference (s o : EnumSet T) :
    P.call (k + 4) "EnumSet" "symmetrical_difference" caller [] [setOf enc s, setOf enc o] =
      s.symmetrical_difference o >>= fun r => .ok (setOf enc r, []) := by
  run_set S EnumSet_symmetrical_difference [S.bitxor, EnumSet.symmetrical_difference]
theorem C68_insert_all (s o : EnumSet T) :
    P.call (k + 4) "EnumSet" "insert_all" caller [] [setOf enc s, setOf enc o] =
      s.insert_all o >>= fun r => .ok (.unit, [(0, setOf enc r)]) := by
  run_set S EnumSet_insert_all [S.bitor, EnumSet.insert_all]
theorem C68_remove_all (s o : EnumSet T) :
    P.call (k + 4) "EnumSet" "remove_all" caller [] [setOf enc s, setOf enc o] =
      s.remove_all o >>= fun r => .ok (.unit, [(0, setOf enc r)]) := by
  run_set S EnumSet_remove_all [S.and_not, EnumSet.remove_all]
theorem C68_const_only (s : EnumSet T) :
    P.call (k + 1) "EnumSet" "__impl_enumset_internal__const_only" caller [] [setOf enc s] =
      .ok (setOf enc s, []) := by
  run_set S EnumSet___impl_enumset_internal__const_only []
theorem C68_as_repr (s : EnumSet T) :
    P.call (k + 1) "EnumSet" "as_repr" caller [] [setOf enc s] = .ok (enc s.as_repr, []) := by
  run_set S EnumSet_as_repr [EnumSet.as_repr]
theorem C68_from_repr_unchecked (r : T.Repr) :
    P.call (k + 1) "EnumSet" "from_repr_unchecked" caller [] [enc r] =
      .ok (setOf enc (EnumSet.from_repr_unchecked r), []) := by
  run_set S EnumSet_from_repr_unchecked [EnumSet.from_repr_unchecked]
theorem C68_cmp (s o : EnumSet T) :
    P.call (k + 1) "EnumSet" "cmp" caller [] [setOf enc s, setOf enc o] =
      .ok (ordering (s.cmp o), []) := by
  run_set S EnumSet_cmp [S.cmp, EnumSet.cmp]
theorem C68_partial_cmp (s o : EnumSet T) :
    P.call (k + 1) "EnumSet" "partial_cmp" caller [] [setOf enc s, setOf enc o] =
      .ok (opt ordering (s.partial_cmp o), []) := by
  run_set S EnumSet_partial_cmp [S.partial_cmp, EnumSet.partial_cmp]
end
section
include S E
theorem C68_ALL_REPR :
    P.call (k + 4) "EnumSet" "ALL_REPR" caller [] [] = .ok (setOf enc EnumSet.ALL_REPR, []) := by
  run_set S EnumSet_ALL_REPR [E.ALL_BITS, E.alias, EnumSet.ALL_REPR]
theorem C68_all :
    P.call (k + 5) "EnumSet" "all" caller [] [] = .ok (setOf enc EnumSet.all, []) := by
  run_set S EnumSet_all [C68_ALL_REPR S E, EnumSet.all]
theorem C68_ALL :
    P.call (k + 5) "EnumSet" "ALL" caller [] [] = .ok (setOf enc EnumSet.ALL, []) := by
  run_set S EnumSet_ALL [C68_ALL_REPR S E, EnumSet.ALL]
theorem C68_bit_width :
    P.call (k + 1) "EnumSet" "bit_width" caller [] [] = .ok (.int .u32 (EnumSet.bit_width T), []) := by
  run_set S EnumSet_bit_width [E.BIT_WIDTH, E.alias, EnumSet.bit_width]
theorem C68_variant_count :
    P.call (k + 1) "EnumSet" "variant_count" caller [] [] =
      .ok (.int .u32 (EnumSet.variant_count T), []) := by
  run_set S EnumSet_variant_count [E.VARIANT_COUNT, E.alias, EnumSet.variant_count]
theorem C68_complement (s : EnumSet T) :
    P.call (k + 4) "EnumSet" "complement" caller [] [setOf enc s] =
      s.complement >>= fun r => .ok (setOf enc r, []) := by
  run_set S EnumSet_complement [S.not, S.bitand, E.ALL_BITS, E.alias, EnumSet.complement]
theorem C68_not (s : EnumSet T) :
    P.call (k + 5) "EnumSet" "not" caller [] [setOf enc s] =
      s.not >>= fun r => .ok (setOf enc r, []) := by
  run_set S EnumSet_not [C68_complement S E, EnumSet.not]
theorem C68_contains (s : EnumSet T) (v : T.Val) :
    P.call (k + 4) "EnumSet" "contains" caller [] [setOf enc s, .host "T" (encV v)] =
      s.contains v >>= fun r => .ok (.bool r, []) := by
  run_set S EnumSet_contains [E.enum_into_u32, S.has_bit, EnumSet.contains]
theorem C68_insert (s : EnumSet T) (v : T.Val) :
    P.call (k + 5) "EnumSet" "insert" caller [] [setOf enc s, .host "T" (encV v)] =
      s.insert v >>= fun r => .ok (.bool r.1, [(0, setOf enc r.2)]) := by
  run_set S EnumSet_insert [E.enum_into_u32, S.add_bit, EnumSet.insert, C68_contains S E]
theorem C68_remove (s : EnumSet T) (v : T.Val) :
    P.call (k + 5) "EnumSet" "remove" caller [] [setOf enc s, .host "T" (encV v)] =
      s.remove v >>= fun r => .ok (.bool r.1, [(0, setOf enc r.2)]) := by
  run_set S EnumSet_remove [E.enum_into_u32, S.remove_bit, EnumSet.remove, C68_contains S E]
theorem C68_only (v : T.Val) :
    P.call (k + 6) "EnumSet" "only" caller [] [.host "T" (encV v)] =
      EnumSet.only v >>= fun r => .ok (setOf enc r, []) := by
  run_set S EnumSet_only [C68_new S, C68_insert S E, EnumSet.only]
theorem C68_from (v : T.Val) :
    P.call (k + 7) "EnumSet" "from" caller [] [.host "T" (encV v)] =
      EnumSet.only v >>= fun r => .ok (setOf enc r, []) := by
  run_set S EnumSet_from [C68_only S E]
theorem C68_eq_variant (s : EnumSet T) (v : T.Val) :
    P.call (k + 7) "EnumSet" "eq_variant" caller [] [setOf enc s, .host "T" (encV v)] =
      s.eq_val v >>= fun r => .ok (.bool r, []) := by
  run_set S EnumSet_eq_variant [C68_only S E, S.eq, EnumSet.eq_val]
theorem C68_try_from_repr (r : T.Repr) :
    P.call (k + 6) "EnumSet" "try_from_repr" caller [] [enc r] =
      EnumSet.try_from_repr r >>= fun r => .ok (opt (setOf enc) r, []) := by
  run_set S EnumSet_try_from_repr [C68_all S E, S.and_not, S.is_empty, EnumSet.try_from_repr]
theorem C68_from_repr (r : T.Repr) :
    P.call (k + 7) "EnumSet" "from_repr" caller [] [enc r] =
      EnumSet.from_repr r >>= fun r => .ok (setOf enc r, []) := by
  run_set S EnumSet_from_repr [C68_try_from_repr S E, EnumSet.from_repr]
theorem C68_from_repr_truncated (r : T.Repr) :
    P.call (k + 6) "EnumSet" "from_repr_truncated" caller [] [enc r] =
      EnumSet.from_repr_truncated r >>= fun r => .ok (setOf enc r, []) := by
  run_set S EnumSet_from_repr_truncated [C68_all S E, C68_as_repr S, S.bitand, EnumSet.from_repr_truncated]
end
end agreement
end Enumset.Src
