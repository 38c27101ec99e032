import Verif.Props.SrcSet
/-!
# C68: operators, conversions to and from words, iterators of a set

The operators take any operand whose `into` yields a set; the corollaries ending in `_operand` are for
variants and sets.
-/
set_option autoImplicit false
set_option linter.unusedSectionVars false
set_option linter.unusedSimpArgs false
set_option maxRecDepth 10000

namespace Enumset.Src
open SetRs
section agreement
variable {H : Type} [Platform] {P : Prog H} {T : EnumSetType} {enc : T.Repr → Val H}
  {encI : EnumSetTypeRepr.Iter T.Repr → Val H} {okI : EnumSetTypeRepr.Iter T.Repr → Prop}
  {encV : T.Val → H}
variable (S : Storage P T.Repr enc encI okI) (E : EnumItems P T enc encV) (k : Nat) (caller : Env H)
theorem bin_set (C : Ctx H) (op : BinOp) (s : EnumSet T) (o : Val H) :
    binVal C op (setOf enc s) o = opFn C op (setOf enc s) o := by
  rfl
theorem op_set (C : Ctx H) (op : BinOp) (h : op ≠ .ne) (s : EnumSet T) (o : Val H) :
    opFn C op (setOf enc s) o = C.call "EnumSet" op.method [] [] [setOf enc s, o] >>= fun r => .ok r.1 := by
  cases op <;> first | rfl | contradiction

section
include S
theorem C68_eq (s o : EnumSet T) :
    P.call k "EnumSet" "eq" caller [] [setOf enc s, setOf enc o] = .ok (.bool (s.eq o), []) := by
  have h : P.link k "EnumSet" "eq" = derivedFn derives "EnumSet" "eq" := by cases k <;> rfl
  have hd : derives "EnumSet" "PartialEq" = true := rfl
  simp [Prog.call, h, derivedFn, hd, need_some, setOf, eqVal, eqFields, S.eqVal, EnumSet.eq]
  cases EnumSetTypeRepr.eq s.priv_repr o.priv_repr <;> rfl

theorem C68_into_set (s : EnumSet T) :
    P.call (k + 1) "EnumSet" "into" caller [] [setOf enc s] = .ok (setOf enc s, []) := by
  run_set S EnumSet_into []

/-- The operand may have any type with an `into`. -/
theorem C68_sub (s : EnumSet T) (o : Val H) (conv : Res (EnumSet T))
    (hc : ∀ env, P.call (k + 4) o.tag "into" env [] [o] = conv >>= fun s => .ok (setOf enc s, [])) :
    P.call (k + 5) "EnumSet" "sub" caller [] [setOf enc s, o] =
      conv >>= fun o => s.difference o >>= fun r => .ok (setOf enc r, []) := by
  run_set S EnumSet_sub [hc, C68_difference S]
theorem C68_bitand (s : EnumSet T) (o : Val H) (conv : Res (EnumSet T))
    (hc : ∀ env, P.call (k + 4) o.tag "into" env [] [o] = conv >>= fun s => .ok (setOf enc s, [])) :
    P.call (k + 5) "EnumSet" "bitand" caller [] [setOf enc s, o] =
      conv >>= fun o => s.intersection o >>= fun r => .ok (setOf enc r, []) := by
  run_set S EnumSet_bitand [hc, C68_intersection S]
theorem C68_bitor (s : EnumSet T) (o : Val H) (conv : Res (EnumSet T))
    (hc : ∀ env, P.call (k + 4) o.tag "into" env [] [o] = conv >>= fun s => .ok (setOf enc s, [])) :
    P.call (k + 5) "EnumSet" "bitor" caller [] [setOf enc s, o] =
      conv >>= fun o => s.union o >>= fun r => .ok (setOf enc r, []) := by
  run_set S EnumSet_bitor [hc, C68_union S]
theorem C68_bitxor (s : EnumSet T) (o : Val H) (conv : Res (EnumSet T))
    (hc : ∀ env, P.call (k + 4) o.tag "into" env [] [o] = conv >>= fun s => .ok (setOf enc s, [])) :
    P.call (k + 5) "EnumSet" "bitxor" caller [] [setOf enc s, o] =
      conv >>= fun o => s.symmetrical_difference o >>= fun r => .ok (setOf enc r, []) := by
  run_set S EnumSet_bitxor [hc, C68_symmetrical_difference S]
theorem C68_sub_assign (s : EnumSet T) (o : Val H) (conv : Res (EnumSet T))
    (hc : ∀ env, P.call (k + 4) o.tag "into" env [] [o] = conv >>= fun s => .ok (setOf enc s, [])) :
    P.call (k + 6) "EnumSet" "sub_assign" caller [] [setOf enc s, o] =
      conv >>= fun o => s.difference o >>= fun r => .ok (.unit, [(0, setOf enc r)]) := by
  run_set S EnumSet_sub_assign [bin_set, op_set, BinOp.method, C68_sub S k _ s o conv hc]
theorem C68_bitand_assign (s : EnumSet T) (o : Val H) (conv : Res (EnumSet T))
    (hc : ∀ env, P.call (k + 4) o.tag "into" env [] [o] = conv >>= fun s => .ok (setOf enc s, [])) :
    P.call (k + 6) "EnumSet" "bitand_assign" caller [] [setOf enc s, o] =
      conv >>= fun o => s.intersection o >>= fun r => .ok (.unit, [(0, setOf enc r)]) := by
  run_set S EnumSet_bitand_assign [bin_set, op_set, BinOp.method, C68_bitand S k _ s o conv hc]
theorem C68_bitor_assign (s : EnumSet T) (o : Val H) (conv : Res (EnumSet T))
    (hc : ∀ env, P.call (k + 4) o.tag "into" env [] [o] = conv >>= fun s => .ok (setOf enc s, [])) :
    P.call (k + 6) "EnumSet" "bitor_assign" caller [] [setOf enc s, o] =
      conv >>= fun o => s.union o >>= fun r => .ok (.unit, [(0, setOf enc r)]) := by
  run_set S EnumSet_bitor_assign [bin_set, op_set, BinOp.method, C68_bitor S k _ s o conv hc]
theorem C68_bitxor_assign (s : EnumSet T) (o : Val H) (conv : Res (EnumSet T))
    (hc : ∀ env, P.call (k + 4) o.tag "into" env [] [o] = conv >>= fun s => .ok (setOf enc s, [])) :
    P.call (k + 6) "EnumSet" "bitxor_assign" caller [] [setOf enc s, o] =
      conv >>= fun o => s.symmetrical_difference o >>= fun r => .ok (.unit, [(0, setOf enc r)]) := by
  run_set S EnumSet_bitxor_assign [bin_set, op_set, BinOp.method, C68_bitxor S k _ s o conv hc]

theorem set_conv (env : Env H) (o : EnumSet T) :
    P.call (k + 4) (setOf enc o).tag "into" env [] [setOf enc o] =
      (.ok o : Res (EnumSet T)) >>= fun s => .ok (setOf enc s, []) :=
  C68_into_set S (k + 3) env o
theorem and_set (s o : EnumSet T) :
    P.call (k + 5) "EnumSet" "bitand" caller [] [setOf enc s, setOf enc o] =
      s.intersection o >>= fun r => .ok (setOf enc r, []) :=
  C68_bitand S k caller s (setOf enc o) (.ok o) fun env => set_conv S k env o
theorem or_set (s o : EnumSet T) :
    P.call (k + 5) "EnumSet" "bitor" caller [] [setOf enc s, setOf enc o] =
      s.union o >>= fun r => .ok (setOf enc r, []) :=
  C68_bitor S k caller s (setOf enc o) (.ok o) fun env => set_conv S k env o
theorem C68_is_disjoint (s o : EnumSet T) :
    P.call (k + 6) "EnumSet" "is_disjoint" caller [] [setOf enc s, setOf enc o] =
      s.is_disjoint o >>= fun r => .ok (.bool r, []) := by
  run_set S EnumSet_is_disjoint [bin_set, op_set, BinOp.method, and_set S, C68_is_empty S, EnumSet.is_disjoint,
    EnumSet.bitand, Operand.into]
theorem C68_is_superset (s o : EnumSet T) :
    P.call (k + 6) "EnumSet" "is_superset" caller [] [setOf enc s, setOf enc o] =
      s.is_superset o >>= fun r => .ok (.bool r, []) := by
  run_set S EnumSet_is_superset [bin_set, op_set, BinOp.method, and_set S, S.eq, EnumSet.is_superset,
    EnumSet.bitand, Operand.into]
theorem C68_is_subset (s o : EnumSet T) :
    P.call (k + 7) "EnumSet" "is_subset" caller [] [setOf enc s, setOf enc o] =
      s.is_subset o >>= fun r => .ok (.bool r, []) := by
  run_set S EnumSet_is_subset [C68_is_superset S, EnumSet.is_subset]
end

section
include S E
theorem C68_into_variant (v : T.Val) :
    P.call (k + 8) "T" "into" caller [] [.host "T" (encV v)] =
      EnumSet.only v >>= fun r => .ok (setOf enc r, []) := by
  run_set S T_into [show P.extra "T" = [] from rfl, C68_from S E]

/-- An operand of one of the two types the crate has an `into` for. -/
def operandOf (enc : T.Repr → Val H) (encV : T.Val → H) : Operand T → Val H
  | .val v => .host "T" (encV v)
  | .set s => setOf enc s

theorem operand_conv (env : Env H) (o : Operand T) :
    P.call (k + 8) (operandOf enc encV o).tag "into" env [] [operandOf enc encV o] =
      o.into >>= fun s => .ok (setOf enc s, []) := by
  cases o with
  | val v => exact C68_into_variant S E k env v
  | set s => exact C68_into_set S (k + 7) env s
theorem C68_sub_operand (s : EnumSet T) (o : Operand T) :
    P.call (k + 9) "EnumSet" "sub" caller [] [setOf enc s, operandOf enc encV o] =
      s.sub o >>= fun r => .ok (setOf enc r, []) := by
  rw [C68_sub S (k + 4) caller s _ o.into fun env => operand_conv S E k env o]
  simp [EnumSet.sub, bind_assoc]
theorem C68_bitand_operand (s : EnumSet T) (o : Operand T) :
    P.call (k + 9) "EnumSet" "bitand" caller [] [setOf enc s, operandOf enc encV o] =
      s.bitand o >>= fun r => .ok (setOf enc r, []) := by
  rw [C68_bitand S (k + 4) caller s _ o.into fun env => operand_conv S E k env o]
  simp [EnumSet.bitand, bind_assoc]
theorem C68_bitor_operand (s : EnumSet T) (o : Operand T) :
    P.call (k + 9) "EnumSet" "bitor" caller [] [setOf enc s, operandOf enc encV o] =
      s.bitor o >>= fun r => .ok (setOf enc r, []) := by
  rw [C68_bitor S (k + 4) caller s _ o.into fun env => operand_conv S E k env o]
  simp [EnumSet.bitor, bind_assoc]
theorem C68_bitxor_operand (s : EnumSet T) (o : Operand T) :
    P.call (k + 9) "EnumSet" "bitxor" caller [] [setOf enc s, operandOf enc encV o] =
      s.bitxor o >>= fun r => .ok (setOf enc r, []) := by
  rw [C68_bitxor S (k + 4) caller s _ o.into fun env => operand_conv S E k env o]
  simp [EnumSet.bitxor, bind_assoc]
theorem C68_sub_assign_operand (s : EnumSet T) (o : Operand T) :
    P.call (k + 10) "EnumSet" "sub_assign" caller [] [setOf enc s, operandOf enc encV o] =
      s.sub_assign o >>= fun r => .ok (.unit, [(0, setOf enc r)]) := by
  rw [C68_sub_assign S (k + 4) caller s _ o.into fun env => operand_conv S E k env o]
  simp [EnumSet.sub_assign, EnumSet.sub, bind_assoc]
theorem C68_bitand_assign_operand (s : EnumSet T) (o : Operand T) :
    P.call (k + 10) "EnumSet" "bitand_assign" caller [] [setOf enc s, operandOf enc encV o] =
      s.bitand_assign o >>= fun r => .ok (.unit, [(0, setOf enc r)]) := by
  rw [C68_bitand_assign S (k + 4) caller s _ o.into fun env => operand_conv S E k env o]
  simp [EnumSet.bitand_assign, EnumSet.bitand, bind_assoc]
theorem C68_bitor_assign_operand (s : EnumSet T) (o : Operand T) :
    P.call (k + 10) "EnumSet" "bitor_assign" caller [] [setOf enc s, operandOf enc encV o] =
      s.bitor_assign o >>= fun r => .ok (.unit, [(0, setOf enc r)]) := by
  rw [C68_bitor_assign S (k + 4) caller s _ o.into fun env => operand_conv S E k env o]
  simp [EnumSet.bitor_assign, EnumSet.bitor, bind_assoc]
theorem C68_bitxor_assign_operand (s : EnumSet T) (o : Operand T) :
    P.call (k + 10) "EnumSet" "bitxor_assign" caller [] [setOf enc s, operandOf enc encV o] =
      s.bitxor_assign o >>= fun r => .ok (.unit, [(0, setOf enc r)]) := by
  rw [C68_bitxor_assign S (k + 4) caller s _ o.into fun env => operand_conv S E k env o]
  simp [EnumSet.bitxor_assign, EnumSet.bitxor, bind_assoc]
end
theorem inferGen_set (s : EnumSet T) :
    inferGen false "O" (.name "Self" []) (setOf enc s) = none := by simp [inferGen, setOf]
theorem vec_replicate (n : Nat) :
    (vec (Vector.replicate n 0#64) : Val H) = words (List.replicate n 0#64) := by
  simp [vec, words]
theorem method_iter_set (C : Ctx H) (s : EnumSet T) (env : Env H) :
    method C "iter" [] (setOf enc s) [] env = C.call "EnumSet" "iter" env [] [setOf enc s] := rfl
theorem method_into_iter_set (C : Ctx H) (s : EnumSet T) (env : Env H) :
    method C "into_iter" [] (setOf enc s) [] env = C.call "EnumSet" "into_iter" env [] [setOf enc s] := rfl
theorem method_into_iter_host (C : Ctx H) (s : String) (h : H) (env : Env H) :
    method C "into_iter" [] (.host s h) [] env = C.call s "into_iter" env [] [.host s h] := rfl
theorem method_into_iter_setIter (C : Ctx H) (it : EnumSetIter T) (env : Env H) :
    method C "into_iter" [] (setIterOf encI it) [] env =
      C.call "EnumSetIter" "into_iter" env [] [setIterOf encI it] := rfl
section
include S
theorem C68_try_as_array (O : Nat) (s : EnumSet T) :
    P.call (k + 4) "EnumSet" "try_as_array" caller [.int .usize O] [setOf enc s] =
      s.try_as_array O >>= fun r => .ok (opt vec r, []) := by
  run_set S EnumSet_try_as_array [S.to_u64_array_opt k _ O, EnumSet.try_as_array]
/-- The length may also be taken from the caller. -/
theorem try_as_array_inferred (O : Nat) (s : EnumSet T) (hO : lookup "O" caller = some (.int .usize O)) :
    P.call (k + 4) "EnumSet" "try_as_array" caller [] [setOf enc s] =
      s.try_as_array O >>= fun r => .ok (opt vec r, []) := by
  run_set S EnumSet_try_as_array [S.to_u64_array_opt k _ O, EnumSet.try_as_array, hO, inferGen_set]
theorem C68_as_array (O : Nat) (s : EnumSet T) :
    P.call (k + 5) "EnumSet" "as_array" caller [.int .usize O] [setOf enc s] =
      s.as_array O >>= fun r => .ok (vec r, []) := by
  run_set S EnumSet_as_array [try_as_array_inferred S k _ O, EnumSet.as_array]
theorem C68_as_array_truncated (O : Nat) (s : EnumSet T) :
    P.call (k + 4) "EnumSet" "as_array_truncated" caller [.int .usize O] [setOf enc s] =
      s.as_array_truncated O >>= fun r => .ok (vec r, []) := by
  run_set S EnumSet_as_array_truncated [S.to_u64_array k _ O, EnumSet.as_array_truncated]
theorem C68_from_array_unchecked (O : Nat) (v : Vector U64 O) :
    P.call (k + 4) "EnumSet" "from_array_unchecked" caller [] [vec v] =
      EnumSet.from_array_unchecked O v >>= fun r => .ok (setOf (T := T) enc r, []) := by
  run_set S EnumSet_from_array_unchecked [S.from_u64_array k _ O, EnumSet.from_array_unchecked]
theorem C68_to_vec (s : EnumSet T) :
    P.call (k + 4) "EnumSet" "to_vec" caller [] [setOf enc s] =
      s.to_vec >>= fun r => .ok (words r, []) := by
  run_set S EnumSet_to_vec [S.PREFERRED_ARRAY_LEN, vec_replicate, S.to_u64_slice, EnumSet.to_vec]
theorem C68_try_copy_into_slice (s : EnumSet T) (data : List U64) :
    P.call (k + 4) "EnumSet" "try_copy_into_slice" caller [] [setOf enc s, words data] =
      s.try_copy_into_slice data >>= fun r => .ok (opt (fun _ => .unit) r.1, [(1, words r.2)]) := by
  run_set S EnumSet_try_copy_into_slice [S.to_u64_slice_opt, EnumSet.try_copy_into_slice]
theorem C68_copy_into_slice (s : EnumSet T) (data : List U64) :
    P.call (k + 5) "EnumSet" "copy_into_slice" caller [] [setOf enc s, words data] =
      s.copy_into_slice data >>= fun r => r.1 >>= fun _ => .ok (.unit, [(1, words r.2)]) := by
  run_set S EnumSet_copy_into_slice [C68_try_copy_into_slice S, EnumSet.copy_into_slice]
theorem C68_copy_into_slice_truncated (s : EnumSet T) (data : List U64) :
    P.call (k + 4) "EnumSet" "copy_into_slice_truncated" caller [] [setOf enc s, words data] =
      s.copy_into_slice_truncated data >>= fun r => .ok (.unit, [(1, words r)]) := by
  run_set S EnumSet_copy_into_slice_truncated [S.to_u64_slice, EnumSet.copy_into_slice_truncated]
theorem C68_from_slice_unchecked (v : List U64) :
    P.call (k + 4) "EnumSet" "from_slice_unchecked" caller [] [words v] =
      EnumSet.from_slice_unchecked v >>= fun r => .ok (setOf (T := T) enc r, []) := by
  run_set S EnumSet_from_slice_unchecked [S.from_u64_slice, EnumSet.from_slice_unchecked]
end
section
include S E
theorem C68_try_from_array (O : Nat) (v : Vector U64 O) :
    P.call (k + 4) "EnumSet" "try_from_array" caller [] [vec v] =
      EnumSet.try_from_array O v >>= fun r => .ok (opt (setOf (T := T) enc) r, []) := by
  run_set S EnumSet_try_from_array [S.from_u64_array_opt k _ O, E.ALL_BITS, E.alias, EnumSet.try_from_array]
  refine bind_congr fun o => ?_
  cases o <;> step_set S [S.and_not, S.is_empty, EnumSet.checkMask]
theorem C68_from_array (O : Nat) (v : Vector U64 O) :
    P.call (k + 5) "EnumSet" "from_array" caller [] [vec v] =
      EnumSet.from_array O v >>= fun r => .ok (setOf (T := T) enc r, []) := by
  run_set S EnumSet_from_array [C68_try_from_array S E k _ O, EnumSet.from_array]
theorem C68_from_array_truncated (O : Nat) (v : Vector U64 O) :
    P.call (k + 4) "EnumSet" "from_array_truncated" caller [] [vec v] =
      EnumSet.from_array_truncated O v >>= fun r => .ok (setOf (T := T) enc r, []) := by
  run_set S EnumSet_from_array_truncated [S.from_u64_array k _ O, S.bitand, E.ALL_BITS, E.alias, EnumSet.from_array_truncated]
theorem C68_try_from_slice (v : List U64) :
    P.call (k + 4) "EnumSet" "try_from_slice" caller [] [words v] =
      EnumSet.try_from_slice v >>= fun r => .ok (opt (setOf (T := T) enc) r, []) := by
  run_set S EnumSet_try_from_slice [S.from_u64_slice_opt, E.ALL_BITS, E.alias, EnumSet.try_from_slice]
  refine bind_congr fun o => ?_
  cases o <;> step_set S [S.and_not, S.is_empty, EnumSet.checkMask]
theorem C68_from_slice (v : List U64) :
    P.call (k + 5) "EnumSet" "from_slice" caller [] [words v] =
      EnumSet.from_slice v >>= fun r => .ok (setOf (T := T) enc r, []) := by
  run_set S EnumSet_from_slice [C68_try_from_slice S E, EnumSet.from_slice]
theorem C68_from_slice_truncated (v : List U64) :
    P.call (k + 4) "EnumSet" "from_slice_truncated" caller [] [words v] =
      EnumSet.from_slice_truncated v >>= fun r => .ok (setOf (T := T) enc r, []) := by
  run_set S EnumSet_from_slice_truncated [S.from_u64_slice, S.bitand, E.ALL_BITS, E.alias, EnumSet.from_slice_truncated]
end

section
include S
theorem C68_iter_new (s : EnumSet T) :
    P.call (k + 4) "EnumSetIter" "new" caller [] [setOf enc s] =
      s.iter >>= fun r => .ok (setIterOf encI r, []) := by
  run_set S EnumSetIter_new [S.iter, S.adoptI, EnumSet.iter]
theorem C68_iter (s : EnumSet T) :
    P.call (k + 5) "EnumSet" "iter" caller [] [setOf enc s] =
      s.iter >>= fun r => .ok (setIterOf encI r, []) := by
  run_set S EnumSet_iter [C68_iter_new S]
theorem C68_into_iter (s : EnumSet T) :
    P.call (k + 6) "EnumSet" "into_iter" caller [] [setOf enc s] =
      s.iter >>= fun r => .ok (setIterOf encI r, []) := by
  run_set S EnumSet_into_iter [method_iter_set, C68_iter S]
theorem C68_into_iter_iter (it : EnumSetIter T) :
    P.call (k + 1) "EnumSetIter" "into_iter" caller [] [setIterOf encI it] =
      .ok (setIterOf encI it, []) := by
  run_set S EnumSetIter_into_iter []
theorem C68_size_hint (it : EnumSetIter T) :
    P.call (k + 4) "EnumSetIter" "size_hint" caller [] [setIterOf encI it] =
      it.size_hint >>= fun r => .ok (.tup [.int .usize r.1, opt (.int .usize) r.2], []) := by
  run_set S EnumSetIter_size_hint [S.size_hint, EnumSetIter.size_hint, S.adoptI]
end
section
include S E
theorem C68_next (it : EnumSetIter T) (h : okI it.iter) :
    P.call (k + 4) "EnumSetIter" "next" caller [] [setIterOf encI it] =
      it.next >>= fun r => .ok (opt (fun v => .host "T" (encV v)) r.1, [(0, setIterOf encI r.2)]) := by
  run_set S EnumSetIter_next [S.next k _ _ h, E.enum_from_u32, EnumSetIter.next]
  refine bind_congr fun r => ?_
  obtain ⟨o, it'⟩ := r
  cases o <;> step_set S [E.enum_from_u32, E.alias]
theorem C68_next_back (it : EnumSetIter T) (h : okI it.iter) :
    P.call (k + 4) "EnumSetIter" "next_back" caller [] [setIterOf encI it] =
      it.next_back >>= fun r => .ok (opt (fun v => .host "T" (encV v)) r.1, [(0, setIterOf encI r.2)]) := by
  run_set S EnumSetIter_next_back [S.next_back k _ _ h, E.enum_from_u32, EnumSetIter.next_back]
  refine bind_congr fun r => ?_
  obtain ⟨o, it'⟩ := r
  cases o <;> step_set S [E.enum_from_u32, E.alias]
end
end agreement
end Enumset.Src
