import Verif.Props.SrcSet
/-!
# C68: conversions to and from numbers

The seven functions `conversion_impls!` generates for each of the six integer types (set.rs:537-661).
-/
set_option autoImplicit false
set_option linter.unusedSectionVars false
set_option linter.unusedSimpArgs false
set_option maxRecDepth 10000

namespace Enumset.Src
open SetRs
section agreement
variable {H : Type} [Platform] {P : Prog H} {T : EnumSetType} {enc : T.Repr → Val H}
  {encI : EnumSetTypeRepr.Iter T.Repr → Val H} {okI : EnumSetTypeRepr.Iter T.Repr → Prop}
  {encV : T.Val → H}
variable (S : Storage P T.Repr enc encI okI) (E : EnumItems P T enc encV) (k : Nat) (caller : Env H)
section
include S
set_option maxHeartbeats 1000000 in
theorem C68_try_as_num (n : NumTy) (s : EnumSet T) :
    P.call (k + 4) "EnumSet" ("try_as_" ++ NumTy.name n) caller [] [setOf enc s] =
      s.try_as_num n >>= fun r => .ok (opt (bv n) r, []) := by
  cases n
  · have h := fun env a => S.to_num_opt k env .u8 a; simp only [NumTy.name, String.reduceAppend] at h
    run_set S EnumSet_try_as_u8 [h, EnumSet.try_as_num]
  · have h := fun env a => S.to_num_opt k env .u16 a; simp only [NumTy.name, String.reduceAppend] at h
    run_set S EnumSet_try_as_u16 [h, EnumSet.try_as_num]
  · have h := fun env a => S.to_num_opt k env .u32 a; simp only [NumTy.name, String.reduceAppend] at h
    run_set S EnumSet_try_as_u32 [h, EnumSet.try_as_num]
  · have h := fun env a => S.to_num_opt k env .u64 a; simp only [NumTy.name, String.reduceAppend] at h
    run_set S EnumSet_try_as_u64 [h, EnumSet.try_as_num]
  · have h := fun env a => S.to_num_opt k env .u128 a; simp only [NumTy.name, String.reduceAppend] at h
    run_set S EnumSet_try_as_u128 [h, EnumSet.try_as_num]
  · have h := fun env a => S.to_num_opt k env .usize a; simp only [NumTy.name, String.reduceAppend] at h
    run_set S EnumSet_try_as_usize [h, EnumSet.try_as_num]
set_option maxHeartbeats 1000000 in
theorem C68_as_num_truncated (n : NumTy) (s : EnumSet T) :
    P.call (k + 4) "EnumSet" ("as_" ++ NumTy.name n ++ "_truncated") caller [] [setOf enc s] =
      s.as_num_truncated n >>= fun r => .ok (bv n r, []) := by
  cases n
  · have h := fun env a => S.to_num k env .u8 a; simp only [NumTy.name, String.reduceAppend] at h
    run_set S EnumSet_as_u8_truncated [h, EnumSet.as_num_truncated]
  · have h := fun env a => S.to_num k env .u16 a; simp only [NumTy.name, String.reduceAppend] at h
    run_set S EnumSet_as_u16_truncated [h, EnumSet.as_num_truncated]
  · have h := fun env a => S.to_num k env .u32 a; simp only [NumTy.name, String.reduceAppend] at h
    run_set S EnumSet_as_u32_truncated [h, EnumSet.as_num_truncated]
  · have h := fun env a => S.to_num k env .u64 a; simp only [NumTy.name, String.reduceAppend] at h
    run_set S EnumSet_as_u64_truncated [h, EnumSet.as_num_truncated]
  · have h := fun env a => S.to_num k env .u128 a; simp only [NumTy.name, String.reduceAppend] at h
    run_set S EnumSet_as_u128_truncated [h, EnumSet.as_num_truncated]
  · have h := fun env a => S.to_num k env .usize a; simp only [NumTy.name, String.reduceAppend] at h
    run_set S EnumSet_as_usize_truncated [h, EnumSet.as_num_truncated]
set_option maxHeartbeats 1000000 in
theorem C68_as_num (n : NumTy) (s : EnumSet T) :
    P.call (k + 5) "EnumSet" ("as_" ++ NumTy.name n) caller [] [setOf enc s] =
      s.as_num n >>= fun r => .ok (bv n r, []) := by
  cases n
  · have h := fun env s => C68_try_as_num S k env .u8 s; simp only [NumTy.name, String.reduceAppend] at h
    run_set S EnumSet_as_u8 [h, EnumSet.as_num]
  · have h := fun env s => C68_try_as_num S k env .u16 s; simp only [NumTy.name, String.reduceAppend] at h
    run_set S EnumSet_as_u16 [h, EnumSet.as_num]
  · have h := fun env s => C68_try_as_num S k env .u32 s; simp only [NumTy.name, String.reduceAppend] at h
    run_set S EnumSet_as_u32 [h, EnumSet.as_num]
  · have h := fun env s => C68_try_as_num S k env .u64 s; simp only [NumTy.name, String.reduceAppend] at h
    run_set S EnumSet_as_u64 [h, EnumSet.as_num]
  · have h := fun env s => C68_try_as_num S k env .u128 s; simp only [NumTy.name, String.reduceAppend] at h
    run_set S EnumSet_as_u128 [h, EnumSet.as_num]
  · have h := fun env s => C68_try_as_num S k env .usize s; simp only [NumTy.name, String.reduceAppend] at h
    run_set S EnumSet_as_usize [h, EnumSet.as_num]
set_option maxHeartbeats 1000000 in
theorem C68_from_num_unchecked (n : NumTy) (v : BitVec n.bits) :
    P.call (k + 4) "EnumSet" ("from_" ++ NumTy.name n ++ "_unchecked") caller [] [bv n v] =
      EnumSet.from_num_unchecked n v >>= fun r => .ok (setOf (T := T) enc r, []) := by
  cases n
  · have h := fun env v => S.from_num k env .u8 v; simp only [NumTy.name, String.reduceAppend] at h
    run_set S EnumSet_from_u8_unchecked [h, EnumSet.from_num_unchecked]
  · have h := fun env v => S.from_num k env .u16 v; simp only [NumTy.name, String.reduceAppend] at h
    run_set S EnumSet_from_u16_unchecked [h, EnumSet.from_num_unchecked]
  · have h := fun env v => S.from_num k env .u32 v; simp only [NumTy.name, String.reduceAppend] at h
    run_set S EnumSet_from_u32_unchecked [h, EnumSet.from_num_unchecked]
  · have h := fun env v => S.from_num k env .u64 v; simp only [NumTy.name, String.reduceAppend] at h
    run_set S EnumSet_from_u64_unchecked [h, EnumSet.from_num_unchecked]
  · have h := fun env v => S.from_num k env .u128 v; simp only [NumTy.name, String.reduceAppend] at h
    run_set S EnumSet_from_u128_unchecked [h, EnumSet.from_num_unchecked]
  · have h := fun env v => S.from_num k env .usize v; simp only [NumTy.name, String.reduceAppend] at h
    run_set S EnumSet_from_usize_unchecked [h, EnumSet.from_num_unchecked]
end
section
include S E
set_option maxHeartbeats 1000000 in
theorem C68_try_from_num (n : NumTy) (v : BitVec n.bits) :
    P.call (k + 4) "EnumSet" ("try_from_" ++ NumTy.name n) caller [] [bv n v] =
      EnumSet.try_from_num n v >>= fun r => .ok (opt (setOf (T := T) enc) r, []) := by
  cases n
  · have h := fun env v => S.from_num_opt k env .u8 v; simp only [NumTy.name, String.reduceAppend] at h
    run_set S EnumSet_try_from_u8 [h, E.ALL_BITS, E.alias, EnumSet.try_from_num]
    refine bind_congr fun o => ?_
    cases o <;> step_set S [S.and_not, S.is_empty, EnumSet.checkMask]
  · have h := fun env v => S.from_num_opt k env .u16 v; simp only [NumTy.name, String.reduceAppend] at h
    run_set S EnumSet_try_from_u16 [h, E.ALL_BITS, E.alias, EnumSet.try_from_num]
    refine bind_congr fun o => ?_
    cases o <;> step_set S [S.and_not, S.is_empty, EnumSet.checkMask]
  · have h := fun env v => S.from_num_opt k env .u32 v; simp only [NumTy.name, String.reduceAppend] at h
    run_set S EnumSet_try_from_u32 [h, E.ALL_BITS, E.alias, EnumSet.try_from_num]
    refine bind_congr fun o => ?_
    cases o <;> step_set S [S.and_not, S.is_empty, EnumSet.checkMask]
  · have h := fun env v => S.from_num_opt k env .u64 v; simp only [NumTy.name, String.reduceAppend] at h
    run_set S EnumSet_try_from_u64 [h, E.ALL_BITS, E.alias, EnumSet.try_from_num]
    refine bind_congr fun o => ?_
    cases o <;> step_set S [S.and_not, S.is_empty, EnumSet.checkMask]
  · have h := fun env v => S.from_num_opt k env .u128 v; simp only [NumTy.name, String.reduceAppend] at h
    run_set S EnumSet_try_from_u128 [h, E.ALL_BITS, E.alias, EnumSet.try_from_num]
    refine bind_congr fun o => ?_
    cases o <;> step_set S [S.and_not, S.is_empty, EnumSet.checkMask]
  · have h := fun env v => S.from_num_opt k env .usize v; simp only [NumTy.name, String.reduceAppend] at h
    run_set S EnumSet_try_from_usize [h, E.ALL_BITS, E.alias, EnumSet.try_from_num]
    refine bind_congr fun o => ?_
    cases o <;> step_set S [S.and_not, S.is_empty, EnumSet.checkMask]
set_option maxHeartbeats 1000000 in
theorem C68_from_num (n : NumTy) (v : BitVec n.bits) :
    P.call (k + 5) "EnumSet" ("from_" ++ NumTy.name n) caller [] [bv n v] =
      EnumSet.from_num n v >>= fun r => .ok (setOf (T := T) enc r, []) := by
  cases n
  · have h := fun env v => C68_try_from_num S E k env .u8 v; simp only [NumTy.name, String.reduceAppend] at h
    run_set S EnumSet_from_u8 [h, EnumSet.from_num]
  · have h := fun env v => C68_try_from_num S E k env .u16 v; simp only [NumTy.name, String.reduceAppend] at h
    run_set S EnumSet_from_u16 [h, EnumSet.from_num]
  · have h := fun env v => C68_try_from_num S E k env .u32 v; simp only [NumTy.name, String.reduceAppend] at h
    run_set S EnumSet_from_u32 [h, EnumSet.from_num]
  · have h := fun env v => C68_try_from_num S E k env .u64 v; simp only [NumTy.name, String.reduceAppend] at h
    run_set S EnumSet_from_u64 [h, EnumSet.from_num]
  · have h := fun env v => C68_try_from_num S E k env .u128 v; simp only [NumTy.name, String.reduceAppend] at h
    run_set S EnumSet_from_u128 [h, EnumSet.from_num]
  · have h := fun env v => C68_try_from_num S E k env .usize v; simp only [NumTy.name, String.reduceAppend] at h
    run_set S EnumSet_from_usize [h, EnumSet.from_num]
set_option maxHeartbeats 1000000 in
theorem C68_from_num_truncated (n : NumTy) (v : BitVec n.bits) :
    P.call (k + 6) "EnumSet" ("from_" ++ NumTy.name n ++ "_truncated") caller [] [bv n v] =
      EnumSet.from_num_truncated n v >>= fun r => .ok (setOf (T := T) enc r, []) := by
  cases n
  · have h := fun env v => S.from_num (k + 2) env .u8 v; simp only [NumTy.name, String.reduceAppend] at h
    have h2 := fun env s => C68_as_num_truncated S (k + 1) env .u8 s; simp only [NumTy.name, String.reduceAppend] at h2
    run_set S EnumSet_from_u8_truncated [h, h2, C68_all S E, EnumSet.from_num_truncated]
  · have h := fun env v => S.from_num (k + 2) env .u16 v; simp only [NumTy.name, String.reduceAppend] at h
    have h2 := fun env s => C68_as_num_truncated S (k + 1) env .u16 s; simp only [NumTy.name, String.reduceAppend] at h2
    run_set S EnumSet_from_u16_truncated [h, h2, C68_all S E, EnumSet.from_num_truncated]
  · have h := fun env v => S.from_num (k + 2) env .u32 v; simp only [NumTy.name, String.reduceAppend] at h
    have h2 := fun env s => C68_as_num_truncated S (k + 1) env .u32 s; simp only [NumTy.name, String.reduceAppend] at h2
    run_set S EnumSet_from_u32_truncated [h, h2, C68_all S E, EnumSet.from_num_truncated]
  · have h := fun env v => S.from_num (k + 2) env .u64 v; simp only [NumTy.name, String.reduceAppend] at h
    have h2 := fun env s => C68_as_num_truncated S (k + 1) env .u64 s; simp only [NumTy.name, String.reduceAppend] at h2
    run_set S EnumSet_from_u64_truncated [h, h2, C68_all S E, EnumSet.from_num_truncated]
  · have h := fun env v => S.from_num (k + 2) env .u128 v; simp only [NumTy.name, String.reduceAppend] at h
    have h2 := fun env s => C68_as_num_truncated S (k + 1) env .u128 s; simp only [NumTy.name, String.reduceAppend] at h2
    run_set S EnumSet_from_u128_truncated [h, h2, C68_all S E, EnumSet.from_num_truncated]
  · have h := fun env v => S.from_num (k + 2) env .usize v; simp only [NumTy.name, String.reduceAppend] at h
    have h2 := fun env s => C68_as_num_truncated S (k + 1) env .usize s; simp only [NumTy.name, String.reduceAppend] at h2
    run_set S EnumSet_from_usize_truncated [h, h2, C68_all S E, EnumSet.from_num_truncated]
end
end agreement
end Enumset.Src
