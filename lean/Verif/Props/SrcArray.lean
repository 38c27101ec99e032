import Verif.Props.SrcPrim
/-!
# C67: the source text of `array.rs` and the model

For every function of `enumset/src/repr/array.rs`: running its text (`Verif/Src/ArrayRs.lean`, as parsed
from the repository) in the interpreter has the outcome of the function of the model
(`Verif/ArrayRepr.lean`).  Functions without a `self` argument take `N` from the caller.
-/
set_option autoImplicit false
set_option linter.unusedSectionVars false
set_option linter.unusedSimpArgs false

namespace Enumset.Src
open ArrayRs

section agreement
variable {H : Type} [Platform] (P : Prog H) (k : Nat) (caller : Env H) {N : Nat}

/-- Run a function of `array.rs`. -/
macro "run_array" d:ident "[" ls:Lean.Parser.Tactic.simpLemma,* "]" : tactic =>
  `(tactic| (rw [call_of (d := $d) rfl, bound]
             run [$d:ident, extra_array, extra_arrayIter, arrayRepr, $ls,*]))

/-! ### `primitive.rs` at `u64` -/

theorem word_add_bit (x : U64) (b : Nat) : P.call (k + 1) "u64" "add_bit" caller [] [word x, .int .u32 b] =
    prim.add_bit x b >>= fun r => .ok (.unit, [(0, word r)]) :=
  C66_add_bit P k caller (t := .u64) (by decide) x b
theorem word_remove_bit (x : U64) (b : Nat) :
    P.call (k + 1) "u64" "remove_bit" caller [] [word x, .int .u32 b] =
      prim.remove_bit x b >>= fun r => .ok (.unit, [(0, word r)]) :=
  C66_remove_bit P k caller (t := .u64) (by decide) x b
theorem word_has_bit (x : U64) (b : Nat) : P.call (k + 1) "u64" "has_bit" caller [] [word x, .int .u32 b] =
    prim.has_bit x b >>= fun r => .ok (.bool r, []) :=
  C66_has_bit P k caller (t := .u64) (by decide) x b
theorem word_to_u8 (x : U64) : P.call (k + 1) "u64" "to_u8" caller [] [word x] =
    .ok (bv .u8 (prim.to_num .u8 x), []) := C66_to_num P k caller (t := .u64) (by decide) .u8 x
theorem word_to_u16 (x : U64) : P.call (k + 1) "u64" "to_u16" caller [] [word x] =
    .ok (bv .u16 (prim.to_num .u16 x), []) := C66_to_num P k caller (t := .u64) (by decide) .u16 x
theorem word_to_u32 (x : U64) : P.call (k + 1) "u64" "to_u32" caller [] [word x] =
    .ok (bv .u32 (prim.to_num .u32 x), []) := C66_to_num P k caller (t := .u64) (by decide) .u32 x
theorem word_to_usize (x : U64) : P.call (k + 1) "u64" "to_usize" caller [] [word x] =
    .ok (bv .usize (prim.to_num .usize x), []) := C66_to_num P k caller (t := .u64) (by decide) .usize x
theorem word_to_u8_opt (x : U64) : P.call (k + 1) "u64" "to_u8_opt" caller [] [word x] =
    .ok (opt (bv .u8) (prim.to_num_opt .u8 x), []) :=
  C66_to_num_opt P k caller (t := .u64) (by decide) .u8 x
theorem word_to_u16_opt (x : U64) : P.call (k + 1) "u64" "to_u16_opt" caller [] [word x] =
    .ok (opt (bv .u16) (prim.to_num_opt .u16 x), []) :=
  C66_to_num_opt P k caller (t := .u64) (by decide) .u16 x
theorem word_to_u32_opt (x : U64) : P.call (k + 1) "u64" "to_u32_opt" caller [] [word x] =
    .ok (opt (bv .u32) (prim.to_num_opt .u32 x), []) :=
  C66_to_num_opt P k caller (t := .u64) (by decide) .u32 x
theorem word_to_usize_opt (x : U64) : P.call (k + 1) "u64" "to_usize_opt" caller [] [word x] =
    .ok (opt (bv .usize) (prim.to_num_opt .usize x), []) :=
  C66_to_num_opt P k caller (t := .u64) (by decide) .usize x
theorem word_next (x : U64) :
    P.call (k + 2) "PrimitiveIter" "next" caller [] [.struct "PrimitiveIter" [("0", word x)]] =
      prim.iter_next x >>= fun r =>
        .ok (opt (.int .u32) r.1, [(0, .struct "PrimitiveIter" [("0", word r.2)])]) :=
  C66_next P k caller (t := .u64) (by decide) x
theorem word_next_back (x : U64) :
    P.call (k + 2) "PrimitiveIter" "next_back" caller [] [.struct "PrimitiveIter" [("0", word x)]] =
      prim.iter_next_back x >>= fun r =>
        .ok (opt (.int .u32) r.1, [(0, .struct "PrimitiveIter" [("0", word r.2)])]) :=
  C66_next_back P k caller (t := .u64) (by decide) x

/-! ### operators -/

theorem C67_bitand (a b : ArrayRepr N) :
    P.call (k + 1) "ArrayRepr" "bitand" caller [] [arrayRepr a, arrayRepr b] =
      a.bitand b >>= fun r => .ok (arrayRepr r, []) := by
  run_array ArrayRepr_bitand []
  refine loop_sim (fun s : ArrayRepr N => [("self", arrayRepr s), ("rhs", arrayRepr b),
    ("N", .int .usize N)]) rfl ?_ ?_
  · intro i s; run [arrayRepr]
  · intro s; run [arrayRepr]
theorem C67_bitor (a b : ArrayRepr N) :
    P.call (k + 1) "ArrayRepr" "bitor" caller [] [arrayRepr a, arrayRepr b] =
      a.bitor b >>= fun r => .ok (arrayRepr r, []) := by
  run_array ArrayRepr_bitor []
  refine loop_sim (fun s : ArrayRepr N => [("self", arrayRepr s), ("rhs", arrayRepr b),
    ("N", .int .usize N)]) rfl ?_ ?_
  · intro i s; run [arrayRepr]
  · intro s; run [arrayRepr]
theorem C67_bitxor (a b : ArrayRepr N) :
    P.call (k + 1) "ArrayRepr" "bitxor" caller [] [arrayRepr a, arrayRepr b] =
      a.bitxor b >>= fun r => .ok (arrayRepr r, []) := by
  run_array ArrayRepr_bitxor []
  refine loop_sim (fun s : ArrayRepr N => [("self", arrayRepr s), ("rhs", arrayRepr b),
    ("N", .int .usize N)]) rfl ?_ ?_
  · intro i s; run [arrayRepr]
  · intro s; run [arrayRepr]
theorem C67_not (a : ArrayRepr N) :
    P.call (k + 1) "ArrayRepr" "not" caller [] [arrayRepr a] =
      a.not >>= fun r => .ok (arrayRepr r, []) := by
  run_array ArrayRepr_not []
  refine loop_sim (fun s : ArrayRepr N => [("self", arrayRepr s), ("N", .int .usize N)]) rfl ?_ ?_
  · intro i s; run [arrayRepr]
  · intro s; run [arrayRepr]

/-! ### constants and bits -/

theorem C67_PREFERRED_ARRAY_LEN (hN : lookup "N" caller = some (.int .usize N)) :
    P.call (k + 1) "ArrayRepr" "PREFERRED_ARRAY_LEN" caller [] [] = .ok (.int .usize N, []) := by
  run_array ArrayRepr_PREFERRED_ARRAY_LEN [hN]
/-- In Rust a `WIDTH` that does not fit a `u32` is a compile error. -/
theorem C67_WIDTH (hN : lookup "N" caller = some (.int .usize N)) (hw : N * 64 < 2 ^ 32) :
    P.call (k + 1) "ArrayRepr" "WIDTH" caller [] [] = .ok (.int .u32 (ArrayRepr.WIDTH N), []) := by
  have h : N % 2 ^ 32 = N := Nat.mod_eq_of_lt (by omega)
  run_array ArrayRepr_WIDTH [hN]
  simp [ArrayRepr.WIDTH, castW, mulW, h, hw, Nat.mod_eq_of_lt hw]
theorem C67_EMPTY (hN : lookup "N" caller = some (.int .usize N)) :
    P.call (k + 1) "ArrayRepr" "EMPTY" caller [] [] =
      .ok (arrayRepr (ArrayRepr.EMPTY : ArrayRepr N), []) := by
  run_array ArrayRepr_EMPTY [hN, ArrayRepr.EMPTY]
theorem C67_split_bit (b : Nat) :
    P.call (k + 1) "ArrayRepr" "split_bit" caller [] [.int .u32 b] =
      .ok (.tup [.int .usize (ArrayRepr.split_bit b).1, .int .u32 (ArrayRepr.split_bit b).2], []) := by
  rcases h : lookup "N" caller with _ | n
  · run_array ArrayRepr_split_bit [h, ArrayRepr.split_bit]
  · run_array ArrayRepr_split_bit [h, ArrayRepr.split_bit]
theorem C67_is_empty (a : ArrayRepr N) :
    P.call (k + 1) "ArrayRepr" "is_empty" caller [] [arrayRepr a] = .ok (.bool a.is_empty, []) := by
  run_array ArrayRepr_is_empty []
  rw [all_words (p := fun x => x == 0)]
  · run [ArrayRepr.is_empty]
  · intro x; run []
theorem C67_add_bit (a : ArrayRepr N) (b : Nat) :
    P.call (k + 2) "ArrayRepr" "add_bit" caller [] [arrayRepr a, .int .u32 b] =
      a.add_bit b >>= fun r => .ok (.unit, [(0, arrayRepr r)]) := by
  run_array ArrayRepr_add_bit [C67_split_bit, word_add_bit, ArrayRepr.add_bit]
theorem C67_remove_bit (a : ArrayRepr N) (b : Nat) :
    P.call (k + 2) "ArrayRepr" "remove_bit" caller [] [arrayRepr a, .int .u32 b] =
      a.remove_bit b >>= fun r => .ok (.unit, [(0, arrayRepr r)]) := by
  run_array ArrayRepr_remove_bit [C67_split_bit, word_remove_bit, ArrayRepr.remove_bit]
theorem C67_has_bit (a : ArrayRepr N) (b : Nat) :
    P.call (k + 2) "ArrayRepr" "has_bit" caller [] [arrayRepr a, .int .u32 b] =
      a.has_bit b >>= fun r => .ok (.bool r, []) := by
  run_array ArrayRepr_has_bit [C67_split_bit, word_has_bit, ArrayRepr.has_bit]
theorem C67_count_ones (a : ArrayRepr N) :
    P.call (k + 1) "ArrayRepr" "count_ones" caller [] [arrayRepr a] =
      a.count_ones >>= fun n => .ok (.int .u32 n, []) := by
  run_array ArrayRepr_count_ones []
  rw [map_words (g := fun x => .int .u32 (countOnes x))]
  · run [ArrayRepr.count_ones, sum_u32, prim.count_ones]
  · intro x; run []

/-- The loops over the words with an early return. -/
theorem C67_leading_zeros (a : ArrayRepr N) (hw : N * 64 < 2 ^ 32) :
    P.call (k + 2) "ArrayRepr" "leading_zeros" caller [] [arrayRepr a] =
      a.leading_zeros >>= fun n => .ok (.int .u32 n, []) := by
  run_array ArrayRepr_leading_zeros [ArrayRepr.leading_zeros]
  simp only [← List.map_reverse]
  refine loop_ret_sim (ρ := Nat) (fun n : Nat => [("accum", .int .u32 n), ("self", arrayRepr a),
    ("N", .int .usize N)]) (.int .u32) rfl ?_ ?_ ?_
  · intro i s
    run [arrayRepr, prim.leading_zeros]
    refine bind_congr_ok fun x hx => ?_
    simp [hx]
  · intro r s
    run [arrayRepr]
  · intro s
    run [arrayRepr, C67_WIDTH _ _ _ (N := N) _ hw]
theorem C67_trailing_zeros (a : ArrayRepr N) (hw : N * 64 < 2 ^ 32) :
    P.call (k + 2) "ArrayRepr" "trailing_zeros" caller [] [arrayRepr a] =
      a.trailing_zeros >>= fun n => .ok (.int .u32 n, []) := by
  run_array ArrayRepr_trailing_zeros [ArrayRepr.trailing_zeros]
  refine loop_ret_sim (ρ := Nat) (fun n : Nat => [("accum", .int .u32 n), ("self", arrayRepr a),
    ("N", .int .usize N)]) (.int .u32) rfl ?_ ?_ ?_
  · intro i s
    run [arrayRepr, prim.trailing_zeros]
    refine bind_congr_ok fun x hx => ?_
    simp [hx]
  · intro r s
    run [arrayRepr]
  · intro s
    run [arrayRepr, C67_WIDTH _ _ _ (N := N) _ hw]
theorem C67_and_not (a b : ArrayRepr N) :
    P.call (k + 1) "ArrayRepr" "and_not" caller [] [arrayRepr a, arrayRepr b] =
      a.and_not b >>= fun r => .ok (arrayRepr r, []) := by
  run_array ArrayRepr_and_not []
  refine loop_sim (fun s : ArrayRepr N => [("new", arrayRepr s), ("self", arrayRepr a),
    ("other", arrayRepr b), ("N", .int .usize N)]) rfl ?_ ?_
  · intro i s; run [arrayRepr]
  · intro s; run [arrayRepr]

/-! ### conversions -/

section
variable (hN : lookup "N" caller = some (.int .usize N))
include hN

theorem array_from_word (v : U64) :
    P.call (k + 1) "ArrayRepr" "from_u64" caller [] [word v] =
      (ArrayRepr.from_u64 v : Res (ArrayRepr N)) >>= fun r => .ok (arrayRepr r, []) := by
  run_array ArrayRepr_from_u64 [hN, ArrayRepr.from_u64]
theorem array_from_quad (v : U128) :
    P.call (k + 1) "ArrayRepr" "from_u128" caller [] [quad v] =
      (ArrayRepr.from_u128 v : Res (ArrayRepr N)) >>= fun r => .ok (arrayRepr r, []) := by
  run_array ArrayRepr_from_u128 [hN, ArrayRepr.from_u128]
/-- `from_u8` … `from_usize` -/
theorem C67_from_num (n : NumTy) (v : BitVec n.bits) :
    P.call (k + 2) "ArrayRepr" ("from_" ++ NumTy.name n) caller [] [bv n v] =
      (ArrayRepr.from_num n v : Res (ArrayRepr N)) >>= fun r => .ok (arrayRepr r, []) := by
  cases n
  · run_array ArrayRepr_from_u8 [hN, ArrayRepr.from_num, array_from_word _ _ _ (N := N)]
  · run_array ArrayRepr_from_u16 [hN, ArrayRepr.from_num, array_from_word _ _ _ (N := N)]
  · run_array ArrayRepr_from_u32 [hN, ArrayRepr.from_num, array_from_word _ _ _ (N := N)]
  · exact array_from_word P (k + 1) caller hN v
  · exact array_from_quad P (k + 1) caller hN v
  · run_array ArrayRepr_from_usize [hN, ArrayRepr.from_num, array_from_word _ _ _ (N := N)]
/-- `from_u8_opt` … `from_usize_opt` -/
theorem C67_from_num_opt (n : NumTy) (v : BitVec n.bits) :
    P.call (k + 3) "ArrayRepr" ("from_" ++ NumTy.name n ++ "_opt") caller [] [bv n v] =
      (ArrayRepr.from_num_opt n v : Res (Option (ArrayRepr N))) >>= fun r =>
        .ok (opt arrayRepr r, []) := by
  cases n
  · have h := fun env hN => C67_from_num P k env (N := N) hN .u8 v
    simp only [show "from_" ++ NumTy.name .u8 = "from_u8" from rfl] at h
    run_array ArrayRepr_from_u8_opt [hN, ArrayRepr.from_num_opt, h]
  · have h := fun env hN => C67_from_num P k env (N := N) hN .u16 v
    simp only [show "from_" ++ NumTy.name .u16 = "from_u16" from rfl] at h
    run_array ArrayRepr_from_u16_opt [hN, ArrayRepr.from_num_opt, h]
  · have h := fun env hN => C67_from_num P k env (N := N) hN .u32 v
    simp only [show "from_" ++ NumTy.name .u32 = "from_u32" from rfl] at h
    run_array ArrayRepr_from_u32_opt [hN, ArrayRepr.from_num_opt, h]
  · have h := fun env hN => C67_from_num P k env (N := N) hN .u64 v
    simp only [show "from_" ++ NumTy.name .u64 = "from_u64" from rfl] at h
    run_array ArrayRepr_from_u64_opt [hN, ArrayRepr.from_num_opt, h]
  · revert v
    intro (v : U128)
    change P.call (k + 3) "ArrayRepr" "from_u128_opt" caller [] [quad v] = _
    run_array ArrayRepr_from_u128_opt [hN, ArrayRepr.from_num_opt, ArrayRepr.from_u128_opt,
      array_from_quad _ _ _ (N := N)]
    by_cases h1 : N = 1 <;> by_cases h2 : v >>> 64 = 0#128 <;> simp [h1, h2]
  · have h := fun env hN => C67_from_num P k env (N := N) hN .usize v
    simp only [show "from_" ++ NumTy.name .usize = "from_usize" from rfl] at h
    run_array ArrayRepr_from_usize_opt [hN, ArrayRepr.from_num_opt, h]
end

theorem array_to_word (a : ArrayRepr N) :
    P.call (k + 1) "ArrayRepr" "to_u64" caller [] [arrayRepr a] =
      a.to_u64 >>= fun r => .ok (word r, []) := by
  run_array ArrayRepr_to_u64 [ArrayRepr.to_u64]
theorem array_to_quad (a : ArrayRepr N) :
    P.call (k + 1) "ArrayRepr" "to_u128" caller [] [arrayRepr a] =
      a.to_u128 >>= fun r => .ok (quad r, []) := by
  have hz : (.int .u128 0 : Val H) = quad 0 := rfl
  run_array ArrayRepr_to_u128 [ArrayRepr.to_u128, hz]
/-- `to_u8` … `to_usize` -/
theorem C67_to_num (n : NumTy) (a : ArrayRepr N) :
    P.call (k + 2) "ArrayRepr" ("to_" ++ NumTy.name n) caller [] [arrayRepr a] =
      ArrayRepr.to_num n a >>= fun r => .ok (bv n r, []) := by
  have h := fun env => array_to_word P k env a
  simp only [arrayRepr] at h
  cases n
  · run_array ArrayRepr_to_u8 [ArrayRepr.to_num, h, word_to_u8]
  · run_array ArrayRepr_to_u16 [ArrayRepr.to_num, h, word_to_u16]
  · run_array ArrayRepr_to_u32 [ArrayRepr.to_num, h, word_to_u32]
  · exact array_to_word P (k + 1) caller a
  · exact array_to_quad P (k + 1) caller a
  · run_array ArrayRepr_to_usize [ArrayRepr.to_num, h, word_to_usize]

theorem array_to_word_opt (a : ArrayRepr N) :
    P.call (k + 2) "ArrayRepr" "to_u64_opt" caller [] [arrayRepr a] =
      a.to_u64_opt >>= fun r => .ok (opt word r, []) := by
  have h := fun env => array_to_word P k env a
  simp only [arrayRepr] at h
  run_array ArrayRepr_to_u64_opt [ArrayRepr.to_u64_opt, ArrayRepr.zeroFrom]
  refine loop_ret_sim (ρ := Unit) (fun _ : Unit => [("self", arrayRepr a), ("N", .int .usize N)])
    (fun _ => .none) rfl ?_ ?_ ?_
  · intro i s
    run [arrayRepr]
    refine bind_congr fun x => ?_
    split <;> rfl
  · intro r s
    run [arrayRepr]
  · intro s
    run [arrayRepr, h]
theorem array_to_quad_opt (a : ArrayRepr N) :
    P.call (k + 2) "ArrayRepr" "to_u128_opt" caller [] [arrayRepr a] =
      a.to_u128_opt >>= fun r => .ok (opt quad r, []) := by
  have h := fun env => array_to_quad P k env a
  simp only [arrayRepr] at h
  run_array ArrayRepr_to_u128_opt [ArrayRepr.to_u128_opt, ArrayRepr.zeroFrom]
  refine loop_ret_sim (ρ := Unit) (fun _ : Unit => [("self", arrayRepr a), ("N", .int .usize N)])
    (fun _ => .none) rfl ?_ ?_ ?_
  · intro i s
    run [arrayRepr]
    refine bind_congr fun x => ?_
    split <;> rfl
  · intro r s
    run [arrayRepr]
  · intro s
    run [arrayRepr, h]
/-- `to_u8_opt` … `to_usize_opt` -/
theorem C67_to_num_opt (n : NumTy) (a : ArrayRepr N) :
    P.call (k + 3) "ArrayRepr" ("to_" ++ NumTy.name n ++ "_opt") caller [] [arrayRepr a] =
      ArrayRepr.to_num_opt n a >>= fun r => .ok (opt (bv n) r, []) := by
  have h := fun env => array_to_word_opt P k env a
  simp only [arrayRepr] at h
  cases n
  · run_array ArrayRepr_to_u8_opt [ArrayRepr.to_num_opt, h]
    refine bind_congr fun o => ?_
    cases o <;> run [word_to_u8_opt]
  · run_array ArrayRepr_to_u16_opt [ArrayRepr.to_num_opt, h]
    refine bind_congr fun o => ?_
    cases o <;> run [word_to_u16_opt]
  · run_array ArrayRepr_to_u32_opt [ArrayRepr.to_num_opt, h]
    refine bind_congr fun o => ?_
    cases o <;> run [word_to_u32_opt]
  · exact array_to_word_opt P (k + 1) caller a
  · exact array_to_quad_opt P (k + 1) caller a
  · run_array ArrayRepr_to_usize_opt [ArrayRepr.to_num_opt, h]
    refine bind_congr fun o => ?_
    cases o <;> run [word_to_usize_opt]

theorem C67_to_u64_array (O : Nat) (a : ArrayRepr N) :
    P.call (k + 1) "ArrayRepr" "to_u64_array" caller [.int .usize O] [arrayRepr a] =
      a.to_u64_array O >>= fun r => .ok (vec r, []) := by
  run_array ArrayRepr_to_u64_array [ArrayRepr.to_u64_array]
  rw [copyVV _ _ _ fun x => (x, ([] : List (Nat × Val H)))]
  by_cases h : N < O
  · simp [h, show N ≤ O by omega]
  · simp [h, show O ≤ N by omega]
/-- The length of the result may also be taken from the caller. -/
theorem C67_to_u64_array_inferred (O : Nat) (a : ArrayRepr N)
    (hO : lookup "O" caller = some (.int .usize O)) :
    P.call (k + 1) "ArrayRepr" "to_u64_array" caller [] [arrayRepr a] =
      a.to_u64_array O >>= fun r => .ok (vec r, []) := by
  run_array ArrayRepr_to_u64_array [ArrayRepr.to_u64_array, hO]
  rw [copyVV _ _ _ fun x => (x, ([] : List (Nat × Val H)))]
  by_cases h : N < O
  · simp [h, show N ≤ O by omega]
  · simp [h, show O ≤ N by omega]
theorem C67_to_u64_array_opt (O : Nat) (a : ArrayRepr N) :
    P.call (k + 2) "ArrayRepr" "to_u64_array_opt" caller [.int .usize O] [arrayRepr a] =
      a.to_u64_array_opt O >>= fun r => .ok (opt vec r, []) := by
  have h := fun env hO => C67_to_u64_array_inferred P k env O a hO
  simp only [arrayRepr] at h
  run_array ArrayRepr_to_u64_array_opt [ArrayRepr.to_u64_array_opt, ArrayRepr.zeroFrom, h]
  refine ite_congr rfl (fun _ => ?_) (fun _ => rfl)
  refine loop_ret_restore_sim (ρ := Unit) 3
    (fun _ : Unit => [("self", arrayRepr a), ("O", .int .usize O), ("N", .int .usize N)])
    (fun _ => .none) rfl (fun _ => rfl) ?_ ?_ ?_
  · intro i s
    run [arrayRepr]
    refine bind_congr fun x => ?_
    split <;> rfl
  · intro r s
    run [arrayRepr]
  · intro s
    run [arrayRepr, h]
section
variable (hN : lookup "N" caller = some (.int .usize N))
include hN
theorem C67_from_u64_array (O : Nat) (v : Vector U64 O) :
    P.call (k + 2) "ArrayRepr" "from_u64_array" caller [] [vec v] =
      (ArrayRepr.from_u64_array O v : Res (ArrayRepr N)) >>= fun r => .ok (arrayRepr r, []) := by
  have h := fun env => C67_to_u64_array P k env N ⟨v⟩
  simp only [arrayRepr] at h
  run_array ArrayRepr_from_u64_array [ArrayRepr.from_u64_array, h, hN]
theorem C67_from_u64_array_opt (O : Nat) (v : Vector U64 O) :
    P.call (k + 3) "ArrayRepr" "from_u64_array_opt" caller [] [vec v] =
      (ArrayRepr.from_u64_array_opt O v : Res (Option (ArrayRepr N))) >>= fun r =>
        .ok (opt arrayRepr r, []) := by
  have h := fun env => C67_to_u64_array_opt P k env N ⟨v⟩
  simp only [arrayRepr] at h
  run_array ArrayRepr_from_u64_array_opt [ArrayRepr.from_u64_array_opt, h, hN]
  refine bind_congr fun x => ?_
  cases x <;> run [arrayRepr]
theorem C67_from_u64_slice (v : List U64) :
    P.call (k + 1) "ArrayRepr" "from_u64_slice" caller [] [words v] =
      (ArrayRepr.from_u64_slice v : Res (ArrayRepr N)) >>= fun r => .ok (arrayRepr r, []) := by
  run_array ArrayRepr_from_u64_slice [ArrayRepr.from_u64_slice, hN]
  rw [copyVL _ _ _ fun x => (Val.struct "ArrayRepr" [("0", x)], ([] : List (Nat × Val H)))]
  by_cases h : N < v.length
  · simp [h, show N ≤ v.length by omega]
  · simp [h, show v.length ≤ N by omega]
theorem C67_from_u64_slice_opt (v : List U64) :
    P.call (k + 2) "ArrayRepr" "from_u64_slice_opt" caller [] [words v] =
      (ArrayRepr.from_u64_slice_opt v : Res (Option (ArrayRepr N))) >>= fun r =>
        .ok (opt arrayRepr r, []) := by
  have h := fun env hN => C67_from_u64_slice P k env (N := N) hN v
  simp only [arrayRepr] at h
  run_array ArrayRepr_from_u64_slice_opt [ArrayRepr.from_u64_slice_opt, h, hN]
  refine ite_congr rfl (fun _ => ?_) (fun _ => rfl)
  refine loop_ret_restore_sim (ρ := Unit) 2
    (fun _ : Unit => [("v", words v), ("N", .int .usize N)])
    (fun _ => .none) rfl (fun _ => rfl) ?_ ?_ ?_
  · intro i s
    run []
    refine bind_congr fun x => ?_
    split <;> rfl
  · intro r s
    run []
  · intro s
    run [h, arrayRepr]
end
theorem C67_to_u64_slice (a : ArrayRepr N) (out : List U64) :
    P.call (k + 1) "ArrayRepr" "to_u64_slice" caller [] [arrayRepr a, words out] =
      a.to_u64_slice out >>= fun out => .ok (.unit, [(1, words out)]) := by
  run_array ArrayRepr_to_u64_slice [ArrayRepr.to_u64_slice, copyPrefixLV]
  by_cases h : N < out.length
  · simp only [h, if_true, show N ≤ out.length by omega, show min N out.length = N by omega,
      Nat.le_refl, and_self, Res.ok_bind, List.length_append, List.length_take, List.length_drop,
      Vector.length_toList, Nat.min_self]
    refine loop_tail_sim (fun out : List U64 => [("copy_len", .int .usize N), ("self", arrayRepr a),
      ("out", words out), ("N", .int .usize N)]) rfl ?_ ?_
    · intro i s
      run []
    · intro s
      run []
  · simp only [h, if_false, if_true, show out.length ≤ N by omega, show min out.length N = out.length by omega,
      Nat.le_refl, and_self, Res.ok_bind, List.length_append, List.length_take, List.length_drop,
      Vector.length_toList, Nat.sub_self, List.drop_length, List.append_nil, Nat.add_zero]
    refine loop_tail_sim (fun out' : List U64 => [("copy_len", .int .usize out.length), ("self", arrayRepr a),
      ("out", words out'), ("N", .int .usize N)]) rfl ?_ ?_
    · intro i s
      run []
    · intro s
      run []
theorem C67_to_u64_slice_opt (a : ArrayRepr N) (out : List U64) :
    P.call (k + 2) "ArrayRepr" "to_u64_slice_opt" caller [] [arrayRepr a, words out] =
      a.to_u64_slice_opt out >>= fun r => .ok (opt (fun _ => .unit) r.1, [(1, words r.2)]) := by
  have h := fun env => C67_to_u64_slice P k env a
  simp only [arrayRepr] at h
  run_array ArrayRepr_to_u64_slice_opt [ArrayRepr.to_u64_slice_opt, ArrayRepr.zeroFrom, h]
  refine ite_congr rfl (fun _ => ?_) (fun _ => rfl)
  refine loop_ret_restore_sim (ρ := Unit) 3
    (fun _ : Unit => [("self", arrayRepr a), ("out", words out), ("N", .int .usize N)])
    (fun _ => .none) rfl (fun _ => rfl) ?_ ?_ ?_
  · intro i s
    run [arrayRepr]
    refine bind_congr fun x => ?_
    split <;> rfl
  · intro r s
    run [arrayRepr]
  · intro s
    run [arrayRepr, h]
theorem C67_new (a : ArrayRepr N) :
    P.call (k + 1) "ArrayIter" "new" caller [] [arrayRepr a] =
      ArrayIter.new a >>= fun r => .ok (arrayIter r, []) := by
  run_array ArrayIter_new [ArrayIter.new]
  refine loop_sim (fun new : Vector U64 N => [("new", iters new), ("array", arrayRepr a),
    ("N", .int .usize N)]) rfl ?_ ?_
  · intro i s
    run [arrayRepr]
  · intro s
    run [arrayRepr, arrayIter]
theorem C67_iter (a : ArrayRepr N) :
    P.call (k + 2) "ArrayRepr" "iter" caller [] [arrayRepr a] =
      ArrayIter.new a >>= fun r => .ok (arrayIter r, []) := by
  have h := fun env => C67_new P k env a
  simp only [arrayRepr] at h
  run_array ArrayRepr_iter [h]
theorem C67_size_hint (i : ArrayIter N) :
    P.call (k + 1) "ArrayIter" "size_hint" caller [] [arrayIter i] =
      i.size_hint >>= fun r => .ok (.tup [.int .usize r.1, opt (.int .usize) r.2], []) := by
  run_array ArrayIter_size_hint [ArrayIter.size_hint, arrayIter]
  refine bind_congr fun e => ?_
  refine loop_sim (fun sum : Nat => [("sum", .int .usize sum), ("self", arrayIter i),
    ("N", .int .usize N)]) rfl ?_ ?_
  · intro i s
    run [arrayIter, prim.count_ones]
  · intro s
    run [arrayIter]
theorem nextLoop_fuel (hN : N < 2 ^ usizeBits) (n m : Nat) (i : ArrayIter N)
    (hn : i.idx_r + 1 - i.idx_f < n) (hm : i.idx_r + 1 - i.idx_f < m) :
    ArrayIter.nextLoop n i = ArrayIter.nextLoop m i := by
  induction n generalizing m i with
  | zero => omega
  | succ n ih =>
    cases m with
    | zero => omega
    | succ m =>
      simp only [ArrayIter.nextLoop]
      split
      · rename_i hle
        refine bind_congr_ok fun x hx => bind_congr fun r => bind_congr fun d => ?_
        have hlt : i.idx_f < N := by
          unfold idxV at hx; split at hx
          · assumption
          · cases hx
        cases r.1 with
        | some x => rfl
        | none =>
          have : addW usizeBits i.idx_f 1 = .ok (i.idx_f + 1) := by
            unfold addW; simp; omega
          simp only [this, Res.ok_bind]
          apply ih <;> simp <;> omega
      · rfl
theorem nextBackLoop_fuel (n m : Nat) (i : ArrayIter N)
    (hn : i.idx_r + 1 - i.idx_f < n) (hm : i.idx_r + 1 - i.idx_f < m) :
    ArrayIter.nextBackLoop n i = ArrayIter.nextBackLoop m i := by
  induction n generalizing m i with
  | zero => omega
  | succ n ih =>
    cases m with
    | zero => omega
    | succ m =>
      simp only [ArrayIter.nextBackLoop]
      split
      · rename_i hle
        refine bind_congr_ok fun x hx => bind_congr fun r => bind_congr fun d => ?_
        cases r.1 with
        | some x => rfl
        | none =>
          simp only
          split
          · rfl
          · rename_i h0
            have : subW usizeBits i.idx_r 1 = .ok (i.idx_r - 1) := by
              unfold subW; simp; omega
            simp only [this, Res.ok_bind]
            apply ih <;> simp <;> omega
      · rfl

theorem C67_next (i : ArrayIter N) (hf : i.idx_r + 1 - i.idx_f < P.fuel) (hN : N < 2 ^ usizeBits) :
    P.call (k + 3) "ArrayIter" "next" caller [] [arrayIter i] =
      i.next >>= fun r => .ok (opt (.int .u32) r.1, [(0, arrayIter r.2)]) := by
  rw [ArrayIter.next, nextLoop_fuel hN _ P.fuel i (by omega) hf]
  run_array ArrayIter_next [arrayIter]
  refine ite_congr rfl (fun _ => rfl) (fun _ => ?_)
  refine while_sim (fun i : ArrayIter N => [("self", arrayIter i), ("N", .int .usize N)])
    (fun _ => rfl) ?_ P.fuel i rfl
  intro n s rec hrec
  by_cases hle : s.idx_f ≤ s.idx_r
  · run [unroll, arrayIter, ArrayIter.nextLoop, hle, word_next]
    refine bind_congr fun w => ?_
    refine bind_congr fun r => ?_
    obtain ⟨r, w⟩ := r
    refine bind_congr fun d => ?_
    cases r with
    | some x => run []
    | none =>
      run []
      exact bind_congr fun a => hrec { s with data := d, idx_f := a }
  · run [unroll, arrayIter, ArrayIter.nextLoop, hle]

theorem C67_next_back (i : ArrayIter N) (hf : i.idx_r + 1 - i.idx_f < P.fuel) :
    P.call (k + 3) "ArrayIter" "next_back" caller [] [arrayIter i] =
      i.next_back >>= fun r => .ok (opt (.int .u32) r.1, [(0, arrayIter r.2)]) := by
  rw [ArrayIter.next_back, nextBackLoop_fuel _ P.fuel i (by omega) hf]
  run_array ArrayIter_next_back [arrayIter]
  refine ite_congr rfl (fun _ => rfl) (fun _ => ?_)
  refine while_sim (fun i : ArrayIter N => [("self", arrayIter i), ("N", .int .usize N)])
    (fun _ => rfl) ?_ P.fuel i rfl
  intro n s rec hrec
  by_cases hle : s.idx_f ≤ s.idx_r
  · run [unroll, arrayIter, ArrayIter.nextBackLoop, hle, word_next_back]
    refine bind_congr fun w => ?_
    refine bind_congr fun r => ?_
    obtain ⟨r, w⟩ := r
    refine bind_congr fun d => ?_
    cases r with
    | some x => run []
    | none =>
      run []
      exact ite_congr rfl (fun _ => rfl) (fun _ => bind_congr fun a => hrec { s with data := d, idx_r := a })
  · run [unroll, arrayIter, ArrayIter.nextBackLoop, hle]

end agreement

/-! ### Examples: the text run on concrete values -/

open scoped Enumset.Ex

example : Ex.prog.call 2 "ArrayRepr" "add_bit" [] [] [arrayRepr (⟨#v[5, 0]⟩ : ArrayRepr 2), .int .u32 66] =
    .ok (.unit, [(0, arrayRepr (⟨#v[5, 4]⟩ : ArrayRepr 2))]) := by rfl
example : Ex.prog.call 2 "ArrayRepr" "add_bit" [] [] [arrayRepr (⟨#v[5, 0]⟩ : ArrayRepr 2), .int .u32 128] =
    .panic .index := by rfl
example : Ex.prog.call 1 "ArrayRepr" "bitxor" [] []
    [arrayRepr (⟨#v[5, 1]⟩ : ArrayRepr 2), arrayRepr (⟨#v[4, 2]⟩ : ArrayRepr 2)] =
    .ok (arrayRepr (⟨#v[1, 3]⟩ : ArrayRepr 2), []) := by rfl
example : Ex.prog.call 1 "ArrayRepr" "leading_zeros" [] [] [arrayRepr (⟨#v[5, 0]⟩ : ArrayRepr 2)] =
    .ok (.int .u32 125, []) := by rfl
example : Ex.prog.call 3 "ArrayRepr" "to_u8_opt" [] [] [arrayRepr (⟨#v[5, 1]⟩ : ArrayRepr 2)] =
    .ok (.none, []) := by rfl
example : Ex.prog.call 3 "ArrayRepr" "from_u64_array_opt" [("N", .int .usize 2)] [] [vec #v[5, 1, 0]] =
    .ok (.some (arrayRepr (⟨#v[5, 1]⟩ : ArrayRepr 2)), []) := by rfl
example : Ex.prog.call 1 "ArrayRepr" "to_u64_slice" [] [] [arrayRepr (⟨#v[5, 1]⟩ : ArrayRepr 2), words [7, 7, 7]] =
    .ok (.unit, [(1, words [5, 1, 0])]) := by rfl
/-- The iterator of the bits 2 and 65, taken from the front: the hypotheses of `C67_next` hold. -/
example : (1 + 1 - 0 < Ex.prog.fuel ∧ 2 < 2 ^ usizeBits) ∧
    Ex.prog.call 3 "ArrayIter" "next" [] [] [arrayIter ⟨#v[4, 2], false, 0, 1⟩] =
      .ok (.some (.int .u32 2), [(0, arrayIter ⟨#v[0, 2], false, 0, 1⟩)]) ∧
    Ex.prog.call 3 "ArrayIter" "next" [] [] [arrayIter ⟨#v[0, 2], false, 0, 1⟩] =
      .ok (.some (.int .u32 65), [(0, arrayIter ⟨#v[0, 0], false, 1, 1⟩)]) ∧
    Ex.prog.call 3 "ArrayIter" "next_back" [] [] [arrayIter ⟨#v[4, 0], false, 0, 1⟩] =
      .ok (.some (.int .u32 2), [(0, arrayIter ⟨#v[0, 0], false, 0, 0⟩)]) :=
  ⟨by decide, by rfl, by rfl, by rfl⟩

end Enumset.Src
