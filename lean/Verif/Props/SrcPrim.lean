import Verif.Src.Lemmas
import Verif.Props.Examples
/-!
# C66: the source text of `primitive.rs` and the model

For every function of `enumset/src/repr/primitive.rs`: running its text (`Verif/Src/PrimitiveRs.lean`, as
parsed from the repository) in the interpreter (`Verif/Src/Sem.lean`) has the outcome of the function of
the model (`Verif/Primitive.lean`).  `t` is the integer type `prim!` is invoked for, `P` the program
around it, `k` any number of further levels of linking, `caller` the variables of the caller.
-/
set_option autoImplicit false
set_option linter.unusedSectionVars false
set_option linter.unusedSimpArgs false

namespace Enumset.Src
open PrimitiveRs

section agreement
variable {H : Type} [Platform] (P : Prog H) (k : Nat) (caller : Env H) {t : NumTy}

/-- A `PrimitiveIter`. -/
def primIterOf (t : NumTy) (x : BitVec t.bits) : Val H := .struct "PrimitiveIter" [("0", bv t x)]

/-- `prim!` is not invoked for `usize`. -/
theorem prim_fnDecl {f : String} {d : FnDecl} (ht : t ≠ .usize)
    (h : PrimitiveRs.file.fns.lookup ("$name", f) = some d) : fnDecl (NumTy.name t) f = some d := by
  unfold fnDecl
  cases t <;> first | exact h | contradiction

/-- Run a function of `primitive.rs`. -/
macro "run_prim" d:ident h:ident "[" ls:Lean.Parser.Tactic.simpLemma,* "]" : tactic =>
  `(tactic| (rw [call_of (d := $d) (prim_fnDecl $h rfl), bound]
             run [$d:ident, extra_prim _ _ $h, $ls,*]))

theorem C66_lo (ht : t ≠ .usize) (x : BitVec t.bits) :
    P.call (k + 1) (NumTy.name t) "lo" caller [] [bv t x] = .ok (word (prim.lo x), []) := by
  run_prim prim_lo ht []
  rfl
theorem C66_hi (ht : t ≠ .usize) (x : BitVec t.bits) :
    P.call (k + 1) (NumTy.name t) "hi" caller [] [bv t x] = .ok (word (prim.hi x), []) := by
  run_prim prim_hi ht []
  rfl
theorem C66_PREFERRED_ARRAY_LEN (ht : t ≠ .usize) :
    P.call (k + 1) (NumTy.name t) "PREFERRED_ARRAY_LEN" caller [] [] =
      .ok (.int .usize (pal t), []) := by
  run_prim prim_PREFERRED_ARRAY_LEN ht []
theorem C66_WIDTH (ht : t ≠ .usize) :
    P.call (k + 1) (NumTy.name t) "WIDTH" caller [] [] =
      .ok (.int .u32 t.bits, []) := by
  run_prim prim_WIDTH ht []
theorem C66_EMPTY (ht : t ≠ .usize) :
    P.call (k + 1) (NumTy.name t) "EMPTY" caller [] [] =
      .ok (bv t 0, []) := by
  run_prim prim_EMPTY ht [bv]
theorem C66_is_empty (ht : t ≠ .usize) (x : BitVec t.bits) :
    P.call (k + 1) (NumTy.name t) "is_empty" caller [] [bv t x] = .ok (.bool (prim.is_empty x), []) := by
  run_prim prim_is_empty ht []
  rfl
theorem C66_add_bit (ht : t ≠ .usize) (x : BitVec t.bits) (b : Nat) :
    P.call (k + 1) (NumTy.name t) "add_bit" caller [] [bv t x, .int .u32 b] =
      prim.add_bit x b >>= fun r => .ok (.unit, [(0, bv t r)]) := by
  run_prim prim_add_bit ht [prim.add_bit]
theorem C66_remove_bit (ht : t ≠ .usize) (x : BitVec t.bits) (b : Nat) :
    P.call (k + 1) (NumTy.name t) "remove_bit" caller [] [bv t x, .int .u32 b] =
      prim.remove_bit x b >>= fun r => .ok (.unit, [(0, bv t r)]) := by
  run_prim prim_remove_bit ht [prim.remove_bit]
theorem C66_has_bit (ht : t ≠ .usize) (x : BitVec t.bits) (b : Nat) :
    P.call (k + 1) (NumTy.name t) "has_bit" caller [] [bv t x, .int .u32 b] =
      prim.has_bit x b >>= fun r => .ok (.bool r, []) := by
  run_prim prim_has_bit ht [prim.has_bit]
theorem C66_count_ones (ht : t ≠ .usize) (x : BitVec t.bits) :
    P.call (k + 1) (NumTy.name t) "count_ones" caller [] [bv t x] =
      .ok (.int .u32 (prim.count_ones x), []) := by
  run_prim prim_count_ones ht [prim.count_ones]
theorem C66_leading_zeros (ht : t ≠ .usize) (x : BitVec t.bits) :
    P.call (k + 1) (NumTy.name t) "leading_zeros" caller [] [bv t x] =
      .ok (.int .u32 (prim.leading_zeros x), []) := by
  run_prim prim_leading_zeros ht [prim.leading_zeros]
theorem C66_trailing_zeros (ht : t ≠ .usize) (x : BitVec t.bits) :
    P.call (k + 1) (NumTy.name t) "trailing_zeros" caller [] [bv t x] =
      .ok (.int .u32 (prim.trailing_zeros x), []) := by
  run_prim prim_trailing_zeros ht [prim.trailing_zeros]
theorem C66_and_not (ht : t ≠ .usize) (x y : BitVec t.bits) :
    P.call (k + 1) (NumTy.name t) "and_not" caller [] [bv t x, bv t y] =
      .ok (bv t (prim.and_not x y), []) := by
  run_prim prim_and_not ht [prim.and_not]
theorem C66_iter (ht : t ≠ .usize) (x : BitVec t.bits) :
    P.call (k + 1) (NumTy.name t) "iter" caller [] [bv t x] =
      .ok (primIterOf t x, []) := by
  run_prim prim_iter ht [primIterOf]

/-- `from_u8` … `from_usize` -/
theorem C66_from_num (ht : t ≠ .usize) (n : NumTy) (v : BitVec n.bits) :
    P.call (k + 1) (NumTy.name t) ("from_" ++ NumTy.name n) caller [] [bv n v] =
      .ok (bv t (prim.from_num n v), []) := by
  cases n
  · run_prim prim_from_u8 ht [prim.from_num]
  · run_prim prim_from_u16 ht [prim.from_num]
  · run_prim prim_from_u32 ht [prim.from_num]
  · run_prim prim_from_u64 ht [prim.from_num]
  · run_prim prim_from_u128 ht [prim.from_num]
  · run_prim prim_from_usize ht [prim.from_num]
/-- `to_u8` … `to_usize` -/
theorem C66_to_num (ht : t ≠ .usize) (n : NumTy) (x : BitVec t.bits) :
    P.call (k + 1) (NumTy.name t) ("to_" ++ NumTy.name n) caller [] [bv t x] =
      .ok (bv n (prim.to_num n x), []) := by
  cases n
  · run_prim prim_to_u8 ht [prim.to_num]
  · run_prim prim_to_u16 ht [prim.to_num]
  · run_prim prim_to_u32 ht [prim.to_num]
  · run_prim prim_to_u64 ht [prim.to_num]; rfl
  · run_prim prim_to_u128 ht [prim.to_num]; rfl
  · run_prim prim_to_usize ht [prim.to_num]
/-- `from_u8_opt` … `from_usize_opt` -/
theorem C66_from_num_opt (ht : t ≠ .usize) (n : NumTy) (v : BitVec n.bits) :
    P.call (k + 1) (NumTy.name t) ("from_" ++ NumTy.name n ++ "_opt") caller [] [bv n v] =
      .ok (opt (bv t) (prim.from_num_opt n v), []) := by
  cases n
  · run_prim prim_from_u8_opt ht [prim.from_num_opt]
  · run_prim prim_from_u16_opt ht [prim.from_num_opt]
  · run_prim prim_from_u32_opt ht [prim.from_num_opt]
  · run_prim prim_from_u64_opt ht [prim.from_num_opt]
  · run_prim prim_from_u128_opt ht [prim.from_num_opt]
  · run_prim prim_from_usize_opt ht [prim.from_num_opt]
/-- `to_u8_opt` … `to_usize_opt` -/
theorem C66_to_num_opt (ht : t ≠ .usize) (n : NumTy) (x : BitVec t.bits) :
    P.call (k + 1) (NumTy.name t) ("to_" ++ NumTy.name n ++ "_opt") caller [] [bv t x] =
      .ok (opt (bv n) (prim.to_num_opt n x), []) := by
  cases n
  · run_prim prim_to_u8_opt ht [prim.to_num_opt]
  · run_prim prim_to_u16_opt ht [prim.to_num_opt]
  · run_prim prim_to_u32_opt ht [prim.to_num_opt]
  · run_prim prim_to_u64_opt ht [prim.to_num_opt]
  · run_prim prim_to_u128_opt ht [prim.to_num_opt]
  · run_prim prim_to_usize_opt ht [prim.to_num_opt]

/-- `from_u64`, on a word -/
theorem prim_from_word (ht : t ≠ .usize) (v : U64) :
    P.call (k + 1) (NumTy.name t) "from_u64" caller [] [word v] = .ok (bv t (castBV t.bits v), []) :=
  C66_from_num P k caller ht .u64 v
theorem prim_from_quad (ht : t ≠ .usize) (v : U128) :
    P.call (k + 1) (NumTy.name t) "from_u128" caller [] [quad v] = .ok (bv t (castBV t.bits v), []) :=
  C66_from_num P k caller ht .u128 v
theorem prim_from_word_opt (ht : t ≠ .usize) (v : U64) :
    P.call (k + 1) (NumTy.name t) "from_u64_opt" caller [] [word v] =
      .ok (opt (bv t) (tryInto t.bits v), []) :=
  C66_from_num_opt P k caller ht .u64 v
theorem prim_from_quad_opt (ht : t ≠ .usize) (v : U128) :
    P.call (k + 1) (NumTy.name t) "from_u128_opt" caller [] [quad v] =
      .ok (opt (bv t) (tryInto t.bits v), []) :=
  C66_from_num_opt P k caller ht .u128 v

theorem C66_to_u64_array (ht : t ≠ .usize) (O : Nat) (x : BitVec t.bits) :
    P.call (k + 2) (NumTy.name t) "to_u64_array" caller [.int .usize O] [bv t x] =
      prim.to_u64_array (pal t) O x >>= fun a => .ok (vec a, []) := by
  run_prim prim_to_u64_array ht [prim.to_u64_array, C66_lo _ _ _ ht, C66_hi _ _ _ ht]
/-- The length of the result may also be taken from the caller. -/
theorem C66_to_u64_array_inferred (ht : t ≠ .usize) (O : Nat) (x : BitVec t.bits)
    (hO : lookup "O" caller = some (.int .usize O)) :
    P.call (k + 2) (NumTy.name t) "to_u64_array" caller [] [bv t x] =
      prim.to_u64_array (pal t) O x >>= fun a => .ok (vec a, []) := by
  run_prim prim_to_u64_array ht [prim.to_u64_array, C66_lo _ _ _ ht, C66_hi _ _ _ ht, inferGen_bv, hO]
theorem C66_to_u64_array_opt (ht : t ≠ .usize) (O : Nat) (x : BitVec t.bits) :
    P.call (k + 3) (NumTy.name t) "to_u64_array_opt" caller [.int .usize O] [bv t x] =
      prim.to_u64_array_opt (pal t) O x >>= fun a => .ok (opt vec a, []) := by
  run_prim prim_to_u64_array_opt ht [prim.to_u64_array_opt, C66_hi _ _ _ ht,
    C66_to_u64_array_inferred _ _ _ ht O]
  by_cases h0 : O = 0
  · subst h0
    by_cases hx : x = 0#t.bits <;> simp [hx]
  · by_cases h1 : O = 1 <;> by_cases hx : prim.hi x = 0#64 <;> simp [h0, h1, hx]
theorem C66_from_u64_array (ht : t ≠ .usize) (O : Nat) (v : Vector U64 O) :
    P.call (k + 2) (NumTy.name t) "from_u64_array" caller [] [vec v] =
      prim.from_u64_array (pal t) O v >>= fun a => .ok (bv t a, []) := by
  run_prim prim_from_u64_array ht [prim.from_u64_array, prim_from_word _ _ _ ht, prim_from_quad _ _ _ ht]
theorem C66_from_u64_array_opt (ht : t ≠ .usize) (O : Nat) (v : Vector U64 O) :
    P.call (k + 2) (NumTy.name t) "from_u64_array_opt" caller [] [vec v] =
      prim.from_u64_array_opt O v >>= fun a => .ok (opt (bv t) a, []) := by
  run_prim prim_from_u64_array_opt ht [prim.from_u64_array_opt, prim_from_word_opt _ _ _ ht,
    prim_from_quad_opt _ _ _ ht]
  refine ite_congr rfl (fun _ => rfl) (fun _ => ite_congr rfl (fun _ => rfl) (fun _ => ?_))
  simp only [Out.restore, bind_assoc]
  refine loop_ret_sim (ρ := Option (BitVec t.bits)) (fun _ : Unit => [("v", vec v), ("O", .int .usize O), 
    ("$width", .lit t.bits), ("$preferred_array_len", .lit (pal t))]) (opt (bv t)) rfl ?_ ?_ ?_
  · intro i s
    run []
    refine bind_congr fun w => ?_
    split <;> simp
  · intro r s
    run []
  · intro s
    run [prim_from_quad_opt _ _ _ ht]
theorem C66_to_u64_slice (ht : t ≠ .usize) (x : BitVec t.bits) (out : List U64) :
    P.call (k + 2) (NumTy.name t) "to_u64_slice" caller [] [bv t x, words out] =
      prim.to_u64_slice (pal t) x out >>= fun out => .ok (.unit, [(1, words out)]) := by
  run_prim prim_to_u64_slice ht [prim.to_u64_slice, C66_lo _ _ _ ht, C66_hi _ _ _ ht]
  refine ite_congr rfl (fun _ => bind_congr fun _ => ?_) (fun _ => ?_)
  all_goals refine ite_congr rfl (fun _ => bind_congr fun _ => ?_) (fun _ => ?_)
  all_goals
    refine loop_tail_sim (fun out : List U64 => [("self", bv t x), ("out", words out),
      ("$width", .lit t.bits), ("$preferred_array_len", .lit (pal t))]) rfl ?_ ?_
    · intro i s
      run []
    · intro s
      run []
theorem C66_to_u64_slice_opt (ht : t ≠ .usize) (x : BitVec t.bits) (out : List U64) :
    P.call (k + 3) (NumTy.name t) "to_u64_slice_opt" caller [] [bv t x, words out] =
      prim.to_u64_slice_opt (pal t) x out >>= fun r =>
        .ok (opt (fun _ => .unit) r.1, [(1, words r.2)]) := by
  run_prim prim_to_u64_slice_opt ht [prim.to_u64_slice_opt, C66_hi _ _ _ ht,
    C66_to_u64_slice _ _ _ ht]
  by_cases h0 : out.length = 0
  · have h0 := List.length_eq_zero_iff.1 h0
    by_cases hx : x = 0#t.bits <;> simp [h0, hx]
  · have h0' : out ≠ [] := fun h => h0 (List.length_eq_zero_iff.2 h)
    by_cases h1 : out.length = 1 <;> by_cases hx : prim.hi x = 0#64 <;> simp [h0', h1, hx]
theorem C66_from_u64_slice (ht : t ≠ .usize) (v : List U64) :
    P.call (k + 2) (NumTy.name t) "from_u64_slice" caller [] [words v] =
      prim.from_u64_slice (pal t) v >>= fun a => .ok (bv t a, []) := by
  run_prim prim_from_u64_slice ht [prim.from_u64_slice, prim_from_word _ _ _ ht, prim_from_quad _ _ _ ht]
theorem C66_from_u64_slice_opt (ht : t ≠ .usize) (v : List U64) :
    P.call (k + 2) (NumTy.name t) "from_u64_slice_opt" caller [] [words v] =
      prim.from_u64_slice_opt v >>= fun a => .ok (opt (bv t) a, []) := by
  run_prim prim_from_u64_slice_opt ht [prim.from_u64_slice_opt, prim_from_word_opt _ _ _ ht,
    prim_from_quad_opt _ _ _ ht]
  refine ite_congr rfl (fun _ => rfl) (fun _ => ite_congr rfl (fun _ => rfl) (fun _ => ?_))
  simp only [Out.restore, bind_assoc]
  refine loop_ret_sim (ρ := Option (BitVec t.bits)) (fun _ : Unit => [("v", words v), 
    ("$width", .lit t.bits), ("$preferred_array_len", .lit (pal t))]) (opt (bv t)) rfl ?_ ?_ ?_
  · intro i s
    run []
    refine bind_congr fun w => ?_
    split <;> simp
  · intro r s
    run []
  · intro s
    run [prim_from_quad_opt _ _ _ ht]

theorem C66_next (ht : t ≠ .usize) (x : BitVec t.bits) :
    P.call (k + 2) "PrimitiveIter" "next" caller [] [primIterOf t x] =
      prim.iter_next x >>= fun r => .ok (opt (.int .u32) r.1, [(0, primIterOf t r.2)]) := by
  rw [call_of (d := PrimitiveIter_next) rfl, bound]
  run [PrimitiveIter_next, extra_primIter, primIterOf, prim.iter_next, prim.trailing_zeros,
    C66_is_empty _ _ _ ht, C66_remove_bit _ _ _ ht]
theorem C66_next_back (ht : t ≠ .usize) (x : BitVec t.bits) :
    P.call (k + 2) "PrimitiveIter" "next_back" caller [] [primIterOf t x] =
      prim.iter_next_back x >>= fun r => .ok (opt (.int .u32) r.1, [(0, primIterOf t r.2)]) := by
  rw [call_of (d := PrimitiveIter_next_back) rfl, bound]
  run [PrimitiveIter_next_back, extra_primIter, primIterOf, prim.iter_next_back, prim.leading_zeros,
    C66_is_empty _ _ _ ht, C66_remove_bit _ _ _ ht, C66_WIDTH _ _ _ ht]
theorem C66_size_hint (x : BitVec t.bits) :
    P.call (k + 2) "PrimitiveIter" "size_hint" caller [] [primIterOf t x] =
      .ok (.tup [.int .usize (prim.iter_size_hint x).1, opt (.int .usize) (prim.iter_size_hint x).2], []) := by
  rw [call_of (d := PrimitiveIter_size_hint) rfl, bound]
  run [PrimitiveIter_size_hint, extra_primIter, primIterOf, prim.iter_size_hint, prim.count_ones]

end agreement

/-! ### Examples: the text run on concrete values -/

/-- The three files with nothing around them. -/
def Ex.prog : Prog Unit where
  base := fun _ _ => none
  fuel := 100
  alias := id
  params := []

open scoped Enumset.Ex

example : Ex.prog.call 1 "u8" "add_bit" [] [] [bv .u8 5#8, .int .u32 3] =
    .ok (.unit, [(0, bv .u8 13#8)]) := by rfl
example : Ex.prog.call 1 "u8" "add_bit" [] [] [bv .u8 5#8, .int .u32 8] = .panic .overflow := by rfl
example : Ex.prog.call 1 "u16" "has_bit" [] [] [bv .u16 0x104#16, .int .u32 8] =
    .ok (.bool true, []) := by rfl
example : Ex.prog.call 1 "u128" "to_u64_opt" [] [] [bv .u128 (1#128 <<< 64)] = .ok (.none, []) := by rfl
example : Ex.prog.call 2 "u128" "to_u64_array" [] [.int .usize 3] [bv .u128 (5#128 <<< 64 ||| 2#128)] =
    .ok (vec #v[2, 5, 0], []) := by rfl
example : Ex.prog.call 2 "u8" "from_u64_slice_opt" [] [] [words [7, 0, 1]] = .ok (.none, []) := by rfl
example : Ex.prog.call 3 "u128" "to_u64_slice_opt" [] [] [bv .u128 (1#128 <<< 64), words [9]] =
    .ok (.none, [(1, words [9])]) := by rfl
example : Ex.prog.call 2 "PrimitiveIter" "next_back" [] [] [primIterOf .u32 0x14#32] =
    .ok (.some (.int .u32 4), [(0, primIterOf .u32 4#32)]) := by rfl

end Enumset.Src
