import Verif.Props.SrcSetIter
import Verif.Props.SrcSetConv
/-!
# C68: the storage types and the derived enums

The hypotheses of the theorems on set.rs: what the functions of the storage types do, from C66 and C67,
and the items of the derived enums.
-/
set_option autoImplicit false
set_option linter.unusedSectionVars false
set_option linter.unusedSimpArgs false
set_option maxRecDepth 10000

namespace Enumset.Src

section agreement
variable {H : Type} [Platform] {P : Prog H}
/-! ### The storage types -/

open PrimitiveRs ArrayRs

/-- Giving a const parameter explicitly is the same as having it inferred. -/
theorem prim_from_array_consts {t : NumTy} (ht : t ≠ .usize) (k : Nat) (caller : Env H) (O : Nat) (v : Vector U64 O) :
    P.call (k + 1) (NumTy.name t) "from_u64_array_opt" caller [.int .usize O] [vec v] =
      P.call (k + 1) (NumTy.name t) "from_u64_array_opt" caller [] [vec v] := by
  rw [call_of (d := prim_from_u64_array_opt) (prim_fnDecl ht rfl),
    call_of (d := prim_from_u64_array_opt) (prim_fnDecl ht rfl)]
  simp [bound, FnDecl.fn, bindGens, prim_from_u64_array_opt, inferGens, inferGen_vec]
theorem array_from_array_consts (k : Nat) (caller : Env H) (O : Nat) (v : Vector U64 O) :
    P.call (k + 1) "ArrayRepr" "from_u64_array_opt" caller [.int .usize O] [vec v] =
      P.call (k + 1) "ArrayRepr" "from_u64_array_opt" caller [] [vec v] := by
  rw [call_of (d := ArrayRepr_from_u64_array_opt) rfl, call_of (d := ArrayRepr_from_u64_array_opt) rfl]
  simp [bound, FnDecl.fn, bindGens, ArrayRepr_from_u64_array_opt, inferGens, inferGen_vec]
theorem prim_to_array_consts {t : NumTy} (ht : t ≠ .usize) (k : Nat) (caller : Env H) (O : Nat) (x : BitVec t.bits)
    (hO : lookup "O" caller = some (.int .usize O)) :
    P.call (k + 1) (NumTy.name t) "to_u64_array_opt" caller [] [bv t x] =
      P.call (k + 1) (NumTy.name t) "to_u64_array_opt" caller [.int .usize O] [bv t x] := by
  rw [call_of (d := prim_to_u64_array_opt) (prim_fnDecl ht rfl),
    call_of (d := prim_to_u64_array_opt) (prim_fnDecl ht rfl)]
  simp [bound, FnDecl.fn, bindGens, prim_to_u64_array_opt, inferGens, inferGen, inferGen_bv, hO]
theorem array_to_array_consts {N : Nat} (k : Nat) (caller : Env H) (O : Nat) (a : ArrayRepr N)
    (hO : lookup "O" caller = some (.int .usize O)) :
    P.call (k + 1) "ArrayRepr" "to_u64_array_opt" caller [] [arrayRepr a] =
      P.call (k + 1) "ArrayRepr" "to_u64_array_opt" caller [.int .usize O] [arrayRepr a] := by
  rw [call_of (d := ArrayRepr_to_u64_array_opt) rfl, call_of (d := ArrayRepr_to_u64_array_opt) rfl]
  simp [bound, FnDecl.fn, bindGens, ArrayRepr_to_u64_array_opt, inferGens, inferGen, arrayRepr, hO]

theorem prim_other {t : NumTy} {f : String} {fn : Fn H} (k : Nat) (caller : Env H)
    (consts args : List (Val H))
    (h : PrimitiveRs.file.fns.lookup ("$name", f) = none)
    (hd : derivedFn (H := H) derives (NumTy.name t) f = some fn) :
    P.call k (NumTy.name t) f caller consts args = fn caller consts args := by
  have ho : P.other (NumTy.name t) f = some fn := by rw [Prog.other, hd]
  cases k with
  | zero => rw [Prog.call, Prog.link, ho]; rfl
  | succ k =>
    have : fnDecl (NumTy.name t) f = none := by
      cases t <;> first | exact h | rfl
    rw [Prog.call, Prog.link, this]
    show need (P.other (NumTy.name t) f) >>= _ = _
    rw [ho]; rfl

theorem map_ok {α β : Type} (f : α → β) (x : Res α) : (f <$> x) = x >>= fun a => .ok (f a) := by
  cases x <;> rfl
theorem opt_map {α β : Type} (f : β → Val H) (g : α → β) (o : Option α) :
    opt f (o.map g) = opt (fun a => f (g a)) o := by cases o <;> rfl

theorem derived_cmp (t : NumTy) : derivedFn (H := H) derives (NumTy.name t) "cmp" =
    some fun _ _ args => match args with
      | [a, b] => cmpVal (derives · "Ord") a b >>= fun r => .ok (ordering r, [])
      | _ => .ub := by
  cases t <;> rfl
theorem derived_partial_cmp (t : NumTy) : derivedFn (H := H) derives (NumTy.name t) "partial_cmp" =
    some fun _ _ args => match args with
      | [a, b] => cmpVal (derives · "PartialOrd") a b >>= fun r => .ok (.some (ordering r), [])
      | _ => .ub := by
  cases t <;> rfl

/-- A number as storage. -/
theorem C68_storage_prim {t : NumTy} (ht : t ≠ .usize) (ha : P.alias "T::Repr" = NumTy.name t)
    (hp : P.params = []) :
    Storage P (Prim t.bits (pal t)) (fun r => bv t r.v) (primIterOf t) (fun _ => True) where
  params x _ := by rw [hp]; rfl
  adopt e r := adopt_bv e t r.v
  tag r := by rw [ha]; exact tag_bv t r.v
  adoptI e it := by cases e <;> rfl
  okI_iter _ _ _ := trivial
  okI_next _ _ _ _ _ := trivial
  okI_next_back _ _ _ _ _ := trivial
  EMPTY k env _ := by rw [ha]; exact C66_EMPTY P (k + 2) env ht
  PREFERRED_ARRAY_LEN k env _ := by rw [ha]; exact C66_PREFERRED_ARRAY_LEN P (k + 2) env ht
  eq k s a b := by rw [eq_bv]; rfl
  eqVal a b := by
    simp [bv, eqVal, EnumSetTypeRepr.eq]
    rw [Bool.eq_iff_iff]; simp [BitVec.toNat_inj]
  cmp k env a b := by
    rw [ha, prim_other k env _ _ rfl (derived_cmp t)]
    simp [bv, cmpVal, EnumSetTypeRepr.cmp]
  partial_cmp k env a b := by
    rw [ha, prim_other k env _ _ rfl (derived_partial_cmp t)]
    simp [bv, cmpVal, EnumSetTypeRepr.partial_cmp]
  bitand k s a b := by rw [band_bv]; rfl
  bitor k s a b := by rw [bor_bv]; rfl
  bitxor k s a b := by rw [bxor_bv]; rfl
  not k s a := by rw [not_bv]; rfl
  is_empty k env a := by rw [ha]; exact C66_is_empty P (k + 2) env ht a.v
  add_bit k env a b := by
    rw [ha, C66_add_bit P (k + 2) env ht a.v b]
    simp [EnumSetTypeRepr.add_bit, map_ok, bind_assoc]
  remove_bit k env a b := by
    rw [ha, C66_remove_bit P (k + 2) env ht a.v b]
    simp [EnumSetTypeRepr.remove_bit, map_ok, bind_assoc]
  has_bit k env a b := by rw [ha]; exact C66_has_bit P (k + 2) env ht a.v b
  count_ones k s env a := count_ones_bv _ t a.v env
  and_not k env a b := by rw [ha]; exact C66_and_not P (k + 2) env ht a.v b.v
  iter k s env a := by
    rw [method_fn _ (by simp [intrinsic, intrinsics, bv])]
    exact C66_iter P (k + 2) env ht a.v
  next k env it _ := C66_next P (k + 1) env ht it
  next_back k env it _ := C66_next_back P (k + 1) env ht it
  size_hint k env it := C66_size_hint P (k + 1) env it
  from_num k env n v _ := by rw [ha]; exact C66_from_num P (k + 2) env ht n v
  from_num_opt k env n v _ := by
    rw [ha, C66_from_num_opt P (k + 2) env ht n v]
    simp [EnumSetTypeRepr.from_num_opt, opt_map]
  to_num k env n a := by rw [ha]; exact C66_to_num P (k + 2) env ht n a.v
  to_num_opt k env n a := by rw [ha]; exact C66_to_num_opt P (k + 2) env ht n a.v
  to_u64_array k env O a hO := by
    rw [ha]; exact C66_to_u64_array_inferred P (k + 1) env ht O a.v hO
  to_u64_array_opt k env O a hO := by
    rw [ha, prim_to_array_consts ht (k + 2) env O a.v hO]; exact C66_to_u64_array_opt P k env ht O a.v
  from_u64_array k env O v _ := by
    rw [ha, C66_from_u64_array P (k + 1) env ht O v]
    simp [EnumSetTypeRepr.from_u64_array, map_ok, bind_assoc]
  from_u64_array_opt k env O v _ := by
    rw [ha, prim_from_array_consts ht (k + 2) env O v, C66_from_u64_array_opt P (k + 1) env ht O v]
    simp [EnumSetTypeRepr.from_u64_array_opt, map_ok, bind_assoc, opt_map]
  to_u64_slice k env a out := by rw [ha]; exact C66_to_u64_slice P (k + 1) env ht a.v out
  to_u64_slice_opt k env a out := by rw [ha]; exact C66_to_u64_slice_opt P k env ht a.v out
  from_u64_slice k env v _ := by
    rw [ha, C66_from_u64_slice P (k + 1) env ht v]
    simp [EnumSetTypeRepr.from_u64_slice, map_ok, bind_assoc]
  from_u64_slice_opt k env v _ := by
    rw [ha, C66_from_u64_slice_opt P (k + 1) env ht v]
    simp [EnumSetTypeRepr.from_u64_slice_opt, map_ok, bind_assoc, opt_map]

theorem array_other {ty f : String} {fn : Fn H} (k : Nat) (caller : Env H) (consts args : List (Val H))
    (h : fnDecl ty f = none) (hd : derivedFn (H := H) derives ty f = some fn) :
    P.call k ty f caller consts args = fn caller consts args := by
  have ho : P.other ty f = some fn := by rw [Prog.other, hd]
  cases k with
  | zero => rw [Prog.call, Prog.link, ho]; rfl
  | succ k =>
    rw [Prog.call, Prog.link, h]
    show need (P.other ty f) >>= _ = _
    rw [ho]; rfl

theorem eqVals_words (d : String → Bool) (xs ys : List U64) :
    eqVals d (xs.map (word (H := H))) (ys.map word) = .ok (xs == ys) := by
  induction xs generalizing ys with
  | nil => cases ys <;> simp [eqVals]
  | cons x xs ih =>
    cases ys with
    | nil => simp [eqVals]
    | cons y ys =>
      have h : (x.toNat = y.toNat) = (x = y) := by simp [BitVec.toNat_inj]
      by_cases hxy : x = y <;> simp [eqVals, word, bv, eqVal, h, hxy]
      exact ih ys
theorem cmpVals_words (d : String → Bool) (xs ys : List U64) :
    cmpVals d (xs.map (word (H := H))) (ys.map word) = .ok (cmpWords xs ys) := by
  induction xs generalizing ys with
  | nil => cases ys <;> simp [cmpVals, cmpWords]
  | cons x xs ih =>
    cases ys with
    | nil => simp [cmpVals, cmpWords]
    | cons y ys =>
      simp only [List.map_cons, cmpVals, word, bv, cmpVal, cmpWords, if_true, Res.ok_bind]
      cases compare x.toNat y.toNat
      · rfl
      · exact ih ys
      · rfl
theorem partialCmpWords_eq (xs ys : List U64) : partialCmpWords xs ys = some (cmpWords xs ys) := by
  induction xs generalizing ys with
  | nil => cases ys <;> rfl
  | cons x xs ih =>
    cases ys with
    | nil => rfl
    | cons y ys =>
      simp only [partialCmpWords, cmpWords]
      cases compare x.toNat y.toNat
      · rfl
      · exact ih ys
      · rfl

theorem nextLoop_range {N : Nat} (hN : N < 2 ^ usizeBits) (n : Nat) (i : ArrayIter N) {x : Option Nat}
    {j : ArrayIter N} (h : ArrayIter.nextLoop n i = .ok (x, j)) :
    j.idx_r + 1 - j.idx_f ≤ i.idx_r + 1 - i.idx_f := by
  induction n generalizing i with
  | zero => cases h
  | succ n ih =>
    rw [ArrayIter.nextLoop] at h
    split at h
    · by_cases hi : i.idx_f < N
      · have hs : i.idx_f + 1 < 2 ^ usizeBits := by omega
        simp only [idxV, hi, dif_pos, Res.ok_bind, setV] at h
        rcases hr : prim.iter_next i.data[i.idx_f] with r | _ | _ | _ <;> rw [hr] at h <;>
          first | cases h | skip
        obtain ⟨r, w⟩ := r
        cases r with
        | none =>
          simp only [Res.ok_bind, addW, hs, if_pos] at h
          have := ih _ h
          simp at this
          omega
        | some y =>
          simp only [Res.ok_bind] at h
          rcases hm : mulW 32 (castW 32 i.idx_f) 64 with m | _ | _ | _ <;> rw [hm] at h <;>
            first | cases h | skip
          simp only [Res.ok_bind] at h
          rcases ha : addW 32 m y with m | _ | _ | _ <;> rw [ha] at h <;>
            first | cases h | skip
          simp
      · simp [idxV, hi] at h
    · cases h; simp

theorem nextBackLoop_range {N : Nat} (n : Nat) (i : ArrayIter N) {x : Option Nat}
    {j : ArrayIter N} (h : ArrayIter.nextBackLoop n i = .ok (x, j)) :
    j.idx_r + 1 - j.idx_f ≤ i.idx_r + 1 - i.idx_f := by
  induction n generalizing i with
  | zero => cases h
  | succ n ih =>
    rw [ArrayIter.nextBackLoop] at h
    split at h
    · by_cases hi : i.idx_r < N
      · simp only [idxV, hi, dif_pos, Res.ok_bind, setV] at h
        rcases hr : prim.iter_next_back i.data[i.idx_r] with r | _ | _ | _ <;> rw [hr] at h <;>
          first | cases h | skip
        obtain ⟨r, w⟩ := r
        cases r with
        | none =>
          simp only [Res.ok_bind] at h
          split at h
          · cases h; simp
          · rename_i h0
            have h1 : 1 ≤ i.idx_r := by omega
            simp only [subW, h1, if_pos, Res.ok_bind] at h
            have := ih _ h
            simp at this
            omega
        | some y =>
          simp only [Res.ok_bind] at h
          rcases hm : mulW 32 (castW 32 i.idx_r) 64 with m | _ | _ | _ <;> rw [hm] at h <;>
            first | cases h | skip
          simp only [Res.ok_bind] at h
          rcases ha : addW 32 m y with m | _ | _ | _ <;> rw [ha] at h <;>
            first | cases h | skip
          simp
      · simp [idxV, hi] at h
    · cases h; simp

theorem array_eqVal {N : Nat} (a b : ArrayRepr N) :
    eqVal (derives · "PartialEq") (arrayRepr a : Val H) (arrayRepr b) =
      .ok (a.a.toList == b.a.toList) := by
  have h : derives "ArrayRepr" "PartialEq" = true := rfl
  simp only [arrayRepr, eqVal, eqFields, vec, words, h, and_self, if_true, eqVals_words, Res.ok_bind]
  cases hab : a.a.toList == b.a.toList <;> simp

/-- An array as storage. -/
theorem C68_storage_array {N : Nat} (h0 : 0 < N) (hN : N < 2 ^ usizeBits) (hf : N < P.fuel)
    (ha : P.alias "T::Repr" = "ArrayRepr") (hp : P.params = [("N", .int .usize N)]) :
    Storage P (ArrayRepr N) arrayRepr arrayIter (fun i => i.idx_r + 1 - i.idx_f < P.fuel) where
  params x hx := by rw [hp]; simp [lookup, hx]
  adopt e r := by cases e <;> rfl
  tag r := by rw [ha]; rfl
  adoptI e it := by cases e <;> rfl
  okI_iter r it h := by
    have h1 : ¬ 0 = N := by omega
    have h2 : 1 ≤ N := h0
    simp only [EnumSetTypeRepr.iter, ArrayIter.new, subW, h2, if_pos, Res.ok_bind] at h
    show it.idx_r + 1 - it.idx_f < P.fuel
    generalize (forEach (range 0 N) (Vector.replicate N (0 : U64)) fun i new => do
      let x ← idxV r.a i
      setV new i x) = m at h
    cases m <;> cases h
    simp; omega
  okI_next it x it' hi h := by
    show it'.idx_r + 1 - it'.idx_f < P.fuel
    simp only [EnumSetTypeRepr.iter_next, ArrayIter.next] at h
    split at h
    · cases h; exact hi
    · have := nextLoop_range hN _ _ h
      omega
  okI_next_back it x it' hi h := by
    show it'.idx_r + 1 - it'.idx_f < P.fuel
    simp only [EnumSetTypeRepr.iter_next_back, ArrayIter.next_back] at h
    split at h
    · cases h; exact hi
    · have := nextBackLoop_range _ _ h
      omega
  EMPTY k env h := by rw [ha]; exact C67_EMPTY P (k + 2) env (by rw [h, hp]; rfl)
  PREFERRED_ARRAY_LEN k env h := by
    rw [ha]; exact C67_PREFERRED_ARRAY_LEN P (k + 2) env (by rw [h, hp]; rfl)
  eq k s a b := by
    show (P.call k "ArrayRepr" "eq" [] [] [arrayRepr a, arrayRepr b] >>= fun r => .ok r.1) = _
    rw [array_other k [] _ _ rfl rfl]
    simp only [array_eqVal, Res.ok_bind]; rfl
  eqVal a b := array_eqVal a b
  cmp k env a b := by
    rw [ha, array_other k env _ _ rfl rfl]
    simp [arrayRepr, cmpVal, cmpFields, vec, words, derives, sd_array, cmpVals_words, EnumSetTypeRepr.cmp]
    cases cmpWords a.a.toList b.a.toList <;> rfl
  partial_cmp k env a b := by
    rw [ha, array_other k env _ _ rfl rfl]
    simp [arrayRepr, cmpVal, cmpFields, vec, words, derives, sd_array, cmpVals_words,
      EnumSetTypeRepr.partial_cmp, partialCmpWords_eq]
    cases cmpWords a.a.toList b.a.toList <;> rfl
  bitand k s a b := by
    show (P.call (k + 3) "ArrayRepr" "bitand" [] [] [arrayRepr a, arrayRepr b] >>= fun r => .ok r.1) = _
    rw [C67_bitand]; simp [bind_assoc]; rfl
  bitor k s a b := by
    show (P.call (k + 3) "ArrayRepr" "bitor" [] [] [arrayRepr a, arrayRepr b] >>= fun r => .ok r.1) = _
    rw [C67_bitor]; simp [bind_assoc]; rfl
  bitxor k s a b := by
    show (P.call (k + 3) "ArrayRepr" "bitxor" [] [] [arrayRepr a, arrayRepr b] >>= fun r => .ok r.1) = _
    rw [C67_bitxor]; simp [bind_assoc]; rfl
  not k s a := by
    show (P.call (k + 3) "ArrayRepr" "not" [] [] [arrayRepr a] >>= fun r => .ok r.1) = _
    rw [C67_not]; simp [bind_assoc]; rfl
  is_empty k env a := by rw [ha]; exact C67_is_empty P (k + 2) env a
  add_bit k env a b := by rw [ha]; exact C67_add_bit P (k + 1) env a b
  remove_bit k env a b := by rw [ha]; exact C67_remove_bit P (k + 1) env a b
  has_bit k env a b := by rw [ha]; exact C67_has_bit P (k + 1) env a b
  count_ones k s env a := by
    rw [method_fn _ (by simp [intrinsic, intrinsics, arrayRepr])]
    exact C67_count_ones P (k + 2) env a
  and_not k env a b := by rw [ha]; exact C67_and_not P (k + 2) env a b
  iter k s env a := by
    rw [method_fn _ (by simp [intrinsic, intrinsics, arrayRepr])]
    exact C67_iter P (k + 1) env a
  next k env it h := C67_next P k env it h hN
  next_back k env it h := C67_next_back P k env it h
  size_hint k env it := C67_size_hint P (k + 2) env it
  from_num k env n v h := by rw [ha]; exact C67_from_num P (k + 1) env (by rw [h, hp]; rfl) n v
  from_num_opt k env n v h := by rw [ha]; exact C67_from_num_opt P k env (by rw [h, hp]; rfl) n v
  to_num k env n a := by rw [ha]; exact C67_to_num P (k + 1) env n a
  to_num_opt k env n a := by rw [ha]; exact C67_to_num_opt P k env n a
  to_u64_array k env O a hO := by
    rw [ha]; exact C67_to_u64_array_inferred P (k + 2) env O a hO
  to_u64_array_opt k env O a hO := by
    rw [ha, array_to_array_consts (k + 2) env O a hO]; exact C67_to_u64_array_opt P (k + 1) env O a
  from_u64_array k env O v h := by
    rw [ha]; exact C67_from_u64_array P (k + 1) env (by rw [h, hp]; rfl) O v
  from_u64_array_opt k env O v h := by
    rw [ha, array_from_array_consts (k + 2) env O v]
    exact C67_from_u64_array_opt P k env (by rw [h, hp]; rfl) O v
  to_u64_slice k env a out := by rw [ha]; exact C67_to_u64_slice P (k + 2) env a out
  to_u64_slice_opt k env a out := by rw [ha]; exact C67_to_u64_slice_opt P (k + 1) env a out
  from_u64_slice k env v h := by
    rw [ha]; exact C67_from_u64_slice P (k + 2) env (by rw [h, hp]; rfl) v
  from_u64_slice_opt k env v h := by
    rw [ha]; exact C67_from_u64_slice_opt P (k + 1) env (by rw [h, hp]; rfl) v
/-! ### Derived enums -/

/-- The items the derive macro generates for `T`, as functions of the surroundings. -/
def enumBase (T : EnumSetType) (enc : T.Repr → Val T.Val) (ty f : String) : Option (Fn T.Val) :=
  if ty = "T" then
    match f with
    | "ALL_BITS" => some fun _ _ _ => .ok (enc T.ALL_BITS, [])
    | "BIT_WIDTH" => some fun _ _ _ => .ok (.int .u32 T.BIT_WIDTH, [])
    | "VARIANT_COUNT" => some fun _ _ _ => .ok (.int .u32 T.VARIANT_COUNT, [])
    | "enum_into_u32" => some fun _ _ args =>
      match args with
      | [.host "T" v] => T.enum_into_u32 v >>= fun n => .ok (.int .u32 n, [])
      | _ => .ub
    | "enum_from_u32" => some fun _ _ args =>
      match args with
      | [.int .u32 n] => T.enum_from_u32 n >>= fun v => .ok (.host "T" v, [])
      | _ => .ub
    | _ => none
  else none

/-- The program for an enum type `T` whose `T::Repr` is the type named `repr`. -/
def enumProg (T : EnumSetType) (enc : T.Repr → Val T.Val) (repr : String) (params : Env T.Val)
    (fuel : Nat) : Prog T.Val where
  base := enumBase T enc
  fuel := fuel
  alias s := if s = "T::Repr" then repr else s
  params := params

theorem base_call {ty f : String} {fn : Fn H} (k : Nat) (caller : Env H) (consts args : List (Val H))
    (h : fnDecl ty f = none) (hd : derivedFn (H := H) derives ty f = none) (hb : P.base ty f = some fn) :
    P.call k ty f caller consts args = fn caller consts args := by
  have ho : P.other ty f = some fn := by rw [Prog.other, hd, ← hb]
  cases k with
  | zero => rw [Prog.call, Prog.link, ho]; rfl
  | succ k =>
    rw [Prog.call, Prog.link, h]
    show need (P.other ty f) >>= _ = _
    rw [ho]; rfl

theorem C68_enum_items (T : EnumSetType) (enc : T.Repr → Val T.Val) (repr : String)
    (params : Env T.Val) (fuel : Nat) :
    EnumItems (enumProg T enc repr params fuel) T enc id where
  alias := rfl
  ALL_BITS k env :=
    base_call (fn := fun _ _ _ => .ok (enc T.ALL_BITS, [])) k env [] [] rfl rfl rfl
  BIT_WIDTH k env :=
    base_call (fn := fun _ _ _ => .ok (.int .u32 T.BIT_WIDTH, [])) k env [] [] rfl rfl rfl
  VARIANT_COUNT k env :=
    base_call (fn := fun _ _ _ => .ok (.int .u32 T.VARIANT_COUNT, [])) k env [] [] rfl rfl rfl
  enum_into_u32 k env v := by
    have h : (enumProg T enc repr params fuel).base "T" "enum_into_u32" = some fun _ _ args =>
      match args with
      | [.host "T" v] => T.enum_into_u32 v >>= fun n => .ok (.int .u32 n, [])
      | _ => .ub := rfl
    rw [base_call k env [] [.host "T" (id v)] rfl rfl h]
    rfl
  enum_from_u32 k env n := by
    have h : (enumProg T enc repr params fuel).base "T" "enum_from_u32" = some fun _ _ args =>
      match args with
      | [.int .u32 n] => T.enum_from_u32 n >>= fun v => .ok (.host "T" v, [])
      | _ => .ub := rfl
    rw [base_call k env [] [.int .u32 n] rfl rfl h]
    rfl

/-- Every enum the derive macro accepts has a program with its storage type and its items, so the
theorems on set.rs apply to it. -/
theorem C68_derived {inp : DeriveInput} {T : EnumSetType} (hT : derive inp = .ok T) (hf : Fits T)
    (fuel : Nat) (hfuel : EnumSetTypeRepr.WIDTH T.Repr < fuel) :
    ∃ (P : Prog T.Val) (enc : T.Repr → Val T.Val) (encI : EnumSetTypeRepr.Iter T.Repr → Val T.Val)
      (okI : EnumSetTypeRepr.Iter T.Repr → Prop), P.fuel = fuel ∧
      Storage P T.Repr enc encI okI ∧ EnumItems P T enc id := by
  obtain ⟨info, -, hok, hs⟩ := derive_shape hT
  cases hs with
  | prim w pal' lit hr discr hd hl =>
    have : ∃ t : NumTy, t ≠ .usize ∧ w = t.bits ∧ pal' = pal t := by
      cases hi : info.internal_repr <;> rw [hi] at hr <;> cases hr
      · exact ⟨.u8, by decide, rfl, rfl⟩
      · exact ⟨.u16, by decide, rfl, rfl⟩
      · exact ⟨.u32, by decide, rfl, rfl⟩
      · exact ⟨.u64, by decide, rfl, rfl⟩
      · exact ⟨.u128, by decide, rfl, rfl⟩
    obtain ⟨t, ht, rfl, rfl⟩ := this
    exact ⟨enumProg _ (fun r => bv t r.v) (NumTy.name t) [] fuel, _, _, _, rfl,
      C68_storage_prim ht rfl rfl, C68_enum_items _ _ _ _ _⟩
  | array size hr all discr hd hl =>
    have hsize := array_size hok hr
    have hmax := hok.max_lt
    have hfit' : info.max_discrim + 1 < 2 ^ usizeBits := hf
    have hfu : ArrayRepr.WIDTH size < fuel := hfuel
    have hw : ArrayRepr.WIDTH size = size * 64 := by
      simp only [ArrayRepr.WIDTH, castW]
      omega
    exact ⟨enumProg _ arrayRepr "ArrayRepr" [("N", .int .usize size)] fuel, _, _, _, rfl,
      C68_storage_array (by omega) (by omega) (by show size < fuel; omega) rfl rfl, C68_enum_items _ _ _ _ _⟩
end agreement

/-! ### Examples -/

namespace Ex
open Enumset.Ex
open scoped Enumset.Ex

/-- A number that stores a set of `enum { A, B = 3, C }`. -/
def encT (r : T.Repr) : Val T.Val := bv .u8 (r : Prim 8 1).v
/-- The program for `enum { A, B = 3, C }`. -/
def progT : Prog T.Val := enumProg T encT "u8" [] 100
/-- An array that stores a set of `enum { A, B = 64, C = 130 }`. -/
def encL (r : L.Repr) : Val L.Val := arrayRepr (r : ArrayRepr 3)
/-- The program for `enum { A, B = 64, C = 130 }`. -/
def progL : Prog L.Val := enumProg L encL "ArrayRepr" [("N", .int .usize 3)] 100

theorem storageT : Storage progT T.Repr encT (primIterOf .u8) (fun _ => True) :=
  C68_storage_prim (t := .u8) (by decide) rfl rfl
theorem itemsT : EnumItems progT T encT id := C68_enum_items _ _ _ _ _
theorem storageL : Storage progL L.Repr encL arrayIter
    (fun i => (i : ArrayIter 3).idx_r + 1 - (i : ArrayIter 3).idx_f < 100) :=
  C68_storage_array (N := 3) (by decide) (by decide) (by decide) rfl rfl
theorem itemsL : EnumItems progL L encL id := C68_enum_items _ _ _ _ _

-- `{A, C} ∪ {B}`
example : progT.call 9 "EnumSet" "union" [] [] [setOf encT sAC, setOf encT sB] =
    .ok (setOf encT ⟨⟨0b11001#8⟩⟩, []) := by rfl
-- `{A, C}.insert(B)`: the set is changed, the result is `true`
example : progT.call 9 "EnumSet" "insert" [] [] [setOf encT sAC, .host "T" tB] =
    .ok (.bool true, [(0, setOf encT ⟨⟨0b11001#8⟩⟩)]) := by rfl
-- `from_u8` with a bit that is no variant panics
example : progT.call 9 "EnumSet" "from_u8" [] [] [.int .u8 2] =
    .panic (.expect "Bitset contains invalid variants.") := by rfl
-- `EnumSet::from_array([1, 1, 4])`
example : progL.call 11 "EnumSet" "from_array" [] [] [vec #v[1, 1, 4]] =
    .ok (setOf encL ⟨(⟨#v[1, 1, 4]⟩ : ArrayRepr 3)⟩, []) := by rfl
-- a word too many
example : progL.call 11 "EnumSet" "try_from_array" [] [] [vec #v[1, 1, 4, 1]] = .ok (.none, []) := by
  rfl
-- the theorems apply
example (s o : EnumSet L) : progL.call 10 "EnumSet" "difference" [] [] [setOf encL s, setOf encL o] =
    s.difference o >>= fun r => .ok (setOf encL r, []) := C68_difference storageL 6 [] s o
example (s : EnumSet T) (v : T.Val) :
    progT.call 10 "EnumSet" "remove" [] [] [setOf encT s, .host "T" v] =
      s.remove v >>= fun r => .ok (.bool r.1, [(0, setOf encT r.2)]) :=
  C68_remove storageT itemsT 5 [] s v

end Ex

end Enumset.Src
