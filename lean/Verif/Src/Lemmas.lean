import Verif.Src.Link
import Verif.ArrayRepr
/-!
# Running source text: lemmas

How the values of the model look as values of the interpreter, and lemmas to evaluate programs on them.
-/
set_option autoImplicit false
set_option linter.unusedSectionVars false

namespace Enumset.Src

/-! ### values -/

section enc
variable {H : Type}

/-- A value of an integer type. -/
def bv [Target] (t : NumTy) (x : BitVec t.bits) : Val H := .int t x.toNat
/-- A `u64`. -/
def word (x : U64) : Val H := .int .u64 x.toNat
/-- A `u128`. -/
def quad (x : U128) : Val H := .int .u128 x.toNat
/-- A slice of `u64`. -/
def words (l : List U64) : Val H := .arr (l.map word)
/-- An array of `u64`. -/
def vec {N : Nat} (a : Vector U64 N) : Val H := words a.toList
/-- An `ArrayRepr`. -/
def arrayRepr {N : Nat} (r : ArrayRepr N) : Val H := .struct "ArrayRepr" [("0", vec r.a)]
/-- An option. -/
def opt {α : Type} (f : α → Val H) : Option α → Val H
  | none => .none
  | some a => .some (f a)
/-- The elements of an `ArrayIter`. -/
def iters {N : Nat} (a : Vector U64 N) : Val H :=
  .arr (a.toList.map fun x => .struct "PrimitiveIter" [("0", word x)])
/-- An `ArrayIter`. -/
def arrayIter {N : Nat} (it : ArrayIter N) : Val H :=
  .struct "ArrayIter" [("data", iters it.data), ("done", .bool it.done),
    ("idx_f", .int .usize it.idx_f), ("idx_r", .int .usize it.idx_r)]

end enc

variable {H : Type}

@[simp] theorem opt_none {α : Type} (f : α → Val H) : opt f none = .none := rfl
@[simp] theorem opt_some {α : Type} (f : α → Val H) (a : α) : opt f (some a) = .some (f a) := rfl

/-! ### outcomes -/

section out
variable {α β : Type}

theorem bind_assoc {γ : Type} (r : Res α) (f : α → Res β) (g : β → Res γ) :
    (r >>= f) >>= g = r >>= fun a => f a >>= g := by
  cases r <;> rfl
theorem diverge_bind (f : α → Res β) : ((.diverge : Res α) >>= f) = .diverge := rfl

theorem map_eq (f : α → β) (r : Res α) : f <$> r = r >>= fun a => .ok (f a) := by cases r <;> rfl

theorem bind_congr {r : Res α} {f g : α → Res β} (h : ∀ a, f a = g a) : r >>= f = r >>= g := by
  cases r with
  | ok a => exact h a
  | _ => rfl
theorem bind_congr_ok {r : Res α} {f g : α → Res β} (h : ∀ a, r = .ok a → f a = g a) :
    r >>= f = r >>= g := by
  cases r with
  | ok a => exact h a rfl
  | _ => rfl

theorem andThen_val (v : Val H) (env : Env H) (f : Val H → Env H → Res (Out H)) :
    Out.andThen (.ok (.val v env)) f = f v env := rfl
theorem andThen_ret (v : Val H) (env : Env H) (f : Val H → Env H → Res (Out H)) :
    Out.andThen (.ok (.ret v env)) f = .ok (.ret v env) := rfl
theorem andThen_brk (env : Env H) (f : Val H → Env H → Res (Out H)) :
    Out.andThen (.ok (.brk env)) f = .ok (.brk env) := rfl
theorem andThen_panic (p : Panic) (f : Val H → Env H → Res (Out H)) :
    Out.andThen (.panic p) f = .panic p := rfl
theorem andThen_ub (f : Val H → Env H → Res (Out H)) : Out.andThen .ub f = .ub := rfl
theorem andThen_bind (r : Res α) (g : α → Res (Out H)) (f : Val H → Env H → Res (Out H)) :
    Out.andThen (r >>= g) f = r >>= fun a => Out.andThen (g a) f := by
  cases r <;> rfl
theorem andThen_ite (c : Prop) [Decidable c] (a b : Res (Out H)) (f : Val H → Env H → Res (Out H)) :
    Out.andThen (if c then a else b) f = if c then Out.andThen a f else Out.andThen b f := by
  split <;> rfl

theorem pure_ok (v : Val H) (env : Env H) : Out.pure (.ok v) env = .ok (.val v env) := rfl
theorem pure_panic (p : Panic) (env : Env H) : Out.pure (.panic p) env = .panic p := rfl
theorem pure_bind (r : Res α) (f : α → Res (Val H)) (env : Env H) :
    Out.pure (r >>= f) env = r >>= fun a => Out.pure (f a) env := by
  cases r <;> rfl
theorem pure_ite (c : Prop) [Decidable c] (a b : Res (Val H)) (env : Env H) :
    Out.pure (if c then a else b) env = if c then Out.pure a env else Out.pure b env := by
  split <;> rfl

theorem restore_val (n : Nat) (v : Val H) (env : Env H) :
    Out.restore n (.ok (.val v env)) = .ok (.val v (env.drop (env.length - n))) := rfl
theorem restore_ret (n : Nat) (v : Val H) (env : Env H) :
    Out.restore n (.ok (.ret v env)) = .ok (.ret v (env.drop (env.length - n))) := rfl
theorem restore_brk (n : Nat) (env : Env H) :
    Out.restore n (.ok (.brk env)) = .ok (.brk (env.drop (env.length - n))) := rfl
theorem restore_panic (n : Nat) (p : Panic) : Out.restore (H := H) n (.panic p) = .panic p := rfl
theorem restore_bind (n : Nat) (r : Res α) (f : α → Res (Out H)) :
    Out.restore n (r >>= f) = r >>= fun a => Out.restore n (f a) := by
  cases r <;> rfl
theorem restore_ite (n : Nat) (c : Prop) [Decidable c] (a b : Res (Out H)) :
    Out.restore n (if c then a else b) = if c then Out.restore n a else Out.restore n b := by
  split <;> rfl

theorem bind_ite (c : Prop) [Decidable c] (a b : Res α) (f : α → Res β) :
    ((if c then a else b) >>= f) = if c then a >>= f else b >>= f := by
  split <;> rfl

theorem ite_and_left (c d : Prop) [Decidable c] [Decidable d] (a b : α) :
    (if c then (if d then a else b) else b) = if c ∧ d then a else b := by
  by_cases c <;> by_cases d <;> simp [*]
theorem cond_bool (c : Bool) (a b : Res (Out H)) :
    cond (.bool c) a b = if c = true then a else b := by cases c <;> rfl
theorem need_some (a : α) : need (some a) = .ok a := rfl

end out

/-! ### linking -/

section link
variable [Platform]

/-- A function of the source files, linked `k` levels deep. -/
def bound (P : Prog H) (k : Nat) (ty : String) (d : FnDecl) : Fn H :=
  d.fn (P.ctx ty (P.link k)) (P.extra ty)

variable {P : Prog H} {k : Nat} {ty f : String} {d : FnDecl}

theorem link_of (h : fnDecl ty f = some d) : P.link (k + 1) ty f = some (bound P k ty d) := by
  simp [Prog.link, h, bound]

theorem call_of (h : fnDecl ty f = some d) (caller : Env H) (consts args : List (Val H)) :
    P.call (k + 1) ty f caller consts args = bound P k ty d caller consts args := by
  simp [Prog.call, link_of h, need]

variable {self s : String} {fns : String → String → Option (Fn H)}

theorem ctx_fuel : (P.ctx self fns).fuel = P.fuel := rfl
theorem ctx_self : (P.ctx self fns).self = self := rfl
theorem ctx_alias : (P.ctx self fns).alias = P.alias := rfl
theorem ctx_structs : (P.ctx self fns).structs s = structDecl s := rfl
theorem ctx_call {t : String} {env : Env H} {cs vs : List (Val H)} :
    (P.ctx self (P.link k)).call t f env cs vs = P.call k t f env cs vs := rfl
theorem ctx_ty : (P.ctx self fns).ty s =
    if s = "$name" ∨ s = "Self" then NumTy.ofName self else NumTy.ofName s := rfl

theorem sd_primIter : structDecl "PrimitiveIter" =
    some { gens := ["T"], fields := [("0", .name "T" [])], derives := ["Copy", "Clone", "Debug"] } := rfl
theorem sd_set : structDecl "EnumSet" =
    some { gens := [], fields := [("__priv_repr", .name "T::Repr" [])],
           derives := ["Copy", "Clone", "PartialEq", "Eq"] } := rfl
theorem sd_setIter : structDecl "EnumSetIter" =
    some { gens := [], fields := [("iter", .name "T::Repr::Iter" [])],
           derives := ["Clone", "Debug"] } := rfl
theorem sd_not_T : structDecl "T" = none := rfl
theorem sd_not_Repr : structDecl "T::Repr" = none := rfl
theorem sd_not_Iter : structDecl "T::Repr::Iter" = none := rfl
theorem sd_not_Helper : structDecl "T::ConstHelper" = none := rfl
theorem sd_array : structDecl "ArrayRepr" =
    some { gens := ["N"], fields := [("0", .arr (.name "u64" []) "N")],
           derives := ["Copy", "Clone", "Eq", "PartialEq", "Ord", "PartialOrd", "Debug", "Hash"] } := rfl
theorem sd_arrayIter : structDecl "ArrayIter" =
    some { gens := ["N"], fields := [("data", .arr (.name "PrimitiveIter" [.name "u64" []]) "N"),
      ("done", .name "bool" []), ("idx_f", .name "usize" []), ("idx_r", .name "usize" [])],
           derives := ["Clone", "Debug"] } := rfl

theorem ofName_u8 : NumTy.ofName "u8" = some .u8 := rfl
theorem ofName_u16 : NumTy.ofName "u16" = some .u16 := rfl
theorem ofName_u32 : NumTy.ofName "u32" = some .u32 := rfl
theorem ofName_u64 : NumTy.ofName "u64" = some .u64 := rfl
theorem ofName_u128 : NumTy.ofName "u128" = some .u128 := rfl
theorem ofName_usize : NumTy.ofName "usize" = some .usize := rfl
theorem ofName_not_Self : NumTy.ofName "Self" = none := rfl
theorem ofName_not_Self_Output : NumTy.ofName "Self::Output" = none := rfl
theorem ofName_not_Self_Item : NumTy.ofName "Self::Item" = none := rfl
theorem ofName_not_Self_Iter : NumTy.ofName "Self::Iter" = none := rfl
theorem ofName_not_Self_IntoIter : NumTy.ofName "Self::IntoIter" = none := rfl
theorem ofName_not_Option : NumTy.ofName "Option" = none := rfl
theorem ofName_not_Vec : NumTy.ofName "Vec" = none := rfl
theorem ofName_not_ArrayRepr : NumTy.ofName "ArrayRepr" = none := rfl
theorem ofName_not_ArrayIter : NumTy.ofName "ArrayIter" = none := rfl
theorem ofName_not_PrimitiveIter : NumTy.ofName "PrimitiveIter" = none := rfl
theorem ofName_not_EnumSet : NumTy.ofName "EnumSet" = none := rfl
theorem ofName_not_EnumSetIter : NumTy.ofName "EnumSetIter" = none := rfl
theorem ofName_not_T : NumTy.ofName "T" = none := rfl
theorem ofName_not_T_Repr : NumTy.ofName "T::Repr" = none := rfl
theorem ofName_not_T_Repr_Iter : NumTy.ofName "T::Repr::Iter" = none := rfl
theorem ofName_not_O : NumTy.ofName "O" = none := rfl
theorem ofName_not_N : NumTy.ofName "N" = none := rfl
theorem ofName_not_bool : NumTy.ofName "bool" = none := rfl
theorem ofName_not_name : NumTy.ofName "$name" = none := rfl
theorem ofName_not_core_fmt_Result : NumTy.ofName "core::fmt::Result" = none := rfl
theorem ofName_not_Ordering : NumTy.ofName "Ordering" = none := rfl
theorem ofName_not_alloc_vec_Vec : NumTy.ofName "alloc::vec::Vec" = none := rfl
theorem ofName_not_T_ConstHelper : NumTy.ofName "T::ConstHelper" = none := rfl
theorem ofName_not_I : NumTy.ofName "I" = none := rfl
theorem ofName_not_H : NumTy.ofName "H" = none := rfl
theorem ofName_not_Formatter : NumTy.ofName "Formatter" = none := rfl
theorem ofName_not_Result : NumTy.ofName "Result" = none := rfl

theorem adopt_any (v : Val H) : Exp.any.adopt v = v := rfl
theorem adopt_opt (e : Exp) (v : Val H) : (Exp.opt e).adopt v = v := rfl
theorem adopt_arr (e : Exp) (v : Val H) : (Exp.arr e).adopt v = v := rfl
theorem adopt_app (s : String) (e : Exp) (v : Val H) : (Exp.app s e).adopt v = v := rfl
theorem adopt_lit (t : NumTy) (n : Nat) : (Exp.int t).adopt (.lit n : Val H) = .int t n := rfl
theorem adopt_int (e : Exp) (t : NumTy) (n : Nat) : e.adopt (.int t n : Val H) = .int t n := by
  cases e <;> rfl
theorem adopt_bool (e : Exp) (b : Bool) : e.adopt (.bool b : Val H) = .bool b := by cases e <;> rfl
theorem adopt_struct (e : Exp) (n : String) (fs : List (String × Val H)) :
    e.adopt (.struct n fs) = .struct n fs := by cases e <;> rfl
theorem adopt_host (e : Exp) (s : String) (h : H) : e.adopt (.host s h) = .host s h := by cases e <;> rfl
theorem adopt_vec (e : Exp) {N : Nat} (a : Vector U64 N) : e.adopt (vec a : Val H) = vec a := by
  cases e <;> rfl
theorem adopt_words (e : Exp) (a : List U64) : e.adopt (words a : Val H) = words a := by cases e <;> rfl
theorem adopt_items (e : Exp) (xs : List (Val H)) : e.adopt (.arr xs) = .arr xs := by cases e <;> rfl
theorem adopt_tup (e : Exp) (xs : List (Val H)) : e.adopt (.tup xs) = .tup xs := by cases e <;> rfl
theorem adopt_none (e : Exp) : e.adopt (.none : Val H) = .none := by cases e <;> rfl
theorem adopt_some (e : Exp) (v : Val H) : e.adopt (.some v) = .some v := by cases e <;> rfl
theorem adopt_unit (e : Exp) : e.adopt (.unit : Val H) = .unit := by cases e <;> rfl

theorem ofName_name (t : NumTy) : NumTy.ofName (NumTy.name t) = some t := by cases t <;> rfl

theorem name_inj (t u : NumTy) : NumTy.name t = NumTy.name u ↔ t = u := by
  cases t <;> cases u <;> simp [NumTy.name]

/-- `$preferred_array_len` -/
def pal : NumTy → Nat
  | .u128 => 2
  | _ => 1

theorem extra_prim (P : Prog H) (t : NumTy) (ht : t ≠ .usize) : P.extra (NumTy.name t) =
    [("$width", .lit t.bits), ("$preferred_array_len", .lit (pal t))] := by
  cases t <;> first | rfl | contradiction
theorem extra_array (P : Prog H) : P.extra "ArrayRepr" = [] := rfl
theorem extra_arrayIter (P : Prog H) : P.extra "ArrayIter" = [] := rfl
theorem extra_primIter (P : Prog H) : P.extra "PrimitiveIter" = [] := rfl
theorem extra_set (P : Prog H) : P.extra "EnumSet" = P.params := rfl
theorem extra_setIter (P : Prog H) : P.extra "EnumSetIter" = P.params := rfl

end link

/-! ### arrays -/

section arrays

theorem idxL_map {α β : Type} (f : α → β) (l : List α) (i : Nat) :
    idxL (l.map f) i = idxL l i >>= fun x => .ok (f x) := by
  unfold idxL
  by_cases h : i < l.length <;> simp [h]

theorem setL_map {α β : Type} (f : α → β) (l : List α) (i : Nat) (x : α) :
    setL (l.map f) i (f x) = setL l i x >>= fun l => .ok (l.map f) := by
  unfold setL
  by_cases h : i < l.length <;> simp [h, List.map_set]

theorem idxL_toList {α : Type} {N : Nat} (a : Vector α N) (i : Nat) : idxL a.toList i = idxV a i := by
  unfold idxL idxV
  by_cases h : i < N <;> simp [h]

theorem setL_toList {α : Type} {N : Nat} (a : Vector α N) (i : Nat) (x : α) :
    setL a.toList i x = setV a i x >>= fun a => .ok a.toList := by
  unfold setL setV
  by_cases h : i < N
  · simp [h, Vector.toList, Vector.set]
  · simp [h]

theorem asIndex_usize (k : Nat) : asIndex (.int .usize k : Val H) = .ok k := rfl
theorem asIndex_lit (k : Nat) : asIndex (.lit k : Val H) = .ok k := rfl
theorem inferGen_vec (impl : Bool) (g n : String) (T : Ty) {N : Nat} (a : Vector U64 N) :
    inferGen impl g (.arr T n) (vec a : Val H) = if n = g then some (.int .usize N) else none := by
  simp [inferGen, vec, words]
theorem inferGen_bv [Platform] (impl : Bool) (g : String) (s : String) (args : List Ty) (t : NumTy)
    (x : BitVec t.bits) : inferGen impl g (.name s args) (bv t x : Val H) = none := by
  simp [inferGen, bv]
theorem inferGen_word (impl : Bool) (g : String) (s : String) (args : List Ty) (x : U64) :
    inferGen impl g (.name s args) (word x : Val H) = none := by
  simp [inferGen, word]
theorem inferGen_quad (impl : Bool) (g : String) (s : String) (args : List Ty) (x : U128) :
    inferGen impl g (.name s args) (quad x : Val H) = none := by
  simp [inferGen, quad]
theorem inferGen_int (impl : Bool) (g : String) (s : String) (args : List Ty) (t : NumTy) (n : Nat) :
    inferGen impl g (.name s args) (.int t n : Val H) = none := by
  simp [inferGen]
theorem inferGen_slice (impl : Bool) (g : String) (t : Ty) (v : Val H) :
    inferGen impl g (.slice t) v = none := by
  cases v <;> rfl
theorem gen_iters {N : Nat} (a : Vector U64 N) : (iters a : Val H).gen = some (.int .usize N) := by
  simp [iters, Val.gen]
theorem exp_iters {N : Nat} (a : Vector U64 N) : (iters a : Val H).exp = .any := rfl
theorem adopt_iters (e : Exp) {N : Nat} (a : Vector U64 N) : e.adopt (iters a : Val H) = iters a := by
  cases e <;> rfl
theorem index_iters {N : Nat} (a : Vector U64 N) (i : Nat) :
    (Proj.index i).get (iters a : Val H) =
      idxV a i >>= fun x => .ok (.struct "PrimitiveIter" [("0", word x)]) := by
  simp [Proj.get, iters, idxL_map, idxL_toList]
theorem set_iters {N : Nat} (a : Vector U64 N) (i : Nat) (x : U64) :
    (Proj.index i).set (iters a : Val H) (.struct "PrimitiveIter" [("0", word x)]) =
      setV a i x >>= fun a => .ok (iters a) := by
  simp only [Proj.set, iters, idxL_map, idxL_toList, bind_assoc, Res.ok_bind]
  unfold idxV setV
  by_cases h : i < N
  · simp [h]
    simp [Vector.toList, Vector.set]; rfl
  · simp [h]
theorem replicate_iters (N : Nat) :
    (.arr (List.replicate N (.struct "PrimitiveIter" [("0", .int .u64 0)])) : Val H) =
      iters (Vector.replicate N 0#64) := by
  simp [iters, word]
theorem to_get_words (l : List U64) (k : Nat) : (Proj.to k).get (words l : Val H) =
    if k ≤ l.length then .ok (words (l.take k)) else .panic .index := by
  simp [Proj.get, words]
theorem to_set_words (l m : List U64) (k : Nat) : (Proj.to k).set (words l : Val H) (words m) =
    if k ≤ l.length then .ok (words (m ++ l.drop k)) else .panic .index := by
  simp [Proj.set, words]
theorem to_get_vec {N : Nat} (a : Vector U64 N) (k : Nat) : (Proj.to k).get (vec a : Val H) =
    if k ≤ N then .ok (words (a.toList.take k)) else .panic .index := by
  simp [Proj.get, vec, words]
theorem to_set_vec {N : Nat} (a : Vector U64 N) (m : List U64) (k : Nat) :
    (Proj.to k).set (vec a : Val H) (words m) =
    if k ≤ N then .ok (words (m ++ a.toList.drop k)) else .panic .index := by
  simp [Proj.set, vec, words]
theorem copyVV {n m : Nat} (dst : Vector U64 n) (src : Vector U64 m) (k : Nat) {β : Type}
    (f : Val H → β) :
    (copyPrefixVV dst src k >>= fun a => .ok (f (vec a))) =
      if k ≤ n ∧ k ≤ m then .ok (f (words (src.toList.take k ++ dst.toList.drop k)))
      else .panic .index := by
  unfold copyPrefixVV
  split
  · rename_i h
    have : (Vector.ofFn fun i : Fin n => if hi : i.val < k then src[i.val]'(by omega) else dst[i.val]).toList
        = src.toList.take k ++ dst.toList.drop k := by
      apply List.ext_getElem
      · simp; omega
      · intro i h1 h2
        simp only [Vector.getElem_toList, Vector.getElem_ofFn, List.getElem_append]
        simp only [List.length_take, Vector.length_toList]
        by_cases hi : i < k
        · simp [hi, show i < min k m by omega]
        · have e : k + (i - min k m) = i := by omega
          simp [hi, e, show ¬ i < min k m by omega]
    simp [vec, this]
  · rfl
theorem copyVL {n : Nat} (dst : Vector U64 n) (src : List U64) (k : Nat) {β : Type} (f : Val H → β) :
    (copyPrefixVL dst src k >>= fun a => .ok (f (vec a))) =
      if k ≤ n ∧ k ≤ src.length then .ok (f (words (src.take k ++ dst.toList.drop k)))
      else .panic .index := by
  unfold copyPrefixVL
  split
  · rename_i h
    have : (Vector.ofFn fun i : Fin n => if hi : i.val < k then src[i.val]'(by omega) else dst[i.val]).toList
        = src.take k ++ dst.toList.drop k := by
      apply List.ext_getElem
      · simp; omega
      · intro i h1 h2
        simp only [Vector.getElem_toList, Vector.getElem_ofFn, List.getElem_append]
        simp only [List.length_take]
        by_cases hi : i < k
        · simp [hi, show i < min k src.length by omega]
        · have e : k + (i - min k src.length) = i := by omega
          simp [hi, e, show ¬ i < min k src.length by omega]
    simp [vec, this]
  · rfl
theorem replicate_word (O : Nat) :
    (.arr (List.replicate O (.int .u64 0)) : Val H) = vec (Vector.replicate O 0#64) := by
  simp [vec, words, word]
theorem gen_vec {N : Nat} (a : Vector U64 N) : (vec a : Val H).gen = some (.int .usize N) := by
  simp [vec, words, Val.gen]
theorem index_vec {N : Nat} (a : Vector U64 N) (i : Nat) :
    (Proj.index i).get (vec a : Val H) = idxV a i >>= fun x => .ok (word x) := by
  simp [Proj.get, vec, words, idxL_map, idxL_toList]
theorem index_words (l : List U64) (i : Nat) :
    (Proj.index i).get (words l : Val H) = idxL l i >>= fun x => .ok (word x) := by
  simp [Proj.get, words, idxL_map]
theorem adopt_word (e : Exp) (x : U64) : e.adopt (word x : Val H) = word x := by
  cases e <;> rfl
theorem set_vec {N : Nat} (a : Vector U64 N) (i : Nat) (x : U64) :
    (Proj.index i).set (vec a : Val H) (word x) = setV a i x >>= fun a => .ok (vec a) := by
  simp only [Proj.set, vec, words, idxL_map, idxL_toList, bind_assoc, Res.ok_bind, adopt_word]
  unfold idxV setV
  by_cases h : i < N
  · simp [h, List.map_set]
    simp [Vector.toList, Vector.set]
  · simp [h]
theorem set_words (l : List U64) (i : Nat) (x : U64) :
    (Proj.index i).set (words l : Val H) (word x) = setL l i x >>= fun l => .ok (words l) := by
  simp only [Proj.set, words, idxL_map, bind_assoc, Res.ok_bind, adopt_word]
  unfold idxL setL
  by_cases h : i < l.length <;> simp [h, List.map_set]
theorem set_vec_lit {N : Nat} (a : Vector U64 N) (i n : Nat) (hn : n < 2 ^ 64) :
    (Proj.index i).set (vec a : Val H) (.lit n) = setV a i (BitVec.ofNat 64 n) >>= fun a => .ok (vec a) := by
  have h : (.int .u64 n : Val H) = word (BitVec.ofNat 64 n) := by
    simp [word, Nat.mod_eq_of_lt hn]
  rw [← set_vec, ← h]
  simp [Proj.set, vec, words, idxL_map, word, Val.exp, Exp.adopt, bind_assoc]
theorem set_words_lit (l : List U64) (i n : Nat) (hn : n < 2 ^ 64) :
    (Proj.index i).set (words l : Val H) (.lit n) =
      setL l i (BitVec.ofNat 64 n) >>= fun l => .ok (words l) := by
  have h : (.int .u64 n : Val H) = word (BitVec.ofNat 64 n) := by
    simp [word, Nat.mod_eq_of_lt hn]
  rw [← set_words, ← h]
  simp [Proj.set, words, idxL_map, word, Val.exp, Exp.adopt, bind_assoc]
theorem field_struct (f n : String) (fs : List (String × Val H)) :
    (Proj.field f).get (.struct n fs) = need (lookup f fs) := rfl
theorem set_field (f n : String) (fs : List (String × Val H)) (v : Val H) :
    (Proj.field f).set (.struct n fs) v = need (lookup f fs) >>= fun old =>
      .ok (.struct n (update f (old.exp.adopt v) fs)) := rfl

end arrays

/-! ### operators -/

section ops
variable [Platform]

theorem assign_int (C : Ctx H) (op : BinOp) (t : NumTy) (n : Nat) (b : Val H) :
    assignVal C op (.int t n) b = binVal C op (.int t n) b := rfl
theorem assign_word (C : Ctx H) (op : BinOp) (x : U64) (b : Val H) :
    assignVal C op (word x) b = binVal C op (word x) b := rfl
theorem assign_bv (C : Ctx H) (op : BinOp) (t : NumTy) (x : BitVec t.bits) (b : Val H) :
    assignVal C op (bv t x) b = binVal C op (bv t x) b := rfl
theorem band_word (C : Ctx H) (x y : U64) : binVal C .band (word x) (word y) = .ok (word (x &&& y)) := by
  simp [binVal, word, arith]
theorem bor_word (C : Ctx H) (x y : U64) : binVal C .bor (word x) (word y) = .ok (word (x ||| y)) := by
  simp [binVal, word, arith]
theorem bxor_word (C : Ctx H) (x y : U64) : binVal C .bxor (word x) (word y) = .ok (word (x ^^^ y)) := by
  simp [binVal, word, arith]
theorem not_word (C : Ctx H) (x : U64) : notVal C (word x) = .ok (word (~~~ x)) := by
  simp [notVal, word, NumTy.bits, BitVec.toNat_not]
theorem band_bv (C : Ctx H) (t : NumTy) (x y : BitVec t.bits) :
    binVal C .band (bv t x) (bv t y) = .ok (bv t (x &&& y)) := by
  simp [binVal, bv, arith]
theorem bor_bv (C : Ctx H) (t : NumTy) (x y : BitVec t.bits) :
    binVal C .bor (bv t x) (bv t y) = .ok (bv t (x ||| y)) := by
  simp [binVal, bv, arith]
theorem bxor_bv (C : Ctx H) (t : NumTy) (x y : BitVec t.bits) :
    binVal C .bxor (bv t x) (bv t y) = .ok (bv t (x ^^^ y)) := by
  simp [binVal, bv, arith]
theorem not_bv (C : Ctx H) (t : NumTy) (x : BitVec t.bits) : notVal C (bv t x) = .ok (bv t (~~~ x)) := by
  simp [notVal, bv, BitVec.toNat_not]
theorem exp_bv (t : NumTy) (x : BitVec t.bits) : (bv t x : Val H).exp = .int t := rfl
theorem adopt_bv (e : Exp) (t : NumTy) (x : BitVec t.bits) : e.adopt (bv t x : Val H) = bv t x := by
  cases e <;> rfl
theorem cast_bv (C : Ctx H) (t u : NumTy) (x : BitVec t.bits) :
    castVal C u (bv t x : Val H) = .ok (bv u (castBV u.bits x)) := by
  simp [castVal, bv, castW, castBV]
theorem cast_int (C : Ctx H) (t u : NumTy) (n : Nat) :
    castVal C u (.int t n : Val H) = .ok (.int u (castW u.bits n)) := rfl
theorem shl_one (C : Ctx H) (t u : NumTy) (n : Nat) :
    binVal C .shl (.int t 1) (.int u n) = shl1 t.bits n >>= fun m => .ok (bv t m) := by
  have hb : 1 % 2 ^ t.bits = 1 := by
    apply Nat.mod_eq_of_lt
    have : 0 < t.bits := by
      cases t <;> simp [NumTy.bits]
      rcases Target.usize_ok with h | h | h <;> simp [h]
    exact Nat.one_lt_two_pow (by omega)
  simp only [binVal, BinOp.isShift, or_true, if_true, arith, shl1, onOverflow]
  split
  · simp [bv, hb]
  · split
    · rfl
    · simp [bv, hb]
theorem eq_bv (C : Ctx H) (t : NumTy) (x y : BitVec t.bits) :
    binVal C .eq (bv t x) (bv t y) = .ok (.bool (x == y)) := by
  simp [binVal, bv, arith]
  rw [Bool.eq_iff_iff]; simp [BitVec.toNat_inj]
theorem ne_bv (C : Ctx H) (t : NumTy) (x y : BitVec t.bits) :
    binVal C .ne (bv t x) (bv t y) = .ok (.bool (x != y)) := by
  simp [binVal, bv, arith, bne]
  rw [Bool.eq_iff_iff]; simp [BitVec.toNat_inj]
theorem eq_bv_zero (C : Ctx H) (t : NumTy) (x : BitVec t.bits) :
    binVal C .eq (bv t x) (.int t 0) = .ok (.bool (x == 0)) := by
  rw [← eq_bv C]; simp [bv]
theorem ne_bv_zero (C : Ctx H) (t : NumTy) (x : BitVec t.bits) :
    binVal C .ne (bv t x) (.int t 0) = .ok (.bool (x != 0)) := by
  rw [← ne_bv C]; simp [bv]
theorem eq_word (C : Ctx H) (x y : U64) : binVal C .eq (word x) (word y) = .ok (.bool (x == y)) :=
  eq_bv C .u64 x y
theorem ne_word (C : Ctx H) (x y : U64) : binVal C .ne (word x) (word y) = .ok (.bool (x != y)) :=
  ne_bv C .u64 x y
theorem eq_word_zero (C : Ctx H) (x : U64) :
    binVal C .eq (word x) (.int .u64 0) = .ok (.bool (x == 0)) := eq_bv_zero C .u64 x
theorem ne_word_zero (C : Ctx H) (x : U64) :
    binVal C .ne (word x) (.int .u64 0) = .ok (.bool (x != 0)) := ne_bv_zero C .u64 x
theorem ne_quad_zero (C : Ctx H) (x : U128) :
    binVal C .ne (quad x) (.int .u128 0) = .ok (.bool (x != 0)) := ne_bv_zero C .u128 x
@[simp high] theorem cast_bv_word (C : Ctx H) (t : NumTy) (x : BitVec t.bits) :
    castVal C .u64 (bv t x : Val H) = .ok (word (castBV 64 x)) := cast_bv C t .u64 x
@[simp high] theorem cast_bv_quad (C : Ctx H) (t : NumTy) (x : BitVec t.bits) :
    castVal C .u128 (bv t x : Val H) = .ok (quad (castBV 128 x)) := cast_bv C t .u128 x
@[simp high] theorem cast_word_quad (C : Ctx H) (x : U64) : castVal C .u128 (word x : Val H) = .ok (quad (castBV 128 x)) :=
  cast_bv C .u64 .u128 x
theorem cast_word (C : Ctx H) (t : NumTy) (x : U64) : castVal C t (word x : Val H) = .ok (bv t (castBV t.bits x)) :=
  cast_bv C .u64 t x
@[simp high] theorem cast_quad_word (C : Ctx H) (x : U128) : castVal C .u64 (quad x : Val H) = .ok (word (castBV 64 x)) :=
  cast_bv C .u128 .u64 x
theorem cast_quad (C : Ctx H) (t : NumTy) (x : U128) : castVal C t (quad x : Val H) = .ok (bv t (castBV t.bits x)) :=
  cast_bv C .u128 t x
theorem shr_quad (C : Ctx H) (x : U128) (n : Nat) (hn : n < 128) :
    binVal C .shr (quad x) (.lit n) = .ok (quad (x >>> n)) := by
  simp [binVal, quad, arith, NumTy.bits, hn]
theorem shl_quad (C : Ctx H) (x : U128) (n : Nat) (hn : n < 128) :
    binVal C .shl (quad x) (.lit n) = .ok (quad (x <<< n)) := by
  simp [binVal, quad, arith, NumTy.bits, hn]
theorem bor_quad (C : Ctx H) (x y : U128) : binVal C .bor (quad x) (quad y) = .ok (quad (x ||| y)) := by
  simp [binVal, quad, arith]
theorem exp_quad (x : U128) : (quad x : Val H).exp = .int .u128 := rfl
theorem adopt_quad (e : Exp) (x : U128) : e.adopt (quad x : Val H) = quad x := by cases e <;> rfl
theorem tag_bv (t : NumTy) (x : BitVec t.bits) : (bv t x : Val H).tag = NumTy.name t := rfl
theorem tag_struct (n : String) (fs : List (String × Val H)) : (Val.struct n fs).tag = n := rfl
theorem tag_word (x : U64) : (word x : Val H).tag = "u64" := rfl
theorem tag_quad (x : U128) : (quad x : Val H).tag = "u128" := rfl
theorem gen_bv (t : NumTy) (x : BitVec t.bits) : (bv t x : Val H).gen = some (.ty t) := rfl
theorem intrinsic_none {m : String} (h : intrinsics.contains m = false) (v : Val H) (vs : List (Val H)) :
    intrinsic m v vs = none := by
  unfold intrinsic; rw [h]; rfl
theorem method_fn (C : Ctx H) {m : String} {consts : List String} {v : Val H} {vs : List (Val H)}
    {env : Env H} (h : intrinsic m v vs = none) :
    method C m consts v vs env = constArgs env consts >>= fun cs =>
      C.call v.tag m env cs (v :: vs) := by
  unfold method; rw [h]
theorem method_not (C : Ctx H) {m : String} {consts : List String} {v : Val H} {vs : List (Val H)}
    {env : Env H} (h : intrinsics.contains m = false) :
    method C m consts v vs env = constArgs env consts >>= fun cs =>
      C.call v.tag m env cs (v :: vs) := method_fn C (intrinsic_none h v vs)
theorem count_ones_bv (C : Ctx H) (t : NumTy) (x : BitVec t.bits) (env : Env H) :
    method C "count_ones" [] (bv t x) [] env = .ok (.int .u32 (countOnes x), []) := by
  simp [method, intrinsic, intrinsics, bv]
theorem leading_zeros_bv (C : Ctx H) (t : NumTy) (x : BitVec t.bits) (env : Env H) :
    method C "leading_zeros" [] (bv t x) [] env = .ok (.int .u32 (leadingZeros x), []) := by
  simp [method, intrinsic, intrinsics, bv]
theorem trailing_zeros_bv (C : Ctx H) (t : NumTy) (x : BitVec t.bits) (env : Env H) :
    method C "trailing_zeros" [] (bv t x) [] env = .ok (.int .u32 (trailingZeros x), []) := by
  simp [method, intrinsic, intrinsics, bv]
theorem count_ones_word (C : Ctx H) (x : U64) (env : Env H) :
    method C "count_ones" [] (word x) [] env = .ok (.int .u32 (countOnes x), []) :=
  count_ones_bv C .u64 x env
theorem leading_zeros_word (C : Ctx H) (x : U64) (env : Env H) :
    method C "leading_zeros" [] (word x) [] env = .ok (.int .u32 (leadingZeros x), []) :=
  leading_zeros_bv C .u64 x env
theorem trailing_zeros_word (C : Ctx H) (x : U64) (env : Env H) :
    method C "trailing_zeros" [] (word x) [] env = .ok (.int .u32 (trailingZeros x), []) :=
  trailing_zeros_bv C .u64 x env
theorem len_words (C : Ctx H) (l : List U64) (env : Env H) :
    method C "len" [] (words l) [] env = .ok (.int .usize l.length, []) := by
  simp [method, intrinsic, intrinsics, words]
theorem iter_vec (C : Ctx H) {N : Nat} (a : Vector U64 N) (env : Env H) :
    method C "iter" [] (vec a) [] env = .ok (.arr (a.toList.map word), []) := by
  simp [method, intrinsic, intrinsics, vec, words]
theorem rev_items (C : Ctx H) (xs : List (Val H)) (env : Env H) :
    method C "rev" [] (.arr xs) [] env = .ok (.arr xs.reverse, []) := by
  simp [method, intrinsic, intrinsics]
theorem expect_opt (C : Ctx H) {α : Type} (f : α → Val H) (o : Option α) (msg : String) (env : Env H) :
    method C "expect" [] (opt f o) [.str msg] env = Res.expect msg o >>= fun a => .ok (f a, []) := by
  cases o <;> simp [method, intrinsic, intrinsics]

theorem copy_words (C : Ctx H) (l m : List U64) (env : Env H) :
    method C "copy_from_slice" [] (words l) [words m] env =
      if l.length = m.length then .ok (.unit, [(0, words m)]) else .panic .sliceLen := by
  simp [method, intrinsic, intrinsics, words]

theorem tryInto_bv (t u : NumTy) (x : BitVec t.bits) :
    tryIntoOk (.opt (.int u)) (bv t x : Val H) = .ok (opt (bv u) (tryInto u.bits x)) := by
  simp only [tryIntoOk, bv, tryInto]
  split
  · rename_i h
    simp [bv, Nat.mod_eq_of_lt h]
  · rfl

theorem exp_word (x : U64) : (word x : Val H).exp = .int .u64 := rfl
theorem bv_zero (t : NumTy) : (bv t 0#t.bits : Val H) = .int t 0 := by simp [bv]
theorem exp_int (t : NumTy) (n : Nat) : (.int t n : Val H).exp = .int t := rfl
theorem exp_lit (n : Nat) : (.lit n : Val H).exp = .any := rfl
theorem exp_bool (b : Bool) : (.bool b : Val H).exp = .any := rfl
theorem exp_struct (n : String) (fs : List (String × Val H)) : (.struct n fs : Val H).exp = .any := rfl
theorem exp_arr (xs : List (Val H)) : (.arr xs : Val H).exp = .any := rfl
theorem exp_words (xs : List U64) : (words xs : Val H).exp = .any := rfl
section
variable (C : Ctx H) (t : NumTy) (a b : Nat)
theorem add_int : binVal C .add (.int t a) (.int t b) = addW t.bits a b >>= fun n => .ok (.int t n) := by
  simp [binVal, arith]
theorem sub_int : binVal C .sub (.int t a) (.int t b) = subW t.bits a b >>= fun n => .ok (.int t n) := by
  simp [binVal, arith]
theorem mul_int : binVal C .mul (.int t a) (.int t b) = mulW t.bits a b >>= fun n => .ok (.int t n) := by
  simp [binVal, arith]
theorem div_int : binVal C .div (.int t a) (.int t b) =
    if b = 0 then .panic (.explicit "attempt to divide by zero") else .ok (.int t (a / b)) := by
  simp [binVal, arith]
theorem rem_int : binVal C .rem (.int t a) (.int t b) =
    if b = 0 then .panic (.explicit "attempt to calculate the remainder with a divisor of zero")
    else .ok (.int t (a % b)) := by
  simp [binVal, arith]
theorem eq_int : binVal C .eq (.int t a) (.int t b) = .ok (.bool (decide (a = b))) := by
  simp [binVal, arith]
theorem ne_int : binVal C .ne (.int t a) (.int t b) = .ok (.bool (decide (a ≠ b))) := by
  simp [binVal, arith]
theorem lt_int : binVal C .lt (.int t a) (.int t b) = .ok (.bool (decide (a < b))) := by
  simp [binVal, arith]
theorem le_int : binVal C .le (.int t a) (.int t b) = .ok (.bool (decide (a ≤ b))) := by
  simp [binVal, arith]
theorem gt_int : binVal C .gt (.int t a) (.int t b) = .ok (.bool (decide (a > b))) := by
  simp [binVal, arith]
theorem ge_int : binVal C .ge (.int t a) (.int t b) = .ok (.bool (decide (a ≥ b))) := by
  simp [binVal, arith]
theorem eq_lit : binVal C .eq (.lit a) (.lit b) = .ok (.bool (decide (a = b))) := rfl
end
theorem addW_u32 (a b : Nat) : addW NumTy.u32.bits a b = addW 32 a b := rfl
theorem subW_u32 (a b : Nat) : subW NumTy.u32.bits a b = subW 32 a b := rfl
theorem mulW_u32 (a b : Nat) : mulW NumTy.u32.bits a b = mulW 32 a b := rfl
theorem castW_u32 (a : Nat) : castW NumTy.u32.bits a = castW 32 a := rfl
theorem addW_usize (a b : Nat) : addW NumTy.usize.bits a b = addW usizeBits a b := rfl
theorem subW_usize (a b : Nat) : subW NumTy.usize.bits a b = subW usizeBits a b := rfl
theorem castW_usize (a : Nat) : castW NumTy.usize.bits a = castW usizeBits a := rfl
theorem exp_vec {N : Nat} (x : Vector U64 N) : (vec x : Val H).exp = .any := rfl

end ops

/-! ### loops -/

section loops

theorem loop_sim {σ γ : Type} (enc : σ → Env H) {is : List Nat} {s : σ}
    {f : Val H → Env H → Res (Out H)} {g : Nat → σ → Res σ} {env : Env H}
    {K : Val H → Env H → Res (Out H)} {fin : Out H → Res γ} {R : σ → Res γ}
    (he : env = enc s)
    (h : ∀ i s, f (.int .usize i) (enc s) = g i s >>= fun s => .ok (.val .unit (enc s)))
    (hK : ∀ s, K .unit (enc s) >>= fin = R s) :
    Out.andThen (forItems f (is.map (.int .usize)) env) K >>= fin = forEach is s g >>= R := by
  subst he
  induction is generalizing s with
  | nil => exact hK s
  | cons i is ih =>
    simp only [List.map, forItems, forEach, h]
    cases hg : g i s with
    | ok s' => simpa using ih
    | _ => rfl

theorem loop_tail_sim {σ γ : Type} (enc : σ → Env H) {is : List Nat} {s : σ}
    {f : Val H → Env H → Res (Out H)} {g : Nat → σ → Res σ} {env : Env H}
    {fin : Out H → Res γ} {R : σ → Res γ}
    (he : env = enc s)
    (h : ∀ i s, f (.int .usize i) (enc s) = g i s >>= fun s => .ok (.val .unit (enc s)))
    (hK : ∀ s, fin (.val .unit (enc s)) = R s) :
    forItems f (is.map (.int .usize)) env >>= fin = forEach is s g >>= R := by
  subst he
  induction is generalizing s with
  | nil => exact hK s
  | cons i is ih =>
    simp only [List.map, forItems, forEach, h]
    cases hg : g i s with
    | ok s' => simpa using ih
    | _ => rfl

theorem loop_ret_sim {ρ σ γ : Type} (enc : σ → Env H) (encR : ρ → Val H) {is : List Nat} {s : σ}
    {f : Val H → Env H → Res (Out H)} {g : Nat → σ → Res (Flow ρ σ)} {env : Env H}
    {K : Val H → Env H → Res (Out H)} {fin : Out H → Res γ} {R : Flow ρ σ → Res γ}
    (he : env = enc s)
    (h : ∀ i s, f (.int .usize i) (enc s) = g i s >>= fun
      | .ret r => .ok (.ret (encR r) (enc s))
      | .next s => .ok (.val .unit (enc s)))
    (hR : ∀ r s, fin (.ret (encR r) (enc s)) = R (.ret r))
    (hK : ∀ s, K .unit (enc s) >>= fin = R (.next s)) :
    Out.andThen (forItems f (is.map (.int .usize)) env) K >>= fin = forEachRet is s g >>= R := by
  subst he
  induction is generalizing s with
  | nil => exact hK s
  | cons i is ih =>
    simp only [List.map, forItems, forEachRet, h]
    cases hg : g i s with
    | ok s' =>
      cases s' with
      | ret r => simpa [andThen_ret] using hR r s
      | next s' => simpa using ih
    | _ => rfl

theorem all_words {f : Val H → Env H → Res (Out H)} {p : U64 → Bool} {env : Env H}
    (h : ∀ x, f (word x) env = .ok (.val (.bool (p x)) env)) (l : List U64) :
    allItems f (l.map word) env = .ok (.val (.bool (l.all p)) env) := by
  induction l with
  | nil => rfl
  | cons x l ih =>
    simp only [List.map, allItems, h, andThen_val, cond_bool, ih, List.all]
    by_cases hp : p x = true <;> simp [hp]

theorem map_words {f : Val H → Env H → Res (Out H)} {g : U64 → Val H} {env : Env H}
    (h : ∀ x, f (word x) env = .ok (.val (g x) env)) (l : List U64) :
    mapItems f (l.map word) env = .ok (.val (.arr (l.map g)) env) := by
  induction l with
  | nil => rfl
  | cons x l ih => simp only [List.map, mapItems, h, andThen_val, ih]

theorem sum_u32 [Platform] (g : U64 → Nat) (l : List U64) :
    sumVal (.int .u32) (.arr (l.map fun x => .int .u32 (g x)) : Val H) =
      forEach l 0 (fun x acc => addW 32 acc (g x)) >>= fun n => .ok (.int .u32 n) := by
  simp only [sumVal]
  generalize 0 = a
  induction l generalizing a with
  | nil => rfl
  | cons x l ih =>
    simp only [List.map, sumInts, forEach, if_true, bind_assoc]
    refine bind_congr fun b => ?_
    exact ih b

/-- One round of `while`, `rec` being the rounds after it. -/
def unroll (c body rec : Env H → Res (Out H)) (env : Env H) : Res (Out H) :=
  c env >>= fun
    | .val (.bool true) env => body env >>= fun
      | .val _ env => rec env
      | .brk env => .ok (.val .unit env)
      | .ret v env => .ok (.ret v env)
    | .val (.bool false) env => .ok (.val .unit env)
    | _ => .ub

theorem while_sim {σ β γ : Type} (enc : σ → Env H) {c body : Env H → Res (Out H)}
    {K : Val H → Env H → Res (Out H)} {fin : Out H → Res γ} {loop : Nat → σ → Res β} {R : β → Res γ}
    (h0 : ∀ s, loop 0 s = .diverge)
    (h : ∀ n s (rec : Env H → Res (Out H)),
      (∀ s, Out.andThen (rec (enc s)) K >>= fin = loop n s >>= R) →
      Out.andThen (unroll c body rec (enc s)) K >>= fin = loop (n + 1) s >>= R)
    (n : Nat) (s : σ) {env : Env H} (he : env = enc s) :
    Out.andThen (whileLoop c body n env) K >>= fin = loop n s >>= R := by
  subst he
  induction n generalizing s with
  | zero => rw [h0]; rfl
  | succ n ih => exact h n s (whileLoop c body n) ih

/-- `loop_ret_sim` for a loop that is the last statement of a block. -/
theorem loop_ret_restore_sim {ρ σ γ : Type} (n : Nat) (enc : σ → Env H) (encR : ρ → Val H)
    {is : List Nat} {s : σ}
    {f : Val H → Env H → Res (Out H)} {g : Nat → σ → Res (Flow ρ σ)} {env : Env H}
    {K : Val H → Env H → Res (Out H)} {fin : Out H → Res γ} {R : Flow ρ σ → Res γ}
    (he : env = enc s) (hn : ∀ s, (enc s).length = n)
    (h : ∀ i s, f (.int .usize i) (enc s) = g i s >>= fun
      | .ret r => .ok (.ret (encR r) (enc s))
      | .next s => .ok (.val .unit (enc s)))
    (hR : ∀ r s, fin (.ret (encR r) (enc s)) = R (.ret r))
    (hK : ∀ s, K .unit (enc s) >>= fin = R (.next s)) :
    Out.andThen (Out.restore n (forItems f (is.map (.int .usize)) env)) K >>= fin =
      forEachRet is s g >>= R := by
  subst he
  induction is generalizing s with
  | nil => simp only [List.map, forItems, forEachRet, restore_val, hn, Nat.sub_self, List.drop]; exact hK s
  | cons i is ih =>
    simp only [List.map, forItems, forEachRet, h]
    cases hg : g i s with
    | ok s' =>
      cases s' with
      | ret r => simpa [Out.restore, hn, andThen_ret] using hR r s
      | next s' => simpa using ih
    | _ => rfl

end loops

/-- Evaluate. -/
macro "run" "[" ls:Lean.Parser.Tactic.simpLemma,* "]" : tactic =>
  `(tactic| simp [bind_assoc, diverge_bind, map_eq, andThen_val, andThen_ret, andThen_brk, andThen_panic,
    andThen_ub, andThen_bind, andThen_ite, pure_ok, pure_panic, pure_bind, pure_ite, restore_val,
    restore_ret, restore_brk, restore_panic, restore_bind, restore_ite, bind_ite, need_some,
    FnDecl.fn, bindParams, bindGens, inferGens, inferGen, evalStmts, eval, evalArgs, place, writeAt,
    getAt, setAt, writeBack, writeBacks, constArgs, bindPat, bindPats, matches?, lookup, update, asIndex_usize, asIndex_lit, gen_vec,
    adopt_any, adopt_opt, adopt_arr, adopt_app, adopt_lit, adopt_int, adopt_bool, adopt_struct, adopt_host, adopt_vec, adopt_words, adopt_items, adopt_tup, adopt_none, adopt_some, adopt_unit, mutVals, Ctx.tyName, Ctx.exp, Ctx.expArg, ctx_fuel, ctx_self, ctx_alias, ctx_structs, ctx_call, method_not, intrinsics, StructDecl.exp, sd_primIter, sd_set, sd_setIter, sd_not_T, sd_not_Repr, sd_not_Iter, sd_not_Helper, sd_array, sd_arrayIter, ctx_ty, ofName_u8, ofName_u16, ofName_u32, ofName_u64, ofName_u128, ofName_usize, ofName_not_Self, ofName_not_Self_Output, ofName_not_Self_Item, ofName_not_Self_Iter, ofName_not_Self_IntoIter, ofName_not_Option, ofName_not_Vec, ofName_not_ArrayRepr, ofName_not_ArrayIter, ofName_not_PrimitiveIter, ofName_not_EnumSet, ofName_not_EnumSetIter, ofName_not_T, ofName_not_T_Repr, ofName_not_T_Repr_Iter, ofName_not_O, ofName_not_N, ofName_not_bool, ofName_not_name, ofName_not_core_fmt_Result, ofName_not_Ordering, ofName_not_alloc_vec_Vec, ofName_not_T_ConstHelper, ofName_not_I, ofName_not_H, ofName_not_Formatter, ofName_not_Result, BinOp.isShift,
    field_struct, set_field, cond_bool, inferGen_vec, inferGen_bv, replicate_word, exp_int, exp_lit, exp_bool,
    exp_struct, exp_arr, exp_words, add_int, sub_int, mul_int, div_int, rem_int, eq_int, ne_int,
    lt_int, le_int, gt_int, ge_int, eq_lit, index_vec, index_words, set_vec, set_words, set_vec_lit, set_words_lit, adopt_word, band_word, bor_word, bxor_word,
    not_word, exp_word, band_bv, bor_bv,
    bxor_bv, not_bv, exp_bv, adopt_bv, cast_word, bv_zero, ite_and_left,
    cast_quad, cast_bv, cast_int, shl_one, eq_bv, ne_bv, eq_bv_zero, ne_bv_zero, eq_word, ne_word,
    eq_word_zero, ne_word_zero, ne_quad_zero, shr_quad, shl_quad, bor_quad, exp_quad, adopt_quad, tag_bv,
    tag_word, tag_struct, tag_quad, gen_bv, tryInto_bv, ofName_name, count_ones_bv, leading_zeros_bv,
    trailing_zeros_bv, count_ones_word, leading_zeros_word, trailing_zeros_word, len_words, iter_vec,
    rev_items, expect_opt, inferGen_word, inferGen_quad, inferGen_int, inferGen_slice, gen_iters, exp_iters,
    adopt_iters, index_iters, set_iters, replicate_iters, to_get_words, to_set_words, to_get_vec,
    to_set_vec, copy_words, addW_u32, subW_u32, mulW_u32, castW_u32, addW_usize, subW_usize,
    castW_usize, withClosure, assign_int, assign_word, assign_bv, List.lookup, exp_vec, $ls,*])

end Enumset.Src
