/-!
# The fragment of Rust the model is written in

Outcomes, checked integer arithmetic, loops, indexing and the integer intrinsics the crate
relies on.  These definitions model the Rust language and `core`, not `/repo`; they are part of
the trusted base (DESIGN.md §3).
-/
set_option autoImplicit false

namespace Enumset

universe u v

/-- Why a Rust computation panicked. -/
inductive Panic where
  /-- arithmetic or shift overflow (checked, as in a debug build) -/
  | overflow
  /-- `a[i]` with `i` out of bounds, or a slice range out of bounds -/
  | index
  /-- `copy_from_slice` on slices of different lengths -/
  | sliceLen
  /-- `Option::expect(msg)` on `None` -/
  | expect (msg : String)
  /-- `panic!(msg)` -/
  | explicit (msg : String)
  deriving DecidableEq, Repr

/-- Outcome of a Rust computation.  A theorem `f x = .ok y` says that `f x` returns `y`, without
panicking, without undefined behaviour and in finite time. -/
inductive Res (α : Type u) where
  | ok (a : α)
  | panic (p : Panic)
  | ub
  | diverge
  deriving DecidableEq, Repr

namespace Res

/-- Sequencing: anything but `ok` aborts the rest. -/
protected def bind {α : Type u} {β : Type v} : Res α → (α → Res β) → Res β
  | ok a, f => f a
  | panic p, _ => panic p
  | ub, _ => ub
  | diverge, _ => diverge

instance : Monad Res where
  pure := Res.ok
  bind := Res.bind

@[simp] theorem pure_eq {α : Type u} (a : α) : (pure a : Res α) = ok a := rfl
@[simp] theorem ok_bind {α β : Type u} (a : α) (f : α → Res β) : (ok a >>= f) = f a := rfl
@[simp] theorem panic_bind {α β : Type u} (p : Panic) (f : α → Res β) :
    (panic p >>= f) = panic p := rfl
@[simp] theorem ub_bind {α β : Type u} (f : α → Res β) : ((ub : Res α) >>= f) = ub := rfl
@[simp] theorem map_ok {α β : Type u} (a : α) (f : α → β) : (f <$> ok a) = ok (f a) := rfl

/-- `Option::expect`. -/
def expect {α : Type u} (msg : String) : Option α → Res α
  | some a => ok a
  | none => panic (.expect msg)

@[simp] theorem expect_some {α : Type u} (m : String) (a : α) : expect m (some a) = ok a := rfl
@[simp] theorem expect_none {α : Type u} (m : String) :
    expect m (none : Option α) = panic (.expect m) := rfl

end Res

/-- The compilation target: the width of `usize`. -/
class Target where
  usizeBits : Nat
  usize_ok : usizeBits = 16 ∨ usizeBits = 32 ∨ usizeBits = 64

/-- A target and a build mode: whether arithmetic overflow is checked (`-C overflow-checks`, on in
debug builds) or wraps (release builds), and whether the feature `serde` of the crates is on. -/
class Platform extends Target where
  overflowChecks : Bool
  serde : Bool := false

/-- A target built with (`true`) or without (`false`) overflow checks. -/
@[instance_reducible] def build (t : Target) (checks : Bool) : Platform :=
  { t with overflowChecks := checks }

/-- `usize` width of the target. -/
abbrev usizeBits [Target] : Nat := Target.usizeBits

abbrev U64 := BitVec 64
abbrev U128 := BitVec 128

/-! ### arithmetic on unsigned integers of a given width, represented as `Nat` -/

/-- The outcome of an arithmetic operation whose exact result does not fit: a panic if overflow is
checked, the wrapped value otherwise. -/
def onOverflow {α : Type} [Platform] (wrapped : α) : Res α :=
  if Platform.overflowChecks then .panic .overflow else .ok wrapped

/-- `a + b` at an unsigned type of `w` bits. -/
def addW [Platform] (w a b : Nat) : Res Nat :=
  if a + b < 2 ^ w then .ok (a + b) else onOverflow ((a + b) % 2 ^ w)
/-- `a - b` at an unsigned type of `w` bits. -/
def subW [Platform] (w a b : Nat) : Res Nat :=
  if b ≤ a then .ok (a - b) else onOverflow ((2 ^ w + a - b) % 2 ^ w)
/-- `a * b` at an unsigned type of `w` bits. -/
def mulW [Platform] (w a b : Nat) : Res Nat :=
  if a * b < 2 ^ w then .ok (a * b) else onOverflow (a * b % 2 ^ w)
/-- `x as T` for `T` an unsigned type of `w` bits. -/
def castW (w x : Nat) : Nat := x % 2 ^ w

/-- `1 << s` at an unsigned type of `w` bits (a power of two); without overflow checks only the low
bits of `s` count. -/
def shl1 [Platform] (w s : Nat) : Res (BitVec w) :=
  if s < w then .ok (1#w <<< s) else onOverflow (1#w <<< (s % w))

/-- `v.try_into().ok()` between unsigned integer types. -/
def tryInto {a : Nat} (b : Nat) (v : BitVec a) : Option (BitVec b) :=
  if v.toNat < 2 ^ b then some (v.setWidth b) else none

/-- `v as T` between unsigned integer types. -/
def castBV {a : Nat} (b : Nat) (v : BitVec a) : BitVec b := v.setWidth b

/-! ### integer intrinsics of `core` -/

/-- `uN::count_ones`. -/
def countOnes {w : Nat} (x : BitVec w) : Nat := (List.range w).countP (fun i => x.getLsbD i)
/-- `uN::trailing_zeros`: zero bits below the lowest set bit (`w` for 0). -/
def trailingZeros {w : Nat} (x : BitVec w) : Nat :=
  ((List.range w).takeWhile (fun i => !x.getLsbD i)).length
/-- `uN::leading_zeros`: zero bits above the highest set bit (`w` for 0). -/
def leadingZeros {w : Nat} (x : BitVec w) : Nat :=
  ((List.range w).reverse.takeWhile (fun i => !x.getLsbD i)).length

/-! ### arrays, slices, indexing -/

/-- `v[i]` on an array. -/
def idxV {α : Type u} {n : Nat} (v : Vector α n) (i : Nat) : Res α :=
  if h : i < n then .ok v[i] else .panic .index
/-- `v[i] = x` on an array. -/
def setV {α : Type u} {n : Nat} (v : Vector α n) (i : Nat) (x : α) : Res (Vector α n) :=
  if h : i < n then .ok (v.set i x) else .panic .index
/-- `v[i]` on a slice. -/
def idxL {α : Type u} (v : List α) (i : Nat) : Res α :=
  if h : i < v.length then .ok v[i] else .panic .index
/-- `v[i] = x` on a slice. -/
def setL {α : Type u} (v : List α) (i : Nat) (x : α) : Res (List α) :=
  if i < v.length then .ok (v.set i x) else .panic .index

/-- `dst[..k].copy_from_slice(&src[..k])` on arrays of lengths `n`, `m`. -/
def copyPrefixVV {α : Type u} {n m : Nat} (dst : Vector α n) (src : Vector α m) (k : Nat) :
    Res (Vector α n) :=
  if h : k ≤ n ∧ k ≤ m then
    .ok (Vector.ofFn fun i : Fin n => if hi : i.val < k then src[i.val]'(by omega) else dst[i.val])
  else .panic .index
/-- `dst[..k].copy_from_slice(&src[..k])`, `dst` a slice, `src` an array. -/
def copyPrefixLV {α : Type u} {m : Nat} (dst : List α) (src : Vector α m) (k : Nat) :
    Res (List α) :=
  if k ≤ dst.length ∧ k ≤ m then .ok (src.toList.take k ++ dst.drop k) else .panic .index
/-- `dst[..k].copy_from_slice(&src[..k])`, `dst` an array, `src` a slice. -/
def copyPrefixVL {α : Type u} {n : Nat} (dst : Vector α n) (src : List α) (k : Nat) :
    Res (Vector α n) :=
  if h : k ≤ n ∧ k ≤ src.length then
    .ok (Vector.ofFn fun i : Fin n => if hi : i.val < k then src[i.val]'(by omega) else dst[i.val])
  else .panic .index

/-! ### loops -/

/-- `a..b` -/
def range (a b : Nat) : List Nat := List.range' a (b - a)

/-- `for i in is { s = body(i, s) }` -/
def forEach {ι σ : Type} : List ι → σ → (ι → σ → Res σ) → Res σ
  | [], s, _ => .ok s
  | i :: is, s, f => f i s >>= fun s' => forEach is s' f

/-- What a loop body with `return` in it does. -/
inductive Flow (ρ σ : Type) where
  /-- `return r` from the enclosing function -/
  | ret (r : ρ)
  /-- fall through to the next iteration -/
  | next (s : σ)

/-- `for i in is { body }` where the body may `return` from the enclosing function. -/
def forEachRet {ι ρ σ : Type} : List ι → σ → (ι → σ → Res (Flow ρ σ)) → Res (Flow ρ σ)
  | [], s, _ => .ok (.next s)
  | i :: is, s, f => f i s >>= fun
    | .ret r => .ok (.ret r)
    | .next s' => forEachRet is s' f

end Enumset
