import Verif.Primitive
/-!
# `enumset/src/repr/array.rs`: array storage
-/
set_option autoImplicit false

namespace Enumset

/-- array.rs:8-9 `pub struct ArrayRepr<const N: usize>(pub [u64; N]);` -/
structure ArrayRepr (N : Nat) where
  a : Vector U64 N
  deriving DecidableEq

/-- array.rs:272-278 `ArrayIter`; the elements are `PrimitiveIter<u64>`, a transparent wrapper
around a `u64` (primitive.rs:268-270). -/
structure ArrayIter (N : Nat) where
  data : Vector U64 N
  done : Bool
  idx_f : Nat
  idx_r : Nat

/-- Lexicographic comparison of two `u64` slices, as `core` implements `Ord for [T]`: compare up to
the shorter length, first difference decides, then the lengths. -/
def cmpWords : List U64 → List U64 → Ordering
  | [], [] => .eq
  | [], _ :: _ => .lt
  | _ :: _, [] => .gt
  | x :: xs, y :: ys =>
    match compare x.toNat y.toNat with
    | .eq => cmpWords xs ys
    | o => o

/-- As `cmpWords`, for `PartialOrd for [T]`. -/
def partialCmpWords : List U64 → List U64 → Option Ordering
  | [], [] => some .eq
  | [], _ :: _ => some .lt
  | _ :: _, [] => some .gt
  | x :: xs, y :: ys =>
    match some (compare x.toNat y.toNat) with
    | some .eq => partialCmpWords xs ys
    | o => o

namespace ArrayRepr

variable [Platform] {N : Nat}

/-- array.rs:11-13 `(bit as usize / 64, bit % 64)` -/
def split_bit (bit : Nat) : Nat × Nat := (castW usizeBits bit / 64, bit % 64)

/-- array.rs:16-24 -/
def bitand (self rhs : ArrayRepr N) : Res (ArrayRepr N) :=
  forEach (range 0 N) self fun i self => do
    let x ← idxV self.a i
    let y ← idxV rhs.a i
    let a ← setV self.a i (x &&& y)
    pure ⟨a⟩
/-- array.rs:25-33 -/
def bitor (self rhs : ArrayRepr N) : Res (ArrayRepr N) :=
  forEach (range 0 N) self fun i self => do
    let x ← idxV self.a i
    let y ← idxV rhs.a i
    let a ← setV self.a i (x ||| y)
    pure ⟨a⟩
/-- array.rs:34-42 -/
def bitxor (self rhs : ArrayRepr N) : Res (ArrayRepr N) :=
  forEach (range 0 N) self fun i self => do
    let x ← idxV self.a i
    let y ← idxV rhs.a i
    let a ← setV self.a i (x ^^^ y)
    pure ⟨a⟩
/-- array.rs:43-51 -/
def not (self : ArrayRepr N) : Res (ArrayRepr N) :=
  forEach (range 0 N) self fun i self => do
    let x ← idxV self.a i
    let a ← setV self.a i (~~~ x)
    pure ⟨a⟩

/-- array.rs:55 `N as u32 * 64` (a constant: an overflow would be a compile error, here it wraps;
`derive` never produces such an `N`, see C31) -/
def WIDTH (N : Nat) : Nat := castW 32 (castW 32 N * 64)
/-- array.rs:56 -/
def EMPTY : ArrayRepr N := ⟨Vector.replicate N 0⟩

/-- array.rs:58-60 -/
def is_empty (self : ArrayRepr N) : Bool := self.a.toList.all (fun x => x == 0)

/-- array.rs:62-65 -/
def add_bit (self : ArrayRepr N) (bit : Nat) : Res (ArrayRepr N) := do
  let (idx, bit) := split_bit bit
  let x ← idxV self.a idx
  let x ← prim.add_bit x bit
  let a ← setV self.a idx x
  pure ⟨a⟩
/-- array.rs:66-69 -/
def remove_bit (self : ArrayRepr N) (bit : Nat) : Res (ArrayRepr N) := do
  let (idx, bit) := split_bit bit
  let x ← idxV self.a idx
  let x ← prim.remove_bit x bit
  let a ← setV self.a idx x
  pure ⟨a⟩
/-- array.rs:70-73 -/
def has_bit (self : ArrayRepr N) (bit : Nat) : Res Bool := do
  let (idx, bit) := split_bit bit
  let x ← idxV self.a idx
  prim.has_bit x bit

/-- array.rs:75-77 (`sum` over `u32` is overflow checked) -/
def count_ones (self : ArrayRepr N) : Res Nat :=
  forEach self.a.toList 0 fun x acc => addW 32 acc (prim.count_ones x)
/-- array.rs:78-87 -/
def leading_zeros (self : ArrayRepr N) : Res Nat := do
  let r ← forEachRet (ρ := Nat) (range 0 N).reverse 0 fun i accum => do
    let x ← idxV self.a i
    if x ≠ 0 then do
      let r ← addW 32 accum (prim.leading_zeros x)
      pure (.ret r)
    else do
      let accum ← addW 32 accum 64
      pure (.next accum)
  match r with
  | .ret r => pure r
  | .next _ => pure (WIDTH N)
/-- array.rs:88-97 -/
def trailing_zeros (self : ArrayRepr N) : Res Nat := do
  let r ← forEachRet (ρ := Nat) (range 0 N) 0 fun i accum => do
    let x ← idxV self.a i
    if x ≠ 0 then do
      let r ← addW 32 accum (prim.trailing_zeros x)
      pure (.ret r)
    else do
      let accum ← addW 32 accum 64
      pure (.next accum)
  match r with
  | .ret r => pure r
  | .next _ => pure (WIDTH N)

/-- array.rs:99-105 -/
def and_not (self other : ArrayRepr N) : Res (ArrayRepr N) :=
  forEach (range 0 N) (⟨Vector.replicate N 0⟩ : ArrayRepr N) fun i new => do
    let x ← idxV self.a i
    let y ← idxV other.a i
    let a ← setV new.a i (x &&& ~~~ y)
    pure ⟨a⟩

/-- array.rs:121-125 -/
def from_u64 (v : U64) : Res (ArrayRepr N) := do
  let new ← setV (Vector.replicate N 0) 0 v
  pure ⟨new⟩
/-- array.rs:126-133 -/
def from_u128 (v : U128) : Res (ArrayRepr N) := do
  let new ← setV (Vector.replicate N 0) 0 (castBV 64 v)
  let new ← if N ≠ 1 then setV new 1 (castBV 64 (v >>> 64)) else pure new
  pure ⟨new⟩
/-- array.rs:112-136 `from_u8`, `from_u16`, `from_u32`, `from_u64`, `from_u128`, `from_usize` -/
def from_num : (n : NumTy) → BitVec n.bits → Res (ArrayRepr N)
  | .u8, v => from_u64 (castBV 64 v)
  | .u16, v => from_u64 (castBV 64 v)
  | .u32, v => from_u64 (castBV 64 v)
  | .u64, v => from_u64 v
  | .u128, v => from_u128 v
  | .usize, v => from_u64 (castBV 64 v)
/-- array.rs:150-156 -/
def from_u128_opt (v : U128) : Res (Option (ArrayRepr N)) :=
  if N = 1 ∧ (v >>> 64) ≠ 0 then .ok none
  else do
    let r ← from_u128 v
    pure (some r)
/-- array.rs:138-159 `from_u8_opt` … `from_usize_opt` -/
def from_num_opt : (n : NumTy) → BitVec n.bits → Res (Option (ArrayRepr N))
  | .u8, v => some <$> from_num .u8 v
  | .u16, v => some <$> from_num .u16 v
  | .u32, v => some <$> from_num .u32 v
  | .u64, v => some <$> from_num .u64 v
  | .u128, v => from_u128_opt v
  | .usize, v => some <$> from_num .usize v

/-- array.rs:170-172 -/
def to_u64 (self : ArrayRepr N) : Res U64 := idxV self.a 0
/-- array.rs:173-176 -/
def to_u128 (self : ArrayRepr N) : Res U128 := do
  let hi : U128 ← if N = 1 then pure 0 else do
    let y ← idxV self.a 1
    pure (castBV 128 y <<< 64)
  let x ← idxV self.a 0
  pure (castBV 128 x ||| hi)
/-- array.rs:161-179 `to_u8` … `to_usize` -/
def to_num : (n : NumTy) → ArrayRepr N → Res (BitVec n.bits)
  | .u8, self => do let x ← to_u64 self; pure (prim.to_num .u8 x)
  | .u16, self => do let x ← to_u64 self; pure (prim.to_num .u16 x)
  | .u32, self => do let x ← to_u64 self; pure (prim.to_num .u32 x)
  | .u64, self => to_u64 self
  | .u128, self => to_u128 self
  | .usize, self => do let x ← to_u64 self; pure (prim.to_num .usize x)

/-- the loop `for i in k..N { if self.0[i] != 0 { return None; } }` of array.rs:191-195, 199-203,
218-222, 244-248: `true` iff it runs to the end -/
def zeroFrom (self : ArrayRepr N) (k : Nat) : Res Bool := do
  let r ← forEachRet (ρ := Unit) (range k N) () fun i _ => do
    let x ← idxV self.a i
    pure (if x ≠ 0 then .ret () else .next ())
  match r with
  | .ret _ => pure false
  | .next _ => pure true

/-- array.rs:190-197 -/
def to_u64_opt (self : ArrayRepr N) : Res (Option U64) := do
  if ← zeroFrom self 1 then do
    let x ← to_u64 self
    pure (some x)
  else pure none
/-- array.rs:198-205 -/
def to_u128_opt (self : ArrayRepr N) : Res (Option U128) := do
  if ← zeroFrom self 2 then do
    let x ← to_u128 self
    pure (some x)
  else pure none
/-- array.rs:181-208 `to_u8_opt` … `to_usize_opt` -/
def to_num_opt : (n : NumTy) → ArrayRepr N → Res (Option (BitVec n.bits))
  | .u8, self => do let x ← to_u64_opt self; pure (x.bind (prim.to_num_opt .u8))
  | .u16, self => do let x ← to_u64_opt self; pure (x.bind (prim.to_num_opt .u16))
  | .u32, self => do let x ← to_u64_opt self; pure (x.bind (prim.to_num_opt .u32))
  | .u64, self => to_u64_opt self
  | .u128, self => to_u128_opt self
  | .usize, self => do let x ← to_u64_opt self; pure (x.bind (prim.to_num_opt .usize))

/-- array.rs:210-215 -/
def to_u64_array (O : Nat) (self : ArrayRepr N) : Res (Vector U64 O) :=
  let array : Vector U64 O := Vector.replicate O 0
  let copy_len := if N < O then N else O
  copyPrefixVV array self.a copy_len
/-- array.rs:216-225 -/
def to_u64_array_opt (O : Nat) (self : ArrayRepr N) : Res (Option (Vector U64 O)) := do
  let fits ← if N > O then zeroFrom self O else pure true
  if fits then do
    let a ← to_u64_array O self
    pure (some a)
  else pure none

/-- array.rs:227-229 -/
def from_u64_array (O : Nat) (v : Vector U64 O) : Res (ArrayRepr N) := do
  let a ← to_u64_array N (⟨v⟩ : ArrayRepr O)
  pure ⟨a⟩
/-- array.rs:230-232 -/
def from_u64_array_opt (O : Nat) (v : Vector U64 O) : Res (Option (ArrayRepr N)) := do
  let a ← to_u64_array_opt N (⟨v⟩ : ArrayRepr O)
  pure (a.map ArrayRepr.mk)

/-- array.rs:234-240 -/
def to_u64_slice (self : ArrayRepr N) (out : List U64) : Res (List U64) := do
  let copy_len := if N < out.length then N else out.length
  let out ← copyPrefixLV out self.a copy_len
  forEach (range copy_len out.length) out fun i out => setL out i 0
/-- array.rs:241-252 -/
def to_u64_slice_opt (self : ArrayRepr N) (out : List U64) : Res (Option Unit × List U64) := do
  let fits ← if N > out.length then zeroFrom self out.length else pure true
  if fits then do
    let out ← to_u64_slice self out
    pure (some (), out)
  else pure (none, out)

/-- array.rs:254-259 -/
def from_u64_slice (v : List U64) : Res (ArrayRepr N) := do
  let copy_len := if N < v.length then N else v.length
  let new ← copyPrefixVL (Vector.replicate N 0) v copy_len
  pure ⟨new⟩
/-- array.rs:260-269 -/
def from_u64_slice_opt (v : List U64) : Res (Option (ArrayRepr N)) := do
  let r ← if v.length > N then
      forEachRet (ρ := Unit) (range N v.length) () fun i _ => do
        let x ← idxL v i
        pure (if x ≠ 0 then .ret () else .next ())
    else pure (.next ())
  match r with
  | .ret _ => pure none
  | .next _ => do
    let r ← from_u64_slice v
    pure (some r)

end ArrayRepr

namespace ArrayIter

variable [Platform] {N : Nat}

/-- array.rs:281-287 -/
def new (array : ArrayRepr N) : Res (ArrayIter N) := do
  let new ← forEach (range 0 N) (Vector.replicate N (0 : U64)) fun i new => do
    let x ← idxV array.a i
    setV new i x
  let idx_r ← subW usizeBits N 1
  pure { data := new, done := false, idx_f := 0, idx_r := idx_r }

/-- array.rs:297-303, the `while` loop of `next`.  `fuel` bounds the number of iterations; the loop
is entered at most `idx_r + 1 - idx_f` times, running out of fuel is `diverge`. -/
def nextLoop : Nat → ArrayIter N → Res (Option Nat × ArrayIter N)
  | 0, _ => .diverge
  | fuel + 1, self =>
    if self.idx_f ≤ self.idx_r then do
      let x ← idxV self.data self.idx_f
      let (r, x) ← prim.iter_next x
      let data ← setV self.data self.idx_f x
      let self := { self with data := data }
      match r with
      | some x => do
        let m ← mulW 32 (castW 32 self.idx_f) 64
        let y ← addW 32 m x
        pure (some y, self)
      | none => do
        let i ← addW usizeBits self.idx_f 1
        nextLoop fuel { self with idx_f := i }
    else pure (none, { self with done := true })

/-- array.rs:293-306 -/
def next (self : ArrayIter N) : Res (Option Nat × ArrayIter N) :=
  if self.done then .ok (none, self)
  else nextLoop (self.idx_r + 1 - self.idx_f + 1) self

/-- array.rs:322-331, the `while` loop of `next_back`. -/
def nextBackLoop : Nat → ArrayIter N → Res (Option Nat × ArrayIter N)
  | 0, _ => .diverge
  | fuel + 1, self =>
    if self.idx_f ≤ self.idx_r then do
      let x ← idxV self.data self.idx_r
      let (r, x) ← prim.iter_next_back x
      let data ← setV self.data self.idx_r x
      let self := { self with data := data }
      match r with
      | some x => do
        let m ← mulW 32 (castW 32 self.idx_r) 64
        let y ← addW 32 m x
        pure (some y, self)
      | none =>
        if self.idx_r = 0 then pure (none, { self with done := true })
        else do
          let i ← subW usizeBits self.idx_r 1
          nextBackLoop fuel { self with idx_r := i }
    else pure (none, { self with done := true })

/-- array.rs:318-334 -/
def next_back (self : ArrayIter N) : Res (Option Nat × ArrayIter N) :=
  if self.done then .ok (none, self)
  else nextBackLoop (self.idx_r + 1 - self.idx_f + 1) self

/-- array.rs:308-314 -/
def size_hint (self : ArrayIter N) : Res (Nat × Option Nat) := do
  let e ← addW usizeBits self.idx_r 1
  let sum ← forEach (range self.idx_f e) 0 fun i sum => do
    let x ← idxV self.data i
    addW usizeBits sum (castW usizeBits (prim.count_ones x))
  pure (sum, some sum)

end ArrayIter

/-- array.rs:8 (`derive(Eq, PartialEq, Ord, PartialOrd, Hash)`) and array.rs:53-270. -/
instance [Platform] (N : Nat) : EnumSetTypeRepr (ArrayRepr N) where
  PREFERRED_ARRAY_LEN := N
  WIDTH := ArrayRepr.WIDTH N
  EMPTY := ArrayRepr.EMPTY
  eq x y := x.a.toList == y.a.toList
  partial_cmp x y := partialCmpWords x.a.toList y.a.toList
  cmp x y := cmpWords x.a.toList y.a.toList
  hash x := [.lenPrefix N, .words x.a.toList]
  bitand := ArrayRepr.bitand
  bitor := ArrayRepr.bitor
  bitxor := ArrayRepr.bitxor
  not := ArrayRepr.not
  is_empty x := .ok x.is_empty
  add_bit := ArrayRepr.add_bit
  remove_bit := ArrayRepr.remove_bit
  has_bit := ArrayRepr.has_bit
  count_ones := ArrayRepr.count_ones
  leading_zeros := ArrayRepr.leading_zeros
  trailing_zeros := ArrayRepr.trailing_zeros
  and_not := ArrayRepr.and_not
  Iter := ArrayIter N
  iter := ArrayIter.new
  iter_next := ArrayIter.next
  iter_next_back := ArrayIter.next_back
  iter_size_hint := ArrayIter.size_hint
  from_num := ArrayRepr.from_num
  from_num_opt := ArrayRepr.from_num_opt
  to_num := ArrayRepr.to_num
  to_num_opt := ArrayRepr.to_num_opt
  to_u64_array := ArrayRepr.to_u64_array
  to_u64_array_opt := ArrayRepr.to_u64_array_opt
  from_u64_array := ArrayRepr.from_u64_array
  from_u64_array_opt := ArrayRepr.from_u64_array_opt
  to_u64_slice := ArrayRepr.to_u64_slice
  to_u64_slice_opt := ArrayRepr.to_u64_slice_opt
  from_u64_slice := ArrayRepr.from_u64_slice
  from_u64_slice_opt := ArrayRepr.from_u64_slice_opt

end Enumset
