import Verif.Bits
import Verif.Repr
/-!
# What a storage representation has to satisfy

`LawfulRepr R` says what every member of `EnumSetTypeRepr` does to the bits of a value.  It is proved
for the integer types in `LawfulPrim.lean` and for `ArrayRepr` in `LawfulArray.lean`; everything
about `set.rs` follows from it.
-/
set_option autoImplicit false

namespace Enumset

open EnumSetTypeRepr

/-- See the module comment.  `bit r i` is bit `i` of the stored value, `ibit it i` whether an
iterator still has bit `i` to yield, `Inv` the invariant of iterators. -/
class LawfulRepr [Platform] (R : Type) [EnumSetTypeRepr R] where
  bit : R → Nat → Bool
  Inv : Iter R → Prop
  ibit : Iter R → Nat → Bool
  bit_lt : ∀ {r : R} {i : Nat}, bit r i = true → i < WIDTH R
  ext : ∀ {a b : R}, (∀ i, bit a i = bit b i) → a = b
  width_pos : 0 < WIDTH R
  width_lt : WIDTH R < 2 ^ 32
  width_le : WIDTH R ≤ 64 * PREFERRED_ARRAY_LEN R
  eq_iff : ∀ {a b : R}, eq a b = true ↔ a = b
  hash_inj : ∀ {a b : R}, hash a = hash b → a = b
  partial_cmp_eq : ∀ (a b : R), partial_cmp a b = some (cmp a b)
  cmp_eq_iff : ∀ {a b : R}, cmp a b = .eq ↔ a = b
  cmp_swap : ∀ (a b : R), cmp b a = (cmp a b).swap
  cmp_trans : ∀ {a b c : R}, cmp a b ≠ .gt → cmp b c ≠ .gt → cmp a c ≠ .gt
  cmp_subset : ∀ {a b : R}, (∀ i, bit a i = true → bit b i = true) → cmp a b ≠ .gt
  bit_empty : ∀ i, bit (EMPTY : R) i = false
  bitand_ok : ∀ a b : R, ∃ r, bitand a b = .ok r ∧ ∀ i, bit r i = (bit a i && bit b i)
  bitor_ok : ∀ a b : R, ∃ r, bitor a b = .ok r ∧ ∀ i, bit r i = (bit a i || bit b i)
  bitxor_ok : ∀ a b : R, ∃ r, bitxor a b = .ok r ∧ ∀ i, bit r i = (bit a i ^^ bit b i)
  not_ok : ∀ a : R, ∃ r, not a = .ok r ∧ ∀ i, bit r i = (decide (i < WIDTH R) && !bit a i)
  and_not_ok : ∀ a b : R, ∃ r, and_not a b = .ok r ∧ ∀ i, bit r i = (bit a i && !bit b i)
  is_empty_ok : ∀ a : R, ∃ b, is_empty a = .ok b ∧ (b = true ↔ ∀ i, bit a i = false)
  add_bit_ok : ∀ (a : R) (b : Nat), b < WIDTH R → b < 2 ^ usizeBits →
    ∃ r, add_bit a b = .ok r ∧ ∀ i, bit r i = (bit a i || decide (i = b))
  remove_bit_ok : ∀ (a : R) (b : Nat), b < WIDTH R → b < 2 ^ usizeBits →
    ∃ r, remove_bit a b = .ok r ∧ ∀ i, bit r i = (bit a i && !decide (i = b))
  has_bit_ok : ∀ (a : R) (b : Nat), b < WIDTH R → b < 2 ^ usizeBits →
    has_bit a b = .ok (bit a b)
  count_ones_ok : ∀ a : R, count_ones a = .ok ((List.range (WIDTH R)).countP (bit a))
  trailing_zeros_ok : ∀ a : R, ∃ t, trailing_zeros a = .ok t ∧ t ≤ WIDTH R ∧
    (∀ i, i < t → bit a i = false) ∧ (t < WIDTH R → bit a t = true)
  leading_zeros_ok : ∀ a : R, ∃ t, leading_zeros a = .ok t ∧ t ≤ WIDTH R ∧
    (∀ i, WIDTH R - t ≤ i → bit a i = false) ∧ (t < WIDTH R → bit a (WIDTH R - 1 - t) = true)
  ibit_lt : ∀ {it : Iter R} {i : Nat}, ibit it i = true → i < WIDTH R
  iter_ok : ∀ a : R, ∃ it, iter a = .ok it ∧ Inv it ∧ ∀ i, ibit it i = bit a i
  next_ok : ∀ it : Iter R, Inv it → ∃ o it', iter_next it = .ok (o, it') ∧ Inv it' ∧
    ((o = none ∧ (∀ i, ibit it i = false) ∧ ∀ i, ibit it' i = false) ∨
     (∃ b, o = some b ∧ ibit it b = true ∧ (∀ i, i < b → ibit it i = false) ∧
       ∀ i, ibit it' i = (ibit it i && !decide (i = b))))
  next_back_ok : ∀ it : Iter R, Inv it → ∃ o it', iter_next_back it = .ok (o, it') ∧ Inv it' ∧
    ((o = none ∧ (∀ i, ibit it i = false) ∧ ∀ i, ibit it' i = false) ∨
     (∃ b, o = some b ∧ ibit it b = true ∧ (∀ i, b < i → ibit it i = false) ∧
       ∀ i, ibit it' i = (ibit it i && !decide (i = b))))
  size_hint_ok : ∀ it : Iter R, Inv it →
    (List.range (WIDTH R)).countP (ibit it) < 2 ^ usizeBits →
    iter_size_hint it = .ok ((List.range (WIDTH R)).countP (ibit it),
      some ((List.range (WIDTH R)).countP (ibit it)))
  from_num_ok : ∀ (n : NumTy) (v : BitVec n.bits), ∃ r : R, from_num n v = .ok r ∧
    ∀ i, bit r i = (decide (i < WIDTH R) && v.getLsbD i)
  from_num_opt_ok : ∀ (n : NumTy) (v : BitVec n.bits),
    ((∀ i, v.getLsbD i = true → i < WIDTH R) →
      ∃ r : R, from_num_opt n v = .ok (some r) ∧ ∀ i, bit r i = v.getLsbD i) ∧
    (¬ (∀ i, v.getLsbD i = true → i < WIDTH R) → from_num_opt (R := R) n v = .ok none)
  to_num_ok : ∀ (n : NumTy) (a : R), ∃ x, to_num n a = .ok x ∧
    ∀ i, x.getLsbD i = (decide (i < n.bits) && bit a i)
  to_num_opt_ok : ∀ (n : NumTy) (a : R),
    ((∀ i, bit a i = true → i < n.bits) →
      ∃ x, to_num_opt n a = .ok (some x) ∧ ∀ i, x.getLsbD i = bit a i) ∧
    (¬ (∀ i, bit a i = true → i < n.bits) → to_num_opt n a = .ok none)
  to_array_ok : ∀ (O : Nat) (a : R), ∃ x, to_u64_array O a = .ok x ∧
    ∀ i, wbit x.toList i = (decide (i < 64 * O) && bit a i)
  to_array_opt_ok : ∀ (O : Nat) (a : R),
    ((∀ i, bit a i = true → i < 64 * O) →
      ∃ x, to_u64_array_opt O a = .ok (some x) ∧ ∀ i, wbit x.toList i = bit a i) ∧
    (¬ (∀ i, bit a i = true → i < 64 * O) → to_u64_array_opt O a = .ok none)
  from_array_ok : ∀ (O : Nat) (v : Vector U64 O), ∃ r : R, from_u64_array O v = .ok r ∧
    ∀ i, bit r i = (decide (i < WIDTH R) && wbit v.toList i)
  from_array_opt_ok : ∀ (O : Nat) (v : Vector U64 O),
    ((∀ i, wbit v.toList i = true → i < WIDTH R) →
      ∃ r : R, from_u64_array_opt O v = .ok (some r) ∧ ∀ i, bit r i = wbit v.toList i) ∧
    (¬ (∀ i, wbit v.toList i = true → i < WIDTH R) →
      from_u64_array_opt (R := R) O v = .ok none)
  to_slice_ok : ∀ (a : R) (out : List U64), ∃ x, to_u64_slice a out = .ok x ∧
    x.length = out.length ∧ ∀ i, wbit x i = (decide (i < 64 * out.length) && bit a i)
  to_slice_opt_ok : ∀ (a : R) (out : List U64),
    ((∀ i, bit a i = true → i < 64 * out.length) →
      ∃ x, to_u64_slice_opt a out = .ok (some (), x) ∧ x.length = out.length ∧
        ∀ i, wbit x i = bit a i) ∧
    (¬ (∀ i, bit a i = true → i < 64 * out.length) →
      to_u64_slice_opt a out = .ok (none, out))
  from_slice_ok : ∀ v : List U64, ∃ r : R, from_u64_slice v = .ok r ∧
    ∀ i, bit r i = (decide (i < WIDTH R) && wbit v i)
  from_slice_opt_ok : ∀ v : List U64,
    ((∀ i, wbit v i = true → i < WIDTH R) →
      ∃ r : R, from_u64_slice_opt v = .ok (some r) ∧ ∀ i, bit r i = wbit v i) ∧
    (¬ (∀ i, wbit v i = true → i < WIDTH R) → from_u64_slice_opt (R := R) v = .ok none)

end Enumset
