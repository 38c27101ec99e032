/-!
# The text of `enumset/src/repr/primitive.rs`

Written by `tools/generate.sh`.
-/

set_option maxRecDepth 100000

namespace Enumset.Src.PrimitiveRs

/-- enumset/src/repr/primitive.rs, line by line -/
def text : List String :=
  ["use crate::repr::EnumSetTypeRepr;",
   "",
   "macro_rules! prim {",
   "    ($name:ty, $width:expr, $preferred_array_len:expr) => {",
   "        const _: () = {",
   "            fn lo(v: $name) -> u64 {",
   "                v as u64",
   "            }",
   "            fn hi(v: $name) -> u64 {",
   "                ((v as u128) >> 64) as u64",
   "            }",
   "",
   "            impl EnumSetTypeRepr for $name {",
   "                const PREFERRED_ARRAY_LEN: usize = $preferred_array_len;",
   "                const WIDTH: u32 = $width;",
   "                const EMPTY: Self = 0;",
   "",
   "                #[inline(always)]",
   "                fn is_empty(&self) -> bool {",
   "                    *self == 0",
   "                }",
   "",
   "                #[inline(always)]",
   "                fn add_bit(&mut self, bit: u32) {",
   "                    *self |= 1 << bit as $name;",
   "                }",
   "                #[inline(always)]",
   "                fn remove_bit(&mut self, bit: u32) {",
   "                    *self &= !(1 << bit as $name);",
   "                }",
   "                #[inline(always)]",
   "                fn has_bit(&self, bit: u32) -> bool {",
   "                    (self & (1 << bit as $name)) != 0",
   "                }",
   "",
   "                #[inline(always)]",
   "                fn count_ones(&self) -> u32 {",
   "                    (*self).count_ones()",
   "                }",
   "                #[inline(always)]",
   "                fn leading_zeros(&self) -> u32 {",
   "                    (*self).leading_zeros()",
   "                }",
   "                #[inline(always)]",
   "                fn trailing_zeros(&self) -> u32 {",
   "                    (*self).trailing_zeros()",
   "                }",
   "",
   "                #[inline(always)]",
   "                fn and_not(&self, other: Self) -> Self {",
   "                    (*self) & !other",
   "                }",
   "",
   "                type Iter = PrimitiveIter<Self>;",
   "                #[inline]",
   "                fn iter(self) -> Self::Iter {",
   "                    PrimitiveIter(self)",
   "                }",
   "",
   "                #[inline(always)]",
   "                fn from_u8(v: u8) -> Self {",
   "                    v as $name",
   "                }",
   "                #[inline(always)]",
   "                fn from_u16(v: u16) -> Self {",
   "                    v as $name",
   "                }",
   "                #[inline(always)]",
   "                fn from_u32(v: u32) -> Self {",
   "                    v as $name",
   "                }",
   "                #[inline(always)]",
   "                fn from_u64(v: u64) -> Self {",
   "                    v as $name",
   "                }",
   "                #[inline(always)]",
   "                fn from_u128(v: u128) -> Self {",
   "                    v as $name",
   "                }",
   "                #[inline(always)]",
   "                fn from_usize(v: usize) -> Self {",
   "                    v as $name",
   "                }",
   "",
   "                #[inline(always)]",
   "                fn to_u8(&self) -> u8 {",
   "                    (*self) as u8",
   "                }",
   "                #[inline(always)]",
   "                fn to_u16(&self) -> u16 {",
   "                    (*self) as u16",
   "                }",
   "                #[inline(always)]",
   "                fn to_u32(&self) -> u32 {",
   "                    (*self) as u32",
   "                }",
   "                #[inline(always)]",
   "                fn to_u64(&self) -> u64 {",
   "                    (*self) as u64",
   "                }",
   "                #[inline(always)]",
   "                fn to_u128(&self) -> u128 {",
   "                    (*self) as u128",
   "                }",
   "                #[inline(always)]",
   "                fn to_usize(&self) -> usize {",
   "                    (*self) as usize",
   "                }",
   "",
   "                #[inline(always)]",
   "                fn from_u8_opt(v: u8) -> Option<Self> {",
   "                    v.try_into().ok()",
   "                }",
   "                #[inline(always)]",
   "                fn from_u16_opt(v: u16) -> Option<Self> {",
   "                    v.try_into().ok()",
   "                }",
   "                #[inline(always)]",
   "                fn from_u32_opt(v: u32) -> Option<Self> {",
   "                    v.try_into().ok()",
   "                }",
   "                #[inline(always)]",
   "                fn from_u64_opt(v: u64) -> Option<Self> {",
   "                    v.try_into().ok()",
   "                }",
   "                #[inline(always)]",
   "                fn from_u128_opt(v: u128) -> Option<Self> {",
   "                    v.try_into().ok()",
   "                }",
   "                #[inline(always)]",
   "                fn from_usize_opt(v: usize) -> Option<Self> {",
   "                    v.try_into().ok()",
   "                }",
   "",
   "                #[inline(always)]",
   "                fn to_u8_opt(&self) -> Option<u8> {",
   "                    (*self).try_into().ok()",
   "                }",
   "                #[inline(always)]",
   "                fn to_u16_opt(&self) -> Option<u16> {",
   "                    (*self).try_into().ok()",
   "                }",
   "                #[inline(always)]",
   "                fn to_u32_opt(&self) -> Option<u32> {",
   "                    (*self).try_into().ok()",
   "                }",
   "                #[inline(always)]",
   "                fn to_u64_opt(&self) -> Option<u64> {",
   "                    (*self).try_into().ok()",
   "                }",
   "                #[inline(always)]",
   "                fn to_u128_opt(&self) -> Option<u128> {",
   "                    (*self).try_into().ok()",
   "                }",
   "                #[inline(always)]",
   "                fn to_usize_opt(&self) -> Option<usize> {",
   "                    (*self).try_into().ok()",
   "                }",
   "",
   "                #[inline(always)]",
   "                fn to_u64_array<const O: usize>(&self) -> [u64; O] {",
   "                    let mut array = [0; O];",
   "                    if O > 0 {",
   "                        array[0] = lo(*self);",
   "                    }",
   "                    if O > 1 && $preferred_array_len == 2 {",
   "                        array[1] = hi(*self);",
   "                    }",
   "                    array",
   "                }",
   "                #[inline(always)]",
   "                fn to_u64_array_opt<const O: usize>(&self) -> Option<[u64; O]> {",
   "                    if O == 0 && *self != 0 {",
   "                        None",
   "                    } else if O == 1 && hi(*self) != 0 {",
   "                        None",
   "                    } else {",
   "                        Some(self.to_u64_array())",
   "                    }",
   "                }",
   "",
   "                #[inline(always)]",
   "                fn from_u64_array<const O: usize>(v: [u64; O]) -> Self {",
   "                    if O == 0 {",
   "                        0",
   "                    } else if O > 1 && $preferred_array_len == 2 {",
   "                        Self::from_u128(v[0] as u128 | ((v[1] as u128) << 64))",
   "                    } else {",
   "                        Self::from_u64(v[0])",
   "                    }",
   "                }",
   "                #[inline(always)]",
   "                fn from_u64_array_opt<const O: usize>(v: [u64; O]) -> Option<Self> {",
   "                    if O == 0 {",
   "                        Some(0)",
   "                    } else if O == 1 {",
   "                        Self::from_u64_opt(v[0])",
   "                    } else {",
   "                        for i in 2..O {",
   "                            if v[i] != 0 {",
   "                                return None;",
   "                            }",
   "                        }",
   "                        Self::from_u128_opt(v[0] as u128 | ((v[1] as u128) << 64))",
   "                    }",
   "                }",
   "",
   "                #[inline(always)]",
   "                fn to_u64_slice(&self, out: &mut [u64]) {",
   "                    if out.len() > 0 {",
   "                        out[0] = lo(*self);",
   "                    }",
   "                    if out.len() > 1 && $preferred_array_len == 2 {",
   "                        out[1] = hi(*self);",
   "                    }",
   "                    for i in $preferred_array_len..out.len() {",
   "                        out[i] = 0;",
   "                    }",
   "                }",
   "                #[inline(always)]",
   "                #[must_use]",
   "                fn to_u64_slice_opt(&self, out: &mut [u64]) -> Option<()> {",
   "                    if out.len() == 0 && *self != 0 {",
   "                        None",
   "                    } else if out.len() == 1 && hi(*self) != 0 {",
   "                        None",
   "                    } else {",
   "                        self.to_u64_slice(out);",
   "                        Some(())",
   "                    }",
   "                }",
   "",
   "                #[inline(always)]",
   "                fn from_u64_slice(v: &[u64]) -> Self {",
   "                    if v.len() == 0 {",
   "                        0",
   "                    } else if v.len() > 1 && $preferred_array_len == 2 {",
   "                        Self::from_u128(v[0] as u128 | ((v[1] as u128) << 64))",
   "                    } else {",
   "                        Self::from_u64(v[0])",
   "                    }",
   "                }",
   "                #[inline(always)]",
   "                fn from_u64_slice_opt(v: &[u64]) -> Option<Self> {",
   "                    if v.len() == 0 {",
   "                        Some(0)",
   "                    } else if v.len() == 1 {",
   "                        Self::from_u64_opt(v[0])",
   "                    } else {",
   "                        for i in 2..v.len() {",
   "                            if v[i] != 0 {",
   "                                return None;",
   "                            }",
   "                        }",
   "                        Self::from_u128_opt(v[0] as u128 | ((v[1] as u128) << 64))",
   "                    }",
   "                }",
   "            }",
   "        };",
   "    };",
   "}",
   "prim!(u8, 8, 1);",
   "prim!(u16, 16, 1);",
   "prim!(u32, 32, 1);",
   "prim!(u64, 64, 1);",
   "prim!(u128, 128, 2);",
   "",
   "#[derive(Copy, Clone, Debug)]",
   "#[repr(transparent)]",
   "pub struct PrimitiveIter<T: EnumSetTypeRepr>(pub T);",
   "",
   "impl<T: EnumSetTypeRepr> Iterator for PrimitiveIter<T> {",
   "    type Item = u32;",
   "",
   "    fn next(&mut self) -> Option<Self::Item> {",
   "        if self.0.is_empty() {",
   "            None",
   "        } else {",
   "            let bit = self.0.trailing_zeros();",
   "            self.0.remove_bit(bit);",
   "            Some(bit)",
   "        }",
   "    }",
   "",
   "    fn size_hint(&self) -> (usize, Option<usize>) {",
   "        let left = self.0.count_ones() as usize;",
   "        (left, Some(left))",
   "    }",
   "}",
   "",
   "impl<T: EnumSetTypeRepr> DoubleEndedIterator for PrimitiveIter<T> {",
   "    fn next_back(&mut self) -> Option<Self::Item> {",
   "        if self.0.is_empty() {",
   "            None",
   "        } else {",
   "            let bit = T::WIDTH - 1 - self.0.leading_zeros();",
   "            self.0.remove_bit(bit);",
   "            Some(bit)",
   "        }",
   "    }",
   "}"]

/-- the characters of `text` -/
def chars : List (List Char) :=
  [['u', 's', 'e', ' ', 'c', 'r', 'a', 't', 'e', ':', ':', 'r', 'e', 'p', 'r', ':', ':', 'E', 'n', 'u', 'm', 'S', 'e', 't', 'T', 'y', 'p', 'e', 'R', 'e', 'p', 'r', ';'],
   [],
   ['m', 'a', 'c', 'r', 'o', '_', 'r', 'u', 'l', 'e', 's', '!', ' ', 'p', 'r', 'i', 'm', ' ', '{'],
   [' ', ' ', ' ', ' ', '(', '$', 'n', 'a', 'm', 'e', ':', 't', 'y', ',', ' ', '$', 'w', 'i', 'd', 't', 'h', ':', 'e', 'x', 'p', 'r', ',', ' ', '$', 'p', 'r', 'e', 'f', 'e', 'r', 'r', 'e', 'd', '_', 'a', 'r', 'r', 'a', 'y', '_', 'l', 'e', 'n', ':', 'e', 'x', 'p', 'r', ')', ' ', '=', '>', ' ', '{'],
   [' ', ' ', ' ', ' ', ' ', ' ', ' ', ' ', 'c', 'o', 'n', 's', 't', ' ', '_', ':', ' ', '(', ')', ' ', '=', ' ', '{'],
   [' ', ' ', ' ', ' ', ' ', ' ', ' ', ' ', ' ', ' ', ' ', ' ', 'f', 'n', ' ', 'l', 'o', '(', 'v', ':', ' ', '$', 'n', 'a', 'm', 'e', ')', ' ', '-', '>', ' ', 'u', '6', '4', ' ', '{'],
   [' ', ' ', ' ', ' ', ' ', ' ', ' ', ' ', ' ', ' ', ' ', ' ', ' ', ' ', ' ', ' ', 'v', ' ', 'a', 's', ' ', 'u', '6', '4'],
   [' ', ' ', ' ', ' ', ' ', ' ', ' ', ' ', ' ', ' ', ' ', ' ', '}'],
   [' ', ' ', ' ', ' ', ' ', ' ', ' ', ' ', ' ', ' ', ' ', ' ', 'f', 'n', ' ', 'h', 'i', '(', 'v', ':', ' ', '$', 'n', 'a', 'm', 'e', ')', ' ', '-', '>', ' ', 'u', '6', '4', ' ', '{'],
   [' ', ' ', ' ', ' ', ' ', ' ', ' ', ' ', ' ', ' ', ' ', ' ', ' ', ' ', ' ', ' ', '(', '(', 'v', ' ', 'a', 's', ' ', 'u', '1', '2', '8', ')', ' ', '>', '>', ' ', '6', '4', ')', ' ', 'a', 's', ' ', 'u', '6', '4'],
   [' ', ' ', ' ', ' ', ' ', ' ', ' ', ' ', ' ', ' ', ' ', ' ', '}'],
   [],
   [' ', ' ', ' ', ' ', ' ', ' ', ' ', ' ', ' ', ' ', ' ', ' ', 'i', 'm', 'p', 'l', ' ', 'E', 'n', 'u', 'm', 'S', 'e', 't', 'T', 'y', 'p', 'e', 'R', 'e', 'p', 'r', ' ', 'f', 'o', 'r', ' ', '$', 'n', 'a', 'm', 'e', ' ', '{'],
   [' ', ' ', ' ', ' ', ' ', ' ', ' ', ' ', ' ', ' ', ' ', ' ', ' ', ' ', ' ', ' ', 'c', 'o', 'n', 's', 't', ' ', 'P', 'R', 'E', 'F', 'E', 'R', 'R', 'E', 'D', '_', 'A', 'R', 'R', 'A', 'Y', '_', 'L', 'E', 'N', ':', ' ', 'u', 's', 'i', 'z', 'e', ' ', '=', ' ', '$', 'p', 'r', 'e', 'f', 'e', 'r', 'r', 'e', 'd', '_', 'a', 'r', 'r', 'a', 'y', '_', 'l', 'e', 'n', ';'],
   [' ', ' ', ' ', ' ', ' ', ' ', ' ', ' ', ' ', ' ', ' ', ' ', ' ', ' ', ' ', ' ', 'c', 'o', 'n', 's', 't', ' ', 'W', 'I', 'D', 'T', 'H', ':', ' ', 'u', '3', '2', ' ', '=', ' ', '$', 'w', 'i', 'd', 't', 'h', ';'],
   [' ', ' ', ' ', ' ', ' ', ' ', ' ', ' ', ' ', ' ', ' ', ' ', ' ', ' ', ' ', ' ', 'c', 'o', 'n', 's', 't', ' ', 'E', 'M', 'P', 'T', 'Y', ':', ' ', 'S', 'e', 'l', 'f', ' ', '=', ' ', '0', ';'],
   [],
   [' ', ' ', ' ', ' ', ' ', ' ', ' ', ' ', ' ', ' ', ' ', ' ', ' ', ' ', ' ', ' ', '#', '[', 'i', 'n', 'l', 'i', 'n', 'e', '(', 'a', 'l', 'w', 'a', 'y', 's', ')', ']'],
   [' ', ' ', ' ', ' ', ' ', ' ', ' ', ' ', ' ', ' ', ' ', ' ', ' ', ' ', ' ', ' ', 'f', 'n', ' ', 'i', 's', '_', 'e', 'm', 'p', 't', 'y', '(', '&', 's', 'e', 'l', 'f', ')', ' ', '-', '>', ' ', 'b', 'o', 'o', 'l', ' ', '{'],
   [' ', ' ', ' ', ' ', ' ', ' ', ' ', ' ', ' ', ' ', ' ', ' ', ' ', ' ', ' ', ' ', ' ', ' ', ' ', ' ', '*', 's', 'e', 'l', 'f', ' ', '=', '=', ' ', '0'],
   [' ', ' ', ' ', ' ', ' ', ' ', ' ', ' ', ' ', ' ', ' ', ' ', ' ', ' ', ' ', ' ', '}'],
   [],
   [' ', ' ', ' ', ' ', ' ', ' ', ' ', ' ', ' ', ' ', ' ', ' ', ' ', ' ', ' ', ' ', '#', '[', 'i', 'n', 'l', 'i', 'n', 'e', '(', 'a', 'l', 'w', 'a', 'y', 's', ')', ']'],
   [' ', ' ', ' ', ' ', ' ', ' ', ' ', ' ', ' ', ' ', ' ', ' ', ' ', ' ', ' ', ' ', 'f', 'n', ' ', 'a', 'd', 'd', '_', 'b', 'i', 't', '(', '&', 'm', 'u', 't', ' ', 's', 'e', 'l', 'f', ',', ' ', 'b', 'i', 't', ':', ' ', 'u', '3', '2', ')', ' ', '{'],
   [' ', ' ', ' ', ' ', ' ', ' ', ' ', ' ', ' ', ' ', ' ', ' ', ' ', ' ', ' ', ' ', ' ', ' ', ' ', ' ', '*', 's', 'e', 'l', 'f', ' ', '|', '=', ' ', '1', ' ', '<', '<', ' ', 'b', 'i', 't', ' ', 'a', 's', ' ', '$', 'n', 'a', 'm', 'e', ';'],
   [' ', ' ', ' ', ' ', ' ', ' ', ' ', ' ', ' ', ' ', ' ', ' ', ' ', ' ', ' ', ' ', '}'],
   [' ', ' ', ' ', ' ', ' ', ' ', ' ', ' ', ' ', ' ', ' ', ' ', ' ', ' ', ' ', ' ', '#', '[', 'i', 'n', 'l', 'i', 'n', 'e', '(', 'a', 'l', 'w', 'a', 'y', 's', ')', ']'],
   [' ', ' ', ' ', ' ', ' ', ' ', ' ', ' ', ' ', ' ', ' ', ' ', ' ', ' ', ' ', ' ', 'f', 'n', ' ', 'r', 'e', 'm', 'o', 'v', 'e', '_', 'b', 'i', 't', '(', '&', 'm', 'u', 't', ' ', 's', 'e', 'l', 'f', ',', ' ', 'b', 'i', 't', ':', ' ', 'u', '3', '2', ')', ' ', '{'],
   [' ', ' ', ' ', ' ', ' ', ' ', ' ', ' ', ' ', ' ', ' ', ' ', ' ', ' ', ' ', ' ', ' ', ' ', ' ', ' ', '*', 's', 'e', 'l', 'f', ' ', '&', '=', ' ', '!', '(', '1', ' ', '<', '<', ' ', 'b', 'i', 't', ' ', 'a', 's', ' ', '$', 'n', 'a', 'm', 'e', ')', ';'],
   [' ', ' ', ' ', ' ', ' ', ' ', ' ', ' ', ' ', ' ', ' ', ' ', ' ', ' ', ' ', ' ', '}'],
   [' ', ' ', ' ', ' ', ' ', ' ', ' ', ' ', ' ', ' ', ' ', ' ', ' ', ' ', ' ', ' ', '#', '[', 'i', 'n', 'l', 'i', 'n', 'e', '(', 'a', 'l', 'w', 'a', 'y', 's', ')', ']'],
   [' ', ' ', ' ', ' ', ' ', ' ', ' ', ' ', ' ', ' ', ' ', ' ', ' ', ' ', ' ', ' ', 'f', 'n', ' ', 'h', 'a', 's', '_', 'b', 'i', 't', '(', '&', 's', 'e', 'l', 'f', ',', ' ', 'b', 'i', 't', ':', ' ', 'u', '3', '2', ')', ' ', '-', '>', ' ', 'b', 'o', 'o', 'l', ' ', '{'],
   [' ', ' ', ' ', ' ', ' ', ' ', ' ', ' ', ' ', ' ', ' ', ' ', ' ', ' ', ' ', ' ', ' ', ' ', ' ', ' ', '(', 's', 'e', 'l', 'f', ' ', '&', ' ', '(', '1', ' ', '<', '<', ' ', 'b', 'i', 't', ' ', 'a', 's', ' ', '$', 'n', 'a', 'm', 'e', ')', ')', ' ', '!', '=', ' ', '0'],
   [' ', ' ', ' ', ' ', ' ', ' ', ' ', ' ', ' ', ' ', ' ', ' ', ' ', ' ', ' ', ' ', '}'],
   [],
   [' ', ' ', ' ', ' ', ' ', ' ', ' ', ' ', ' ', ' ', ' ', ' ', ' ', ' ', ' ', ' ', '#', '[', 'i', 'n', 'l', 'i', 'n', 'e', '(', 'a', 'l', 'w', 'a', 'y', 's', ')', ']'],
   [' ', ' ', ' ', ' ', ' ', ' ', ' ', ' ', ' ', ' ', ' ', ' ', ' ', ' ', ' ', ' ', 'f', 'n', ' ', 'c', 'o', 'u', 'n', 't', '_', 'o', 'n', 'e', 's', '(', '&', 's', 'e', 'l', 'f', ')', ' ', '-', '>', ' ', 'u', '3', '2', ' ', '{'],
   [' ', ' ', ' ', ' ', ' ', ' ', ' ', ' ', ' ', ' ', ' ', ' ', ' ', ' ', ' ', ' ', ' ', ' ', ' ', ' ', '(', '*', 's', 'e', 'l', 'f', ')', '.', 'c', 'o', 'u', 'n', 't', '_', 'o', 'n', 'e', 's', '(', ')'],
   [' ', ' ', ' ', ' ', ' ', ' ', ' ', ' ', ' ', ' ', ' ', ' ', ' ', ' ', ' ', ' ', '}'],
   [' ', ' ', ' ', ' ', ' ', ' ', ' ', ' ', ' ', ' ', ' ', ' ', ' ', ' ', ' ', ' ', '#', '[', 'i', 'n', 'l', 'i', 'n', 'e', '(', 'a', 'l', 'w', 'a', 'y', 's', ')', ']'],
   [' ', ' ', ' ', ' ', ' ', ' ', ' ', ' ', ' ', ' ', ' ', ' ', ' ', ' ', ' ', ' ', 'f', 'n', ' ', 'l', 'e', 'a', 'd', 'i', 'n', 'g', '_', 'z', 'e', 'r', 'o', 's', '(', '&', 's', 'e', 'l', 'f', ')', ' ', '-', '>', ' ', 'u', '3', '2', ' ', '{'],
   [' ', ' ', ' ', ' ', ' ', ' ', ' ', ' ', ' ', ' ', ' ', ' ', ' ', ' ', ' ', ' ', ' ', ' ', ' ', ' ', '(', '*', 's', 'e', 'l', 'f', ')', '.', 'l', 'e', 'a', 'd', 'i', 'n', 'g', '_', 'z', 'e', 'r', 'o', 's', '(', ')'],
   [' ', ' ', ' ', ' ', ' ', ' ', ' ', ' ', ' ', ' ', ' ', ' ', ' ', ' ', ' ', ' ', '}'],
   [' ', ' ', ' ', ' ', ' ', ' ', ' ', ' ', ' ', ' ', ' ', ' ', ' ', ' ', ' ', ' ', '#', '[', 'i', 'n', 'l', 'i', 'n', 'e', '(', 'a', 'l', 'w', 'a', 'y', 's', ')', ']'],
   [' ', ' ', ' ', ' ', ' ', ' ', ' ', ' ', ' ', ' ', ' ', ' ', ' ', ' ', ' ', ' ', 'f', 'n', ' ', 't', 'r', 'a', 'i', 'l', 'i', 'n', 'g', '_', 'z', 'e', 'r', 'o', 's', '(', '&', 's', 'e', 'l', 'f', ')', ' ', '-', '>', ' ', 'u', '3', '2', ' ', '{'],
   [' ', ' ', ' ', ' ', ' ', ' ', ' ', ' ', ' ', ' ', ' ', ' ', ' ', ' ', ' ', ' ', ' ', ' ', ' ', ' ', '(', '*', 's', 'e', 'l', 'f', ')', '.', 't', 'r', 'a', 'i', 'l', 'i', 'n', 'g', '_', 'z', 'e', 'r', 'o', 's', '(', ')'],
   [' ', ' ', ' ', ' ', ' ', ' ', ' ', ' ', ' ', ' ', ' ', ' ', ' ', ' ', ' ', ' ', '}'],
   [],
   [' ', ' ', ' ', ' ', ' ', ' ', ' ', ' ', ' ', ' ', ' ', ' ', ' ', ' ', ' ', ' ', '#', '[', 'i', 'n', 'l', 'i', 'n', 'e', '(', 'a', 'l', 'w', 'a', 'y', 's', ')', ']'],
   [' ', ' ', ' ', ' ', ' ', ' ', ' ', ' ', ' ', ' ', ' ', ' ', ' ', ' ', ' ', ' ', 'f', 'n', ' ', 'a', 'n', 'd', '_', 'n', 'o', 't', '(', '&', 's', 'e', 'l', 'f', ',', ' ', 'o', 't', 'h', 'e', 'r', ':', ' ', 'S', 'e', 'l', 'f', ')', ' ', '-', '>', ' ', 'S', 'e', 'l', 'f', ' ', '{'],
   [' ', ' ', ' ', ' ', ' ', ' ', ' ', ' ', ' ', ' ', ' ', ' ', ' ', ' ', ' ', ' ', ' ', ' ', ' ', ' ', '(', '*', 's', 'e', 'l', 'f', ')', ' ', '&', ' ', '!', 'o', 't', 'h', 'e', 'r'],
   [' ', ' ', ' ', ' ', ' ', ' ', ' ', ' ', ' ', ' ', ' ', ' ', ' ', ' ', ' ', ' ', '}'],
   [],
   [' ', ' ', ' ', ' ', ' ', ' ', ' ', ' ', ' ', ' ', ' ', ' ', ' ', ' ', ' ', ' ', 't', 'y', 'p', 'e', ' ', 'I', 't', 'e', 'r', ' ', '=', ' ', 'P', 'r', 'i', 'm', 'i', 't', 'i', 'v', 'e', 'I', 't', 'e', 'r', '<', 'S', 'e', 'l', 'f', '>', ';'],
   [' ', ' ', ' ', ' ', ' ', ' ', ' ', ' ', ' ', ' ', ' ', ' ', ' ', ' ', ' ', ' ', '#', '[', 'i', 'n', 'l', 'i', 'n', 'e', ']'],
   [' ', ' ', ' ', ' ', ' ', ' ', ' ', ' ', ' ', ' ', ' ', ' ', ' ', ' ', ' ', ' ', 'f', 'n', ' ', 'i', 't', 'e', 'r', '(', 's', 'e', 'l', 'f', ')', ' ', '-', '>', ' ', 'S', 'e', 'l', 'f', ':', ':', 'I', 't', 'e', 'r', ' ', '{'],
   [' ', ' ', ' ', ' ', ' ', ' ', ' ', ' ', ' ', ' ', ' ', ' ', ' ', ' ', ' ', ' ', ' ', ' ', ' ', ' ', 'P', 'r', 'i', 'm', 'i', 't', 'i', 'v', 'e', 'I', 't', 'e', 'r', '(', 's', 'e', 'l', 'f', ')'],
   [' ', ' ', ' ', ' ', ' ', ' ', ' ', ' ', ' ', ' ', ' ', ' ', ' ', ' ', ' ', ' ', '}'],
   [],
   [' ', ' ', ' ', ' ', ' ', ' ', ' ', ' ', ' ', ' ', ' ', ' ', ' ', ' ', ' ', ' ', '#', '[', 'i', 'n', 'l', 'i', 'n', 'e', '(', 'a', 'l', 'w', 'a', 'y', 's', ')', ']'],
   [' ', ' ', ' ', ' ', ' ', ' ', ' ', ' ', ' ', ' ', ' ', ' ', ' ', ' ', ' ', ' ', 'f', 'n', ' ', 'f', 'r', 'o', 'm', '_', 'u', '8', '(', 'v', ':', ' ', 'u', '8', ')', ' ', '-', '>', ' ', 'S', 'e', 'l', 'f', ' ', '{'],
   [' ', ' ', ' ', ' ', ' ', ' ', ' ', ' ', ' ', ' ', ' ', ' ', ' ', ' ', ' ', ' ', ' ', ' ', ' ', ' ', 'v', ' ', 'a', 's', ' ', '$', 'n', 'a', 'm', 'e'],
   [' ', ' ', ' ', ' ', ' ', ' ', ' ', ' ', ' ', ' ', ' ', ' ', ' ', ' ', ' ', ' ', '}'],
   [' ', ' ', ' ', ' ', ' ', ' ', ' ', ' ', ' ', ' ', ' ', ' ', ' ', ' ', ' ', ' ', '#', '[', 'i', 'n', 'l', 'i', 'n', 'e', '(', 'a', 'l', 'w', 'a', 'y', 's', ')', ']'],
   [' ', ' ', ' ', ' ', ' ', ' ', ' ', ' ', ' ', ' ', ' ', ' ', ' ', ' ', ' ', ' ', 'f', 'n', ' ', 'f', 'r', 'o', 'm', '_', 'u', '1', '6', '(', 'v', ':', ' ', 'u', '1', '6', ')', ' ', '-', '>', ' ', 'S', 'e', 'l', 'f', ' ', '{'],
   [' ', ' ', ' ', ' ', ' ', ' ', ' ', ' ', ' ', ' ', ' ', ' ', ' ', ' ', ' ', ' ', ' ', ' ', ' ', ' ', 'v', ' ', 'a', 's', ' ', '$', 'n', 'a', 'm', 'e'],
   [' ', ' ', ' ', ' ', ' ', ' ', ' ', ' ', ' ', ' ', ' ', ' ', ' ', ' ', ' ', ' ', '}'],
   [' ', ' ', ' ', ' ', ' ', ' ', ' ', ' ', ' ', ' ', ' ', ' ', ' ', ' ', ' ', ' ', '#', '[', 'i', 'n', 'l', 'i', 'n', 'e', '(', 'a', 'l', 'w', 'a', 'y', 's', ')', ']'],
   [' ', ' ', ' ', ' ', ' ', ' ', ' ', ' ', ' ', ' ', ' ', ' ', ' ', ' ', ' ', ' ', 'f', 'n', ' ', 'f', 'r', 'o', 'm', '_', 'u', '3', '2', '(', 'v', ':', ' ', 'u', '3', '2', ')', ' ', '-', '>', ' ', 'S', 'e', 'l', 'f', ' ', '{'],
   [' ', ' ', ' ', ' ', ' ', ' ', ' ', ' ', ' ', ' ', ' ', ' ', ' ', ' ', ' ', ' ', ' ', ' ', ' ', ' ', 'v', ' ', 'a', 's', ' ', '$', 'n', 'a', 'm', 'e'],
   [' ', ' ', ' ', ' ', ' ', ' ', ' ', ' ', ' ', ' ', ' ', ' ', ' ', ' ', ' ', ' ', '}'],
   [' ', ' ', ' ', ' ', ' ', ' ', ' ', ' ', ' ', ' ', ' ', ' ', ' ', ' ', ' ', ' ', '#', '[', 'i', 'n', 'l', 'i', 'n', 'e', '(', 'a', 'l', 'w', 'a', 'y', 's', ')', ']'],
   [' ', ' ', ' ', ' ', ' ', ' ', ' ', ' ', ' ', ' ', ' ', ' ', ' ', ' ', ' ', ' ', 'f', 'n', ' ', 'f', 'r', 'o', 'm', '_', 'u', '6', '4', '(', 'v', ':', ' ', 'u', '6', '4', ')', ' ', '-', '>', ' ', 'S', 'e', 'l', 'f', ' ', '{'],
   [' ', ' ', ' ', ' ', ' ', ' ', ' ', ' ', ' ', ' ', ' ', ' ', ' ', ' ', ' ', ' ', ' ', ' ', ' ', ' ', 'v', ' ', 'a', 's', ' ', '$', 'n', 'a', 'm', 'e'],
   [' ', ' ', ' ', ' ', ' ', ' ', ' ', ' ', ' ', ' ', ' ', ' ', ' ', ' ', ' ', ' ', '}'],
   [' ', ' ', ' ', ' ', ' ', ' ', ' ', ' ', ' ', ' ', ' ', ' ', ' ', ' ', ' ', ' ', '#', '[', 'i', 'n', 'l', 'i', 'n', 'e', '(', 'a', 'l', 'w', 'a', 'y', 's', ')', ']'],
   [' ', ' ', ' ', ' ', ' ', ' ', ' ', ' ', ' ', ' ', ' ', ' ', ' ', ' ', ' ', ' ', 'f', 'n', ' ', 'f', 'r', 'o', 'm', '_', 'u', '1', '2', '8', '(', 'v', ':', ' ', 'u', '1', '2', '8', ')', ' ', '-', '>', ' ', 'S', 'e', 'l', 'f', ' ', '{'],
   [' ', ' ', ' ', ' ', ' ', ' ', ' ', ' ', ' ', ' ', ' ', ' ', ' ', ' ', ' ', ' ', ' ', ' ', ' ', ' ', 'v', ' ', 'a', 's', ' ', '$', 'n', 'a', 'm', 'e'],
   [' ', ' ', ' ', ' ', ' ', ' ', ' ', ' ', ' ', ' ', ' ', ' ', ' ', ' ', ' ', ' ', '}'],
   [' ', ' ', ' ', ' ', ' ', ' ', ' ', ' ', ' ', ' ', ' ', ' ', ' ', ' ', ' ', ' ', '#', '[', 'i', 'n', 'l', 'i', 'n', 'e', '(', 'a', 'l', 'w', 'a', 'y', 's', ')', ']'],
   [' ', ' ', ' ', ' ', ' ', ' ', ' ', ' ', ' ', ' ', ' ', ' ', ' ', ' ', ' ', ' ', 'f', 'n', ' ', 'f', 'r', 'o', 'm', '_', 'u', 's', 'i', 'z', 'e', '(', 'v', ':', ' ', 'u', 's', 'i', 'z', 'e', ')', ' ', '-', '>', ' ', 'S', 'e', 'l', 'f', ' ', '{'],
   [' ', ' ', ' ', ' ', ' ', ' ', ' ', ' ', ' ', ' ', ' ', ' ', ' ', ' ', ' ', ' ', ' ', ' ', ' ', ' ', 'v', ' ', 'a', 's', ' ', '$', 'n', 'a', 'm', 'e'],
   [' ', ' ', ' ', ' ', ' ', ' ', ' ', ' ', ' ', ' ', ' ', ' ', ' ', ' ', ' ', ' ', '}'],
   [],
   [' ', ' ', ' ', ' ', ' ', ' ', ' ', ' ', ' ', ' ', ' ', ' ', ' ', ' ', ' ', ' ', '#', '[', 'i', 'n', 'l', 'i', 'n', 'e', '(', 'a', 'l', 'w', 'a', 'y', 's', ')', ']'],
   [' ', ' ', ' ', ' ', ' ', ' ', ' ', ' ', ' ', ' ', ' ', ' ', ' ', ' ', ' ', ' ', 'f', 'n', ' ', 't', 'o', '_', 'u', '8', '(', '&', 's', 'e', 'l', 'f', ')', ' ', '-', '>', ' ', 'u', '8', ' ', '{'],
   [' ', ' ', ' ', ' ', ' ', ' ', ' ', ' ', ' ', ' ', ' ', ' ', ' ', ' ', ' ', ' ', ' ', ' ', ' ', ' ', '(', '*', 's', 'e', 'l', 'f', ')', ' ', 'a', 's', ' ', 'u', '8'],
   [' ', ' ', ' ', ' ', ' ', ' ', ' ', ' ', ' ', ' ', ' ', ' ', ' ', ' ', ' ', ' ', '}'],
   [' ', ' ', ' ', ' ', ' ', ' ', ' ', ' ', ' ', ' ', ' ', ' ', ' ', ' ', ' ', ' ', '#', '[', 'i', 'n', 'l', 'i', 'n', 'e', '(', 'a', 'l', 'w', 'a', 'y', 's', ')', ']'],
   [' ', ' ', ' ', ' ', ' ', ' ', ' ', ' ', ' ', ' ', ' ', ' ', ' ', ' ', ' ', ' ', 'f', 'n', ' ', 't', 'o', '_', 'u', '1', '6', '(', '&', 's', 'e', 'l', 'f', ')', ' ', '-', '>', ' ', 'u', '1', '6', ' ', '{'],
   [' ', ' ', ' ', ' ', ' ', ' ', ' ', ' ', ' ', ' ', ' ', ' ', ' ', ' ', ' ', ' ', ' ', ' ', ' ', ' ', '(', '*', 's', 'e', 'l', 'f', ')', ' ', 'a', 's', ' ', 'u', '1', '6'],
   [' ', ' ', ' ', ' ', ' ', ' ', ' ', ' ', ' ', ' ', ' ', ' ', ' ', ' ', ' ', ' ', '}'],
   [' ', ' ', ' ', ' ', ' ', ' ', ' ', ' ', ' ', ' ', ' ', ' ', ' ', ' ', ' ', ' ', '#', '[', 'i', 'n', 'l', 'i', 'n', 'e', '(', 'a', 'l', 'w', 'a', 'y', 's', ')', ']'],
   [' ', ' ', ' ', ' ', ' ', ' ', ' ', ' ', ' ', ' ', ' ', ' ', ' ', ' ', ' ', ' ', 'f', 'n', ' ', 't', 'o', '_', 'u', '3', '2', '(', '&', 's', 'e', 'l', 'f', ')', ' ', '-', '>', ' ', 'u', '3', '2', ' ', '{'],
   [' ', ' ', ' ', ' ', ' ', ' ', ' ', ' ', ' ', ' ', ' ', ' ', ' ', ' ', ' ', ' ', ' ', ' ', ' ', ' ', '(', '*', 's', 'e', 'l', 'f', ')', ' ', 'a', 's', ' ', 'u', '3', '2'],
   [' ', ' ', ' ', ' ', ' ', ' ', ' ', ' ', ' ', ' ', ' ', ' ', ' ', ' ', ' ', ' ', '}'],
   [' ', ' ', ' ', ' ', ' ', ' ', ' ', ' ', ' ', ' ', ' ', ' ', ' ', ' ', ' ', ' ', '#', '[', 'i', 'n', 'l', 'i', 'n', 'e', '(', 'a', 'l', 'w', 'a', 'y', 's', ')', ']'],
   [' ', ' ', ' ', ' ', ' ', ' ', ' ', ' ', ' ', ' ', ' ', ' ', ' ', ' ', ' ', ' ', 'f', 'n', ' ', 't', 'o', '_', 'u', '6', '4', '(', '&', 's', 'e', 'l', 'f', ')', ' ', '-', '>', ' ', 'u', '6', '4', ' ', '{'],
   [' ', ' ', ' ', ' ', ' ', ' ', ' ', ' ', ' ', ' ', ' ', ' ', ' ', ' ', ' ', ' ', ' ', ' ', ' ', ' ', '(', '*', 's', 'e', 'l', 'f', ')', ' ', 'a', 's', ' ', 'u', '6', '4'],
   [' ', ' ', ' ', ' ', ' ', ' ', ' ', ' ', ' ', ' ', ' ', ' ', ' ', ' ', ' ', ' ', '}'],
   [' ', ' ', ' ', ' ', ' ', ' ', ' ', ' ', ' ', ' ', ' ', ' ', ' ', ' ', ' ', ' ', '#', '[', 'i', 'n', 'l', 'i', 'n', 'e', '(', 'a', 'l', 'w', 'a', 'y', 's', ')', ']'],
   [' ', ' ', ' ', ' ', ' ', ' ', ' ', ' ', ' ', ' ', ' ', ' ', ' ', ' ', ' ', ' ', 'f', 'n', ' ', 't', 'o', '_', 'u', '1', '2', '8', '(', '&', 's', 'e', 'l', 'f', ')', ' ', '-', '>', ' ', 'u', '1', '2', '8', ' ', '{'],
   [' ', ' ', ' ', ' ', ' ', ' ', ' ', ' ', ' ', ' ', ' ', ' ', ' ', ' ', ' ', ' ', ' ', ' ', ' ', ' ', '(', '*', 's', 'e', 'l', 'f', ')', ' ', 'a', 's', ' ', 'u', '1', '2', '8'],
   [' ', ' ', ' ', ' ', ' ', ' ', ' ', ' ', ' ', ' ', ' ', ' ', ' ', ' ', ' ', ' ', '}'],
   [' ', ' ', ' ', ' ', ' ', ' ', ' ', ' ', ' ', ' ', ' ', ' ', ' ', ' ', ' ', ' ', '#', '[', 'i', 'n', 'l', 'i', 'n', 'e', '(', 'a', 'l', 'w', 'a', 'y', 's', ')', ']'],
   [' ', ' ', ' ', ' ', ' ', ' ', ' ', ' ', ' ', ' ', ' ', ' ', ' ', ' ', ' ', ' ', 'f', 'n', ' ', 't', 'o', '_', 'u', 's', 'i', 'z', 'e', '(', '&', 's', 'e', 'l', 'f', ')', ' ', '-', '>', ' ', 'u', 's', 'i', 'z', 'e', ' ', '{'],
   [' ', ' ', ' ', ' ', ' ', ' ', ' ', ' ', ' ', ' ', ' ', ' ', ' ', ' ', ' ', ' ', ' ', ' ', ' ', ' ', '(', '*', 's', 'e', 'l', 'f', ')', ' ', 'a', 's', ' ', 'u', 's', 'i', 'z', 'e'],
   [' ', ' ', ' ', ' ', ' ', ' ', ' ', ' ', ' ', ' ', ' ', ' ', ' ', ' ', ' ', ' ', '}'],
   [],
   [' ', ' ', ' ', ' ', ' ', ' ', ' ', ' ', ' ', ' ', ' ', ' ', ' ', ' ', ' ', ' ', '#', '[', 'i', 'n', 'l', 'i', 'n', 'e', '(', 'a', 'l', 'w', 'a', 'y', 's', ')', ']'],
   [' ', ' ', ' ', ' ', ' ', ' ', ' ', ' ', ' ', ' ', ' ', ' ', ' ', ' ', ' ', ' ', 'f', 'n', ' ', 'f', 'r', 'o', 'm', '_', 'u', '8', '_', 'o', 'p', 't', '(', 'v', ':', ' ', 'u', '8', ')', ' ', '-', '>', ' ', 'O', 'p', 't', 'i', 'o', 'n', '<', 'S', 'e', 'l', 'f', '>', ' ', '{'],
   [' ', ' ', ' ', ' ', ' ', ' ', ' ', ' ', ' ', ' ', ' ', ' ', ' ', ' ', ' ', ' ', ' ', ' ', ' ', ' ', 'v', '.', 't', 'r', 'y', '_', 'i', 'n', 't', 'o', '(', ')', '.', 'o', 'k', '(', ')'],
   [' ', ' ', ' ', ' ', ' ', ' ', ' ', ' ', ' ', ' ', ' ', ' ', ' ', ' ', ' ', ' ', '}'],
   [' ', ' ', ' ', ' ', ' ', ' ', ' ', ' ', ' ', ' ', ' ', ' ', ' ', ' ', ' ', ' ', '#', '[', 'i', 'n', 'l', 'i', 'n', 'e', '(', 'a', 'l', 'w', 'a', 'y', 's', ')', ']'],
   [' ', ' ', ' ', ' ', ' ', ' ', ' ', ' ', ' ', ' ', ' ', ' ', ' ', ' ', ' ', ' ', 'f', 'n', ' ', 'f', 'r', 'o', 'm', '_', 'u', '1', '6', '_', 'o', 'p', 't', '(', 'v', ':', ' ', 'u', '1', '6', ')', ' ', '-', '>', ' ', 'O', 'p', 't', 'i', 'o', 'n', '<', 'S', 'e', 'l', 'f', '>', ' ', '{'],
   [' ', ' ', ' ', ' ', ' ', ' ', ' ', ' ', ' ', ' ', ' ', ' ', ' ', ' ', ' ', ' ', ' ', ' ', ' ', ' ', 'v', '.', 't', 'r', 'y', '_', 'i', 'n', 't', 'o', '(', ')', '.', 'o', 'k', '(', ')'],
   [' ', ' ', ' ', ' ', ' ', ' ', ' ', ' ', ' ', ' ', ' ', ' ', ' ', ' ', ' ', ' ', '}'],
   [' ', ' ', ' ', ' ', ' ', ' ', ' ', ' ', ' ', ' ', ' ', ' ', ' ', ' ', ' ', ' ', '#', '[', 'i', 'n', 'l', 'i', 'n', 'e', '(', 'a', 'l', 'w', 'a', 'y', 's', ')', ']'],
   [' ', ' ', ' ', ' ', ' ', ' ', ' ', ' ', ' ', ' ', ' ', ' ', ' ', ' ', ' ', ' ', 'f', 'n', ' ', 'f', 'r', 'o', 'm', '_', 'u', '3', '2', '_', 'o', 'p', 't', '(', 'v', ':', ' ', 'u', '3', '2', ')', ' ', '-', '>', ' ', 'O', 'p', 't', 'i', 'o', 'n', '<', 'S', 'e', 'l', 'f', '>', ' ', '{'],
   [' ', ' ', ' ', ' ', ' ', ' ', ' ', ' ', ' ', ' ', ' ', ' ', ' ', ' ', ' ', ' ', ' ', ' ', ' ', ' ', 'v', '.', 't', 'r', 'y', '_', 'i', 'n', 't', 'o', '(', ')', '.', 'o', 'k', '(', ')'],
   [' ', ' ', ' ', ' ', ' ', ' ', ' ', ' ', ' ', ' ', ' ', ' ', ' ', ' ', ' ', ' ', '}'],
   [' ', ' ', ' ', ' ', ' ', ' ', ' ', ' ', ' ', ' ', ' ', ' ', ' ', ' ', ' ', ' ', '#', '[', 'i', 'n', 'l', 'i', 'n', 'e', '(', 'a', 'l', 'w', 'a', 'y', 's', ')', ']'],
   [' ', ' ', ' ', ' ', ' ', ' ', ' ', ' ', ' ', ' ', ' ', ' ', ' ', ' ', ' ', ' ', 'f', 'n', ' ', 'f', 'r', 'o', 'm', '_', 'u', '6', '4', '_', 'o', 'p', 't', '(', 'v', ':', ' ', 'u', '6', '4', ')', ' ', '-', '>', ' ', 'O', 'p', 't', 'i', 'o', 'n', '<', 'S', 'e', 'l', 'f', '>', ' ', '{'],
   [' ', ' ', ' ', ' ', ' ', ' ', ' ', ' ', ' ', ' ', ' ', ' ', ' ', ' ', ' ', ' ', ' ', ' ', ' ', ' ', 'v', '.', 't', 'r', 'y', '_', 'i', 'n', 't', 'o', '(', ')', '.', 'o', 'k', '(', ')'],
   [' ', ' ', ' ', ' ', ' ', ' ', ' ', ' ', ' ', ' ', ' ', ' ', ' ', ' ', ' ', ' ', '}'],
   [' ', ' ', ' ', ' ', ' ', ' ', ' ', ' ', ' ', ' ', ' ', ' ', ' ', ' ', ' ', ' ', '#', '[', 'i', 'n', 'l', 'i', 'n', 'e', '(', 'a', 'l', 'w', 'a', 'y', 's', ')', ']'],
   [' ', ' ', ' ', ' ', ' ', ' ', ' ', ' ', ' ', ' ', ' ', ' ', ' ', ' ', ' ', ' ', 'f', 'n', ' ', 'f', 'r', 'o', 'm', '_', 'u', '1', '2', '8', '_', 'o', 'p', 't', '(', 'v', ':', ' ', 'u', '1', '2', '8', ')', ' ', '-', '>', ' ', 'O', 'p', 't', 'i', 'o', 'n', '<', 'S', 'e', 'l', 'f', '>', ' ', '{'],
   [' ', ' ', ' ', ' ', ' ', ' ', ' ', ' ', ' ', ' ', ' ', ' ', ' ', ' ', ' ', ' ', ' ', ' ', ' ', ' ', 'v', '.', 't', 'r', 'y', '_', 'i', 'n', 't', 'o', '(', ')', '.', 'o', 'k', '(', ')'],
   [' ', ' ', ' ', ' ', ' ', ' ', ' ', ' ', ' ', ' ', ' ', ' ', ' ', ' ', ' ', ' ', '}'],
   [' ', ' ', ' ', ' ', ' ', ' ', ' ', ' ', ' ', ' ', ' ', ' ', ' ', ' ', ' ', ' ', '#', '[', 'i', 'n', 'l', 'i', 'n', 'e', '(', 'a', 'l', 'w', 'a', 'y', 's', ')', ']'],
   [' ', ' ', ' ', ' ', ' ', ' ', ' ', ' ', ' ', ' ', ' ', ' ', ' ', ' ', ' ', ' ', 'f', 'n', ' ', 'f', 'r', 'o', 'm', '_', 'u', 's', 'i', 'z', 'e', '_', 'o', 'p', 't', '(', 'v', ':', ' ', 'u', 's', 'i', 'z', 'e', ')', ' ', '-', '>', ' ', 'O', 'p', 't', 'i', 'o', 'n', '<', 'S', 'e', 'l', 'f', '>', ' ', '{'],
   [' ', ' ', ' ', ' ', ' ', ' ', ' ', ' ', ' ', ' ', ' ', ' ', ' ', ' ', ' ', ' ', ' ', ' ', ' ', ' ', 'v', '.', 't', 'r', 'y', '_', 'i', 'n', 't', 'o', '(', ')', '.', 'o', 'k', '(', ')'],
   [' ', ' ', ' ', ' ', ' ', ' ', ' ', ' ', ' ', ' ', ' ', ' ', ' ', ' ', ' ', ' ', '}'],
   [],
   [' ', ' ', ' ', ' ', ' ', ' ', ' ', ' ', ' ', ' ', ' ', ' ', ' ', ' ', ' ', ' ', '#', '[', 'i', 'n', 'l', 'i', 'n', 'e', '(', 'a', 'l', 'w', 'a', 'y', 's', ')', ']'],
   [' ', ' ', ' ', ' ', ' ', ' ', ' ', ' ', ' ', ' ', ' ', ' ', ' ', ' ', ' ', ' ', 'f', 'n', ' ', 't', 'o', '_', 'u', '8', '_', 'o', 'p', 't', '(', '&', 's', 'e', 'l', 'f', ')', ' ', '-', '>', ' ', 'O', 'p', 't', 'i', 'o', 'n', '<', 'u', '8', '>', ' ', '{'],
   [' ', ' ', ' ', ' ', ' ', ' ', ' ', ' ', ' ', ' ', ' ', ' ', ' ', ' ', ' ', ' ', ' ', ' ', ' ', ' ', '(', '*', 's', 'e', 'l', 'f', ')', '.', 't', 'r', 'y', '_', 'i', 'n', 't', 'o', '(', ')', '.', 'o', 'k', '(', ')'],
   [' ', ' ', ' ', ' ', ' ', ' ', ' ', ' ', ' ', ' ', ' ', ' ', ' ', ' ', ' ', ' ', '}'],
   [' ', ' ', ' ', ' ', ' ', ' ', ' ', ' ', ' ', ' ', ' ', ' ', ' ', ' ', ' ', ' ', '#', '[', 'i', 'n', 'l', 'i', 'n', 'e', '(', 'a', 'l', 'w', 'a', 'y', 's', ')', ']'],
   [' ', ' ', ' ', ' ', ' ', ' ', ' ', ' ', ' ', ' ', ' ', ' ', ' ', ' ', ' ', ' ', 'f', 'n', ' ', 't', 'o', '_', 'u', '1', '6', '_', 'o', 'p', 't', '(', '&', 's', 'e', 'l', 'f', ')', ' ', '-', '>', ' ', 'O', 'p', 't', 'i', 'o', 'n', '<', 'u', '1', '6', '>', ' ', '{'],
   [' ', ' ', ' ', ' ', ' ', ' ', ' ', ' ', ' ', ' ', ' ', ' ', ' ', ' ', ' ', ' ', ' ', ' ', ' ', ' ', '(', '*', 's', 'e', 'l', 'f', ')', '.', 't', 'r', 'y', '_', 'i', 'n', 't', 'o', '(', ')', '.', 'o', 'k', '(', ')'],
   [' ', ' ', ' ', ' ', ' ', ' ', ' ', ' ', ' ', ' ', ' ', ' ', ' ', ' ', ' ', ' ', '}'],
   [' ', ' ', ' ', ' ', ' ', ' ', ' ', ' ', ' ', ' ', ' ', ' ', ' ', ' ', ' ', ' ', '#', '[', 'i', 'n', 'l', 'i', 'n', 'e', '(', 'a', 'l', 'w', 'a', 'y', 's', ')', ']'],
   [' ', ' ', ' ', ' ', ' ', ' ', ' ', ' ', ' ', ' ', ' ', ' ', ' ', ' ', ' ', ' ', 'f', 'n', ' ', 't', 'o', '_', 'u', '3', '2', '_', 'o', 'p', 't', '(', '&', 's', 'e', 'l', 'f', ')', ' ', '-', '>', ' ', 'O', 'p', 't', 'i', 'o', 'n', '<', 'u', '3', '2', '>', ' ', '{'],
   [' ', ' ', ' ', ' ', ' ', ' ', ' ', ' ', ' ', ' ', ' ', ' ', ' ', ' ', ' ', ' ', ' ', ' ', ' ', ' ', '(', '*', 's', 'e', 'l', 'f', ')', '.', 't', 'r', 'y', '_', 'i', 'n', 't', 'o', '(', ')', '.', 'o', 'k', '(', ')'],
   [' ', ' ', ' ', ' ', ' ', ' ', ' ', ' ', ' ', ' ', ' ', ' ', ' ', ' ', ' ', ' ', '}'],
   [' ', ' ', ' ', ' ', ' ', ' ', ' ', ' ', ' ', ' ', ' ', ' ', ' ', ' ', ' ', ' ', '#', '[', 'i', 'n', 'l', 'i', 'n', 'e', '(', 'a', 'l', 'w', 'a', 'y', 's', ')', ']'],
   [' ', ' ', ' ', ' ', ' ', ' ', ' ', ' ', ' ', ' ', ' ', ' ', ' ', ' ', ' ', ' ', 'f', 'n', ' ', 't', 'o', '_', 'u', '6', '4', '_', 'o', 'p', 't', '(', '&', 's', 'e', 'l', 'f', ')', ' ', '-', '>', ' ', 'O', 'p', 't', 'i', 'o', 'n', '<', 'u', '6', '4', '>', ' ', '{'],
   [' ', ' ', ' ', ' ', ' ', ' ', ' ', ' ', ' ', ' ', ' ', ' ', ' ', ' ', ' ', ' ', ' ', ' ', ' ', ' ', '(', '*', 's', 'e', 'l', 'f', ')', '.', 't', 'r', 'y', '_', 'i', 'n', 't', 'o', '(', ')', '.', 'o', 'k', '(', ')'],
   [' ', ' ', ' ', ' ', ' ', ' ', ' ', ' ', ' ', ' ', ' ', ' ', ' ', ' ', ' ', ' ', '}'],
   [' ', ' ', ' ', ' ', ' ', ' ', ' ', ' ', ' ', ' ', ' ', ' ', ' ', ' ', ' ', ' ', '#', '[', 'i', 'n', 'l', 'i', 'n', 'e', '(', 'a', 'l', 'w', 'a', 'y', 's', ')', ']'],
   [' ', ' ', ' ', ' ', ' ', ' ', ' ', ' ', ' ', ' ', ' ', ' ', ' ', ' ', ' ', ' ', 'f', 'n', ' ', 't', 'o', '_', 'u', '1', '2', '8', '_', 'o', 'p', 't', '(', '&', 's', 'e', 'l', 'f', ')', ' ', '-', '>', ' ', 'O', 'p', 't', 'i', 'o', 'n', '<', 'u', '1', '2', '8', '>', ' ', '{'],
   [' ', ' ', ' ', ' ', ' ', ' ', ' ', ' ', ' ', ' ', ' ', ' ', ' ', ' ', ' ', ' ', ' ', ' ', ' ', ' ', '(', '*', 's', 'e', 'l', 'f', ')', '.', 't', 'r', 'y', '_', 'i', 'n', 't', 'o', '(', ')', '.', 'o', 'k', '(', ')'],
   [' ', ' ', ' ', ' ', ' ', ' ', ' ', ' ', ' ', ' ', ' ', ' ', ' ', ' ', ' ', ' ', '}'],
   [' ', ' ', ' ', ' ', ' ', ' ', ' ', ' ', ' ', ' ', ' ', ' ', ' ', ' ', ' ', ' ', '#', '[', 'i', 'n', 'l', 'i', 'n', 'e', '(', 'a', 'l', 'w', 'a', 'y', 's', ')', ']'],
   [' ', ' ', ' ', ' ', ' ', ' ', ' ', ' ', ' ', ' ', ' ', ' ', ' ', ' ', ' ', ' ', 'f', 'n', ' ', 't', 'o', '_', 'u', 's', 'i', 'z', 'e', '_', 'o', 'p', 't', '(', '&', 's', 'e', 'l', 'f', ')', ' ', '-', '>', ' ', 'O', 'p', 't', 'i', 'o', 'n', '<', 'u', 's', 'i', 'z', 'e', '>', ' ', '{'],
   [' ', ' ', ' ', ' ', ' ', ' ', ' ', ' ', ' ', ' ', ' ', ' ', ' ', ' ', ' ', ' ', ' ', ' ', ' ', ' ', '(', '*', 's', 'e', 'l', 'f', ')', '.', 't', 'r', 'y', '_', 'i', 'n', 't', 'o', '(', ')', '.', 'o', 'k', '(', ')'],
   [' ', ' ', ' ', ' ', ' ', ' ', ' ', ' ', ' ', ' ', ' ', ' ', ' ', ' ', ' ', ' ', '}'],
   [],
   [' ', ' ', ' ', ' ', ' ', ' ', ' ', ' ', ' ', ' ', ' ', ' ', ' ', ' ', ' ', ' ', '#', '[', 'i', 'n', 'l', 'i', 'n', 'e', '(', 'a', 'l', 'w', 'a', 'y', 's', ')', ']'],
   [' ', ' ', ' ', ' ', ' ', ' ', ' ', ' ', ' ', ' ', ' ', ' ', ' ', ' ', ' ', ' ', 'f', 'n', ' ', 't', 'o', '_', 'u', '6', '4', '_', 'a', 'r', 'r', 'a', 'y', '<', 'c', 'o', 'n', 's', 't', ' ', 'O', ':', ' ', 'u', 's', 'i', 'z', 'e', '>', '(', '&', 's', 'e', 'l', 'f', ')', ' ', '-', '>', ' ', '[', 'u', '6', '4', ';', ' ', 'O', ']', ' ', '{'],
   [' ', ' ', ' ', ' ', ' ', ' ', ' ', ' ', ' ', ' ', ' ', ' ', ' ', ' ', ' ', ' ', ' ', ' ', ' ', ' ', 'l', 'e', 't', ' ', 'm', 'u', 't', ' ', 'a', 'r', 'r', 'a', 'y', ' ', '=', ' ', '[', '0', ';', ' ', 'O', ']', ';'],
   [' ', ' ', ' ', ' ', ' ', ' ', ' ', ' ', ' ', ' ', ' ', ' ', ' ', ' ', ' ', ' ', ' ', ' ', ' ', ' ', 'i', 'f', ' ', 'O', ' ', '>', ' ', '0', ' ', '{'],
   [' ', ' ', ' ', ' ', ' ', ' ', ' ', ' ', ' ', ' ', ' ', ' ', ' ', ' ', ' ', ' ', ' ', ' ', ' ', ' ', ' ', ' ', ' ', ' ', 'a', 'r', 'r', 'a', 'y', '[', '0', ']', ' ', '=', ' ', 'l', 'o', '(', '*', 's', 'e', 'l', 'f', ')', ';'],
   [' ', ' ', ' ', ' ', ' ', ' ', ' ', ' ', ' ', ' ', ' ', ' ', ' ', ' ', ' ', ' ', ' ', ' ', ' ', ' ', '}'],
   [' ', ' ', ' ', ' ', ' ', ' ', ' ', ' ', ' ', ' ', ' ', ' ', ' ', ' ', ' ', ' ', ' ', ' ', ' ', ' ', 'i', 'f', ' ', 'O', ' ', '>', ' ', '1', ' ', '&', '&', ' ', '$', 'p', 'r', 'e', 'f', 'e', 'r', 'r', 'e', 'd', '_', 'a', 'r', 'r', 'a', 'y', '_', 'l', 'e', 'n', ' ', '=', '=', ' ', '2', ' ', '{'],
   [' ', ' ', ' ', ' ', ' ', ' ', ' ', ' ', ' ', ' ', ' ', ' ', ' ', ' ', ' ', ' ', ' ', ' ', ' ', ' ', ' ', ' ', ' ', ' ', 'a', 'r', 'r', 'a', 'y', '[', '1', ']', ' ', '=', ' ', 'h', 'i', '(', '*', 's', 'e', 'l', 'f', ')', ';'],
   [' ', ' ', ' ', ' ', ' ', ' ', ' ', ' ', ' ', ' ', ' ', ' ', ' ', ' ', ' ', ' ', ' ', ' ', ' ', ' ', '}'],
   [' ', ' ', ' ', ' ', ' ', ' ', ' ', ' ', ' ', ' ', ' ', ' ', ' ', ' ', ' ', ' ', ' ', ' ', ' ', ' ', 'a', 'r', 'r', 'a', 'y'],
   [' ', ' ', ' ', ' ', ' ', ' ', ' ', ' ', ' ', ' ', ' ', ' ', ' ', ' ', ' ', ' ', '}'],
   [' ', ' ', ' ', ' ', ' ', ' ', ' ', ' ', ' ', ' ', ' ', ' ', ' ', ' ', ' ', ' ', '#', '[', 'i', 'n', 'l', 'i', 'n', 'e', '(', 'a', 'l', 'w', 'a', 'y', 's', ')', ']'],
   [' ', ' ', ' ', ' ', ' ', ' ', ' ', ' ', ' ', ' ', ' ', ' ', ' ', ' ', ' ', ' ', 'f', 'n', ' ', 't', 'o', '_', 'u', '6', '4', '_', 'a', 'r', 'r', 'a', 'y', '_', 'o', 'p', 't', '<', 'c', 'o', 'n', 's', 't', ' ', 'O', ':', ' ', 'u', 's', 'i', 'z', 'e', '>', '(', '&', 's', 'e', 'l', 'f', ')', ' ', '-', '>', ' ', 'O', 'p', 't', 'i', 'o', 'n', '<', '[', 'u', '6', '4', ';', ' ', 'O', ']', '>', ' ', '{'],
   [' ', ' ', ' ', ' ', ' ', ' ', ' ', ' ', ' ', ' ', ' ', ' ', ' ', ' ', ' ', ' ', ' ', ' ', ' ', ' ', 'i', 'f', ' ', 'O', ' ', '=', '=', ' ', '0', ' ', '&', '&', ' ', '*', 's', 'e', 'l', 'f', ' ', '!', '=', ' ', '0', ' ', '{'],
   [' ', ' ', ' ', ' ', ' ', ' ', ' ', ' ', ' ', ' ', ' ', ' ', ' ', ' ', ' ', ' ', ' ', ' ', ' ', ' ', ' ', ' ', ' ', ' ', 'N', 'o', 'n', 'e'],
   [' ', ' ', ' ', ' ', ' ', ' ', ' ', ' ', ' ', ' ', ' ', ' ', ' ', ' ', ' ', ' ', ' ', ' ', ' ', ' ', '}', ' ', 'e', 'l', 's', 'e', ' ', 'i', 'f', ' ', 'O', ' ', '=', '=', ' ', '1', ' ', '&', '&', ' ', 'h', 'i', '(', '*', 's', 'e', 'l', 'f', ')', ' ', '!', '=', ' ', '0', ' ', '{'],
   [' ', ' ', ' ', ' ', ' ', ' ', ' ', ' ', ' ', ' ', ' ', ' ', ' ', ' ', ' ', ' ', ' ', ' ', ' ', ' ', ' ', ' ', ' ', ' ', 'N', 'o', 'n', 'e'],
   [' ', ' ', ' ', ' ', ' ', ' ', ' ', ' ', ' ', ' ', ' ', ' ', ' ', ' ', ' ', ' ', ' ', ' ', ' ', ' ', '}', ' ', 'e', 'l', 's', 'e', ' ', '{'],
   [' ', ' ', ' ', ' ', ' ', ' ', ' ', ' ', ' ', ' ', ' ', ' ', ' ', ' ', ' ', ' ', ' ', ' ', ' ', ' ', ' ', ' ', ' ', ' ', 'S', 'o', 'm', 'e', '(', 's', 'e', 'l', 'f', '.', 't', 'o', '_', 'u', '6', '4', '_', 'a', 'r', 'r', 'a', 'y', '(', ')', ')'],
   [' ', ' ', ' ', ' ', ' ', ' ', ' ', ' ', ' ', ' ', ' ', ' ', ' ', ' ', ' ', ' ', ' ', ' ', ' ', ' ', '}'],
   [' ', ' ', ' ', ' ', ' ', ' ', ' ', ' ', ' ', ' ', ' ', ' ', ' ', ' ', ' ', ' ', '}'],
   [],
   [' ', ' ', ' ', ' ', ' ', ' ', ' ', ' ', ' ', ' ', ' ', ' ', ' ', ' ', ' ', ' ', '#', '[', 'i', 'n', 'l', 'i', 'n', 'e', '(', 'a', 'l', 'w', 'a', 'y', 's', ')', ']'],
   [' ', ' ', ' ', ' ', ' ', ' ', ' ', ' ', ' ', ' ', ' ', ' ', ' ', ' ', ' ', ' ', 'f', 'n', ' ', 'f', 'r', 'o', 'm', '_', 'u', '6', '4', '_', 'a', 'r', 'r', 'a', 'y', '<', 'c', 'o', 'n', 's', 't', ' ', 'O', ':', ' ', 'u', 's', 'i', 'z', 'e', '>', '(', 'v', ':', ' ', '[', 'u', '6', '4', ';', ' ', 'O', ']', ')', ' ', '-', '>', ' ', 'S', 'e', 'l', 'f', ' ', '{'],
   [' ', ' ', ' ', ' ', ' ', ' ', ' ', ' ', ' ', ' ', ' ', ' ', ' ', ' ', ' ', ' ', ' ', ' ', ' ', ' ', 'i', 'f', ' ', 'O', ' ', '=', '=', ' ', '0', ' ', '{'],
   [' ', ' ', ' ', ' ', ' ', ' ', ' ', ' ', ' ', ' ', ' ', ' ', ' ', ' ', ' ', ' ', ' ', ' ', ' ', ' ', ' ', ' ', ' ', ' ', '0'],
   [' ', ' ', ' ', ' ', ' ', ' ', ' ', ' ', ' ', ' ', ' ', ' ', ' ', ' ', ' ', ' ', ' ', ' ', ' ', ' ', '}', ' ', 'e', 'l', 's', 'e', ' ', 'i', 'f', ' ', 'O', ' ', '>', ' ', '1', ' ', '&', '&', ' ', '$', 'p', 'r', 'e', 'f', 'e', 'r', 'r', 'e', 'd', '_', 'a', 'r', 'r', 'a', 'y', '_', 'l', 'e', 'n', ' ', '=', '=', ' ', '2', ' ', '{'],
   [' ', ' ', ' ', ' ', ' ', ' ', ' ', ' ', ' ', ' ', ' ', ' ', ' ', ' ', ' ', ' ', ' ', ' ', ' ', ' ', ' ', ' ', ' ', ' ', 'S', 'e', 'l', 'f', ':', ':', 'f', 'r', 'o', 'm', '_', 'u', '1', '2', '8', '(', 'v', '[', '0', ']', ' ', 'a', 's', ' ', 'u', '1', '2', '8', ' ', '|', ' ', '(', '(', 'v', '[', '1', ']', ' ', 'a', 's', ' ', 'u', '1', '2', '8', ')', ' ', '<', '<', ' ', '6', '4', ')', ')'],
   [' ', ' ', ' ', ' ', ' ', ' ', ' ', ' ', ' ', ' ', ' ', ' ', ' ', ' ', ' ', ' ', ' ', ' ', ' ', ' ', '}', ' ', 'e', 'l', 's', 'e', ' ', '{'],
   [' ', ' ', ' ', ' ', ' ', ' ', ' ', ' ', ' ', ' ', ' ', ' ', ' ', ' ', ' ', ' ', ' ', ' ', ' ', ' ', ' ', ' ', ' ', ' ', 'S', 'e', 'l', 'f', ':', ':', 'f', 'r', 'o', 'm', '_', 'u', '6', '4', '(', 'v', '[', '0', ']', ')'],
   [' ', ' ', ' ', ' ', ' ', ' ', ' ', ' ', ' ', ' ', ' ', ' ', ' ', ' ', ' ', ' ', ' ', ' ', ' ', ' ', '}'],
   [' ', ' ', ' ', ' ', ' ', ' ', ' ', ' ', ' ', ' ', ' ', ' ', ' ', ' ', ' ', ' ', '}'],
   [' ', ' ', ' ', ' ', ' ', ' ', ' ', ' ', ' ', ' ', ' ', ' ', ' ', ' ', ' ', ' ', '#', '[', 'i', 'n', 'l', 'i', 'n', 'e', '(', 'a', 'l', 'w', 'a', 'y', 's', ')', ']'],
   [' ', ' ', ' ', ' ', ' ', ' ', ' ', ' ', ' ', ' ', ' ', ' ', ' ', ' ', ' ', ' ', 'f', 'n', ' ', 'f', 'r', 'o', 'm', '_', 'u', '6', '4', '_', 'a', 'r', 'r', 'a', 'y', '_', 'o', 'p', 't', '<', 'c', 'o', 'n', 's', 't', ' ', 'O', ':', ' ', 'u', 's', 'i', 'z', 'e', '>', '(', 'v', ':', ' ', '[', 'u', '6', '4', ';', ' ', 'O', ']', ')', ' ', '-', '>', ' ', 'O', 'p', 't', 'i', 'o', 'n', '<', 'S', 'e', 'l', 'f', '>', ' ', '{'],
   [' ', ' ', ' ', ' ', ' ', ' ', ' ', ' ', ' ', ' ', ' ', ' ', ' ', ' ', ' ', ' ', ' ', ' ', ' ', ' ', 'i', 'f', ' ', 'O', ' ', '=', '=', ' ', '0', ' ', '{'],
   [' ', ' ', ' ', ' ', ' ', ' ', ' ', ' ', ' ', ' ', ' ', ' ', ' ', ' ', ' ', ' ', ' ', ' ', ' ', ' ', ' ', ' ', ' ', ' ', 'S', 'o', 'm', 'e', '(', '0', ')'],
   [' ', ' ', ' ', ' ', ' ', ' ', ' ', ' ', ' ', ' ', ' ', ' ', ' ', ' ', ' ', ' ', ' ', ' ', ' ', ' ', '}', ' ', 'e', 'l', 's', 'e', ' ', 'i', 'f', ' ', 'O', ' ', '=', '=', ' ', '1', ' ', '{'],
   [' ', ' ', ' ', ' ', ' ', ' ', ' ', ' ', ' ', ' ', ' ', ' ', ' ', ' ', ' ', ' ', ' ', ' ', ' ', ' ', ' ', ' ', ' ', ' ', 'S', 'e', 'l', 'f', ':', ':', 'f', 'r', 'o', 'm', '_', 'u', '6', '4', '_', 'o', 'p', 't', '(', 'v', '[', '0', ']', ')'],
   [' ', ' ', ' ', ' ', ' ', ' ', ' ', ' ', ' ', ' ', ' ', ' ', ' ', ' ', ' ', ' ', ' ', ' ', ' ', ' ', '}', ' ', 'e', 'l', 's', 'e', ' ', '{'],
   [' ', ' ', ' ', ' ', ' ', ' ', ' ', ' ', ' ', ' ', ' ', ' ', ' ', ' ', ' ', ' ', ' ', ' ', ' ', ' ', ' ', ' ', ' ', ' ', 'f', 'o', 'r', ' ', 'i', ' ', 'i', 'n', ' ', '2', '.', '.', 'O', ' ', '{'],
   [' ', ' ', ' ', ' ', ' ', ' ', ' ', ' ', ' ', ' ', ' ', ' ', ' ', ' ', ' ', ' ', ' ', ' ', ' ', ' ', ' ', ' ', ' ', ' ', ' ', ' ', ' ', ' ', 'i', 'f', ' ', 'v', '[', 'i', ']', ' ', '!', '=', ' ', '0', ' ', '{'],
   [' ', ' ', ' ', ' ', ' ', ' ', ' ', ' ', ' ', ' ', ' ', ' ', ' ', ' ', ' ', ' ', ' ', ' ', ' ', ' ', ' ', ' ', ' ', ' ', ' ', ' ', ' ', ' ', ' ', ' ', ' ', ' ', 'r', 'e', 't', 'u', 'r', 'n', ' ', 'N', 'o', 'n', 'e', ';'],
   [' ', ' ', ' ', ' ', ' ', ' ', ' ', ' ', ' ', ' ', ' ', ' ', ' ', ' ', ' ', ' ', ' ', ' ', ' ', ' ', ' ', ' ', ' ', ' ', ' ', ' ', ' ', ' ', '}'],
   [' ', ' ', ' ', ' ', ' ', ' ', ' ', ' ', ' ', ' ', ' ', ' ', ' ', ' ', ' ', ' ', ' ', ' ', ' ', ' ', ' ', ' ', ' ', ' ', '}'],
   [' ', ' ', ' ', ' ', ' ', ' ', ' ', ' ', ' ', ' ', ' ', ' ', ' ', ' ', ' ', ' ', ' ', ' ', ' ', ' ', ' ', ' ', ' ', ' ', 'S', 'e', 'l', 'f', ':', ':', 'f', 'r', 'o', 'm', '_', 'u', '1', '2', '8', '_', 'o', 'p', 't', '(', 'v', '[', '0', ']', ' ', 'a', 's', ' ', 'u', '1', '2', '8', ' ', '|', ' ', '(', '(', 'v', '[', '1', ']', ' ', 'a', 's', ' ', 'u', '1', '2', '8', ')', ' ', '<', '<', ' ', '6', '4', ')', ')'],
   [' ', ' ', ' ', ' ', ' ', ' ', ' ', ' ', ' ', ' ', ' ', ' ', ' ', ' ', ' ', ' ', ' ', ' ', ' ', ' ', '}'],
   [' ', ' ', ' ', ' ', ' ', ' ', ' ', ' ', ' ', ' ', ' ', ' ', ' ', ' ', ' ', ' ', '}'],
   [],
   [' ', ' ', ' ', ' ', ' ', ' ', ' ', ' ', ' ', ' ', ' ', ' ', ' ', ' ', ' ', ' ', '#', '[', 'i', 'n', 'l', 'i', 'n', 'e', '(', 'a', 'l', 'w', 'a', 'y', 's', ')', ']'],
   [' ', ' ', ' ', ' ', ' ', ' ', ' ', ' ', ' ', ' ', ' ', ' ', ' ', ' ', ' ', ' ', 'f', 'n', ' ', 't', 'o', '_', 'u', '6', '4', '_', 's', 'l', 'i', 'c', 'e', '(', '&', 's', 'e', 'l', 'f', ',', ' ', 'o', 'u', 't', ':', ' ', '&', 'm', 'u', 't', ' ', '[', 'u', '6', '4', ']', ')', ' ', '{'],
   [' ', ' ', ' ', ' ', ' ', ' ', ' ', ' ', ' ', ' ', ' ', ' ', ' ', ' ', ' ', ' ', ' ', ' ', ' ', ' ', 'i', 'f', ' ', 'o', 'u', 't', '.', 'l', 'e', 'n', '(', ')', ' ', '>', ' ', '0', ' ', '{'],
   [' ', ' ', ' ', ' ', ' ', ' ', ' ', ' ', ' ', ' ', ' ', ' ', ' ', ' ', ' ', ' ', ' ', ' ', ' ', ' ', ' ', ' ', ' ', ' ', 'o', 'u', 't', '[', '0', ']', ' ', '=', ' ', 'l', 'o', '(', '*', 's', 'e', 'l', 'f', ')', ';'],
   [' ', ' ', ' ', ' ', ' ', ' ', ' ', ' ', ' ', ' ', ' ', ' ', ' ', ' ', ' ', ' ', ' ', ' ', ' ', ' ', '}'],
   [' ', ' ', ' ', ' ', ' ', ' ', ' ', ' ', ' ', ' ', ' ', ' ', ' ', ' ', ' ', ' ', ' ', ' ', ' ', ' ', 'i', 'f', ' ', 'o', 'u', 't', '.', 'l', 'e', 'n', '(', ')', ' ', '>', ' ', '1', ' ', '&', '&', ' ', '$', 'p', 'r', 'e', 'f', 'e', 'r', 'r', 'e', 'd', '_', 'a', 'r', 'r', 'a', 'y', '_', 'l', 'e', 'n', ' ', '=', '=', ' ', '2', ' ', '{'],
   [' ', ' ', ' ', ' ', ' ', ' ', ' ', ' ', ' ', ' ', ' ', ' ', ' ', ' ', ' ', ' ', ' ', ' ', ' ', ' ', ' ', ' ', ' ', ' ', 'o', 'u', 't', '[', '1', ']', ' ', '=', ' ', 'h', 'i', '(', '*', 's', 'e', 'l', 'f', ')', ';'],
   [' ', ' ', ' ', ' ', ' ', ' ', ' ', ' ', ' ', ' ', ' ', ' ', ' ', ' ', ' ', ' ', ' ', ' ', ' ', ' ', '}'],
   [' ', ' ', ' ', ' ', ' ', ' ', ' ', ' ', ' ', ' ', ' ', ' ', ' ', ' ', ' ', ' ', ' ', ' ', ' ', ' ', 'f', 'o', 'r', ' ', 'i', ' ', 'i', 'n', ' ', '$', 'p', 'r', 'e', 'f', 'e', 'r', 'r', 'e', 'd', '_', 'a', 'r', 'r', 'a', 'y', '_', 'l', 'e', 'n', '.', '.', 'o', 'u', 't', '.', 'l', 'e', 'n', '(', ')', ' ', '{'],
   [' ', ' ', ' ', ' ', ' ', ' ', ' ', ' ', ' ', ' ', ' ', ' ', ' ', ' ', ' ', ' ', ' ', ' ', ' ', ' ', ' ', ' ', ' ', ' ', 'o', 'u', 't', '[', 'i', ']', ' ', '=', ' ', '0', ';'],
   [' ', ' ', ' ', ' ', ' ', ' ', ' ', ' ', ' ', ' ', ' ', ' ', ' ', ' ', ' ', ' ', ' ', ' ', ' ', ' ', '}'],
   [' ', ' ', ' ', ' ', ' ', ' ', ' ', ' ', ' ', ' ', ' ', ' ', ' ', ' ', ' ', ' ', '}'],
   [' ', ' ', ' ', ' ', ' ', ' ', ' ', ' ', ' ', ' ', ' ', ' ', ' ', ' ', ' ', ' ', '#', '[', 'i', 'n', 'l', 'i', 'n', 'e', '(', 'a', 'l', 'w', 'a', 'y', 's', ')', ']'],
   [' ', ' ', ' ', ' ', ' ', ' ', ' ', ' ', ' ', ' ', ' ', ' ', ' ', ' ', ' ', ' ', '#', '[', 'm', 'u', 's', 't', '_', 'u', 's', 'e', ']'],
   [' ', ' ', ' ', ' ', ' ', ' ', ' ', ' ', ' ', ' ', ' ', ' ', ' ', ' ', ' ', ' ', 'f', 'n', ' ', 't', 'o', '_', 'u', '6', '4', '_', 's', 'l', 'i', 'c', 'e', '_', 'o', 'p', 't', '(', '&', 's', 'e', 'l', 'f', ',', ' ', 'o', 'u', 't', ':', ' ', '&', 'm', 'u', 't', ' ', '[', 'u', '6', '4', ']', ')', ' ', '-', '>', ' ', 'O', 'p', 't', 'i', 'o', 'n', '<', '(', ')', '>', ' ', '{'],
   [' ', ' ', ' ', ' ', ' ', ' ', ' ', ' ', ' ', ' ', ' ', ' ', ' ', ' ', ' ', ' ', ' ', ' ', ' ', ' ', 'i', 'f', ' ', 'o', 'u', 't', '.', 'l', 'e', 'n', '(', ')', ' ', '=', '=', ' ', '0', ' ', '&', '&', ' ', '*', 's', 'e', 'l', 'f', ' ', '!', '=', ' ', '0', ' ', '{'],
   [' ', ' ', ' ', ' ', ' ', ' ', ' ', ' ', ' ', ' ', ' ', ' ', ' ', ' ', ' ', ' ', ' ', ' ', ' ', ' ', ' ', ' ', ' ', ' ', 'N', 'o', 'n', 'e'],
   [' ', ' ', ' ', ' ', ' ', ' ', ' ', ' ', ' ', ' ', ' ', ' ', ' ', ' ', ' ', ' ', ' ', ' ', ' ', ' ', '}', ' ', 'e', 'l', 's', 'e', ' ', 'i', 'f', ' ', 'o', 'u', 't', '.', 'l', 'e', 'n', '(', ')', ' ', '=', '=', ' ', '1', ' ', '&', '&', ' ', 'h', 'i', '(', '*', 's', 'e', 'l', 'f', ')', ' ', '!', '=', ' ', '0', ' ', '{'],
   [' ', ' ', ' ', ' ', ' ', ' ', ' ', ' ', ' ', ' ', ' ', ' ', ' ', ' ', ' ', ' ', ' ', ' ', ' ', ' ', ' ', ' ', ' ', ' ', 'N', 'o', 'n', 'e'],
   [' ', ' ', ' ', ' ', ' ', ' ', ' ', ' ', ' ', ' ', ' ', ' ', ' ', ' ', ' ', ' ', ' ', ' ', ' ', ' ', '}', ' ', 'e', 'l', 's', 'e', ' ', '{'],
   [' ', ' ', ' ', ' ', ' ', ' ', ' ', ' ', ' ', ' ', ' ', ' ', ' ', ' ', ' ', ' ', ' ', ' ', ' ', ' ', ' ', ' ', ' ', ' ', 's', 'e', 'l', 'f', '.', 't', 'o', '_', 'u', '6', '4', '_', 's', 'l', 'i', 'c', 'e', '(', 'o', 'u', 't', ')', ';'],
   [' ', ' ', ' ', ' ', ' ', ' ', ' ', ' ', ' ', ' ', ' ', ' ', ' ', ' ', ' ', ' ', ' ', ' ', ' ', ' ', ' ', ' ', ' ', ' ', 'S', 'o', 'm', 'e', '(', '(', ')', ')'],
   [' ', ' ', ' ', ' ', ' ', ' ', ' ', ' ', ' ', ' ', ' ', ' ', ' ', ' ', ' ', ' ', ' ', ' ', ' ', ' ', '}'],
   [' ', ' ', ' ', ' ', ' ', ' ', ' ', ' ', ' ', ' ', ' ', ' ', ' ', ' ', ' ', ' ', '}'],
   [],
   [' ', ' ', ' ', ' ', ' ', ' ', ' ', ' ', ' ', ' ', ' ', ' ', ' ', ' ', ' ', ' ', '#', '[', 'i', 'n', 'l', 'i', 'n', 'e', '(', 'a', 'l', 'w', 'a', 'y', 's', ')', ']'],
   [' ', ' ', ' ', ' ', ' ', ' ', ' ', ' ', ' ', ' ', ' ', ' ', ' ', ' ', ' ', ' ', 'f', 'n', ' ', 'f', 'r', 'o', 'm', '_', 'u', '6', '4', '_', 's', 'l', 'i', 'c', 'e', '(', 'v', ':', ' ', '&', '[', 'u', '6', '4', ']', ')', ' ', '-', '>', ' ', 'S', 'e', 'l', 'f', ' ', '{'],
   [' ', ' ', ' ', ' ', ' ', ' ', ' ', ' ', ' ', ' ', ' ', ' ', ' ', ' ', ' ', ' ', ' ', ' ', ' ', ' ', 'i', 'f', ' ', 'v', '.', 'l', 'e', 'n', '(', ')', ' ', '=', '=', ' ', '0', ' ', '{'],
   [' ', ' ', ' ', ' ', ' ', ' ', ' ', ' ', ' ', ' ', ' ', ' ', ' ', ' ', ' ', ' ', ' ', ' ', ' ', ' ', ' ', ' ', ' ', ' ', '0'],
   [' ', ' ', ' ', ' ', ' ', ' ', ' ', ' ', ' ', ' ', ' ', ' ', ' ', ' ', ' ', ' ', ' ', ' ', ' ', ' ', '}', ' ', 'e', 'l', 's', 'e', ' ', 'i', 'f', ' ', 'v', '.', 'l', 'e', 'n', '(', ')', ' ', '>', ' ', '1', ' ', '&', '&', ' ', '$', 'p', 'r', 'e', 'f', 'e', 'r', 'r', 'e', 'd', '_', 'a', 'r', 'r', 'a', 'y', '_', 'l', 'e', 'n', ' ', '=', '=', ' ', '2', ' ', '{'],
   [' ', ' ', ' ', ' ', ' ', ' ', ' ', ' ', ' ', ' ', ' ', ' ', ' ', ' ', ' ', ' ', ' ', ' ', ' ', ' ', ' ', ' ', ' ', ' ', 'S', 'e', 'l', 'f', ':', ':', 'f', 'r', 'o', 'm', '_', 'u', '1', '2', '8', '(', 'v', '[', '0', ']', ' ', 'a', 's', ' ', 'u', '1', '2', '8', ' ', '|', ' ', '(', '(', 'v', '[', '1', ']', ' ', 'a', 's', ' ', 'u', '1', '2', '8', ')', ' ', '<', '<', ' ', '6', '4', ')', ')'],
   [' ', ' ', ' ', ' ', ' ', ' ', ' ', ' ', ' ', ' ', ' ', ' ', ' ', ' ', ' ', ' ', ' ', ' ', ' ', ' ', '}', ' ', 'e', 'l', 's', 'e', ' ', '{'],
   [' ', ' ', ' ', ' ', ' ', ' ', ' ', ' ', ' ', ' ', ' ', ' ', ' ', ' ', ' ', ' ', ' ', ' ', ' ', ' ', ' ', ' ', ' ', ' ', 'S', 'e', 'l', 'f', ':', ':', 'f', 'r', 'o', 'm', '_', 'u', '6', '4', '(', 'v', '[', '0', ']', ')'],
   [' ', ' ', ' ', ' ', ' ', ' ', ' ', ' ', ' ', ' ', ' ', ' ', ' ', ' ', ' ', ' ', ' ', ' ', ' ', ' ', '}'],
   [' ', ' ', ' ', ' ', ' ', ' ', ' ', ' ', ' ', ' ', ' ', ' ', ' ', ' ', ' ', ' ', '}'],
   [' ', ' ', ' ', ' ', ' ', ' ', ' ', ' ', ' ', ' ', ' ', ' ', ' ', ' ', ' ', ' ', '#', '[', 'i', 'n', 'l', 'i', 'n', 'e', '(', 'a', 'l', 'w', 'a', 'y', 's', ')', ']'],
   [' ', ' ', ' ', ' ', ' ', ' ', ' ', ' ', ' ', ' ', ' ', ' ', ' ', ' ', ' ', ' ', 'f', 'n', ' ', 'f', 'r', 'o', 'm', '_', 'u', '6', '4', '_', 's', 'l', 'i', 'c', 'e', '_', 'o', 'p', 't', '(', 'v', ':', ' ', '&', '[', 'u', '6', '4', ']', ')', ' ', '-', '>', ' ', 'O', 'p', 't', 'i', 'o', 'n', '<', 'S', 'e', 'l', 'f', '>', ' ', '{'],
   [' ', ' ', ' ', ' ', ' ', ' ', ' ', ' ', ' ', ' ', ' ', ' ', ' ', ' ', ' ', ' ', ' ', ' ', ' ', ' ', 'i', 'f', ' ', 'v', '.', 'l', 'e', 'n', '(', ')', ' ', '=', '=', ' ', '0', ' ', '{'],
   [' ', ' ', ' ', ' ', ' ', ' ', ' ', ' ', ' ', ' ', ' ', ' ', ' ', ' ', ' ', ' ', ' ', ' ', ' ', ' ', ' ', ' ', ' ', ' ', 'S', 'o', 'm', 'e', '(', '0', ')'],
   [' ', ' ', ' ', ' ', ' ', ' ', ' ', ' ', ' ', ' ', ' ', ' ', ' ', ' ', ' ', ' ', ' ', ' ', ' ', ' ', '}', ' ', 'e', 'l', 's', 'e', ' ', 'i', 'f', ' ', 'v', '.', 'l', 'e', 'n', '(', ')', ' ', '=', '=', ' ', '1', ' ', '{'],
   [' ', ' ', ' ', ' ', ' ', ' ', ' ', ' ', ' ', ' ', ' ', ' ', ' ', ' ', ' ', ' ', ' ', ' ', ' ', ' ', ' ', ' ', ' ', ' ', 'S', 'e', 'l', 'f', ':', ':', 'f', 'r', 'o', 'm', '_', 'u', '6', '4', '_', 'o', 'p', 't', '(', 'v', '[', '0', ']', ')'],
   [' ', ' ', ' ', ' ', ' ', ' ', ' ', ' ', ' ', ' ', ' ', ' ', ' ', ' ', ' ', ' ', ' ', ' ', ' ', ' ', '}', ' ', 'e', 'l', 's', 'e', ' ', '{'],
   [' ', ' ', ' ', ' ', ' ', ' ', ' ', ' ', ' ', ' ', ' ', ' ', ' ', ' ', ' ', ' ', ' ', ' ', ' ', ' ', ' ', ' ', ' ', ' ', 'f', 'o', 'r', ' ', 'i', ' ', 'i', 'n', ' ', '2', '.', '.', 'v', '.', 'l', 'e', 'n', '(', ')', ' ', '{'],
   [' ', ' ', ' ', ' ', ' ', ' ', ' ', ' ', ' ', ' ', ' ', ' ', ' ', ' ', ' ', ' ', ' ', ' ', ' ', ' ', ' ', ' ', ' ', ' ', ' ', ' ', ' ', ' ', 'i', 'f', ' ', 'v', '[', 'i', ']', ' ', '!', '=', ' ', '0', ' ', '{'],
   [' ', ' ', ' ', ' ', ' ', ' ', ' ', ' ', ' ', ' ', ' ', ' ', ' ', ' ', ' ', ' ', ' ', ' ', ' ', ' ', ' ', ' ', ' ', ' ', ' ', ' ', ' ', ' ', ' ', ' ', ' ', ' ', 'r', 'e', 't', 'u', 'r', 'n', ' ', 'N', 'o', 'n', 'e', ';'],
   [' ', ' ', ' ', ' ', ' ', ' ', ' ', ' ', ' ', ' ', ' ', ' ', ' ', ' ', ' ', ' ', ' ', ' ', ' ', ' ', ' ', ' ', ' ', ' ', ' ', ' ', ' ', ' ', '}'],
   [' ', ' ', ' ', ' ', ' ', ' ', ' ', ' ', ' ', ' ', ' ', ' ', ' ', ' ', ' ', ' ', ' ', ' ', ' ', ' ', ' ', ' ', ' ', ' ', '}'],
   [' ', ' ', ' ', ' ', ' ', ' ', ' ', ' ', ' ', ' ', ' ', ' ', ' ', ' ', ' ', ' ', ' ', ' ', ' ', ' ', ' ', ' ', ' ', ' ', 'S', 'e', 'l', 'f', ':', ':', 'f', 'r', 'o', 'm', '_', 'u', '1', '2', '8', '_', 'o', 'p', 't', '(', 'v', '[', '0', ']', ' ', 'a', 's', ' ', 'u', '1', '2', '8', ' ', '|', ' ', '(', '(', 'v', '[', '1', ']', ' ', 'a', 's', ' ', 'u', '1', '2', '8', ')', ' ', '<', '<', ' ', '6', '4', ')', ')'],
   [' ', ' ', ' ', ' ', ' ', ' ', ' ', ' ', ' ', ' ', ' ', ' ', ' ', ' ', ' ', ' ', ' ', ' ', ' ', ' ', '}'],
   [' ', ' ', ' ', ' ', ' ', ' ', ' ', ' ', ' ', ' ', ' ', ' ', ' ', ' ', ' ', ' ', '}'],
   [' ', ' ', ' ', ' ', ' ', ' ', ' ', ' ', ' ', ' ', ' ', ' ', '}'],
   [' ', ' ', ' ', ' ', ' ', ' ', ' ', ' ', '}', ';'],
   [' ', ' ', ' ', ' ', '}', ';'],
   ['}'],
   ['p', 'r', 'i', 'm', '!', '(', 'u', '8', ',', ' ', '8', ',', ' ', '1', ')', ';'],
   ['p', 'r', 'i', 'm', '!', '(', 'u', '1', '6', ',', ' ', '1', '6', ',', ' ', '1', ')', ';'],
   ['p', 'r', 'i', 'm', '!', '(', 'u', '3', '2', ',', ' ', '3', '2', ',', ' ', '1', ')', ';'],
   ['p', 'r', 'i', 'm', '!', '(', 'u', '6', '4', ',', ' ', '6', '4', ',', ' ', '1', ')', ';'],
   ['p', 'r', 'i', 'm', '!', '(', 'u', '1', '2', '8', ',', ' ', '1', '2', '8', ',', ' ', '2', ')', ';'],
   [],
   ['#', '[', 'd', 'e', 'r', 'i', 'v', 'e', '(', 'C', 'o', 'p', 'y', ',', ' ', 'C', 'l', 'o', 'n', 'e', ',', ' ', 'D', 'e', 'b', 'u', 'g', ')', ']'],
   ['#', '[', 'r', 'e', 'p', 'r', '(', 't', 'r', 'a', 'n', 's', 'p', 'a', 'r', 'e', 'n', 't', ')', ']'],
   ['p', 'u', 'b', ' ', 's', 't', 'r', 'u', 'c', 't', ' ', 'P', 'r', 'i', 'm', 'i', 't', 'i', 'v', 'e', 'I', 't', 'e', 'r', '<', 'T', ':', ' ', 'E', 'n', 'u', 'm', 'S', 'e', 't', 'T', 'y', 'p', 'e', 'R', 'e', 'p', 'r', '>', '(', 'p', 'u', 'b', ' ', 'T', ')', ';'],
   [],
   ['i', 'm', 'p', 'l', '<', 'T', ':', ' ', 'E', 'n', 'u', 'm', 'S', 'e', 't', 'T', 'y', 'p', 'e', 'R', 'e', 'p', 'r', '>', ' ', 'I', 't', 'e', 'r', 'a', 't', 'o', 'r', ' ', 'f', 'o', 'r', ' ', 'P', 'r', 'i', 'm', 'i', 't', 'i', 'v', 'e', 'I', 't', 'e', 'r', '<', 'T', '>', ' ', '{'],
   [' ', ' ', ' ', ' ', 't', 'y', 'p', 'e', ' ', 'I', 't', 'e', 'm', ' ', '=', ' ', 'u', '3', '2', ';'],
   [],
   [' ', ' ', ' ', ' ', 'f', 'n', ' ', 'n', 'e', 'x', 't', '(', '&', 'm', 'u', 't', ' ', 's', 'e', 'l', 'f', ')', ' ', '-', '>', ' ', 'O', 'p', 't', 'i', 'o', 'n', '<', 'S', 'e', 'l', 'f', ':', ':', 'I', 't', 'e', 'm', '>', ' ', '{'],
   [' ', ' ', ' ', ' ', ' ', ' ', ' ', ' ', 'i', 'f', ' ', 's', 'e', 'l', 'f', '.', '0', '.', 'i', 's', '_', 'e', 'm', 'p', 't', 'y', '(', ')', ' ', '{'],
   [' ', ' ', ' ', ' ', ' ', ' ', ' ', ' ', ' ', ' ', ' ', ' ', 'N', 'o', 'n', 'e'],
   [' ', ' ', ' ', ' ', ' ', ' ', ' ', ' ', '}', ' ', 'e', 'l', 's', 'e', ' ', '{'],
   [' ', ' ', ' ', ' ', ' ', ' ', ' ', ' ', ' ', ' ', ' ', ' ', 'l', 'e', 't', ' ', 'b', 'i', 't', ' ', '=', ' ', 's', 'e', 'l', 'f', '.', '0', '.', 't', 'r', 'a', 'i', 'l', 'i', 'n', 'g', '_', 'z', 'e', 'r', 'o', 's', '(', ')', ';'],
   [' ', ' ', ' ', ' ', ' ', ' ', ' ', ' ', ' ', ' ', ' ', ' ', 's', 'e', 'l', 'f', '.', '0', '.', 'r', 'e', 'm', 'o', 'v', 'e', '_', 'b', 'i', 't', '(', 'b', 'i', 't', ')', ';'],
   [' ', ' ', ' ', ' ', ' ', ' ', ' ', ' ', ' ', ' ', ' ', ' ', 'S', 'o', 'm', 'e', '(', 'b', 'i', 't', ')'],
   [' ', ' ', ' ', ' ', ' ', ' ', ' ', ' ', '}'],
   [' ', ' ', ' ', ' ', '}'],
   [],
   [' ', ' ', ' ', ' ', 'f', 'n', ' ', 's', 'i', 'z', 'e', '_', 'h', 'i', 'n', 't', '(', '&', 's', 'e', 'l', 'f', ')', ' ', '-', '>', ' ', '(', 'u', 's', 'i', 'z', 'e', ',', ' ', 'O', 'p', 't', 'i', 'o', 'n', '<', 'u', 's', 'i', 'z', 'e', '>', ')', ' ', '{'],
   [' ', ' ', ' ', ' ', ' ', ' ', ' ', ' ', 'l', 'e', 't', ' ', 'l', 'e', 'f', 't', ' ', '=', ' ', 's', 'e', 'l', 'f', '.', '0', '.', 'c', 'o', 'u', 'n', 't', '_', 'o', 'n', 'e', 's', '(', ')', ' ', 'a', 's', ' ', 'u', 's', 'i', 'z', 'e', ';'],
   [' ', ' ', ' ', ' ', ' ', ' ', ' ', ' ', '(', 'l', 'e', 'f', 't', ',', ' ', 'S', 'o', 'm', 'e', '(', 'l', 'e', 'f', 't', ')', ')'],
   [' ', ' ', ' ', ' ', '}'],
   ['}'],
   [],
   ['i', 'm', 'p', 'l', '<', 'T', ':', ' ', 'E', 'n', 'u', 'm', 'S', 'e', 't', 'T', 'y', 'p', 'e', 'R', 'e', 'p', 'r', '>', ' ', 'D', 'o', 'u', 'b', 'l', 'e', 'E', 'n', 'd', 'e', 'd', 'I', 't', 'e', 'r', 'a', 't', 'o', 'r', ' ', 'f', 'o', 'r', ' ', 'P', 'r', 'i', 'm', 'i', 't', 'i', 'v', 'e', 'I', 't', 'e', 'r', '<', 'T', '>', ' ', '{'],
   [' ', ' ', ' ', ' ', 'f', 'n', ' ', 'n', 'e', 'x', 't', '_', 'b', 'a', 'c', 'k', '(', '&', 'm', 'u', 't', ' ', 's', 'e', 'l', 'f', ')', ' ', '-', '>', ' ', 'O', 'p', 't', 'i', 'o', 'n', '<', 'S', 'e', 'l', 'f', ':', ':', 'I', 't', 'e', 'm', '>', ' ', '{'],
   [' ', ' ', ' ', ' ', ' ', ' ', ' ', ' ', 'i', 'f', ' ', 's', 'e', 'l', 'f', '.', '0', '.', 'i', 's', '_', 'e', 'm', 'p', 't', 'y', '(', ')', ' ', '{'],
   [' ', ' ', ' ', ' ', ' ', ' ', ' ', ' ', ' ', ' ', ' ', ' ', 'N', 'o', 'n', 'e'],
   [' ', ' ', ' ', ' ', ' ', ' ', ' ', ' ', '}', ' ', 'e', 'l', 's', 'e', ' ', '{'],
   [' ', ' ', ' ', ' ', ' ', ' ', ' ', ' ', ' ', ' ', ' ', ' ', 'l', 'e', 't', ' ', 'b', 'i', 't', ' ', '=', ' ', 'T', ':', ':', 'W', 'I', 'D', 'T', 'H', ' ', '-', ' ', '1', ' ', '-', ' ', 's', 'e', 'l', 'f', '.', '0', '.', 'l', 'e', 'a', 'd', 'i', 'n', 'g', '_', 'z', 'e', 'r', 'o', 's', '(', ')', ';'],
   [' ', ' ', ' ', ' ', ' ', ' ', ' ', ' ', ' ', ' ', ' ', ' ', 's', 'e', 'l', 'f', '.', '0', '.', 'r', 'e', 'm', 'o', 'v', 'e', '_', 'b', 'i', 't', '(', 'b', 'i', 't', ')', ';'],
   [' ', ' ', ' ', ' ', ' ', ' ', ' ', ' ', ' ', ' ', ' ', ' ', 'S', 'o', 'm', 'e', '(', 'b', 'i', 't', ')'],
   [' ', ' ', ' ', ' ', ' ', ' ', ' ', ' ', '}'],
   [' ', ' ', ' ', ' ', '}'],
   ['}']]

theorem text_eq : text = chars.map String.ofList := by rfl

end Enumset.Src.PrimitiveRs
