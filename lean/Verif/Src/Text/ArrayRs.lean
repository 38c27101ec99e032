/-!
# The text of `enumset/src/repr/array.rs`

Written by `tools/generate.sh`.
-/

set_option maxRecDepth 100000

namespace Enumset.Src.ArrayRs

/-- enumset/src/repr/array.rs, line by line -/
def text : List String :=
  ["use crate::repr::primitive::PrimitiveIter;",
   "use crate::repr::EnumSetTypeRepr;",
   "use core::ops::*;",
   "",
   "/// An implementation of `EnumSetTypeRepr` based on an arbitrary size array.",
   "///",
   "/// `N` **must** not be `0`, or else everything will break.",
   "#[derive(Copy, Clone, Eq, PartialEq, Ord, PartialOrd, Debug, Hash)]",
   "pub struct ArrayRepr<const N: usize>(pub [u64; N]);",
   "impl<const N: usize> ArrayRepr<N> {",
   "    fn split_bit(bit: u32) -> (usize, u32) {",
   "        (bit as usize / 64, bit % 64)",
   "    }",
   "}",
   "",
   "impl<const N: usize> BitAnd for ArrayRepr<N> {",
   "    type Output = Self;",
   "    fn bitand(mut self, rhs: Self) -> Self::Output {",
   "        for i in 0..N {",
   "            self.0[i] &= rhs.0[i];",
   "        }",
   "        self",
   "    }",
   "}",
   "impl<const N: usize> BitOr for ArrayRepr<N> {",
   "    type Output = Self;",
   "    fn bitor(mut self, rhs: Self) -> Self::Output {",
   "        for i in 0..N {",
   "            self.0[i] |= rhs.0[i];",
   "        }",
   "        self",
   "    }",
   "}",
   "impl<const N: usize> BitXor for ArrayRepr<N> {",
   "    type Output = Self;",
   "    fn bitxor(mut self, rhs: Self) -> Self::Output {",
   "        for i in 0..N {",
   "            self.0[i] ^= rhs.0[i];",
   "        }",
   "        self",
   "    }",
   "}",
   "impl<const N: usize> Not for ArrayRepr<N> {",
   "    type Output = Self;",
   "    fn not(mut self) -> Self::Output {",
   "        for i in 0..N {",
   "            self.0[i] = !self.0[i];",
   "        }",
   "        self",
   "    }",
   "}",
   "",
   "impl<const N: usize> EnumSetTypeRepr for ArrayRepr<N> {",
   "    const PREFERRED_ARRAY_LEN: usize = N;",
   "    const WIDTH: u32 = N as u32 * 64;",
   "    const EMPTY: Self = ArrayRepr([0; N]);",
   "",
   "    fn is_empty(&self) -> bool {",
   "        self.0.iter().all(|x| *x == 0)",
   "    }",
   "",
   "    fn add_bit(&mut self, bit: u32) {",
   "        let (idx, bit) = Self::split_bit(bit);",
   "        self.0[idx].add_bit(bit);",
   "    }",
   "    fn remove_bit(&mut self, bit: u32) {",
   "        let (idx, bit) = Self::split_bit(bit);",
   "        self.0[idx].remove_bit(bit);",
   "    }",
   "    fn has_bit(&self, bit: u32) -> bool {",
   "        let (idx, bit) = Self::split_bit(bit);",
   "        self.0[idx].has_bit(bit)",
   "    }",
   "",
   "    fn count_ones(&self) -> u32 {",
   "        self.0.iter().map(|x| x.count_ones()).sum()",
   "    }",
   "    fn leading_zeros(&self) -> u32 {",
   "        let mut accum = 0;",
   "        for i in (0..N).rev() {",
   "            if self.0[i] != 0 {",
   "                return accum + self.0[i].leading_zeros();",
   "            }",
   "            accum += 64;",
   "        }",
   "        Self::WIDTH",
   "    }",
   "    fn trailing_zeros(&self) -> u32 {",
   "        let mut accum = 0;",
   "        for i in 0..N {",
   "            if self.0[i] != 0 {",
   "                return accum + self.0[i].trailing_zeros();",
   "            }",
   "            accum += 64;",
   "        }",
   "        Self::WIDTH",
   "    }",
   "",
   "    fn and_not(&self, other: Self) -> Self {",
   "        let mut new = Self([0; N]);",
   "        for i in 0..N {",
   "            new.0[i] = self.0[i] & !other.0[i];",
   "        }",
   "        new",
   "    }",
   "",
   "    type Iter = ArrayIter<N>;",
   "    fn iter(self) -> Self::Iter {",
   "        ArrayIter::new(self)",
   "    }",
   "",
   "    fn from_u8(v: u8) -> Self {",
   "        Self::from_u64(v as u64)",
   "    }",
   "    fn from_u16(v: u16) -> Self {",
   "        Self::from_u64(v as u64)",
   "    }",
   "    fn from_u32(v: u32) -> Self {",
   "        Self::from_u64(v as u64)",
   "    }",
   "    fn from_u64(v: u64) -> Self {",
   "        let mut new = Self([0; N]);",
   "        new.0[0] = v;",
   "        new",
   "    }",
   "    fn from_u128(v: u128) -> Self {",
   "        let mut new = Self([0; N]);",
   "        new.0[0] = v as u64;",
   "        if N != 1 {",
   "            new.0[1] = (v >> 64) as u64;",
   "        }",
   "        new",
   "    }",
   "    fn from_usize(v: usize) -> Self {",
   "        Self::from_u64(v as u64)",
   "    }",
   "",
   "    fn from_u8_opt(v: u8) -> Option<Self> {",
   "        Some(Self::from_u8(v))",
   "    }",
   "    fn from_u16_opt(v: u16) -> Option<Self> {",
   "        Some(Self::from_u16(v))",
   "    }",
   "    fn from_u32_opt(v: u32) -> Option<Self> {",
   "        Some(Self::from_u32(v))",
   "    }",
   "    fn from_u64_opt(v: u64) -> Option<Self> {",
   "        Some(Self::from_u64(v))",
   "    }",
   "    fn from_u128_opt(v: u128) -> Option<Self> {",
   "        if N == 1 && (v >> 64) != 0 {",
   "            None",
   "        } else {",
   "            Some(Self::from_u128(v))",
   "        }",
   "    }",
   "    fn from_usize_opt(v: usize) -> Option<Self> {",
   "        Some(Self::from_usize(v))",
   "    }",
   "",
   "    fn to_u8(&self) -> u8 {",
   "        self.to_u64().to_u8()",
   "    }",
   "    fn to_u16(&self) -> u16 {",
   "        self.to_u64().to_u16()",
   "    }",
   "    fn to_u32(&self) -> u32 {",
   "        self.to_u64().to_u32()",
   "    }",
   "    fn to_u64(&self) -> u64 {",
   "        self.0[0]",
   "    }",
   "    fn to_u128(&self) -> u128 {",
   "        let hi = if N == 1 { 0 } else { (self.0[1] as u128) << 64 };",
   "        self.0[0] as u128 | hi",
   "    }",
   "    fn to_usize(&self) -> usize {",
   "        self.to_u64().to_usize()",
   "    }",
   "",
   "    fn to_u8_opt(&self) -> Option<u8> {",
   "        self.to_u64_opt().and_then(|x| x.to_u8_opt())",
   "    }",
   "    fn to_u16_opt(&self) -> Option<u16> {",
   "        self.to_u64_opt().and_then(|x| x.to_u16_opt())",
   "    }",
   "    fn to_u32_opt(&self) -> Option<u32> {",
   "        self.to_u64_opt().and_then(|x| x.to_u32_opt())",
   "    }",
   "    fn to_u64_opt(&self) -> Option<u64> {",
   "        for i in 1..N {",
   "            if self.0[i] != 0 {",
   "                return None;",
   "            }",
   "        }",
   "        Some(self.to_u64())",
   "    }",
   "    fn to_u128_opt(&self) -> Option<u128> {",
   "        for i in 2..N {",
   "            if self.0[i] != 0 {",
   "                return None;",
   "            }",
   "        }",
   "        Some(self.to_u128())",
   "    }",
   "    fn to_usize_opt(&self) -> Option<usize> {",
   "        self.to_u64_opt().and_then(|x| x.to_usize_opt())",
   "    }",
   "",
   "    fn to_u64_array<const O: usize>(&self) -> [u64; O] {",
   "        let mut array = [0; O];",
   "        let copy_len = if N < O { N } else { O };",
   "        array[..copy_len].copy_from_slice(&self.0[..copy_len]);",
   "        array",
   "    }",
   "    fn to_u64_array_opt<const O: usize>(&self) -> Option<[u64; O]> {",
   "        if N > O {",
   "            for i in O..N {",
   "                if self.0[i] != 0 {",
   "                    return None;",
   "                }",
   "            }",
   "        }",
   "        Some(self.to_u64_array())",
   "    }",
   "",
   "    fn from_u64_array<const O: usize>(v: [u64; O]) -> Self {",
   "        ArrayRepr(ArrayRepr::<O>(v).to_u64_array::<N>())",
   "    }",
   "    fn from_u64_array_opt<const O: usize>(v: [u64; O]) -> Option<Self> {",
   "        ArrayRepr::<O>(v).to_u64_array_opt::<N>().map(ArrayRepr)",
   "    }",
   "",
   "    fn to_u64_slice(&self, out: &mut [u64]) {",
   "        let copy_len = if N < out.len() { N } else { out.len() };",
   "        out[..copy_len].copy_from_slice(&self.0[..copy_len]);",
   "        for i in copy_len..out.len() {",
   "            out[i] = 0;",
   "        }",
   "    }",
   "    #[must_use]",
   "    fn to_u64_slice_opt(&self, out: &mut [u64]) -> Option<()> {",
   "        if N > out.len() {",
   "            for i in out.len()..N {",
   "                if self.0[i] != 0 {",
   "                    return None;",
   "                }",
   "            }",
   "        }",
   "        self.to_u64_slice(out);",
   "        Some(())",
   "    }",
   "",
   "    fn from_u64_slice(v: &[u64]) -> Self {",
   "        let mut new = ArrayRepr([0; N]);",
   "        let copy_len = if N < v.len() { N } else { v.len() };",
   "        new.0[..copy_len].copy_from_slice(&v[..copy_len]);",
   "        new",
   "    }",
   "    fn from_u64_slice_opt(v: &[u64]) -> Option<Self> {",
   "        if v.len() > N {",
   "            for i in N..v.len() {",
   "                if v[i] != 0 {",
   "                    return None;",
   "                }",
   "            }",
   "        }",
   "        Some(Self::from_u64_slice(v))",
   "    }",
   "}",
   "",
   "#[derive(Clone, Debug)]",
   "pub struct ArrayIter<const N: usize> {",
   "    data: [PrimitiveIter<u64>; N],",
   "    done: bool,",
   "    idx_f: usize,",
   "    idx_r: usize,",
   "}",
   "",
   "impl<const N: usize> ArrayIter<N> {",
   "    pub fn new(array: ArrayRepr<N>) -> Self {",
   "        let mut new = [PrimitiveIter(0); N];",
   "        for i in 0..N {",
   "            new[i] = PrimitiveIter(array.0[i])",
   "        }",
   "        ArrayIter { data: new, done: false, idx_f: 0, idx_r: N - 1 }",
   "    }",
   "}",
   "",
   "impl<const N: usize> Iterator for ArrayIter<N> {",
   "    type Item = u32;",
   "",
   "    fn next(&mut self) -> Option<Self::Item> {",
   "        if self.done {",
   "            return None;",
   "        }",
   "        while self.idx_f <= self.idx_r {",
   "            if let Some(x) = self.data[self.idx_f].next() {",
   "                return Some(self.idx_f as u32 * 64 + x);",
   "            } else {",
   "                self.idx_f += 1;",
   "            }",
   "        }",
   "        self.done = true;",
   "        None",
   "    }",
   "",
   "    fn size_hint(&self) -> (usize, Option<usize>) {",
   "        let mut sum = 0;",
   "        for i in self.idx_f..self.idx_r + 1 {",
   "            sum += self.data[i].0.count_ones() as usize;",
   "        }",
   "        (sum, Some(sum))",
   "    }",
   "}",
   "",
   "impl<const N: usize> DoubleEndedIterator for ArrayIter<N> {",
   "    fn next_back(&mut self) -> Option<Self::Item> {",
   "        if self.done {",
   "            return None;",
   "        }",
   "        while self.idx_f <= self.idx_r {",
   "            if let Some(x) = self.data[self.idx_r].next_back() {",
   "                return Some(self.idx_r as u32 * 64 + x);",
   "            } else {",
   "                if self.idx_r == 0 {",
   "                    break;",
   "                }",
   "                self.idx_r -= 1;",
   "            }",
   "        }",
   "        self.done = true;",
   "        None",
   "    }",
   "}"]

/-- the characters of `text` -/
def chars : List (List Char) :=
  [['u', 's', 'e', ' ', 'c', 'r', 'a', 't', 'e', ':', ':', 'r', 'e', 'p', 'r', ':', ':', 'p', 'r', 'i', 'm', 'i', 't', 'i', 'v', 'e', ':', ':', 'P', 'r', 'i', 'm', 'i', 't', 'i', 'v', 'e', 'I', 't', 'e', 'r', ';'],
   ['u', 's', 'e', ' ', 'c', 'r', 'a', 't', 'e', ':', ':', 'r', 'e', 'p', 'r', ':', ':', 'E', 'n', 'u', 'm', 'S', 'e', 't', 'T', 'y', 'p', 'e', 'R', 'e', 'p', 'r', ';'],
   ['u', 's', 'e', ' ', 'c', 'o', 'r', 'e', ':', ':', 'o', 'p', 's', ':', ':', '*', ';'],
   [],
   ['/', '/', '/', ' ', 'A', 'n', ' ', 'i', 'm', 'p', 'l', 'e', 'm', 'e', 'n', 't', 'a', 't', 'i', 'o', 'n', ' ', 'o', 'f', ' ', '`', 'E', 'n', 'u', 'm', 'S', 'e', 't', 'T', 'y', 'p', 'e', 'R', 'e', 'p', 'r', '`', ' ', 'b', 'a', 's', 'e', 'd', ' ', 'o', 'n', ' ', 'a', 'n', ' ', 'a', 'r', 'b', 'i', 't', 'r', 'a', 'r', 'y', ' ', 's', 'i', 'z', 'e', ' ', 'a', 'r', 'r', 'a', 'y', '.'],
   ['/', '/', '/'],
   ['/', '/', '/', ' ', '`', 'N', '`', ' ', '*', '*', 'm', 'u', 's', 't', '*', '*', ' ', 'n', 'o', 't', ' ', 'b', 'e', ' ', '`', '0', '`', ',', ' ', 'o', 'r', ' ', 'e', 'l', 's', 'e', ' ', 'e', 'v', 'e', 'r', 'y', 't', 'h', 'i', 'n', 'g', ' ', 'w', 'i', 'l', 'l', ' ', 'b', 'r', 'e', 'a', 'k', '.'],
   ['#', '[', 'd', 'e', 'r', 'i', 'v', 'e', '(', 'C', 'o', 'p', 'y', ',', ' ', 'C', 'l', 'o', 'n', 'e', ',', ' ', 'E', 'q', ',', ' ', 'P', 'a', 'r', 't', 'i', 'a', 'l', 'E', 'q', ',', ' ', 'O', 'r', 'd', ',', ' ', 'P', 'a', 'r', 't', 'i', 'a', 'l', 'O', 'r', 'd', ',', ' ', 'D', 'e', 'b', 'u', 'g', ',', ' ', 'H', 'a', 's', 'h', ')', ']'],
   ['p', 'u', 'b', ' ', 's', 't', 'r', 'u', 'c', 't', ' ', 'A', 'r', 'r', 'a', 'y', 'R', 'e', 'p', 'r', '<', 'c', 'o', 'n', 's', 't', ' ', 'N', ':', ' ', 'u', 's', 'i', 'z', 'e', '>', '(', 'p', 'u', 'b', ' ', '[', 'u', '6', '4', ';', ' ', 'N', ']', ')', ';'],
   ['i', 'm', 'p', 'l', '<', 'c', 'o', 'n', 's', 't', ' ', 'N', ':', ' ', 'u', 's', 'i', 'z', 'e', '>', ' ', 'A', 'r', 'r', 'a', 'y', 'R', 'e', 'p', 'r', '<', 'N', '>', ' ', '{'],
   [' ', ' ', ' ', ' ', 'f', 'n', ' ', 's', 'p', 'l', 'i', 't', '_', 'b', 'i', 't', '(', 'b', 'i', 't', ':', ' ', 'u', '3', '2', ')', ' ', '-', '>', ' ', '(', 'u', 's', 'i', 'z', 'e', ',', ' ', 'u', '3', '2', ')', ' ', '{'],
   [' ', ' ', ' ', ' ', ' ', ' ', ' ', ' ', '(', 'b', 'i', 't', ' ', 'a', 's', ' ', 'u', 's', 'i', 'z', 'e', ' ', '/', ' ', '6', '4', ',', ' ', 'b', 'i', 't', ' ', '%', ' ', '6', '4', ')'],
   [' ', ' ', ' ', ' ', '}'],
   ['}'],
   [],
   ['i', 'm', 'p', 'l', '<', 'c', 'o', 'n', 's', 't', ' ', 'N', ':', ' ', 'u', 's', 'i', 'z', 'e', '>', ' ', 'B', 'i', 't', 'A', 'n', 'd', ' ', 'f', 'o', 'r', ' ', 'A', 'r', 'r', 'a', 'y', 'R', 'e', 'p', 'r', '<', 'N', '>', ' ', '{'],
   [' ', ' ', ' ', ' ', 't', 'y', 'p', 'e', ' ', 'O', 'u', 't', 'p', 'u', 't', ' ', '=', ' ', 'S', 'e', 'l', 'f', ';'],
   [' ', ' ', ' ', ' ', 'f', 'n', ' ', 'b', 'i', 't', 'a', 'n', 'd', '(', 'm', 'u', 't', ' ', 's', 'e', 'l', 'f', ',', ' ', 'r', 'h', 's', ':', ' ', 'S', 'e', 'l', 'f', ')', ' ', '-', '>', ' ', 'S', 'e', 'l', 'f', ':', ':', 'O', 'u', 't', 'p', 'u', 't', ' ', '{'],
   [' ', ' ', ' ', ' ', ' ', ' ', ' ', ' ', 'f', 'o', 'r', ' ', 'i', ' ', 'i', 'n', ' ', '0', '.', '.', 'N', ' ', '{'],
   [' ', ' ', ' ', ' ', ' ', ' ', ' ', ' ', ' ', ' ', ' ', ' ', 's', 'e', 'l', 'f', '.', '0', '[', 'i', ']', ' ', '&', '=', ' ', 'r', 'h', 's', '.', '0', '[', 'i', ']', ';'],
   [' ', ' ', ' ', ' ', ' ', ' ', ' ', ' ', '}'],
   [' ', ' ', ' ', ' ', ' ', ' ', ' ', ' ', 's', 'e', 'l', 'f'],
   [' ', ' ', ' ', ' ', '}'],
   ['}'],
   ['i', 'm', 'p', 'l', '<', 'c', 'o', 'n', 's', 't', ' ', 'N', ':', ' ', 'u', 's', 'i', 'z', 'e', '>', ' ', 'B', 'i', 't', 'O', 'r', ' ', 'f', 'o', 'r', ' ', 'A', 'r', 'r', 'a', 'y', 'R', 'e', 'p', 'r', '<', 'N', '>', ' ', '{'],
   [' ', ' ', ' ', ' ', 't', 'y', 'p', 'e', ' ', 'O', 'u', 't', 'p', 'u', 't', ' ', '=', ' ', 'S', 'e', 'l', 'f', ';'],
   [' ', ' ', ' ', ' ', 'f', 'n', ' ', 'b', 'i', 't', 'o', 'r', '(', 'm', 'u', 't', ' ', 's', 'e', 'l', 'f', ',', ' ', 'r', 'h', 's', ':', ' ', 'S', 'e', 'l', 'f', ')', ' ', '-', '>', ' ', 'S', 'e', 'l', 'f', ':', ':', 'O', 'u', 't', 'p', 'u', 't', ' ', '{'],
   [' ', ' ', ' ', ' ', ' ', ' ', ' ', ' ', 'f', 'o', 'r', ' ', 'i', ' ', 'i', 'n', ' ', '0', '.', '.', 'N', ' ', '{'],
   [' ', ' ', ' ', ' ', ' ', ' ', ' ', ' ', ' ', ' ', ' ', ' ', 's', 'e', 'l', 'f', '.', '0', '[', 'i', ']', ' ', '|', '=', ' ', 'r', 'h', 's', '.', '0', '[', 'i', ']', ';'],
   [' ', ' ', ' ', ' ', ' ', ' ', ' ', ' ', '}'],
   [' ', ' ', ' ', ' ', ' ', ' ', ' ', ' ', 's', 'e', 'l', 'f'],
   [' ', ' ', ' ', ' ', '}'],
   ['}'],
   ['i', 'm', 'p', 'l', '<', 'c', 'o', 'n', 's', 't', ' ', 'N', ':', ' ', 'u', 's', 'i', 'z', 'e', '>', ' ', 'B', 'i', 't', 'X', 'o', 'r', ' ', 'f', 'o', 'r', ' ', 'A', 'r', 'r', 'a', 'y', 'R', 'e', 'p', 'r', '<', 'N', '>', ' ', '{'],
   [' ', ' ', ' ', ' ', 't', 'y', 'p', 'e', ' ', 'O', 'u', 't', 'p', 'u', 't', ' ', '=', ' ', 'S', 'e', 'l', 'f', ';'],
   [' ', ' ', ' ', ' ', 'f', 'n', ' ', 'b', 'i', 't', 'x', 'o', 'r', '(', 'm', 'u', 't', ' ', 's', 'e', 'l', 'f', ',', ' ', 'r', 'h', 's', ':', ' ', 'S', 'e', 'l', 'f', ')', ' ', '-', '>', ' ', 'S', 'e', 'l', 'f', ':', ':', 'O', 'u', 't', 'p', 'u', 't', ' ', '{'],
   [' ', ' ', ' ', ' ', ' ', ' ', ' ', ' ', 'f', 'o', 'r', ' ', 'i', ' ', 'i', 'n', ' ', '0', '.', '.', 'N', ' ', '{'],
   [' ', ' ', ' ', ' ', ' ', ' ', ' ', ' ', ' ', ' ', ' ', ' ', 's', 'e', 'l', 'f', '.', '0', '[', 'i', ']', ' ', '^', '=', ' ', 'r', 'h', 's', '.', '0', '[', 'i', ']', ';'],
   [' ', ' ', ' ', ' ', ' ', ' ', ' ', ' ', '}'],
   [' ', ' ', ' ', ' ', ' ', ' ', ' ', ' ', 's', 'e', 'l', 'f'],
   [' ', ' ', ' ', ' ', '}'],
   ['}'],
   ['i', 'm', 'p', 'l', '<', 'c', 'o', 'n', 's', 't', ' ', 'N', ':', ' ', 'u', 's', 'i', 'z', 'e', '>', ' ', 'N', 'o', 't', ' ', 'f', 'o', 'r', ' ', 'A', 'r', 'r', 'a', 'y', 'R', 'e', 'p', 'r', '<', 'N', '>', ' ', '{'],
   [' ', ' ', ' ', ' ', 't', 'y', 'p', 'e', ' ', 'O', 'u', 't', 'p', 'u', 't', ' ', '=', ' ', 'S', 'e', 'l', 'f', ';'],
   [' ', ' ', ' ', ' ', 'f', 'n', ' ', 'n', 'o', 't', '(', 'm', 'u', 't', ' ', 's', 'e', 'l', 'f', ')', ' ', '-', '>', ' ', 'S', 'e', 'l', 'f', ':', ':', 'O', 'u', 't', 'p', 'u', 't', ' ', '{'],
   [' ', ' ', ' ', ' ', ' ', ' ', ' ', ' ', 'f', 'o', 'r', ' ', 'i', ' ', 'i', 'n', ' ', '0', '.', '.', 'N', ' ', '{'],
   [' ', ' ', ' ', ' ', ' ', ' ', ' ', ' ', ' ', ' ', ' ', ' ', 's', 'e', 'l', 'f', '.', '0', '[', 'i', ']', ' ', '=', ' ', '!', 's', 'e', 'l', 'f', '.', '0', '[', 'i', ']', ';'],
   [' ', ' ', ' ', ' ', ' ', ' ', ' ', ' ', '}'],
   [' ', ' ', ' ', ' ', ' ', ' ', ' ', ' ', 's', 'e', 'l', 'f'],
   [' ', ' ', ' ', ' ', '}'],
   ['}'],
   [],
   ['i', 'm', 'p', 'l', '<', 'c', 'o', 'n', 's', 't', ' ', 'N', ':', ' ', 'u', 's', 'i', 'z', 'e', '>', ' ', 'E', 'n', 'u', 'm', 'S', 'e', 't', 'T', 'y', 'p', 'e', 'R', 'e', 'p', 'r', ' ', 'f', 'o', 'r', ' ', 'A', 'r', 'r', 'a', 'y', 'R', 'e', 'p', 'r', '<', 'N', '>', ' ', '{'],
   [' ', ' ', ' ', ' ', 'c', 'o', 'n', 's', 't', ' ', 'P', 'R', 'E', 'F', 'E', 'R', 'R', 'E', 'D', '_', 'A', 'R', 'R', 'A', 'Y', '_', 'L', 'E', 'N', ':', ' ', 'u', 's', 'i', 'z', 'e', ' ', '=', ' ', 'N', ';'],
   [' ', ' ', ' ', ' ', 'c', 'o', 'n', 's', 't', ' ', 'W', 'I', 'D', 'T', 'H', ':', ' ', 'u', '3', '2', ' ', '=', ' ', 'N', ' ', 'a', 's', ' ', 'u', '3', '2', ' ', '*', ' ', '6', '4', ';'],
   [' ', ' ', ' ', ' ', 'c', 'o', 'n', 's', 't', ' ', 'E', 'M', 'P', 'T', 'Y', ':', ' ', 'S', 'e', 'l', 'f', ' ', '=', ' ', 'A', 'r', 'r', 'a', 'y', 'R', 'e', 'p', 'r', '(', '[', '0', ';', ' ', 'N', ']', ')', ';'],
   [],
   [' ', ' ', ' ', ' ', 'f', 'n', ' ', 'i', 's', '_', 'e', 'm', 'p', 't', 'y', '(', '&', 's', 'e', 'l', 'f', ')', ' ', '-', '>', ' ', 'b', 'o', 'o', 'l', ' ', '{'],
   [' ', ' ', ' ', ' ', ' ', ' ', ' ', ' ', 's', 'e', 'l', 'f', '.', '0', '.', 'i', 't', 'e', 'r', '(', ')', '.', 'a', 'l', 'l', '(', '|', 'x', '|', ' ', '*', 'x', ' ', '=', '=', ' ', '0', ')'],
   [' ', ' ', ' ', ' ', '}'],
   [],
   [' ', ' ', ' ', ' ', 'f', 'n', ' ', 'a', 'd', 'd', '_', 'b', 'i', 't', '(', '&', 'm', 'u', 't', ' ', 's', 'e', 'l', 'f', ',', ' ', 'b', 'i', 't', ':', ' ', 'u', '3', '2', ')', ' ', '{'],
   [' ', ' ', ' ', ' ', ' ', ' ', ' ', ' ', 'l', 'e', 't', ' ', '(', 'i', 'd', 'x', ',', ' ', 'b', 'i', 't', ')', ' ', '=', ' ', 'S', 'e', 'l', 'f', ':', ':', 's', 'p', 'l', 'i', 't', '_', 'b', 'i', 't', '(', 'b', 'i', 't', ')', ';'],
   [' ', ' ', ' ', ' ', ' ', ' ', ' ', ' ', 's', 'e', 'l', 'f', '.', '0', '[', 'i', 'd', 'x', ']', '.', 'a', 'd', 'd', '_', 'b', 'i', 't', '(', 'b', 'i', 't', ')', ';'],
   [' ', ' ', ' ', ' ', '}'],
   [' ', ' ', ' ', ' ', 'f', 'n', ' ', 'r', 'e', 'm', 'o', 'v', 'e', '_', 'b', 'i', 't', '(', '&', 'm', 'u', 't', ' ', 's', 'e', 'l', 'f', ',', ' ', 'b', 'i', 't', ':', ' ', 'u', '3', '2', ')', ' ', '{'],
   [' ', ' ', ' ', ' ', ' ', ' ', ' ', ' ', 'l', 'e', 't', ' ', '(', 'i', 'd', 'x', ',', ' ', 'b', 'i', 't', ')', ' ', '=', ' ', 'S', 'e', 'l', 'f', ':', ':', 's', 'p', 'l', 'i', 't', '_', 'b', 'i', 't', '(', 'b', 'i', 't', ')', ';'],
   [' ', ' ', ' ', ' ', ' ', ' ', ' ', ' ', 's', 'e', 'l', 'f', '.', '0', '[', 'i', 'd', 'x', ']', '.', 'r', 'e', 'm', 'o', 'v', 'e', '_', 'b', 'i', 't', '(', 'b', 'i', 't', ')', ';'],
   [' ', ' ', ' ', ' ', '}'],
   [' ', ' ', ' ', ' ', 'f', 'n', ' ', 'h', 'a', 's', '_', 'b', 'i', 't', '(', '&', 's', 'e', 'l', 'f', ',', ' ', 'b', 'i', 't', ':', ' ', 'u', '3', '2', ')', ' ', '-', '>', ' ', 'b', 'o', 'o', 'l', ' ', '{'],
   [' ', ' ', ' ', ' ', ' ', ' ', ' ', ' ', 'l', 'e', 't', ' ', '(', 'i', 'd', 'x', ',', ' ', 'b', 'i', 't', ')', ' ', '=', ' ', 'S', 'e', 'l', 'f', ':', ':', 's', 'p', 'l', 'i', 't', '_', 'b', 'i', 't', '(', 'b', 'i', 't', ')', ';'],
   [' ', ' ', ' ', ' ', ' ', ' ', ' ', ' ', 's', 'e', 'l', 'f', '.', '0', '[', 'i', 'd', 'x', ']', '.', 'h', 'a', 's', '_', 'b', 'i', 't', '(', 'b', 'i', 't', ')'],
   [' ', ' ', ' ', ' ', '}'],
   [],
   [' ', ' ', ' ', ' ', 'f', 'n', ' ', 'c', 'o', 'u', 'n', 't', '_', 'o', 'n', 'e', 's', '(', '&', 's', 'e', 'l', 'f', ')', ' ', '-', '>', ' ', 'u', '3', '2', ' ', '{'],
   [' ', ' ', ' ', ' ', ' ', ' ', ' ', ' ', 's', 'e', 'l', 'f', '.', '0', '.', 'i', 't', 'e', 'r', '(', ')', '.', 'm', 'a', 'p', '(', '|', 'x', '|', ' ', 'x', '.', 'c', 'o', 'u', 'n', 't', '_', 'o', 'n', 'e', 's', '(', ')', ')', '.', 's', 'u', 'm', '(', ')'],
   [' ', ' ', ' ', ' ', '}'],
   [' ', ' ', ' ', ' ', 'f', 'n', ' ', 'l', 'e', 'a', 'd', 'i', 'n', 'g', '_', 'z', 'e', 'r', 'o', 's', '(', '&', 's', 'e', 'l', 'f', ')', ' ', '-', '>', ' ', 'u', '3', '2', ' ', '{'],
   [' ', ' ', ' ', ' ', ' ', ' ', ' ', ' ', 'l', 'e', 't', ' ', 'm', 'u', 't', ' ', 'a', 'c', 'c', 'u', 'm', ' ', '=', ' ', '0', ';'],
   [' ', ' ', ' ', ' ', ' ', ' ', ' ', ' ', 'f', 'o', 'r', ' ', 'i', ' ', 'i', 'n', ' ', '(', '0', '.', '.', 'N', ')', '.', 'r', 'e', 'v', '(', ')', ' ', '{'],
   [' ', ' ', ' ', ' ', ' ', ' ', ' ', ' ', ' ', ' ', ' ', ' ', 'i', 'f', ' ', 's', 'e', 'l', 'f', '.', '0', '[', 'i', ']', ' ', '!', '=', ' ', '0', ' ', '{'],
   [' ', ' ', ' ', ' ', ' ', ' ', ' ', ' ', ' ', ' ', ' ', ' ', ' ', ' ', ' ', ' ', 'r', 'e', 't', 'u', 'r', 'n', ' ', 'a', 'c', 'c', 'u', 'm', ' ', '+', ' ', 's', 'e', 'l', 'f', '.', '0', '[', 'i', ']', '.', 'l', 'e', 'a', 'd', 'i', 'n', 'g', '_', 'z', 'e', 'r', 'o', 's', '(', ')', ';'],
   [' ', ' ', ' ', ' ', ' ', ' ', ' ', ' ', ' ', ' ', ' ', ' ', '}'],
   [' ', ' ', ' ', ' ', ' ', ' ', ' ', ' ', ' ', ' ', ' ', ' ', 'a', 'c', 'c', 'u', 'm', ' ', '+', '=', ' ', '6', '4', ';'],
   [' ', ' ', ' ', ' ', ' ', ' ', ' ', ' ', '}'],
   [' ', ' ', ' ', ' ', ' ', ' ', ' ', ' ', 'S', 'e', 'l', 'f', ':', ':', 'W', 'I', 'D', 'T', 'H'],
   [' ', ' ', ' ', ' ', '}'],
   [' ', ' ', ' ', ' ', 'f', 'n', ' ', 't', 'r', 'a', 'i', 'l', 'i', 'n', 'g', '_', 'z', 'e', 'r', 'o', 's', '(', '&', 's', 'e', 'l', 'f', ')', ' ', '-', '>', ' ', 'u', '3', '2', ' ', '{'],
   [' ', ' ', ' ', ' ', ' ', ' ', ' ', ' ', 'l', 'e', 't', ' ', 'm', 'u', 't', ' ', 'a', 'c', 'c', 'u', 'm', ' ', '=', ' ', '0', ';'],
   [' ', ' ', ' ', ' ', ' ', ' ', ' ', ' ', 'f', 'o', 'r', ' ', 'i', ' ', 'i', 'n', ' ', '0', '.', '.', 'N', ' ', '{'],
   [' ', ' ', ' ', ' ', ' ', ' ', ' ', ' ', ' ', ' ', ' ', ' ', 'i', 'f', ' ', 's', 'e', 'l', 'f', '.', '0', '[', 'i', ']', ' ', '!', '=', ' ', '0', ' ', '{'],
   [' ', ' ', ' ', ' ', ' ', ' ', ' ', ' ', ' ', ' ', ' ', ' ', ' ', ' ', ' ', ' ', 'r', 'e', 't', 'u', 'r', 'n', ' ', 'a', 'c', 'c', 'u', 'm', ' ', '+', ' ', 's', 'e', 'l', 'f', '.', '0', '[', 'i', ']', '.', 't', 'r', 'a', 'i', 'l', 'i', 'n', 'g', '_', 'z', 'e', 'r', 'o', 's', '(', ')', ';'],
   [' ', ' ', ' ', ' ', ' ', ' ', ' ', ' ', ' ', ' ', ' ', ' ', '}'],
   [' ', ' ', ' ', ' ', ' ', ' ', ' ', ' ', ' ', ' ', ' ', ' ', 'a', 'c', 'c', 'u', 'm', ' ', '+', '=', ' ', '6', '4', ';'],
   [' ', ' ', ' ', ' ', ' ', ' ', ' ', ' ', '}'],
   [' ', ' ', ' ', ' ', ' ', ' ', ' ', ' ', 'S', 'e', 'l', 'f', ':', ':', 'W', 'I', 'D', 'T', 'H'],
   [' ', ' ', ' ', ' ', '}'],
   [],
   [' ', ' ', ' ', ' ', 'f', 'n', ' ', 'a', 'n', 'd', '_', 'n', 'o', 't', '(', '&', 's', 'e', 'l', 'f', ',', ' ', 'o', 't', 'h', 'e', 'r', ':', ' ', 'S', 'e', 'l', 'f', ')', ' ', '-', '>', ' ', 'S', 'e', 'l', 'f', ' ', '{'],
   [' ', ' ', ' ', ' ', ' ', ' ', ' ', ' ', 'l', 'e', 't', ' ', 'm', 'u', 't', ' ', 'n', 'e', 'w', ' ', '=', ' ', 'S', 'e', 'l', 'f', '(', '[', '0', ';', ' ', 'N', ']', ')', ';'],
   [' ', ' ', ' ', ' ', ' ', ' ', ' ', ' ', 'f', 'o', 'r', ' ', 'i', ' ', 'i', 'n', ' ', '0', '.', '.', 'N', ' ', '{'],
   [' ', ' ', ' ', ' ', ' ', ' ', ' ', ' ', ' ', ' ', ' ', ' ', 'n', 'e', 'w', '.', '0', '[', 'i', ']', ' ', '=', ' ', 's', 'e', 'l', 'f', '.', '0', '[', 'i', ']', ' ', '&', ' ', '!', 'o', 't', 'h', 'e', 'r', '.', '0', '[', 'i', ']', ';'],
   [' ', ' ', ' ', ' ', ' ', ' ', ' ', ' ', '}'],
   [' ', ' ', ' ', ' ', ' ', ' ', ' ', ' ', 'n', 'e', 'w'],
   [' ', ' ', ' ', ' ', '}'],
   [],
   [' ', ' ', ' ', ' ', 't', 'y', 'p', 'e', ' ', 'I', 't', 'e', 'r', ' ', '=', ' ', 'A', 'r', 'r', 'a', 'y', 'I', 't', 'e', 'r', '<', 'N', '>', ';'],
   [' ', ' ', ' ', ' ', 'f', 'n', ' ', 'i', 't', 'e', 'r', '(', 's', 'e', 'l', 'f', ')', ' ', '-', '>', ' ', 'S', 'e', 'l', 'f', ':', ':', 'I', 't', 'e', 'r', ' ', '{'],
   [' ', ' ', ' ', ' ', ' ', ' ', ' ', ' ', 'A', 'r', 'r', 'a', 'y', 'I', 't', 'e', 'r', ':', ':', 'n', 'e', 'w', '(', 's', 'e', 'l', 'f', ')'],
   [' ', ' ', ' ', ' ', '}'],
   [],
   [' ', ' ', ' ', ' ', 'f', 'n', ' ', 'f', 'r', 'o', 'm', '_', 'u', '8', '(', 'v', ':', ' ', 'u', '8', ')', ' ', '-', '>', ' ', 'S', 'e', 'l', 'f', ' ', '{'],
   [' ', ' ', ' ', ' ', ' ', ' ', ' ', ' ', 'S', 'e', 'l', 'f', ':', ':', 'f', 'r', 'o', 'm', '_', 'u', '6', '4', '(', 'v', ' ', 'a', 's', ' ', 'u', '6', '4', ')'],
   [' ', ' ', ' ', ' ', '}'],
   [' ', ' ', ' ', ' ', 'f', 'n', ' ', 'f', 'r', 'o', 'm', '_', 'u', '1', '6', '(', 'v', ':', ' ', 'u', '1', '6', ')', ' ', '-', '>', ' ', 'S', 'e', 'l', 'f', ' ', '{'],
   [' ', ' ', ' ', ' ', ' ', ' ', ' ', ' ', 'S', 'e', 'l', 'f', ':', ':', 'f', 'r', 'o', 'm', '_', 'u', '6', '4', '(', 'v', ' ', 'a', 's', ' ', 'u', '6', '4', ')'],
   [' ', ' ', ' ', ' ', '}'],
   [' ', ' ', ' ', ' ', 'f', 'n', ' ', 'f', 'r', 'o', 'm', '_', 'u', '3', '2', '(', 'v', ':', ' ', 'u', '3', '2', ')', ' ', '-', '>', ' ', 'S', 'e', 'l', 'f', ' ', '{'],
   [' ', ' ', ' ', ' ', ' ', ' ', ' ', ' ', 'S', 'e', 'l', 'f', ':', ':', 'f', 'r', 'o', 'm', '_', 'u', '6', '4', '(', 'v', ' ', 'a', 's', ' ', 'u', '6', '4', ')'],
   [' ', ' ', ' ', ' ', '}'],
   [' ', ' ', ' ', ' ', 'f', 'n', ' ', 'f', 'r', 'o', 'm', '_', 'u', '6', '4', '(', 'v', ':', ' ', 'u', '6', '4', ')', ' ', '-', '>', ' ', 'S', 'e', 'l', 'f', ' ', '{'],
   [' ', ' ', ' ', ' ', ' ', ' ', ' ', ' ', 'l', 'e', 't', ' ', 'm', 'u', 't', ' ', 'n', 'e', 'w', ' ', '=', ' ', 'S', 'e', 'l', 'f', '(', '[', '0', ';', ' ', 'N', ']', ')', ';'],
   [' ', ' ', ' ', ' ', ' ', ' ', ' ', ' ', 'n', 'e', 'w', '.', '0', '[', '0', ']', ' ', '=', ' ', 'v', ';'],
   [' ', ' ', ' ', ' ', ' ', ' ', ' ', ' ', 'n', 'e', 'w'],
   [' ', ' ', ' ', ' ', '}'],
   [' ', ' ', ' ', ' ', 'f', 'n', ' ', 'f', 'r', 'o', 'm', '_', 'u', '1', '2', '8', '(', 'v', ':', ' ', 'u', '1', '2', '8', ')', ' ', '-', '>', ' ', 'S', 'e', 'l', 'f', ' ', '{'],
   [' ', ' ', ' ', ' ', ' ', ' ', ' ', ' ', 'l', 'e', 't', ' ', 'm', 'u', 't', ' ', 'n', 'e', 'w', ' ', '=', ' ', 'S', 'e', 'l', 'f', '(', '[', '0', ';', ' ', 'N', ']', ')', ';'],
   [' ', ' ', ' ', ' ', ' ', ' ', ' ', ' ', 'n', 'e', 'w', '.', '0', '[', '0', ']', ' ', '=', ' ', 'v', ' ', 'a', 's', ' ', 'u', '6', '4', ';'],
   [' ', ' ', ' ', ' ', ' ', ' ', ' ', ' ', 'i', 'f', ' ', 'N', ' ', '!', '=', ' ', '1', ' ', '{'],
   [' ', ' ', ' ', ' ', ' ', ' ', ' ', ' ', ' ', ' ', ' ', ' ', 'n', 'e', 'w', '.', '0', '[', '1', ']', ' ', '=', ' ', '(', 'v', ' ', '>', '>', ' ', '6', '4', ')', ' ', 'a', 's', ' ', 'u', '6', '4', ';'],
   [' ', ' ', ' ', ' ', ' ', ' ', ' ', ' ', '}'],
   [' ', ' ', ' ', ' ', ' ', ' ', ' ', ' ', 'n', 'e', 'w'],
   [' ', ' ', ' ', ' ', '}'],
   [' ', ' ', ' ', ' ', 'f', 'n', ' ', 'f', 'r', 'o', 'm', '_', 'u', 's', 'i', 'z', 'e', '(', 'v', ':', ' ', 'u', 's', 'i', 'z', 'e', ')', ' ', '-', '>', ' ', 'S', 'e', 'l', 'f', ' ', '{'],
   [' ', ' ', ' ', ' ', ' ', ' ', ' ', ' ', 'S', 'e', 'l', 'f', ':', ':', 'f', 'r', 'o', 'm', '_', 'u', '6', '4', '(', 'v', ' ', 'a', 's', ' ', 'u', '6', '4', ')'],
   [' ', ' ', ' ', ' ', '}'],
   [],
   [' ', ' ', ' ', ' ', 'f', 'n', ' ', 'f', 'r', 'o', 'm', '_', 'u', '8', '_', 'o', 'p', 't', '(', 'v', ':', ' ', 'u', '8', ')', ' ', '-', '>', ' ', 'O', 'p', 't', 'i', 'o', 'n', '<', 'S', 'e', 'l', 'f', '>', ' ', '{'],
   [' ', ' ', ' ', ' ', ' ', ' ', ' ', ' ', 'S', 'o', 'm', 'e', '(', 'S', 'e', 'l', 'f', ':', ':', 'f', 'r', 'o', 'm', '_', 'u', '8', '(', 'v', ')', ')'],
   [' ', ' ', ' ', ' ', '}'],
   [' ', ' ', ' ', ' ', 'f', 'n', ' ', 'f', 'r', 'o', 'm', '_', 'u', '1', '6', '_', 'o', 'p', 't', '(', 'v', ':', ' ', 'u', '1', '6', ')', ' ', '-', '>', ' ', 'O', 'p', 't', 'i', 'o', 'n', '<', 'S', 'e', 'l', 'f', '>', ' ', '{'],
   [' ', ' ', ' ', ' ', ' ', ' ', ' ', ' ', 'S', 'o', 'm', 'e', '(', 'S', 'e', 'l', 'f', ':', ':', 'f', 'r', 'o', 'm', '_', 'u', '1', '6', '(', 'v', ')', ')'],
   [' ', ' ', ' ', ' ', '}'],
   [' ', ' ', ' ', ' ', 'f', 'n', ' ', 'f', 'r', 'o', 'm', '_', 'u', '3', '2', '_', 'o', 'p', 't', '(', 'v', ':', ' ', 'u', '3', '2', ')', ' ', '-', '>', ' ', 'O', 'p', 't', 'i', 'o', 'n', '<', 'S', 'e', 'l', 'f', '>', ' ', '{'],
   [' ', ' ', ' ', ' ', ' ', ' ', ' ', ' ', 'S', 'o', 'm', 'e', '(', 'S', 'e', 'l', 'f', ':', ':', 'f', 'r', 'o', 'm', '_', 'u', '3', '2', '(', 'v', ')', ')'],
   [' ', ' ', ' ', ' ', '}'],
   [' ', ' ', ' ', ' ', 'f', 'n', ' ', 'f', 'r', 'o', 'm', '_', 'u', '6', '4', '_', 'o', 'p', 't', '(', 'v', ':', ' ', 'u', '6', '4', ')', ' ', '-', '>', ' ', 'O', 'p', 't', 'i', 'o', 'n', '<', 'S', 'e', 'l', 'f', '>', ' ', '{'],
   [' ', ' ', ' ', ' ', ' ', ' ', ' ', ' ', 'S', 'o', 'm', 'e', '(', 'S', 'e', 'l', 'f', ':', ':', 'f', 'r', 'o', 'm', '_', 'u', '6', '4', '(', 'v', ')', ')'],
   [' ', ' ', ' ', ' ', '}'],
   [' ', ' ', ' ', ' ', 'f', 'n', ' ', 'f', 'r', 'o', 'm', '_', 'u', '1', '2', '8', '_', 'o', 'p', 't', '(', 'v', ':', ' ', 'u', '1', '2', '8', ')', ' ', '-', '>', ' ', 'O', 'p', 't', 'i', 'o', 'n', '<', 'S', 'e', 'l', 'f', '>', ' ', '{'],
   [' ', ' ', ' ', ' ', ' ', ' ', ' ', ' ', 'i', 'f', ' ', 'N', ' ', '=', '=', ' ', '1', ' ', '&', '&', ' ', '(', 'v', ' ', '>', '>', ' ', '6', '4', ')', ' ', '!', '=', ' ', '0', ' ', '{'],
   [' ', ' ', ' ', ' ', ' ', ' ', ' ', ' ', ' ', ' ', ' ', ' ', 'N', 'o', 'n', 'e'],
   [' ', ' ', ' ', ' ', ' ', ' ', ' ', ' ', '}', ' ', 'e', 'l', 's', 'e', ' ', '{'],
   [' ', ' ', ' ', ' ', ' ', ' ', ' ', ' ', ' ', ' ', ' ', ' ', 'S', 'o', 'm', 'e', '(', 'S', 'e', 'l', 'f', ':', ':', 'f', 'r', 'o', 'm', '_', 'u', '1', '2', '8', '(', 'v', ')', ')'],
   [' ', ' ', ' ', ' ', ' ', ' ', ' ', ' ', '}'],
   [' ', ' ', ' ', ' ', '}'],
   [' ', ' ', ' ', ' ', 'f', 'n', ' ', 'f', 'r', 'o', 'm', '_', 'u', 's', 'i', 'z', 'e', '_', 'o', 'p', 't', '(', 'v', ':', ' ', 'u', 's', 'i', 'z', 'e', ')', ' ', '-', '>', ' ', 'O', 'p', 't', 'i', 'o', 'n', '<', 'S', 'e', 'l', 'f', '>', ' ', '{'],
   [' ', ' ', ' ', ' ', ' ', ' ', ' ', ' ', 'S', 'o', 'm', 'e', '(', 'S', 'e', 'l', 'f', ':', ':', 'f', 'r', 'o', 'm', '_', 'u', 's', 'i', 'z', 'e', '(', 'v', ')', ')'],
   [' ', ' ', ' ', ' ', '}'],
   [],
   [' ', ' ', ' ', ' ', 'f', 'n', ' ', 't', 'o', '_', 'u', '8', '(', '&', 's', 'e', 'l', 'f', ')', ' ', '-', '>', ' ', 'u', '8', ' ', '{'],
   [' ', ' ', ' ', ' ', ' ', ' ', ' ', ' ', 's', 'e', 'l', 'f', '.', 't', 'o', '_', 'u', '6', '4', '(', ')', '.', 't', 'o', '_', 'u', '8', '(', ')'],
   [' ', ' ', ' ', ' ', '}'],
   [' ', ' ', ' ', ' ', 'f', 'n', ' ', 't', 'o', '_', 'u', '1', '6', '(', '&', 's', 'e', 'l', 'f', ')', ' ', '-', '>', ' ', 'u', '1', '6', ' ', '{'],
   [' ', ' ', ' ', ' ', ' ', ' ', ' ', ' ', 's', 'e', 'l', 'f', '.', 't', 'o', '_', 'u', '6', '4', '(', ')', '.', 't', 'o', '_', 'u', '1', '6', '(', ')'],
   [' ', ' ', ' ', ' ', '}'],
   [' ', ' ', ' ', ' ', 'f', 'n', ' ', 't', 'o', '_', 'u', '3', '2', '(', '&', 's', 'e', 'l', 'f', ')', ' ', '-', '>', ' ', 'u', '3', '2', ' ', '{'],
   [' ', ' ', ' ', ' ', ' ', ' ', ' ', ' ', 's', 'e', 'l', 'f', '.', 't', 'o', '_', 'u', '6', '4', '(', ')', '.', 't', 'o', '_', 'u', '3', '2', '(', ')'],
   [' ', ' ', ' ', ' ', '}'],
   [' ', ' ', ' ', ' ', 'f', 'n', ' ', 't', 'o', '_', 'u', '6', '4', '(', '&', 's', 'e', 'l', 'f', ')', ' ', '-', '>', ' ', 'u', '6', '4', ' ', '{'],
   [' ', ' ', ' ', ' ', ' ', ' ', ' ', ' ', 's', 'e', 'l', 'f', '.', '0', '[', '0', ']'],
   [' ', ' ', ' ', ' ', '}'],
   [' ', ' ', ' ', ' ', 'f', 'n', ' ', 't', 'o', '_', 'u', '1', '2', '8', '(', '&', 's', 'e', 'l', 'f', ')', ' ', '-', '>', ' ', 'u', '1', '2', '8', ' ', '{'],
   [' ', ' ', ' ', ' ', ' ', ' ', ' ', ' ', 'l', 'e', 't', ' ', 'h', 'i', ' ', '=', ' ', 'i', 'f', ' ', 'N', ' ', '=', '=', ' ', '1', ' ', '{', ' ', '0', ' ', '}', ' ', 'e', 'l', 's', 'e', ' ', '{', ' ', '(', 's', 'e', 'l', 'f', '.', '0', '[', '1', ']', ' ', 'a', 's', ' ', 'u', '1', '2', '8', ')', ' ', '<', '<', ' ', '6', '4', ' ', '}', ';'],
   [' ', ' ', ' ', ' ', ' ', ' ', ' ', ' ', 's', 'e', 'l', 'f', '.', '0', '[', '0', ']', ' ', 'a', 's', ' ', 'u', '1', '2', '8', ' ', '|', ' ', 'h', 'i'],
   [' ', ' ', ' ', ' ', '}'],
   [' ', ' ', ' ', ' ', 'f', 'n', ' ', 't', 'o', '_', 'u', 's', 'i', 'z', 'e', '(', '&', 's', 'e', 'l', 'f', ')', ' ', '-', '>', ' ', 'u', 's', 'i', 'z', 'e', ' ', '{'],
   [' ', ' ', ' ', ' ', ' ', ' ', ' ', ' ', 's', 'e', 'l', 'f', '.', 't', 'o', '_', 'u', '6', '4', '(', ')', '.', 't', 'o', '_', 'u', 's', 'i', 'z', 'e', '(', ')'],
   [' ', ' ', ' ', ' ', '}'],
   [],
   [' ', ' ', ' ', ' ', 'f', 'n', ' ', 't', 'o', '_', 'u', '8', '_', 'o', 'p', 't', '(', '&', 's', 'e', 'l', 'f', ')', ' ', '-', '>', ' ', 'O', 'p', 't', 'i', 'o', 'n', '<', 'u', '8', '>', ' ', '{'],
   [' ', ' ', ' ', ' ', ' ', ' ', ' ', ' ', 's', 'e', 'l', 'f', '.', 't', 'o', '_', 'u', '6', '4', '_', 'o', 'p', 't', '(', ')', '.', 'a', 'n', 'd', '_', 't', 'h', 'e', 'n', '(', '|', 'x', '|', ' ', 'x', '.', 't', 'o', '_', 'u', '8', '_', 'o', 'p', 't', '(', ')', ')'],
   [' ', ' ', ' ', ' ', '}'],
   [' ', ' ', ' ', ' ', 'f', 'n', ' ', 't', 'o', '_', 'u', '1', '6', '_', 'o', 'p', 't', '(', '&', 's', 'e', 'l', 'f', ')', ' ', '-', '>', ' ', 'O', 'p', 't', 'i', 'o', 'n', '<', 'u', '1', '6', '>', ' ', '{'],
   [' ', ' ', ' ', ' ', ' ', ' ', ' ', ' ', 's', 'e', 'l', 'f', '.', 't', 'o', '_', 'u', '6', '4', '_', 'o', 'p', 't', '(', ')', '.', 'a', 'n', 'd', '_', 't', 'h', 'e', 'n', '(', '|', 'x', '|', ' ', 'x', '.', 't', 'o', '_', 'u', '1', '6', '_', 'o', 'p', 't', '(', ')', ')'],
   [' ', ' ', ' ', ' ', '}'],
   [' ', ' ', ' ', ' ', 'f', 'n', ' ', 't', 'o', '_', 'u', '3', '2', '_', 'o', 'p', 't', '(', '&', 's', 'e', 'l', 'f', ')', ' ', '-', '>', ' ', 'O', 'p', 't', 'i', 'o', 'n', '<', 'u', '3', '2', '>', ' ', '{'],
   [' ', ' ', ' ', ' ', ' ', ' ', ' ', ' ', 's', 'e', 'l', 'f', '.', 't', 'o', '_', 'u', '6', '4', '_', 'o', 'p', 't', '(', ')', '.', 'a', 'n', 'd', '_', 't', 'h', 'e', 'n', '(', '|', 'x', '|', ' ', 'x', '.', 't', 'o', '_', 'u', '3', '2', '_', 'o', 'p', 't', '(', ')', ')'],
   [' ', ' ', ' ', ' ', '}'],
   [' ', ' ', ' ', ' ', 'f', 'n', ' ', 't', 'o', '_', 'u', '6', '4', '_', 'o', 'p', 't', '(', '&', 's', 'e', 'l', 'f', ')', ' ', '-', '>', ' ', 'O', 'p', 't', 'i', 'o', 'n', '<', 'u', '6', '4', '>', ' ', '{'],
   [' ', ' ', ' ', ' ', ' ', ' ', ' ', ' ', 'f', 'o', 'r', ' ', 'i', ' ', 'i', 'n', ' ', '1', '.', '.', 'N', ' ', '{'],
   [' ', ' ', ' ', ' ', ' ', ' ', ' ', ' ', ' ', ' ', ' ', ' ', 'i', 'f', ' ', 's', 'e', 'l', 'f', '.', '0', '[', 'i', ']', ' ', '!', '=', ' ', '0', ' ', '{'],
   [' ', ' ', ' ', ' ', ' ', ' ', ' ', ' ', ' ', ' ', ' ', ' ', ' ', ' ', ' ', ' ', 'r', 'e', 't', 'u', 'r', 'n', ' ', 'N', 'o', 'n', 'e', ';'],
   [' ', ' ', ' ', ' ', ' ', ' ', ' ', ' ', ' ', ' ', ' ', ' ', '}'],
   [' ', ' ', ' ', ' ', ' ', ' ', ' ', ' ', '}'],
   [' ', ' ', ' ', ' ', ' ', ' ', ' ', ' ', 'S', 'o', 'm', 'e', '(', 's', 'e', 'l', 'f', '.', 't', 'o', '_', 'u', '6', '4', '(', ')', ')'],
   [' ', ' ', ' ', ' ', '}'],
   [' ', ' ', ' ', ' ', 'f', 'n', ' ', 't', 'o', '_', 'u', '1', '2', '8', '_', 'o', 'p', 't', '(', '&', 's', 'e', 'l', 'f', ')', ' ', '-', '>', ' ', 'O', 'p', 't', 'i', 'o', 'n', '<', 'u', '1', '2', '8', '>', ' ', '{'],
   [' ', ' ', ' ', ' ', ' ', ' ', ' ', ' ', 'f', 'o', 'r', ' ', 'i', ' ', 'i', 'n', ' ', '2', '.', '.', 'N', ' ', '{'],
   [' ', ' ', ' ', ' ', ' ', ' ', ' ', ' ', ' ', ' ', ' ', ' ', 'i', 'f', ' ', 's', 'e', 'l', 'f', '.', '0', '[', 'i', ']', ' ', '!', '=', ' ', '0', ' ', '{'],
   [' ', ' ', ' ', ' ', ' ', ' ', ' ', ' ', ' ', ' ', ' ', ' ', ' ', ' ', ' ', ' ', 'r', 'e', 't', 'u', 'r', 'n', ' ', 'N', 'o', 'n', 'e', ';'],
   [' ', ' ', ' ', ' ', ' ', ' ', ' ', ' ', ' ', ' ', ' ', ' ', '}'],
   [' ', ' ', ' ', ' ', ' ', ' ', ' ', ' ', '}'],
   [' ', ' ', ' ', ' ', ' ', ' ', ' ', ' ', 'S', 'o', 'm', 'e', '(', 's', 'e', 'l', 'f', '.', 't', 'o', '_', 'u', '1', '2', '8', '(', ')', ')'],
   [' ', ' ', ' ', ' ', '}'],
   [' ', ' ', ' ', ' ', 'f', 'n', ' ', 't', 'o', '_', 'u', 's', 'i', 'z', 'e', '_', 'o', 'p', 't', '(', '&', 's', 'e', 'l', 'f', ')', ' ', '-', '>', ' ', 'O', 'p', 't', 'i', 'o', 'n', '<', 'u', 's', 'i', 'z', 'e', '>', ' ', '{'],
   [' ', ' ', ' ', ' ', ' ', ' ', ' ', ' ', 's', 'e', 'l', 'f', '.', 't', 'o', '_', 'u', '6', '4', '_', 'o', 'p', 't', '(', ')', '.', 'a', 'n', 'd', '_', 't', 'h', 'e', 'n', '(', '|', 'x', '|', ' ', 'x', '.', 't', 'o', '_', 'u', 's', 'i', 'z', 'e', '_', 'o', 'p', 't', '(', ')', ')'],
   [' ', ' ', ' ', ' ', '}'],
   [],
   [' ', ' ', ' ', ' ', 'f', 'n', ' ', 't', 'o', '_', 'u', '6', '4', '_', 'a', 'r', 'r', 'a', 'y', '<', 'c', 'o', 'n', 's', 't', ' ', 'O', ':', ' ', 'u', 's', 'i', 'z', 'e', '>', '(', '&', 's', 'e', 'l', 'f', ')', ' ', '-', '>', ' ', '[', 'u', '6', '4', ';', ' ', 'O', ']', ' ', '{'],
   [' ', ' ', ' ', ' ', ' ', ' ', ' ', ' ', 'l', 'e', 't', ' ', 'm', 'u', 't', ' ', 'a', 'r', 'r', 'a', 'y', ' ', '=', ' ', '[', '0', ';', ' ', 'O', ']', ';'],
   [' ', ' ', ' ', ' ', ' ', ' ', ' ', ' ', 'l', 'e', 't', ' ', 'c', 'o', 'p', 'y', '_', 'l', 'e', 'n', ' ', '=', ' ', 'i', 'f', ' ', 'N', ' ', '<', ' ', 'O', ' ', '{', ' ', 'N', ' ', '}', ' ', 'e', 'l', 's', 'e', ' ', '{', ' ', 'O', ' ', '}', ';'],
   [' ', ' ', ' ', ' ', ' ', ' ', ' ', ' ', 'a', 'r', 'r', 'a', 'y', '[', '.', '.', 'c', 'o', 'p', 'y', '_', 'l', 'e', 'n', ']', '.', 'c', 'o', 'p', 'y', '_', 'f', 'r', 'o', 'm', '_', 's', 'l', 'i', 'c', 'e', '(', '&', 's', 'e', 'l', 'f', '.', '0', '[', '.', '.', 'c', 'o', 'p', 'y', '_', 'l', 'e', 'n', ']', ')', ';'],
   [' ', ' ', ' ', ' ', ' ', ' ', ' ', ' ', 'a', 'r', 'r', 'a', 'y'],
   [' ', ' ', ' ', ' ', '}'],
   [' ', ' ', ' ', ' ', 'f', 'n', ' ', 't', 'o', '_', 'u', '6', '4', '_', 'a', 'r', 'r', 'a', 'y', '_', 'o', 'p', 't', '<', 'c', 'o', 'n', 's', 't', ' ', 'O', ':', ' ', 'u', 's', 'i', 'z', 'e', '>', '(', '&', 's', 'e', 'l', 'f', ')', ' ', '-', '>', ' ', 'O', 'p', 't', 'i', 'o', 'n', '<', '[', 'u', '6', '4', ';', ' ', 'O', ']', '>', ' ', '{'],
   [' ', ' ', ' ', ' ', ' ', ' ', ' ', ' ', 'i', 'f', ' ', 'N', ' ', '>', ' ', 'O', ' ', '{'],
   [' ', ' ', ' ', ' ', ' ', ' ', ' ', ' ', ' ', ' ', ' ', ' ', 'f', 'o', 'r', ' ', 'i', ' ', 'i', 'n', ' ', 'O', '.', '.', 'N', ' ', '{'],
   [' ', ' ', ' ', ' ', ' ', ' ', ' ', ' ', ' ', ' ', ' ', ' ', ' ', ' ', ' ', ' ', 'i', 'f', ' ', 's', 'e', 'l', 'f', '.', '0', '[', 'i', ']', ' ', '!', '=', ' ', '0', ' ', '{'],
   [' ', ' ', ' ', ' ', ' ', ' ', ' ', ' ', ' ', ' ', ' ', ' ', ' ', ' ', ' ', ' ', ' ', ' ', ' ', ' ', 'r', 'e', 't', 'u', 'r', 'n', ' ', 'N', 'o', 'n', 'e', ';'],
   [' ', ' ', ' ', ' ', ' ', ' ', ' ', ' ', ' ', ' ', ' ', ' ', ' ', ' ', ' ', ' ', '}'],
   [' ', ' ', ' ', ' ', ' ', ' ', ' ', ' ', ' ', ' ', ' ', ' ', '}'],
   [' ', ' ', ' ', ' ', ' ', ' ', ' ', ' ', '}'],
   [' ', ' ', ' ', ' ', ' ', ' ', ' ', ' ', 'S', 'o', 'm', 'e', '(', 's', 'e', 'l', 'f', '.', 't', 'o', '_', 'u', '6', '4', '_', 'a', 'r', 'r', 'a', 'y', '(', ')', ')'],
   [' ', ' ', ' ', ' ', '}'],
   [],
   [' ', ' ', ' ', ' ', 'f', 'n', ' ', 'f', 'r', 'o', 'm', '_', 'u', '6', '4', '_', 'a', 'r', 'r', 'a', 'y', '<', 'c', 'o', 'n', 's', 't', ' ', 'O', ':', ' ', 'u', 's', 'i', 'z', 'e', '>', '(', 'v', ':', ' ', '[', 'u', '6', '4', ';', ' ', 'O', ']', ')', ' ', '-', '>', ' ', 'S', 'e', 'l', 'f', ' ', '{'],
   [' ', ' ', ' ', ' ', ' ', ' ', ' ', ' ', 'A', 'r', 'r', 'a', 'y', 'R', 'e', 'p', 'r', '(', 'A', 'r', 'r', 'a', 'y', 'R', 'e', 'p', 'r', ':', ':', '<', 'O', '>', '(', 'v', ')', '.', 't', 'o', '_', 'u', '6', '4', '_', 'a', 'r', 'r', 'a', 'y', ':', ':', '<', 'N', '>', '(', ')', ')'],
   [' ', ' ', ' ', ' ', '}'],
   [' ', ' ', ' ', ' ', 'f', 'n', ' ', 'f', 'r', 'o', 'm', '_', 'u', '6', '4', '_', 'a', 'r', 'r', 'a', 'y', '_', 'o', 'p', 't', '<', 'c', 'o', 'n', 's', 't', ' ', 'O', ':', ' ', 'u', 's', 'i', 'z', 'e', '>', '(', 'v', ':', ' ', '[', 'u', '6', '4', ';', ' ', 'O', ']', ')', ' ', '-', '>', ' ', 'O', 'p', 't', 'i', 'o', 'n', '<', 'S', 'e', 'l', 'f', '>', ' ', '{'],
   [' ', ' ', ' ', ' ', ' ', ' ', ' ', ' ', 'A', 'r', 'r', 'a', 'y', 'R', 'e', 'p', 'r', ':', ':', '<', 'O', '>', '(', 'v', ')', '.', 't', 'o', '_', 'u', '6', '4', '_', 'a', 'r', 'r', 'a', 'y', '_', 'o', 'p', 't', ':', ':', '<', 'N', '>', '(', ')', '.', 'm', 'a', 'p', '(', 'A', 'r', 'r', 'a', 'y', 'R', 'e', 'p', 'r', ')'],
   [' ', ' ', ' ', ' ', '}'],
   [],
   [' ', ' ', ' ', ' ', 'f', 'n', ' ', 't', 'o', '_', 'u', '6', '4', '_', 's', 'l', 'i', 'c', 'e', '(', '&', 's', 'e', 'l', 'f', ',', ' ', 'o', 'u', 't', ':', ' ', '&', 'm', 'u', 't', ' ', '[', 'u', '6', '4', ']', ')', ' ', '{'],
   [' ', ' ', ' ', ' ', ' ', ' ', ' ', ' ', 'l', 'e', 't', ' ', 'c', 'o', 'p', 'y', '_', 'l', 'e', 'n', ' ', '=', ' ', 'i', 'f', ' ', 'N', ' ', '<', ' ', 'o', 'u', 't', '.', 'l', 'e', 'n', '(', ')', ' ', '{', ' ', 'N', ' ', '}', ' ', 'e', 'l', 's', 'e', ' ', '{', ' ', 'o', 'u', 't', '.', 'l', 'e', 'n', '(', ')', ' ', '}', ';'],
   [' ', ' ', ' ', ' ', ' ', ' ', ' ', ' ', 'o', 'u', 't', '[', '.', '.', 'c', 'o', 'p', 'y', '_', 'l', 'e', 'n', ']', '.', 'c', 'o', 'p', 'y', '_', 'f', 'r', 'o', 'm', '_', 's', 'l', 'i', 'c', 'e', '(', '&', 's', 'e', 'l', 'f', '.', '0', '[', '.', '.', 'c', 'o', 'p', 'y', '_', 'l', 'e', 'n', ']', ')', ';'],
   [' ', ' ', ' ', ' ', ' ', ' ', ' ', ' ', 'f', 'o', 'r', ' ', 'i', ' ', 'i', 'n', ' ', 'c', 'o', 'p', 'y', '_', 'l', 'e', 'n', '.', '.', 'o', 'u', 't', '.', 'l', 'e', 'n', '(', ')', ' ', '{'],
   [' ', ' ', ' ', ' ', ' ', ' ', ' ', ' ', ' ', ' ', ' ', ' ', 'o', 'u', 't', '[', 'i', ']', ' ', '=', ' ', '0', ';'],
   [' ', ' ', ' ', ' ', ' ', ' ', ' ', ' ', '}'],
   [' ', ' ', ' ', ' ', '}'],
   [' ', ' ', ' ', ' ', '#', '[', 'm', 'u', 's', 't', '_', 'u', 's', 'e', ']'],
   [' ', ' ', ' ', ' ', 'f', 'n', ' ', 't', 'o', '_', 'u', '6', '4', '_', 's', 'l', 'i', 'c', 'e', '_', 'o', 'p', 't', '(', '&', 's', 'e', 'l', 'f', ',', ' ', 'o', 'u', 't', ':', ' ', '&', 'm', 'u', 't', ' ', '[', 'u', '6', '4', ']', ')', ' ', '-', '>', ' ', 'O', 'p', 't', 'i', 'o', 'n', '<', '(', ')', '>', ' ', '{'],
   [' ', ' ', ' ', ' ', ' ', ' ', ' ', ' ', 'i', 'f', ' ', 'N', ' ', '>', ' ', 'o', 'u', 't', '.', 'l', 'e', 'n', '(', ')', ' ', '{'],
   [' ', ' ', ' ', ' ', ' ', ' ', ' ', ' ', ' ', ' ', ' ', ' ', 'f', 'o', 'r', ' ', 'i', ' ', 'i', 'n', ' ', 'o', 'u', 't', '.', 'l', 'e', 'n', '(', ')', '.', '.', 'N', ' ', '{'],
   [' ', ' ', ' ', ' ', ' ', ' ', ' ', ' ', ' ', ' ', ' ', ' ', ' ', ' ', ' ', ' ', 'i', 'f', ' ', 's', 'e', 'l', 'f', '.', '0', '[', 'i', ']', ' ', '!', '=', ' ', '0', ' ', '{'],
   [' ', ' ', ' ', ' ', ' ', ' ', ' ', ' ', ' ', ' ', ' ', ' ', ' ', ' ', ' ', ' ', ' ', ' ', ' ', ' ', 'r', 'e', 't', 'u', 'r', 'n', ' ', 'N', 'o', 'n', 'e', ';'],
   [' ', ' ', ' ', ' ', ' ', ' ', ' ', ' ', ' ', ' ', ' ', ' ', ' ', ' ', ' ', ' ', '}'],
   [' ', ' ', ' ', ' ', ' ', ' ', ' ', ' ', ' ', ' ', ' ', ' ', '}'],
   [' ', ' ', ' ', ' ', ' ', ' ', ' ', ' ', '}'],
   [' ', ' ', ' ', ' ', ' ', ' ', ' ', ' ', 's', 'e', 'l', 'f', '.', 't', 'o', '_', 'u', '6', '4', '_', 's', 'l', 'i', 'c', 'e', '(', 'o', 'u', 't', ')', ';'],
   [' ', ' ', ' ', ' ', ' ', ' ', ' ', ' ', 'S', 'o', 'm', 'e', '(', '(', ')', ')'],
   [' ', ' ', ' ', ' ', '}'],
   [],
   [' ', ' ', ' ', ' ', 'f', 'n', ' ', 'f', 'r', 'o', 'm', '_', 'u', '6', '4', '_', 's', 'l', 'i', 'c', 'e', '(', 'v', ':', ' ', '&', '[', 'u', '6', '4', ']', ')', ' ', '-', '>', ' ', 'S', 'e', 'l', 'f', ' ', '{'],
   [' ', ' ', ' ', ' ', ' ', ' ', ' ', ' ', 'l', 'e', 't', ' ', 'm', 'u', 't', ' ', 'n', 'e', 'w', ' ', '=', ' ', 'A', 'r', 'r', 'a', 'y', 'R', 'e', 'p', 'r', '(', '[', '0', ';', ' ', 'N', ']', ')', ';'],
   [' ', ' ', ' ', ' ', ' ', ' ', ' ', ' ', 'l', 'e', 't', ' ', 'c', 'o', 'p', 'y', '_', 'l', 'e', 'n', ' ', '=', ' ', 'i', 'f', ' ', 'N', ' ', '<', ' ', 'v', '.', 'l', 'e', 'n', '(', ')', ' ', '{', ' ', 'N', ' ', '}', ' ', 'e', 'l', 's', 'e', ' ', '{', ' ', 'v', '.', 'l', 'e', 'n', '(', ')', ' ', '}', ';'],
   [' ', ' ', ' ', ' ', ' ', ' ', ' ', ' ', 'n', 'e', 'w', '.', '0', '[', '.', '.', 'c', 'o', 'p', 'y', '_', 'l', 'e', 'n', ']', '.', 'c', 'o', 'p', 'y', '_', 'f', 'r', 'o', 'm', '_', 's', 'l', 'i', 'c', 'e', '(', '&', 'v', '[', '.', '.', 'c', 'o', 'p', 'y', '_', 'l', 'e', 'n', ']', ')', ';'],
   [' ', ' ', ' ', ' ', ' ', ' ', ' ', ' ', 'n', 'e', 'w'],
   [' ', ' ', ' ', ' ', '}'],
   [' ', ' ', ' ', ' ', 'f', 'n', ' ', 'f', 'r', 'o', 'm', '_', 'u', '6', '4', '_', 's', 'l', 'i', 'c', 'e', '_', 'o', 'p', 't', '(', 'v', ':', ' ', '&', '[', 'u', '6', '4', ']', ')', ' ', '-', '>', ' ', 'O', 'p', 't', 'i', 'o', 'n', '<', 'S', 'e', 'l', 'f', '>', ' ', '{'],
   [' ', ' ', ' ', ' ', ' ', ' ', ' ', ' ', 'i', 'f', ' ', 'v', '.', 'l', 'e', 'n', '(', ')', ' ', '>', ' ', 'N', ' ', '{'],
   [' ', ' ', ' ', ' ', ' ', ' ', ' ', ' ', ' ', ' ', ' ', ' ', 'f', 'o', 'r', ' ', 'i', ' ', 'i', 'n', ' ', 'N', '.', '.', 'v', '.', 'l', 'e', 'n', '(', ')', ' ', '{'],
   [' ', ' ', ' ', ' ', ' ', ' ', ' ', ' ', ' ', ' ', ' ', ' ', ' ', ' ', ' ', ' ', 'i', 'f', ' ', 'v', '[', 'i', ']', ' ', '!', '=', ' ', '0', ' ', '{'],
   [' ', ' ', ' ', ' ', ' ', ' ', ' ', ' ', ' ', ' ', ' ', ' ', ' ', ' ', ' ', ' ', ' ', ' ', ' ', ' ', 'r', 'e', 't', 'u', 'r', 'n', ' ', 'N', 'o', 'n', 'e', ';'],
   [' ', ' ', ' ', ' ', ' ', ' ', ' ', ' ', ' ', ' ', ' ', ' ', ' ', ' ', ' ', ' ', '}'],
   [' ', ' ', ' ', ' ', ' ', ' ', ' ', ' ', ' ', ' ', ' ', ' ', '}'],
   [' ', ' ', ' ', ' ', ' ', ' ', ' ', ' ', '}'],
   [' ', ' ', ' ', ' ', ' ', ' ', ' ', ' ', 'S', 'o', 'm', 'e', '(', 'S', 'e', 'l', 'f', ':', ':', 'f', 'r', 'o', 'm', '_', 'u', '6', '4', '_', 's', 'l', 'i', 'c', 'e', '(', 'v', ')', ')'],
   [' ', ' ', ' ', ' ', '}'],
   ['}'],
   [],
   ['#', '[', 'd', 'e', 'r', 'i', 'v', 'e', '(', 'C', 'l', 'o', 'n', 'e', ',', ' ', 'D', 'e', 'b', 'u', 'g', ')', ']'],
   ['p', 'u', 'b', ' ', 's', 't', 'r', 'u', 'c', 't', ' ', 'A', 'r', 'r', 'a', 'y', 'I', 't', 'e', 'r', '<', 'c', 'o', 'n', 's', 't', ' ', 'N', ':', ' ', 'u', 's', 'i', 'z', 'e', '>', ' ', '{'],
   [' ', ' ', ' ', ' ', 'd', 'a', 't', 'a', ':', ' ', '[', 'P', 'r', 'i', 'm', 'i', 't', 'i', 'v', 'e', 'I', 't', 'e', 'r', '<', 'u', '6', '4', '>', ';', ' ', 'N', ']', ','],
   [' ', ' ', ' ', ' ', 'd', 'o', 'n', 'e', ':', ' ', 'b', 'o', 'o', 'l', ','],
   [' ', ' ', ' ', ' ', 'i', 'd', 'x', '_', 'f', ':', ' ', 'u', 's', 'i', 'z', 'e', ','],
   [' ', ' ', ' ', ' ', 'i', 'd', 'x', '_', 'r', ':', ' ', 'u', 's', 'i', 'z', 'e', ','],
   ['}'],
   [],
   ['i', 'm', 'p', 'l', '<', 'c', 'o', 'n', 's', 't', ' ', 'N', ':', ' ', 'u', 's', 'i', 'z', 'e', '>', ' ', 'A', 'r', 'r', 'a', 'y', 'I', 't', 'e', 'r', '<', 'N', '>', ' ', '{'],
   [' ', ' ', ' ', ' ', 'p', 'u', 'b', ' ', 'f', 'n', ' ', 'n', 'e', 'w', '(', 'a', 'r', 'r', 'a', 'y', ':', ' ', 'A', 'r', 'r', 'a', 'y', 'R', 'e', 'p', 'r', '<', 'N', '>', ')', ' ', '-', '>', ' ', 'S', 'e', 'l', 'f', ' ', '{'],
   [' ', ' ', ' ', ' ', ' ', ' ', ' ', ' ', 'l', 'e', 't', ' ', 'm', 'u', 't', ' ', 'n', 'e', 'w', ' ', '=', ' ', '[', 'P', 'r', 'i', 'm', 'i', 't', 'i', 'v', 'e', 'I', 't', 'e', 'r', '(', '0', ')', ';', ' ', 'N', ']', ';'],
   [' ', ' ', ' ', ' ', ' ', ' ', ' ', ' ', 'f', 'o', 'r', ' ', 'i', ' ', 'i', 'n', ' ', '0', '.', '.', 'N', ' ', '{'],
   [' ', ' ', ' ', ' ', ' ', ' ', ' ', ' ', ' ', ' ', ' ', ' ', 'n', 'e', 'w', '[', 'i', ']', ' ', '=', ' ', 'P', 'r', 'i', 'm', 'i', 't', 'i', 'v', 'e', 'I', 't', 'e', 'r', '(', 'a', 'r', 'r', 'a', 'y', '.', '0', '[', 'i', ']', ')'],
   [' ', ' ', ' ', ' ', ' ', ' ', ' ', ' ', '}'],
   [' ', ' ', ' ', ' ', ' ', ' ', ' ', ' ', 'A', 'r', 'r', 'a', 'y', 'I', 't', 'e', 'r', ' ', '{', ' ', 'd', 'a', 't', 'a', ':', ' ', 'n', 'e', 'w', ',', ' ', 'd', 'o', 'n', 'e', ':', ' ', 'f', 'a', 'l', 's', 'e', ',', ' ', 'i', 'd', 'x', '_', 'f', ':', ' ', '0', ',', ' ', 'i', 'd', 'x', '_', 'r', ':', ' ', 'N', ' ', '-', ' ', '1', ' ', '}'],
   [' ', ' ', ' ', ' ', '}'],
   ['}'],
   [],
   ['i', 'm', 'p', 'l', '<', 'c', 'o', 'n', 's', 't', ' ', 'N', ':', ' ', 'u', 's', 'i', 'z', 'e', '>', ' ', 'I', 't', 'e', 'r', 'a', 't', 'o', 'r', ' ', 'f', 'o', 'r', ' ', 'A', 'r', 'r', 'a', 'y', 'I', 't', 'e', 'r', '<', 'N', '>', ' ', '{'],
   [' ', ' ', ' ', ' ', 't', 'y', 'p', 'e', ' ', 'I', 't', 'e', 'm', ' ', '=', ' ', 'u', '3', '2', ';'],
   [],
   [' ', ' ', ' ', ' ', 'f', 'n', ' ', 'n', 'e', 'x', 't', '(', '&', 'm', 'u', 't', ' ', 's', 'e', 'l', 'f', ')', ' ', '-', '>', ' ', 'O', 'p', 't', 'i', 'o', 'n', '<', 'S', 'e', 'l', 'f', ':', ':', 'I', 't', 'e', 'm', '>', ' ', '{'],
   [' ', ' ', ' ', ' ', ' ', ' ', ' ', ' ', 'i', 'f', ' ', 's', 'e', 'l', 'f', '.', 'd', 'o', 'n', 'e', ' ', '{'],
   [' ', ' ', ' ', ' ', ' ', ' ', ' ', ' ', ' ', ' ', ' ', ' ', 'r', 'e', 't', 'u', 'r', 'n', ' ', 'N', 'o', 'n', 'e', ';'],
   [' ', ' ', ' ', ' ', ' ', ' ', ' ', ' ', '}'],
   [' ', ' ', ' ', ' ', ' ', ' ', ' ', ' ', 'w', 'h', 'i', 'l', 'e', ' ', 's', 'e', 'l', 'f', '.', 'i', 'd', 'x', '_', 'f', ' ', '<', '=', ' ', 's', 'e', 'l', 'f', '.', 'i', 'd', 'x', '_', 'r', ' ', '{'],
   [' ', ' ', ' ', ' ', ' ', ' ', ' ', ' ', ' ', ' ', ' ', ' ', 'i', 'f', ' ', 'l', 'e', 't', ' ', 'S', 'o', 'm', 'e', '(', 'x', ')', ' ', '=', ' ', 's', 'e', 'l', 'f', '.', 'd', 'a', 't', 'a', '[', 's', 'e', 'l', 'f', '.', 'i', 'd', 'x', '_', 'f', ']', '.', 'n', 'e', 'x', 't', '(', ')', ' ', '{'],
   [' ', ' ', ' ', ' ', ' ', ' ', ' ', ' ', ' ', ' ', ' ', ' ', ' ', ' ', ' ', ' ', 'r', 'e', 't', 'u', 'r', 'n', ' ', 'S', 'o', 'm', 'e', '(', 's', 'e', 'l', 'f', '.', 'i', 'd', 'x', '_', 'f', ' ', 'a', 's', ' ', 'u', '3', '2', ' ', '*', ' ', '6', '4', ' ', '+', ' ', 'x', ')', ';'],
   [' ', ' ', ' ', ' ', ' ', ' ', ' ', ' ', ' ', ' ', ' ', ' ', '}', ' ', 'e', 'l', 's', 'e', ' ', '{'],
   [' ', ' ', ' ', ' ', ' ', ' ', ' ', ' ', ' ', ' ', ' ', ' ', ' ', ' ', ' ', ' ', 's', 'e', 'l', 'f', '.', 'i', 'd', 'x', '_', 'f', ' ', '+', '=', ' ', '1', ';'],
   [' ', ' ', ' ', ' ', ' ', ' ', ' ', ' ', ' ', ' ', ' ', ' ', '}'],
   [' ', ' ', ' ', ' ', ' ', ' ', ' ', ' ', '}'],
   [' ', ' ', ' ', ' ', ' ', ' ', ' ', ' ', 's', 'e', 'l', 'f', '.', 'd', 'o', 'n', 'e', ' ', '=', ' ', 't', 'r', 'u', 'e', ';'],
   [' ', ' ', ' ', ' ', ' ', ' ', ' ', ' ', 'N', 'o', 'n', 'e'],
   [' ', ' ', ' ', ' ', '}'],
   [],
   [' ', ' ', ' ', ' ', 'f', 'n', ' ', 's', 'i', 'z', 'e', '_', 'h', 'i', 'n', 't', '(', '&', 's', 'e', 'l', 'f', ')', ' ', '-', '>', ' ', '(', 'u', 's', 'i', 'z', 'e', ',', ' ', 'O', 'p', 't', 'i', 'o', 'n', '<', 'u', 's', 'i', 'z', 'e', '>', ')', ' ', '{'],
   [' ', ' ', ' ', ' ', ' ', ' ', ' ', ' ', 'l', 'e', 't', ' ', 'm', 'u', 't', ' ', 's', 'u', 'm', ' ', '=', ' ', '0', ';'],
   [' ', ' ', ' ', ' ', ' ', ' ', ' ', ' ', 'f', 'o', 'r', ' ', 'i', ' ', 'i', 'n', ' ', 's', 'e', 'l', 'f', '.', 'i', 'd', 'x', '_', 'f', '.', '.', 's', 'e', 'l', 'f', '.', 'i', 'd', 'x', '_', 'r', ' ', '+', ' ', '1', ' ', '{'],
   [' ', ' ', ' ', ' ', ' ', ' ', ' ', ' ', ' ', ' ', ' ', ' ', 's', 'u', 'm', ' ', '+', '=', ' ', 's', 'e', 'l', 'f', '.', 'd', 'a', 't', 'a', '[', 'i', ']', '.', '0', '.', 'c', 'o', 'u', 'n', 't', '_', 'o', 'n', 'e', 's', '(', ')', ' ', 'a', 's', ' ', 'u', 's', 'i', 'z', 'e', ';'],
   [' ', ' ', ' ', ' ', ' ', ' ', ' ', ' ', '}'],
   [' ', ' ', ' ', ' ', ' ', ' ', ' ', ' ', '(', 's', 'u', 'm', ',', ' ', 'S', 'o', 'm', 'e', '(', 's', 'u', 'm', ')', ')'],
   [' ', ' ', ' ', ' ', '}'],
   ['}'],
   [],
   ['i', 'm', 'p', 'l', '<', 'c', 'o', 'n', 's', 't', ' ', 'N', ':', ' ', 'u', 's', 'i', 'z', 'e', '>', ' ', 'D', 'o', 'u', 'b', 'l', 'e', 'E', 'n', 'd', 'e', 'd', 'I', 't', 'e', 'r', 'a', 't', 'o', 'r', ' ', 'f', 'o', 'r', ' ', 'A', 'r', 'r', 'a', 'y', 'I', 't', 'e', 'r', '<', 'N', '>', ' ', '{'],
   [' ', ' ', ' ', ' ', 'f', 'n', ' ', 'n', 'e', 'x', 't', '_', 'b', 'a', 'c', 'k', '(', '&', 'm', 'u', 't', ' ', 's', 'e', 'l', 'f', ')', ' ', '-', '>', ' ', 'O', 'p', 't', 'i', 'o', 'n', '<', 'S', 'e', 'l', 'f', ':', ':', 'I', 't', 'e', 'm', '>', ' ', '{'],
   [' ', ' ', ' ', ' ', ' ', ' ', ' ', ' ', 'i', 'f', ' ', 's', 'e', 'l', 'f', '.', 'd', 'o', 'n', 'e', ' ', '{'],
   [' ', ' ', ' ', ' ', ' ', ' ', ' ', ' ', ' ', ' ', ' ', ' ', 'r', 'e', 't', 'u', 'r', 'n', ' ', 'N', 'o', 'n', 'e', ';'],
   [' ', ' ', ' ', ' ', ' ', ' ', ' ', ' ', '}'],
   [' ', ' ', ' ', ' ', ' ', ' ', ' ', ' ', 'w', 'h', 'i', 'l', 'e', ' ', 's', 'e', 'l', 'f', '.', 'i', 'd', 'x', '_', 'f', ' ', '<', '=', ' ', 's', 'e', 'l', 'f', '.', 'i', 'd', 'x', '_', 'r', ' ', '{'],
   [' ', ' ', ' ', ' ', ' ', ' ', ' ', ' ', ' ', ' ', ' ', ' ', 'i', 'f', ' ', 'l', 'e', 't', ' ', 'S', 'o', 'm', 'e', '(', 'x', ')', ' ', '=', ' ', 's', 'e', 'l', 'f', '.', 'd', 'a', 't', 'a', '[', 's', 'e', 'l', 'f', '.', 'i', 'd', 'x', '_', 'r', ']', '.', 'n', 'e', 'x', 't', '_', 'b', 'a', 'c', 'k', '(', ')', ' ', '{'],
   [' ', ' ', ' ', ' ', ' ', ' ', ' ', ' ', ' ', ' ', ' ', ' ', ' ', ' ', ' ', ' ', 'r', 'e', 't', 'u', 'r', 'n', ' ', 'S', 'o', 'm', 'e', '(', 's', 'e', 'l', 'f', '.', 'i', 'd', 'x', '_', 'r', ' ', 'a', 's', ' ', 'u', '3', '2', ' ', '*', ' ', '6', '4', ' ', '+', ' ', 'x', ')', ';'],
   [' ', ' ', ' ', ' ', ' ', ' ', ' ', ' ', ' ', ' ', ' ', ' ', '}', ' ', 'e', 'l', 's', 'e', ' ', '{'],
   [' ', ' ', ' ', ' ', ' ', ' ', ' ', ' ', ' ', ' ', ' ', ' ', ' ', ' ', ' ', ' ', 'i', 'f', ' ', 's', 'e', 'l', 'f', '.', 'i', 'd', 'x', '_', 'r', ' ', '=', '=', ' ', '0', ' ', '{'],
   [' ', ' ', ' ', ' ', ' ', ' ', ' ', ' ', ' ', ' ', ' ', ' ', ' ', ' ', ' ', ' ', ' ', ' ', ' ', ' ', 'b', 'r', 'e', 'a', 'k', ';'],
   [' ', ' ', ' ', ' ', ' ', ' ', ' ', ' ', ' ', ' ', ' ', ' ', ' ', ' ', ' ', ' ', '}'],
   [' ', ' ', ' ', ' ', ' ', ' ', ' ', ' ', ' ', ' ', ' ', ' ', ' ', ' ', ' ', ' ', 's', 'e', 'l', 'f', '.', 'i', 'd', 'x', '_', 'r', ' ', '-', '=', ' ', '1', ';'],
   [' ', ' ', ' ', ' ', ' ', ' ', ' ', ' ', ' ', ' ', ' ', ' ', '}'],
   [' ', ' ', ' ', ' ', ' ', ' ', ' ', ' ', '}'],
   [' ', ' ', ' ', ' ', ' ', ' ', ' ', ' ', 's', 'e', 'l', 'f', '.', 'd', 'o', 'n', 'e', ' ', '=', ' ', 't', 'r', 'u', 'e', ';'],
   [' ', ' ', ' ', ' ', ' ', ' ', ' ', ' ', 'N', 'o', 'n', 'e'],
   [' ', ' ', ' ', ' ', '}'],
   ['}']]

theorem text_eq : text = chars.map String.ofList := by rfl

end Enumset.Src.ArrayRs
