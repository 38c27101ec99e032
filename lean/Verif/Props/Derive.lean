import Verif.StorageLemmas
import Verif.SpecRustc
import Verif.Props.Examples
/-!
# Properties C29–C33, C44: what the derive macro accepts and generates

None of these theorems except `C31_all` needs the hypothesis `Fits`.
-/
set_option autoImplicit false

namespace Enumset

section helpers

variable [Platform]

/-- Facts about generated items that do not depend on the width of `usize`. -/
structure Core (inp : DeriveInput) (T : EnumSetType) : Prop where
  n_eq : T.n = inp.variants.length
  rustc : ∀ v : T.Val, (rustcDiscriminants inp.variants)[v.val]? = some (T.discr v : Int)
  onto : ∀ d ∈ rustcDiscriminants inp.variants, ∃ v : T.Val, (T.discr v : Int) = d
  inj : ∀ u v : T.Val, T.discr u = T.discr v → u = v
  bw : T.BIT_WIDTH = maxDiscr inp.variants + 1
  lt : ∀ v : T.Val, T.discr v < T.BIT_WIDTH
  attained : maxDiscr inp.variants = 0 ∨ ∃ v : T.Val, T.discr v = maxDiscr inp.variants
  max_lt : maxDiscr inp.variants < 0xFFFFFFC0
  into_ok : ∀ v, T.enum_into_u32 v = .ok (T.discr v)
  from_ok : ∀ v, T.enum_from_u32 (T.discr v) = .ok v
  val_eq_ok : ∀ a b, T.val_eq a b = .ok (decide (a = b))
  count : T.VARIANT_COUNT = T.n

theorem core_of_derive {inp : DeriveInput} {T : EnumSetType} (hT : derive inp = .ok T) :
    Core inp T := by
  obtain ⟨info, hinfo, hok, hs⟩ := derive_shape hT
  have hlen : info.variants.length = inp.variants.length := by
    have := congrArg List.length hok.reprs
    rw [dsFrom_length] at this
    simpa using this
  have hru : rustcDiscriminants inp.variants = (dsFrom 0 inp.variants).map Int.ofNat :=
    rustc_eq 0 inp.variants hok.lits
  have hm := hok.maxDiscr_eq
  have hmax := hok.max_lt
  have main : ∀ discr : Fin info.variants.length → Nat,
      (∀ i, discr i = info.variants[i].variant_repr) →
      (∀ v : Fin info.variants.length,
        (rustcDiscriminants inp.variants)[v.val]? = some (discr v : Int)) ∧
      (∀ d ∈ rustcDiscriminants inp.variants,
        ∃ v : Fin info.variants.length, (discr v : Int) = d) ∧
      (maxDiscr inp.variants = 0 ∨
        ∃ v : Fin info.variants.length, discr v = maxDiscr inp.variants) := by
    intro discr hd
    have hon : ∀ d ∈ dsFrom 0 inp.variants, ∃ v : Fin info.variants.length, discr v = d := by
      intro d hmem
      rw [← hok.reprs] at hmem
      obtain ⟨v, hv⟩ := (mem_reprs d).mp hmem
      exact ⟨v, by rw [hd, hv]⟩
    refine ⟨?_, ?_, ?_⟩
    · intro v
      rw [hru, ← hok.reprs, hd]
      simp
    · intro d hmem
      rw [hru] at hmem
      obtain ⟨e, he, rfl⟩ := List.mem_map.mp hmem
      obtain ⟨v, rfl⟩ := hon e he
      exact ⟨v, rfl⟩
    · rw [hm, hok.max]
      rcases maxD_mem 0 (dsFrom 0 inp.variants) with h | h
      · exact .inl h
      · exact .inr (hon _ h)
  cases hs with
  | prim w pal lit hr discr hd hl =>
    obtain ⟨h1, h2, h3⟩ := hok.core discr hd
    obtain ⟨m1, m2, m3⟩ := main discr hd
    have h4 : ∀ v, discr v < 2 ^ 32 := fun v => by have := h2 v; omega
    exact ⟨hlen, m1, m2, h1, by rw [hm]; rfl, h2, m3, by omega, genInto_ok h4, genFrom_ok h1,
      genEq_ok h1 h4, castW_of_lt h3⟩
  | array size hr all discr hd hl =>
    obtain ⟨h1, h2, h3⟩ := hok.core discr hd
    obtain ⟨m1, m2, m3⟩ := main discr hd
    have h4 : ∀ v, discr v < 2 ^ 32 := fun v => by have := h2 v; omega
    exact ⟨hlen, m1, m2, h1, by rw [hm]; rfl, h2, m3, by omega, genInto_ok h4, genFrom_ok h1,
      genEq_ok h1 h4, castW_of_lt h3⟩

end helpers

/-! ## C29 Discriminants agree with rustc -/

/-- The discriminants the macro records are the compiler's, in order. -/
theorem C29_recorded (inp : DeriveInput) (info : EnumSetInfo) (h : deriveInfo inp = .ok info) :
    info.variants.map (fun v => (v.variant_repr : Int)) = rustcDiscriminants inp.variants := by
  have hok := deriveInfo_ok h
  rw [show rustcDiscriminants inp.variants = (dsFrom 0 inp.variants).map Int.ofNat from
    rustc_eq 0 inp.variants hok.lits, ← hok.reprs, List.map_map]
  rfl

/-- The generated conversions use them: variant number `v` is converted to the compiler's
discriminant and back. -/
theorem C29_tables [Platform] {inp : DeriveInput} {T : EnumSetType} (hT : derive inp = .ok T)
    (v : T.Val) :
    T.n = inp.variants.length ∧
    (rustcDiscriminants inp.variants)[v.val]? = some (T.discr v : Int) ∧
    T.enum_into_u32 v = .ok (T.discr v) ∧ T.enum_from_u32 (T.discr v) = .ok v := by
  have C := core_of_derive hT
  exact ⟨C.n_eq, C.rustc v, C.into_ok v, C.from_ok v⟩

example := C29_recorded Ex.inpL _ rfl
open scoped Ex in
example := C29_tables Ex.hL Ex.lC
example : rustcDiscriminants Ex.inpT.variants = [0, 3, 4] := by decide

/-! ## C30 What the derive accepts -/

theorem C30_accepts [Platform] (inp : DeriveInput) :
    (∃ T, derive inp = .ok T) ↔ Acceptable inp :=
  (derive_ok_iff inp).trans (deriveInfo_iff inp)

/-- Everything else is rejected with an error message: the macro does not panic, and the code it
generates has no literal that is out of range. -/
theorem C30_rejects [Platform] (inp : DeriveInput) (h : ¬ Acceptable inp) :
    (∃ i, derive inp = .error (.parse i)) ∨ ∃ sp m, derive inp = .error (.msg sp m) := by
  cases hd : derive inp with
  | ok T => exact absurd ((C30_accepts inp).mp ⟨T, hd⟩) h
  | error e =>
    rcases derive_err inp e hd with ⟨i, rfl⟩ | ⟨sp, m, rfl⟩
    · exact .inl ⟨i, rfl⟩
    · exact .inr ⟨sp, m, rfl⟩

open scoped Ex in
example : Acceptable Ex.inpL := (C30_accepts _).mp ⟨_, Ex.hL⟩
open scoped Ex in
/-- `enum { A = 0xFFFFFFC0 }` -/
example := C30_rejects
  { variants := [{ ident := "A", discriminant := some (.lit 0xFFFFFFC0) }] }
  (fun h => absurd (h.limit 0xFFFFFFC0 (by decide)) (by decide))

/-! ## C31 Representation choice and mask -/

/-- The sets are stored as documented; the `u32` constant `WIDTH` is the exact number of bits (its
computation does not wrap around). -/
theorem C31_storage [Platform] {inp : DeriveInput} {T : EnumSetType} (hT : derive inp = .ok T) :
    (∀ w, storageOf inp = .int w → ∃ pal, T.Repr = Prim w pal) ∧
    (∀ N, storageOf inp = .array N → T.Repr = ArrayRepr N) ∧
    EnumSetTypeRepr.WIDTH T.Repr = (storageOf inp).bits := by
  obtain ⟨info, hok, hs, he, -⟩ := derive_storage hT
  cases hs with
  | prim w' pal lit hr discr hd hl =>
    rw [he, primOf_storage hr]
    refine ⟨?_, ?_, rfl⟩
    · intro w h; injection h with h; subst h; exact ⟨pal, rfl⟩
    · intro N h; cases h
  | array size hr all discr hd hl =>
    rw [he, hr]
    refine ⟨?_, ?_, ?_⟩
    · intro w h; cases h
    · intro N h
      injection h with h
      subst h
      rfl
    · have hsize := array_size hok hr
      have hmax := hok.max_lt
      change castW 32 (castW 32 size * 64) = 64 * size
      rw [castW_of_lt (show size < 2 ^ 32 by omega), castW_of_lt (by omega)]
      omega

/-- There is room for every discriminant, and positions fit `u32`. -/
theorem C31_room [Platform] {inp : DeriveInput} {T : EnumSetType} (hT : derive inp = .ok T) :
    (∀ v : T.Val, T.discr v < (storageOf inp).bits) ∧ (storageOf inp).bits < 2 ^ 32 := by
  obtain ⟨info, hok, hs, he, -⟩ := derive_storage hT
  have C := core_of_derive hT
  have hf := hok.fits
  have hm := hok.maxDiscr_eq
  have hbits : (storageOf inp).bits = info.internal_repr.supported_variants := by
    rw [he]
    cases info.internal_repr <;>
      simp [InternalRepr.storage, Storage.bits, InternalRepr.supported_variants, Nat.mul_comm]
  rw [hbits]
  refine ⟨?_, ?_⟩
  · intro v
    have := C.lt v
    rw [C.bw] at this
    omega
  · have := C.max_lt
    cases hr : info.internal_repr with
    | array size =>
      have := array_size hok hr
      simp only [InternalRepr.supported_variants]
      omega
    | _ => simp [InternalRepr.supported_variants]

/-- Without `repr`, the storage is the smallest one possible: `u8`, `u16`, `u32`, `u64` and no
smaller of these has room, or an array with no superfluous word because `u64` has no room. -/
theorem C31_smallest [Platform] {inp : DeriveInput} {T : EnumSetType} (hT : derive inp = .ok T)
    (hrepr : inp.attrs.repr = none) :
    (∀ w, storageOf inp = .int w → w ∈ [8, 16, 32, 64] ∧
      ∀ w' ∈ [8, 16, 32, 64], w' < w → ∃ v : T.Val, w' ≤ T.discr v) ∧
    (∀ N, storageOf inp = .array N → (∃ v : T.Val, 64 ≤ T.discr v) ∧
      ∃ v : T.Val, 64 * (N - 1) ≤ T.discr v) := by
  have C := core_of_derive hT
  have ex : ∀ k, 0 < k → k ≤ maxDiscr inp.variants → ∃ v : T.Val, k ≤ T.discr v := by
    intro k h0 hk
    rcases C.attained with h | ⟨v, hv⟩
    · omega
    · exact ⟨v, by omega⟩
  have key : (∀ w, storageOf inp = .int w → w ∈ [8, 16, 32, 64] ∧
      ∀ w' ∈ [8, 16, 32, 64], w' < w → w' ≤ maxDiscr inp.variants) ∧
      (∀ N, storageOf inp = .array N → 64 ≤ maxDiscr inp.variants ∧
        64 * (N - 1) ≤ maxDiscr inp.variants) := by
    unfold storageOf
    rw [hrepr]
    generalize maxDiscr inp.variants = m
    by_cases h8 : m < 8
    · simp [h8]
    by_cases h16 : m < 16
    · simp [h8, h16]; omega
    by_cases h32 : m < 32
    · simp [h8, h16, h32]; omega
    by_cases h64 : m < 64
    · simp [h8, h16, h32, h64]; omega
    simp [h8, h16, h32, h64]
    omega
  refine ⟨fun w hw => ⟨(key.1 w hw).1, fun w' hw' hlt => ?_⟩, fun N hN => ⟨?_, ?_⟩⟩
  · refine ex w' ?_ ((key.1 w hw).2 w' hw' hlt)
    simp at hw'
    omega
  · exact ex 64 (by omega) (key.2 N hN).1
  · have h1 := (key.2 N hN).1
    have h2 := (key.2 N hN).2
    rcases C.attained with h | ⟨v, hv⟩
    · omega
    · exact ⟨v, by omega⟩

/-- The generated mask has exactly the bits of the discriminants, and agrees with the variants. -/
theorem C31_all [Platform] {inp : DeriveInput} {T : EnumSetType} (hT : derive inp = .ok T)
    (hfit : Fits T) (O : Nat) :
    ∃ x : Vector U64 O, (EnumSet.all : EnumSet T).as_array_truncated O = .ok x ∧
      ∀ i, wbit x.toList i = true ↔
        i < 64 * O ∧ (i : Int) ∈ rustcDiscriminants inp.variants := by
  obtain ⟨W⟩ := wf_of_derive hT hfit
  have C := core_of_derive hT
  obtain ⟨x, e, hx⟩ := W.as_array_truncated_ok O EnumSet.all
  refine ⟨x, e, fun i => ?_⟩
  rw [hx, Bool.and_eq_true, decide_eq_true_iff]
  apply and_congr_right
  intro _
  refine (W.all_bit i).trans ?_
  constructor
  · rintro ⟨v, rfl⟩
    exact List.mem_of_getElem? (C.rustc v)
  · intro h
    obtain ⟨v, hv⟩ := C.onto _ h
    exact ⟨v, by omega⟩

open scoped Ex in
example := C31_storage Ex.hL
open scoped Ex in
example := C31_room Ex.hL
open scoped Ex in
example := (C31_smallest Ex.hL rfl).2 3 (by decide)
open scoped Ex in
example := (C31_smallest Ex.hT rfl).1 8 (by decide)
open scoped Ex in
example := C31_all Ex.hL Ex.fitL 3

/-! ## C32 bit_width and variant_count -/

/-- `bit_width()` is one more than the largest discriminant, `variant_count()` the number of
variants. -/
theorem C32_values [Platform] {inp : DeriveInput} {T : EnumSetType} (hT : derive inp = .ok T)
    (hne : inp.variants ≠ []) :
    (∀ v : T.Val, T.discr v + 1 ≤ EnumSet.bit_width T) ∧
    (∃ v : T.Val, T.discr v + 1 = EnumSet.bit_width T) ∧
    EnumSet.variant_count T = inp.variants.length := by
  have C := core_of_derive hT
  refine ⟨fun v => C.lt v, ?_, by rw [← C.n_eq]; exact C.count⟩
  have hb : EnumSet.bit_width T = maxDiscr inp.variants + 1 := C.bw
  rcases C.attained with h | ⟨v, hv⟩
  · have hn : 0 < T.n := by rw [C.n_eq]; exact List.length_pos_iff.mpr hne
    have := C.lt ⟨0, hn⟩
    rw [C.bw] at this
    exact ⟨⟨0, hn⟩, by omega⟩
  · exact ⟨v, by omega⟩

theorem onto_of_card {n : Nat} (f : Fin n → Nat) (hinj : ∀ u v, f u = f v → u = v)
    (hlt : ∀ v, f v < n) (i : Nat) (hi : i < n) : ∃ v, f v = i := by
  refine Classical.byContradiction fun hno => ?_
  -- drop the missing value `i`: the `n` values `f v` live in `n - 1` slots
  have hnd : ((List.finRange n).map fun v => if f v < i then f v else f v - 1).Nodup := by
    rw [List.nodup_iff_pairwise_ne, List.pairwise_map]
    refine (List.nodup_finRange n).imp ?_
    intro a b hab e
    apply hab
    apply hinj
    have h1 : f a ≠ i := fun h => hno ⟨a, h⟩
    have h2 : f b ≠ i := fun h => hno ⟨b, h⟩
    split at e <;> split at e <;> omega
  have := nodup_length_le (n - 1) _ hnd (by
    intro d hd
    obtain ⟨v, -, rfl⟩ := List.mem_map.mp hd
    have := hlt v
    have h1 : f v ≠ i := fun h => hno ⟨v, h⟩
    split <;> omega)
  simp at this
  omega

/-- They coincide exactly when the discriminants are `0 .. n-1`. -/
theorem C32_coincide [Platform] {inp : DeriveInput} {T : EnumSetType} (hT : derive inp = .ok T)
    (hne : inp.variants ≠ []) :
    EnumSet.bit_width T = EnumSet.variant_count T ↔
      ∀ i, i < inp.variants.length ↔ ∃ v : T.Val, T.discr v = i := by
  have C := core_of_derive hT
  obtain ⟨h1, ⟨m, hm⟩, h3⟩ := C32_values hT hne
  have hn := C.n_eq
  rw [h3]
  constructor
  · intro h i
    constructor
    · intro hi
      exact onto_of_card T.discr C.inj (fun v => by have := h1 v; omega) i (by omega)
    · rintro ⟨v, rfl⟩
      have := h1 v
      omega
  · intro h
    have hle : EnumSet.bit_width T ≤ inp.variants.length := by
      have := (h (T.discr m)).mpr ⟨m, rfl⟩
      omega
    have hpos := List.length_pos_iff.mpr hne
    obtain ⟨v, hv⟩ := (h (inp.variants.length - 1)).mp (by omega)
    have := h1 v
    omega

/-- For an enum without variants, `bit_width()` is 1 (not 0 as the documentation suggests). -/
theorem C32_empty [Platform] {inp : DeriveInput} {T : EnumSetType} (hT : derive inp = .ok T)
    (he : inp.variants = []) : EnumSet.bit_width T = 1 ∧ EnumSet.variant_count T = 0 := by
  have C := core_of_derive hT
  have h1 : EnumSet.bit_width T = maxDiscr inp.variants + 1 := C.bw
  have h2 : EnumSet.variant_count T = T.n := C.count
  rw [h1, h2, C.n_eq, he]
  exact ⟨rfl, rfl⟩

open scoped Ex in
example := C32_values Ex.hL (by decide)
open scoped Ex in
example := C32_coincide Ex.hL (by decide)
open scoped Ex in
example := C32_empty (inp := { variants := [] }) rfl rfl

/-! ## C33 Variant identity -/

theorem C33_identity [Platform] {inp : DeriveInput} {T : EnumSetType} (hT : derive inp = .ok T) :
    (∀ v : T.Val, (T.enum_into_u32 v >>= T.enum_from_u32) = .ok v) ∧
    (∀ (v : T.Val) (i : Nat), T.enum_into_u32 v = .ok i →
      (T.enum_from_u32 i >>= T.enum_into_u32) = .ok i) ∧
    (∀ u v : T.Val, T.enum_into_u32 u = T.enum_into_u32 v → u = v) ∧
    (∀ u v : T.Val, T.val_eq u v = .ok (decide (u = v))) := by
  have C := core_of_derive hT
  refine ⟨?_, ?_, ?_, C.val_eq_ok⟩
  · intro v
    rw [C.into_ok]
    exact C.from_ok v
  · intro v i h
    rw [C.into_ok] at h
    injection h with h
    subst h
    rw [C.from_ok]
    exact C.into_ok v
  · intro u v h
    rw [C.into_ok, C.into_ok] at h
    injection h with h
    exact C.inj u v h

open scoped Ex in
example := C33_identity Ex.hL

/-! ## C44 Target word size -/

/-- With `usize` of 32 or 64 bits the hypothesis `Fits` of the other theorems is automatic. -/
theorem C44_fits [Platform] {inp : DeriveInput} {T : EnumSetType} (hT : derive inp = .ok T)
    (hu : usizeBits ≠ 16) : Fits T := fits_of_usize hT hu

/-- It is also automatic when sets are stored in integers, on every target. -/
theorem C44_fits_int [Platform] {inp : DeriveInput} {T : EnumSetType} (hT : derive inp = .ok T)
    {w : Nat} (hst : storageOf inp = .int w) : Fits T := by
  obtain ⟨info, hok, hs, he, -⟩ := derive_storage hT
  have C := core_of_derive hT
  have hf := hok.fits
  have hm := hok.maxDiscr_eq
  have : info.internal_repr.supported_variants ≤ 128 := by
    rw [he] at hst
    cases hr : info.internal_repr with
    | array size => rw [hr] at hst; cases hst
    | _ => simp [InternalRepr.supported_variants]
  unfold Fits
  rw [C.bw]
  rcases Target.usize_ok with h | h | h <;> rw [show usizeBits = _ from h] <;> omega

/-- Every variant addresses its own bit. -/
theorem C44_own_bit [Platform] {inp : DeriveInput} {T : EnumSetType} (hT : derive inp = .ok T)
    (hu : usizeBits ≠ 16) (u v : T.Val) :
    ∃ s : EnumSet T, EnumSet.only u = .ok s ∧ s.contains v = .ok (decide (v = u)) := by
  obtain ⟨W⟩ := wf_of_derive hT (C44_fits hT hu)
  obtain ⟨s, e, hs⟩ := W.only_set_ok u
  refine ⟨s, e, ?_⟩
  rw [W.contains_ok]
  exact congrArg Res.ok ((hs _).trans (W.decide_discr v u))

/-- With a 16-bit `usize` and sets stored in arrays, variants whose discriminants differ by a
multiple of 65536 cannot be told apart. -/
theorem C44_alias [Platform] {inp : DeriveInput} {T : EnumSetType} (hT : derive inp = .ok T)
    (hu : usizeBits = 16) {N : Nat} (hst : storageOf inp = .array N) {u v : T.Val}
    (huv : T.discr u % 65536 = T.discr v % 65536) (s : EnumSet T) :
    s.contains u = s.contains v ∧ s.insert u = s.insert v ∧ s.remove u = s.remove v := by
  obtain ⟨info, hok, hs, he, -⟩ := derive_storage hT
  have C := core_of_derive hT
  have hsplit : ArrayRepr.split_bit (T.discr u) = ArrayRepr.split_bit (T.discr v) := by
    unfold ArrayRepr.split_bit castW
    rw [hu]
    have : T.discr u % 64 = T.discr v % 64 := by omega
    rw [this, show (2 : Nat) ^ 16 = 65536 from rfl, huv]
  have i1 := C.into_ok u
  have i2 := C.into_ok v
  cases hs with
  | prim w' pal lit hr discr hd hl =>
    rw [he, primOf_storage hr] at hst
    cases hst
  | array size hr all discr hd hl =>
    unfold EnumSet.contains EnumSet.insert EnumSet.remove EnumSet.contains
    rw [i1, i2]
    simp only [Res.ok_bind]
    have f1 : ∀ r : ArrayRepr size, ArrayRepr.has_bit r (discr u) = ArrayRepr.has_bit r (discr v) := by
      intro r; unfold ArrayRepr.has_bit; rw [show ArrayRepr.split_bit (discr u) = _ from hsplit]; rfl
    have f2 : ∀ r : ArrayRepr size, ArrayRepr.add_bit r (discr u) = ArrayRepr.add_bit r (discr v) := by
      intro r; unfold ArrayRepr.add_bit; rw [show ArrayRepr.split_bit (discr u) = _ from hsplit]; rfl
    have f3 : ∀ r : ArrayRepr size,
        ArrayRepr.remove_bit r (discr u) = ArrayRepr.remove_bit r (discr v) := by
      intro r; unfold ArrayRepr.remove_bit; rw [show ArrayRepr.split_bit (discr u) = _ from hsplit]; rfl
    have g1 : ∀ r : ArrayRepr size, EnumSetTypeRepr.has_bit r (discr u) =
        EnumSetTypeRepr.has_bit r (discr v) := f1
    have g2 : ∀ r : ArrayRepr size, EnumSetTypeRepr.add_bit r (discr u) =
        EnumSetTypeRepr.add_bit r (discr v) := f2
    have g3 : ∀ r : ArrayRepr size, EnumSetTypeRepr.remove_bit r (discr u) =
        EnumSetTypeRepr.remove_bit r (discr v) := f3
    refine ⟨g1 _, ?_, ?_⟩
    · exact congr (congrArg _ (g1 _)) (funext fun _ => congrArg (· >>= _) (g2 _))
    · exact congr (congrArg _ (g1 _)) (funext fun _ => congrArg (· >>= _) (g3 _))

namespace Ex

/-- `#[repr(u32)] enum { A, B = 65536 }` -/
def inpW : DeriveInput :=
  { reprAttrs := [some "u32"]
    variants := [{ ident := "A" }, { ident := "B", discriminant := some (.lit 65536) }] }

end Ex

/-- Such an enum exists: on a target with 16-bit `usize` the derive and rustc accept
`#[repr(u32)] enum { A, B = 65536 }`, its sets are stored in an array, and the two variants are
confused. -/
theorem C44_alias_exists : ∃ (_ : Platform) (inp : DeriveInput) (T : EnumSetType) (u v : T.Val),
    derive inp = .ok T ∧ RustcAccepts inp ∧ u ≠ v ∧
    ∀ s : EnumSet T, s.contains u = s.contains v := by
  letI : Platform := { usizeBits := 16, usize_ok := .inl rfl, overflowChecks := true }
  have acc : Acceptable Ex.inpW := (deriveInfo_iff _).mp ⟨_, rfl⟩
  obtain ⟨T, hT⟩ := (C30_accepts Ex.inpW).mpr acc
  have hn : T.n = 2 := (core_of_derive hT).n_eq
  have h0 := (core_of_derive hT).rustc ⟨0, by omega⟩
  have h1 := (core_of_derive hT).rustc ⟨1, by omega⟩
  have e0 : T.discr ⟨0, by omega⟩ = 0 := by
    have : (rustcDiscriminants Ex.inpW.variants)[0]? = some 0 := by decide
    rw [show (rustcDiscriminants Ex.inpW.variants)[0]? = _ from h0] at this
    injection this with this
    omega
  have e1 : T.discr ⟨1, by omega⟩ = 65536 := by
    have : (rustcDiscriminants Ex.inpW.variants)[1]? = some 65536 := by decide
    rw [show (rustcDiscriminants Ex.inpW.variants)[1]? = _ from h1] at this
    injection this with this
    omega
  refine ⟨inferInstance, Ex.inpW, T, ⟨0, by omega⟩, ⟨1, by omega⟩, hT, ?_, ?_, fun s => ?_⟩
  · exact ⟨by decide, by decide, by decide, by decide, by decide⟩
  · intro h; injection h with h; cases h
  · exact (C44_alias hT rfl (N := 1025) (by decide) (by rw [e0, e1]) s).1

open scoped Ex in
example := C44_fits Ex.hL (by decide)
open scoped Ex in
example := C44_fits_int Ex.hT (w := 8) (by decide)
open scoped Ex in
example := C44_own_bit Ex.hL (by decide) Ex.lB Ex.lC

end Enumset
