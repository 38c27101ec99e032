import Verif.SpecRustc
import Verif.Props.Derive
/-!
# Property C55 (and C44): the derive macro and the compiler's own checks of the enum
-/
set_option autoImplicit false

namespace Enumset

theorem discrType_mem (u : Nat) (inp : DeriveInput) :
    discrType u inp = (-2 ^ (u - 1), 2 ^ (u - 1) - 1) ∨
    ∃ s, some s ∈ inp.reprAttrs ∧ intRange u s = some (discrType u inp) := by
  unfold discrType
  cases h : discrTypes u inp with
  | nil => exact .inl rfl
  | cons a l =>
    right
    have : a ∈ discrTypes u inp := by rw [h]; exact List.mem_cons_self ..
    obtain ⟨r, hr, e⟩ := List.mem_filterMap.mp this
    cases r with
    | none => cases e
    | some s => exact ⟨s, hr, e⟩

/-- Of the enums rustc accepts, the derive accepts exactly those within the documented limitations:
no generic parameters, no fields, literal discriminants up to `0xFFFFFFBF`, and known options with
room for all discriminants.  In particular the macro's own complaints about repeated names or
discriminants never concern a program that would compile without it. -/
theorem C55_complete [Platform] {inp : DeriveInput} (h : RustcAccepts inp) :
    (∃ T, derive inp = .ok T) ↔
      inp.hasGenerics = false ∧ inp.isEnum = true ∧
      (∀ r ∈ inp.reprAttrs, ∃ s ∈ ["C", "Rust", "u8", "u16", "u32", "u64", "u128", "usize",
        "i8", "i16", "i32", "i64", "i128", "isize"], r = some s) ∧
      (∀ v ∈ inp.variants, v.unit = true ∧
        (v.discriminant = none ∨ ∃ n, v.discriminant = some (.lit n))) ∧
      (∀ d ∈ rustcDiscriminants inp.variants, d ≤ 0xFFFFFFBF) ∧
      (∀ s, inp.attrs.repr = some s → s = "array" ∨ ∃ w, intWidth s = some w ∧
        ∀ d ∈ rustcDiscriminants inp.variants, d < w) ∧
      (∀ s, inp.attrs.serialize_repr = some s → s = "list" ∨ s = "map" ∨ s = "array" ∨
        ∃ w, intWidth s = some w ∧
          (inp.attrs.serialize_as_list = true ∨ inp.attrs.serialize_as_map = true ∨
            ∀ d ∈ rustcDiscriminants inp.variants, d < w)) := by
  rw [C30_accepts]
  constructor
  · intro A
    refine ⟨A.no_generics, A.is_enum, A.repr_attrs, fun v hv => ⟨A.fieldless v hv, A.literal v hv⟩,
      A.limit, fun s hs => ?_, fun s hs => ?_⟩
    · rcases A.repr_known s hs with h | ⟨w, hw⟩
      · exact .inl h
      · exact .inr ⟨w, hw, A.repr_wide s w hs hw⟩
    · rcases A.serialize_repr_known s hs with h | h | h | ⟨w, hw⟩
      · exact .inl h
      · exact .inr (.inl h)
      · exact .inr (.inr (.inl h))
      · refine .inr (.inr (.inr ⟨w, hw, ?_⟩))
        cases h1 : inp.attrs.serialize_as_list with
        | true => exact .inl rfl
        | false =>
          cases h2 : inp.attrs.serialize_as_map with
          | true => exact .inr (.inl rfl)
          | false => exact .inr (.inr (A.serialize_repr_wide h1 h2 s w hs hw))
  · rintro ⟨h1, h2, h3, h4, h5, h6, h7⟩
    have inj : ∀ {a b : Nat} {s : String}, intWidth s = some a → intWidth s = some b → a = b :=
      fun ha hb => Option.some.inj (ha.symm.trans hb)
    refine ⟨h1, h2, h3, ?_, ?_, fun v hv => (h4 v hv).1, h.distinct_names, fun v hv => (h4 v hv).2,
      h.distinct_discriminants, h5, ?_, ?_⟩
    · intro s hs
      rcases h6 s hs with h | ⟨w, hw, -⟩
      · exact .inl h
      · exact .inr ⟨w, hw⟩
    · intro s hs
      rcases h7 s hs with h | h | h | ⟨w, hw, -⟩
      · exact .inl h
      · exact .inr (.inl h)
      · exact .inr (.inr (.inl h))
      · exact .inr (.inr (.inr ⟨w, hw⟩))
    · intro s w hs hw
      rcases h6 s hs with rfl | ⟨w', hw', hd⟩
      · cases hw
      · exact inj hw' hw ▸ hd
    · intro hl hm s w hs hw
      rcases h7 s hs with rfl | rfl | rfl | ⟨w', hw', hd⟩
      · cases hw
      · cases hw
      · cases hw
      · rcases hd with hd | hd | hd
        · rw [hl] at hd; cases hd
        · rw [hm] at hd; cases hd
        · exact inj hw' hw ▸ hd

/-- Conversely an enum without `#[repr]` that the derive accepts is accepted by rustc for every
64-bit target, and for every target if its discriminants are below `2^15`. -/
theorem C55_sound [Platform] {inp : DeriveInput} {T : EnumSetType} (hT : derive inp = .ok T)
    (hr : inp.reprAttrs = [])
    (hd : usizeBits = 64 ∨ ∀ d ∈ rustcDiscriminants inp.variants, d < 2 ^ 15) :
    RustcAccepts inp := by
  have A := (C30_accepts inp).mp ⟨T, hT⟩
  have ht : discrType usizeBits inp = (-2 ^ (usizeBits - 1), 2 ^ (usizeBits - 1) - 1) := by
    simp [discrType, discrTypes, hr]
  refine ⟨A.distinct_names, A.distinct_discriminants, fun d h => ?_, ?_, fun _ => hr⟩
  · have h0 : 0 ≤ d := by
      obtain ⟨v, hv⟩ := (core_of_derive hT).onto d h
      omega
    have h1 := A.limit d h
    rw [ht]
    rcases hd with hd | hd
    · rw [hd]; simp; omega
    · have := hd d h
      rcases Target.usize_ok with e | e | e <;> rw [show usizeBits = _ from e] <;> simp <;> omega
  · simp [discrTypes, hr]

theorem intRange_mono {u₁ u₂ : Nat} (h : u₁ ≤ u₂) (s : String) :
    (intRange u₁ s = none ∧ intRange u₂ s = none) ∨
    ∃ a b, intRange u₁ s = some a ∧ intRange u₂ s = some b ∧ b.1 ≤ a.1 ∧ a.2 ≤ b.2 := by
  have hle : ∀ w₁ w₂ : Nat, w₁ ≤ w₂ → (2 : Int) ^ w₁ ≤ 2 ^ w₂ := by
    intro w₁ w₂ h
    have := Nat.pow_le_pow_right (by decide : 0 < 2) h
    exact_mod_cast this
  have hu := hle _ _ h
  have hs := hle (u₁ - 1) (u₂ - 1) (by omega)
  by_cases h1 : s = "usize"
  · subst h1
    exact .inr ⟨(0, 2 ^ u₁ - 1), (0, 2 ^ u₂ - 1), rfl, rfl, Int.le_refl _, by show (2 : Int) ^ u₁ - 1 ≤ _; omega⟩
  by_cases h2 : s = "isize"
  · subst h2
    exact .inr ⟨(-2 ^ (u₁ - 1), 2 ^ (u₁ - 1) - 1), (-2 ^ (u₂ - 1), 2 ^ (u₂ - 1) - 1), rfl, rfl,
      by show -(2 : Int) ^ (u₂ - 1) ≤ _; omega, by show (2 : Int) ^ (u₁ - 1) - 1 ≤ _; omega⟩
  have e : intRange u₁ s = intRange u₂ s := by simp only [intRange, h1, h2, if_false]
  cases h3 : intRange u₂ s with
  | none => exact .inl ⟨e.trans h3, rfl⟩
  | some a => exact .inr ⟨a, a, e.trans h3, rfl, Int.le_refl _, Int.le_refl _⟩

theorem discrTypes_mono {u₁ u₂ : Nat} (h : u₁ ≤ u₂) (inp : DeriveInput) :
    (discrTypes u₁ inp = [] ∧ discrTypes u₂ inp = []) ∨
    ∃ a b la lb, discrTypes u₁ inp = a :: la ∧ discrTypes u₂ inp = b :: lb ∧
      la.length = lb.length ∧ b.1 ≤ a.1 ∧ a.2 ≤ b.2 := by
  unfold discrTypes
  induction inp.reprAttrs with
  | nil => exact .inl ⟨rfl, rfl⟩
  | cons r l ih =>
    cases r with
    | none => simpa using ih
    | some s =>
      rcases intRange_mono h s with ⟨e1, e2⟩ | ⟨a, b, e1, e2, hab⟩
      · simpa [e1, e2] using ih
      · right
        refine ⟨a, b, _, _, by simp [e1]; rfl, by simp [e2]; rfl, ?_, hab⟩
        rcases ih with ⟨e3, e4⟩ | ⟨_, _, _, _, e3, e4, hl, -⟩
        · rw [e3, e4]
        · rw [e3, e4]; simp [hl]

/-- An enum that compiles for a target with a narrow `usize` compiles for one with a wider `usize`. -/
theorem C55_wider {t₁ t₂ : Target} (ht : t₁.usizeBits ≤ t₂.usizeBits) {inp : DeriveInput}
    (h : @RustcAccepts t₁ inp) : @RustcAccepts t₂ inp := by
  have hr := @RustcAccepts.in_range t₁ _ h
  have ho := @RustcAccepts.one_type t₁ _ h
  have hs : (2 : Int) ^ (t₁.usizeBits - 1) ≤ 2 ^ (t₂.usizeBits - 1) := by
    have := Nat.pow_le_pow_right (by decide : 0 < 2) (show t₁.usizeBits - 1 ≤ t₂.usizeBits - 1 by omega)
    exact_mod_cast this
  refine @RustcAccepts.mk t₂ _ (@RustcAccepts.distinct_names t₁ _ h)
    (@RustcAccepts.distinct_discriminants t₁ _ h) (fun d hd => ?_) ?_ (@RustcAccepts.empty t₁ _ h)
  · have hr := hr d hd
    simp only [usizeBits] at hr ⊢
    unfold discrType at hr ⊢
    rcases discrTypes_mono ht inp with ⟨e1, e2⟩ | ⟨a, b, la, lb, e1, e2, -, h1, h2⟩
    · rw [e1] at hr
      rw [e2]
      simp only [List.headD_nil] at hr ⊢
      omega
    · rw [e1] at hr
      rw [e2]
      simp only [List.headD_cons] at hr ⊢
      omega
  · simp only [usizeBits] at ho ⊢
    rcases discrTypes_mono ht inp with ⟨e1, e2⟩ | ⟨a, b, la, lb, e1, e2, hl, -⟩
    · rw [e2]; simp
    · rw [e1] at ho
      rw [e2]
      simp only [List.length_cons] at ho ⊢
      omega

/-- The hypothesis `Fits` is automatic, on every target, for the enums that compile, unless a
`#[repr]` names an integer type with room for 65535: without such an attribute rustc itself rejects
the discriminants that do not fit. -/
theorem C44_fits_default [Platform] {inp : DeriveInput} {T : EnumSetType} (hT : derive inp = .ok T)
    (h : RustcAccepts inp)
    (hr : ∀ s, some s ∈ inp.reprAttrs →
      s ∉ ["u16", "u32", "u64", "u128", "usize", "i32", "i64", "i128"]) : Fits T := by
  by_cases hu : usizeBits = 16
  · have C := core_of_derive hT
    have hub : (discrType usizeBits inp).2 ≤ 2 ^ 15 - 1 := by
      rcases discrType_mem usizeBits inp with e | ⟨s, hs, e⟩
      · rw [e, hu]; decide
      · have hn := hr s hs
        simp only [List.mem_cons, List.not_mem_nil, or_false, not_or] at hn
        obtain ⟨n1, n2, n3, n4, n5, n6, n7, n8⟩ := hn
        simp only [intRange, n1, n2, n3, n4, n5, n6, n7, n8, if_false] at e
        repeat' split at e
        all_goals first
          | (injection e with e; rw [← e]; decide)
          | (injection e with e; rw [← e, hu]; decide)
          | cases e
    unfold Fits
    rw [C.bw, hu]
    rcases C.attained with e | ⟨v, e⟩
    · rw [e]; decide
    · have := h.in_range (T.discr v) (List.mem_of_getElem? (C.rustc v))
      rw [e] at this
      have h2 := this.2
      have : (2 : Int) ^ 15 - 1 = 32767 := rfl
      have : (2 : Nat) ^ 16 = 65536 := rfl
      omega
  · exact C44_fits hT hu

namespace Ex

/-- 16-bit `usize` -/
@[instance_reducible] def target16 : Target := { usizeBits := 16, usize_ok := .inl rfl }

theorem rustcT (t : Target) : @RustcAccepts t inpT := by
  refine ⟨by decide, by decide, ?_, Nat.zero_le _, fun h => nomatch h⟩
  have : ∀ d ∈ rustcDiscriminants inpT.variants, 0 ≤ d ∧ d ≤ 4 := by decide
  intro d hd
  have := this d hd
  have : discrType t.usizeBits inpT = (-2 ^ (t.usizeBits - 1), 2 ^ (t.usizeBits - 1) - 1) := rfl
  rw [this]
  rcases t.usize_ok with e | e | e <;> rw [e] <;> simp <;> omega

/-- `#[repr(u8)] enum { A, B = 300 }` -/
def inpRc : DeriveInput where
  reprAttrs := [some "u8"]
  variants := [{ ident := "A" }, { ident := "B", discriminant := some (.lit 300) }]

end Ex

open scoped Ex in
example := (C55_complete (Ex.rustcT _)).mp ⟨_, Ex.hT⟩
open scoped Ex in
example : RustcAccepts Ex.inpL := C55_sound Ex.hL rfl (.inl rfl)
example (t : Target) (h : 16 ≤ t.usizeBits) : @RustcAccepts t Ex.inpT :=
  C55_wider (t₁ := Ex.target16) h (Ex.rustcT _)
/-- `#[repr(u8)] enum { A, B = 300 }` satisfies the derive but not rustc. -/
example [Platform] : (∃ T, derive Ex.inpRc = .ok T) ∧ ¬ RustcAccepts Ex.inpRc :=
  ⟨(C30_accepts _).mpr ((deriveInfo_iff _).mp ⟨_, rfl⟩), fun h =>
    absurd (h.in_range 300 (by decide)).2 (by
      have : discrType usizeBits Ex.inpRc = (0, 2 ^ 8 - 1) := rfl
      rw [this]; decide)⟩
/-- With 16-bit `usize`, rustc rejects `enum { A, B = 65536 }` and accepts it with `#[repr(u32)]`. -/
example : ¬ @RustcAccepts Ex.target16 { Ex.inpW with reprAttrs := [] } := fun h =>
  absurd (@RustcAccepts.in_range Ex.target16 _ h 65536 (by decide)).2 (by decide)
open scoped Ex in
example : Fits Ex.T := C44_fits_default Ex.hT (Ex.rustcT _) (fun _ h => nomatch h)

end Enumset
