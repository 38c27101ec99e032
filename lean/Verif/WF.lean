import Verif.DeriveAccepts
/-!
# Helper: every derived type is well formed

`WF T` collects what the proofs about `set.rs` need to know about a derived type; `wf_of_derive`
establishes it for every output of the derive macro.
-/
set_option autoImplicit false

namespace Enumset

open EnumSetTypeRepr (WIDTH)

/-- See the module comment. -/
structure WF [Platform] (T : EnumSetType) where
  lawful : LawfulRepr T.Repr
  discr_inj : ∀ {u v : T.Val}, T.discr u = T.discr v → u = v
  discr_lt : ∀ v : T.Val, T.discr v < T.BIT_WIDTH
  bw_le : T.BIT_WIDTH ≤ WIDTH T.Repr
  bw_lt : T.BIT_WIDTH < 2 ^ usizeBits
  all_bit : ∀ i, lawful.bit T.ALL_BITS i = true ↔ ∃ v : T.Val, T.discr v = i
  into_ok : ∀ v, T.enum_into_u32 v = .ok (T.discr v)
  from_ok : ∀ v, T.enum_from_u32 (T.discr v) = .ok v
  val_eq_ok : ∀ a b, T.val_eq a b = .ok (decide (a = b))
  count_eq : T.VARIANT_COUNT = T.n
  only_ok : ∀ v, ∃ r, T.const_only v = .ok r ∧ ∀ i, lawful.bit r i = decide (i = T.discr v)
  union_ok : ∀ a b, ∃ r, T.const_union a b = .ok r ∧
    ∀ i, lawful.bit r i = (lawful.bit a i || lawful.bit b i)
  inter_ok : ∀ a b, ∃ r, T.const_intersection a b = .ok r ∧
    ∀ i, lawful.bit r i = (lawful.bit a i && lawful.bit b i)
  symm_ok : ∀ a b, ∃ r, T.const_symmetric_difference a b = .ok r ∧
    ∀ i, lawful.bit r i = (lawful.bit a i ^^ lawful.bit b i)
  compl_ok : ∀ a, ∃ r, T.const_complement a = .ok r ∧
    ∀ i, lawful.bit r i = (!lawful.bit a i && lawful.bit T.ALL_BITS i)
  serde_fits : ∀ k, T.serde.supported_variants = some k → T.BIT_WIDTH ≤ k
  lit_ok : ∀ lit, T.allLit = some lit → ∀ i, lit.testBit i = lawful.bit T.ALL_BITS i
  pref_lt : EnumSetTypeRepr.PREFERRED_ARRAY_LEN T.Repr < 2 ^ usizeBits

/-! ### the mask -/

theorem wbit_append_zeros (l : List U64) (k i : Nat) :
    wbit (l ++ List.replicate k 0) i = wbit l i := by
  unfold wbit
  simp only [List.getD]
  by_cases h : i / 64 < l.length
  · rw [List.getElem?_append_left h]
  · rw [List.getElem?_append_right (by omega)]
    have : l[i / 64]? = none := by simp; omega
    rw [this]
    by_cases h2 : i / 64 - l.length < k
    · simp [h2]
    · simp [h2]

theorem wbit_setL (l : List U64) (k : Nat) (hk : k < l.length) (x : U64) (i : Nat) :
    wbit (l.set k x) i = if i / 64 = k then x.getLsbD (i % 64) else wbit l i := by
  unfold wbit
  simp only [List.getD, List.getElem?_set]
  by_cases h : i / 64 = k
  · simp [h, hk]
  · simp [h, Ne.symm h]

theorem wbit_variantMapStep (vec : List U64) (d i : Nat) :
    wbit (EnumSetInfo.variantMapStep vec d) i = (wbit vec i || decide (i = d)) := by
  unfold EnumSetInfo.variantMapStep
  simp only
  rw [wbit_setL _ _ (by simp; omega), wbit_append_zeros]
  by_cases h : i / 64 = d / 64
  · rw [if_pos h, BitVec.getLsbD_or, getLsbD_shl1 _ _ (by omega)]
    have e1 : (i % 64 = d % 64) ↔ i = d := by omega
    have e2 : ((vec ++ List.replicate (d / 64 + 1 - vec.length) 0).getD (d / 64) 0).getLsbD (i % 64)
        = wbit (vec ++ List.replicate (d / 64 + 1 - vec.length) 0) i := by
      unfold wbit
      rw [h]
    rw [e2, wbit_append_zeros]
    simp [e1]
  · rw [if_neg h]
    have : i ≠ d := fun e => h (by rw [e])
    simp [this]

theorem wbit_variant_map_aux (vs : List EnumSetValue) (acc : List U64) (i : Nat) :
    wbit (vs.foldl (fun vec v => EnumSetInfo.variantMapStep vec v.variant_repr) acc) i = true ↔
      wbit acc i = true ∨ i ∈ vs.map (·.variant_repr) := by
  induction vs generalizing acc with
  | nil => simp
  | cons v vs ih =>
    rw [List.foldl_cons, ih, wbit_variantMapStep]
    simp [or_assoc]

theorem wbit_variant_map (info : EnumSetInfo) (i : Nat) :
    wbit info.variant_map i = true ↔ i ∈ info.variants.map (·.variant_repr) := by
  unfold EnumSetInfo.variant_map
  rw [wbit_variant_map_aux]
  have : wbit [0] i = false := by
    have := wbit_replicate 1 i
    simpa using this
  rw [this]
  simp

theorem getD_bit (ws : List U64) (k j : Nat) (hj : j < 64) :
    (ws.getD k 0).getLsbD j = wbit ws (64 * k + j) := by
  unfold wbit
  have e1 : (64 * k + j) / 64 = k := by omega
  have e2 : (64 * k + j) % 64 = j := by omega
  rw [e1, e2]

theorem getD_bit0 (ws : List U64) (i : Nat) :
    (ws.getD 0 0).getLsbD i = (decide (i < 64) && wbit ws i) := by
  by_cases h : i < 64
  · have := getD_bit ws 0 i h
    simp only [Nat.mul_zero, Nat.zero_add] at this
    simp only [this, h, decide_true, Bool.true_and]
  · rw [BitVec.getLsbD_of_ge _ _ (by omega)]
    simp [h]

theorem lit128_bit (ws : List U64) (i : Nat) :
    (castBV 128 (ws.getD 0 0) |||
      ((ws[1]?).elim (0 : U128) fun x => castBV 128 x <<< 64)).getLsbD i =
      (decide (i < 128) && wbit ws i) := by
  have e : ((ws[1]?).elim (0 : U128) fun x => castBV 128 x <<< 64) =
      castBV 128 (ws.getD 1 0) <<< 64 := by
    cases h : ws[1]? with
    | none => simp [List.getD, h, castBV]
    | some x => simp [List.getD, h]
  rw [e, getLsbD_two]
  by_cases h : i < 64
  · have h2 : i < 128 := by omega
    rw [if_pos h, getD_bit0]
    simp [h, h2]
  · rw [if_neg h]
    by_cases h2 : i < 128
    · rw [getD_bit ws 1 (i - 64) (by omega)]
      have : 64 * 1 + (i - 64) = i := by omega
      simp [this, h2]
    · rw [BitVec.getLsbD_of_ge _ _ (by omega)]
      simp [h2]

theorem lt_of_bits (x k : Nat) (h : ∀ i, x.testBit i = true → i < k) : x < 2 ^ k := by
  apply Nat.lt_pow_two_of_testBit
  intro i hi
  cases hb : x.testBit i with
  | false => rfl
  | true => have := h i hb; omega

/-! ### the generated enum conversions -/

theorem nodup_length_le (B : Nat) (ds : List Nat) (hn : ds.Nodup) (h : ∀ d ∈ ds, d < B) :
    ds.length ≤ B := by
  induction B generalizing ds with
  | zero =>
    cases ds with
    | nil => exact Nat.le_refl _
    | cons d ds => exact absurd (h d (by simp)) (by omega)
  | succ B ih =>
    by_cases hB : B ∈ ds
    · have := ih (ds.erase B) (hn.erase B) (by
        intro d hd
        rw [hn.mem_erase_iff] at hd
        have := h d hd.2
        omega)
      rw [List.length_erase_of_mem hB] at this
      omega
    · have := ih ds hn (by
        intro d hd
        have := h d hd
        have : d ≠ B := by rintro rfl; exact hB hd
        omega)
      omega

section

variable {n : Nat} {discr : Fin n → Nat}

theorem genInto_ok (hlt : ∀ v, discr v < 2 ^ 32) (v : Fin n) : genInto n discr v = .ok (discr v) := by
  have : n ≠ 0 := by have := v.isLt; omega
  simp [genInto, this, castW_of_lt (hlt v)]

theorem genFrom_ok (hinj : ∀ u v, discr u = discr v → u = v) (v : Fin n) :
    genFrom n discr (discr v) = .ok v := by
  have h0 : n ≠ 0 := by have := v.isLt; omega
  unfold genFrom
  rw [dif_neg h0]
  by_cases h1 : n = 1
  · rw [dif_pos h1]
    congr 1
    apply Fin.ext
    have := v.isLt
    simp only
    omega
  · rw [dif_neg h1]
    cases hf : (List.finRange n).find? (fun i => discr i == discr v) with
    | none =>
      have := List.find?_eq_none.mp hf v (by simp)
      simp at this
    | some i =>
      have := List.find?_some hf
      have : i = v := hinj _ _ (by simpa using this)
      simp [this]

theorem genEq_ok (hinj : ∀ u v, discr u = discr v → u = v) (hlt : ∀ v, discr v < 2 ^ 32)
    (a b : Fin n) : genEq n discr a b = .ok (decide (a = b)) := by
  have h0 : n ≠ 0 := by have := a.isLt; omega
  unfold genEq
  rw [if_neg h0, castW_of_lt (hlt a), castW_of_lt (hlt b)]
  congr 1
  by_cases h : a = b
  · simp [h]
  · have : discr a ≠ discr b := fun e => h (hinj _ _ e)
    simp [h, this]

variable [Platform]

/-- What both code generators need. -/
structure GenOk (n : Nat) (discr : Fin n → Nat) (bw : Nat) (info : EnumSetInfo) : Prop where
  inj : ∀ u v, discr u = discr v → u = v
  lt : ∀ v, discr v < bw
  bw_pos : 0 < bw
  bw32 : bw < 2 ^ 32
  fits : bw < 2 ^ usizeBits
  n_lt : n < 2 ^ 32
  sfits : ∀ k, info.serde_repr.supported_variants = some k → bw ≤ k

/-- The generated code for integer representations is well formed. -/
def wfPrim {w pal bw lit : Nat} {info : EnumSetInfo} (hw : prim.Ok w pal)
    (h : GenOk n discr bw info) (hbw : bw ≤ w) (hall : ∀ i, lit.testBit i = true ↔ ∃ v, discr v = i) :
    WF (genPrim w pal n discr discr lit bw info) :=
  have hlt32 : ∀ v, discr v < 2 ^ 32 := fun v => Nat.lt_trans (h.lt v) h.bw32
  have hofNat : ∀ i, (BitVec.ofNat w lit).getLsbD i = lit.testBit i := by
    intro i
    rw [BitVec.getLsbD_ofNat]
    cases hb : lit.testBit i with
    | false => simp
    | true =>
      have : i < w := by
        obtain ⟨v, hv⟩ := (hall i).mp hb
        have := h.lt v
        omega
      simp [this]
  { lawful := lawfulPrim hw
    discr_inj := fun {u v} e => h.inj u v e
    discr_lt := h.lt
    bw_le := hbw
    bw_lt := h.fits
    all_bit := fun i => by
      change (BitVec.ofNat w lit).getLsbD i = true ↔ _
      rw [hofNat, hall]
      rfl
    into_ok := genInto_ok hlt32
    from_ok := genFrom_ok h.inj
    val_eq_ok := genEq_ok h.inj hlt32
    count_eq := castW_of_lt h.n_lt
    only_ok := fun v => by
      have hv : discr v < w := Nat.lt_of_lt_of_le (h.lt v) hbw
      have hv' : castW w (discr v) = discr v := castW_of_lt (Nat.lt_trans hv Nat.lt_two_pow_self)
      refine ⟨⟨1#w <<< discr v⟩, ?_, fun i => getLsbD_shl1 _ _ hv⟩
      simp [genPrim, hv', shl1_ok hv]
    union_ok := fun a b => ⟨_, rfl, fun i => BitVec.getLsbD_or⟩
    inter_ok := fun a b => ⟨_, rfl, fun i => BitVec.getLsbD_and⟩
    symm_ok := fun a b => ⟨_, rfl, fun i => BitVec.getLsbD_xor⟩
    compl_ok := fun a => ⟨_, rfl, fun i => by
      change (~~~ a.v &&& BitVec.ofNat w lit).getLsbD i =
        (!a.v.getLsbD i && (BitVec.ofNat w lit).getLsbD i)
      rw [BitVec.getLsbD_and, BitVec.getLsbD_not]
      by_cases hi : i < w
      · simp [hi]
      · rw [BitVec.getLsbD_of_ge (BitVec.ofNat w lit) i (by omega)]
        simp⟩
    serde_fits := h.sfits
    lit_ok := fun l hl i => by
      have hl : some lit = some l := hl
      injection hl with hl
      subst hl
      exact (hofNat i).symm
    pref_lt := by
      change pal < 2 ^ usizeBits
      have h2 : pal ≤ 2 := by rcases hw with h | h <;> omega
      have h3 : 2 ^ 16 ≤ 2 ^ usizeBits := by
        apply Nat.pow_le_pow_right (by omega)
        rcases Target.usize_ok with h | h | h <;> rw [show usizeBits = _ from h] <;> omega
      omega }

/-- The generated code for array representations is well formed. -/
def wfArray {size bw : Nat} {info : EnumSetInfo} {all : Vector U64 size}
    (h0 : 0 < size) (hN : 64 * size < 2 ^ 32) (hu : size < 2 ^ usizeBits)
    (h : GenOk n discr bw info) (hbw : bw ≤ 64 * size)
    (hall : ∀ i, wbit all.toList i = true ↔ ∃ v, discr v = i) :
    WF (genArray size n discr discr all bw info) :=
  have hlt32 : ∀ v, discr v < 2 ^ 32 := fun v => Nat.lt_trans (h.lt v) h.bw32
  { lawful := lawfulArray h0 hN hu
    discr_inj := fun {u v} e => h.inj u v e
    discr_lt := h.lt
    bw_le := by
      change bw ≤ ArrayRepr.WIDTH size
      rw [ArrayRepr.WIDTH_eq hN]
      exact hbw
    bw_lt := h.fits
    all_bit := hall
    into_ok := genInto_ok hlt32
    from_ok := genFrom_ok h.inj
    val_eq_ok := genEq_ok h.inj hlt32
    count_eq := castW_of_lt h.n_lt
    only_ok := fun v => by
      have hv := h.lt v
      have h1 : castW 32 (discr v) = discr v := castW_of_lt (hlt32 v)
      have h2 : castW usizeBits (discr v) = discr v :=
        castW_of_lt (Nat.lt_trans hv h.fits)
      have hk : discr v / 64 < size := by omega
      refine ⟨⟨(Vector.replicate size 0).set (discr v / 64)
        ((Vector.replicate size (0 : U64))[discr v / 64] ||| 1#64 <<< (discr v % 64))⟩, ?_, ?_⟩
      · simp [genArray, h1, h2, shl1_ok (show discr v % 64 < 64 by omega), idxV_ok hk, setV_ok hk]
      · intro i
        change wbit (Vector.set _ _ _ hk).toList i = decide (i = discr v)
        rw [wbit_set _ _ hk]
        by_cases e : i / 64 = discr v / 64
        · rw [if_pos e, BitVec.getLsbD_or, getLsbD_shl1 _ _ (by omega)]
          have : (i % 64 = discr v % 64) ↔ i = discr v := by omega
          simp [this]
        · rw [if_neg e, ArrayRepr.wbit_replicate_vec]
          have : i ≠ discr v := fun hh => e (by rw [hh])
          simp [this]
    union_ok := ArrayRepr.bitor_ok
    inter_ok := ArrayRepr.bitand_ok
    symm_ok := ArrayRepr.bitxor_ok
    compl_ok := fun a => by
      apply mapLoop_bits _ (fun i x => ~~~ x &&& all.getD i 0)
      · intro i hi s
        rw [idxV_ok hi, Res.ok_bind, idxV_ok hi, Res.ok_bind, setV_ok hi]
        simp [Vector.getD, hi]
      · intro i hi
        change _ = (!wbit a.a.toList i && wbit all.toList i)
        have : i % 64 < 64 := by omega
        rw [wbit_vec _ i hi, wbit_vec _ i hi]
        simp [Vector.getD, hi, this]
      · intro i hi
        change (!wbit a.a.toList i && wbit all.toList i) = false
        simp [wbit_vec_ge _ i hi]
    serde_fits := h.sfits
    lit_ok := fun l hl i => by
      have hl : none = some l := hl
      cases hl
    pref_lt := hu }

end

/-! ### what the macro generates -/

section

/-- The integer types among the storage choices, with width and preferred array length. -/
def primOf : InternalRepr → Option (Nat × Nat)
  | .u8 => some (8, 1)
  | .u16 => some (16, 1)
  | .u32 => some (32, 1)
  | .u64 => some (64, 1)
  | .u128 => some (128, 2)
  | .array _ => none

theorem primOf_ok {r : InternalRepr} {w pal : Nat} (h : primOf r = some (w, pal)) :
    prim.Ok w pal ∧ r.supported_variants = w := by
  cases r <;> simp [primOf] at h <;> obtain ⟨rfl, rfl⟩ := h <;>
    simp [prim.Ok, InternalRepr.supported_variants]

theorem toNat_testBit {w : Nat} (x : BitVec w) (i : Nat) : x.toNat.testBit i = x.getLsbD i := rfl

theorem mem_reprs {info : EnumSetInfo} (i : Nat) :
    i ∈ info.variants.map (·.variant_repr) ↔
      ∃ v : Fin info.variants.length, info.variants[v].variant_repr = i := by
  rw [List.mem_map]
  constructor
  · rintro ⟨x, hx, rfl⟩
    obtain ⟨k, hk, rfl⟩ := List.mem_iff_getElem.mp hx
    exact ⟨⟨k, hk⟩, rfl⟩
  · rintro ⟨⟨k, hk⟩, rfl⟩
    exact ⟨_, List.getElem_mem hk, rfl⟩

theorem InfoOk.mem_le {inp : DeriveInput} {info : EnumSetInfo} (h : InfoOk inp info) {i : Nat}
    (hi : wbit info.variant_map i = true) : i ≤ info.max_discrim := by
  rw [wbit_variant_map, h.reprs] at hi
  rw [h.max]
  exact mem_le_maxD _ _ _ hi

theorem InfoOk.discr_eq {inp : DeriveInput} {info : EnumSetInfo} (h : InfoOk inp info)
    (i : Fin info.variants.length) :
    ((rustcDiscriminants inp.variants).getD i.val 0).toNat = info.variants[i].variant_repr := by
  have e : rustcDiscriminants inp.variants = (dsFrom 0 inp.variants).map Int.ofNat :=
    rustc_eq 0 inp.variants h.lits
  rw [e, ← h.reprs]
  simp

theorem array_size {inp : DeriveInput} {info : EnumSetInfo} (h : InfoOk inp info) {size : Nat}
    (hr : info.internal_repr = .array size) : size = (info.max_discrim + 64) / 64 := by
  have hint : EnumSetInfo.IntRepr info.explicit_internal_repr := by
    rw [h.expl]; exact bind_internal_int _
  unfold EnumSetInfo.internal_repr at hr
  cases he : info.explicit_internal_repr with
  | some x =>
    rw [he] at hr
    simp only at hr
    subst hr
    exact absurd he (hint size)
  | none =>
    rw [he] at hr
    simp only at hr
    split at hr
    · cases hr
    split at hr
    · cases hr
    split at hr
    · cases hr
    split at hr
    · cases hr
    injection hr with hr
    exact hr.symm

variable [Platform]

/-- The shape of the generated items. -/
inductive GenShape (info : EnumSetInfo) : EnumSetType → Prop
  | prim (w pal lit : Nat) (hr : primOf info.internal_repr = some (w, pal))
      (discr : Fin info.variants.length → Nat) (hd : ∀ i, discr i = info.variants[i].variant_repr)
      (hl : ∀ i, lit.testBit i = true ↔ ∃ v, discr v = i) :
      GenShape info
        (genPrim w pal info.variants.length discr discr lit (info.max_discrim + 1) info)
  | array (size : Nat) (hr : info.internal_repr = .array size) (all : Vector U64 size)
      (discr : Fin info.variants.length → Nat) (hd : ∀ i, discr i = info.variants[i].variant_repr)
      (hl : ∀ i, wbit all.toList i = true ↔ ∃ v, discr v = i) :
      GenShape info
        (genArray size info.variants.length discr discr all (info.max_discrim + 1) info)

theorem impl_ok {inp : DeriveInput} {info : EnumSetInfo} (h : InfoOk inp info) :
    ∃ T, enum_set_type_impl info
      (fun i => ((rustcDiscriminants inp.variants).getD i.val 0).toNat) = .ok T ∧
      GenShape info T := by
  have hd : (fun i : Fin info.variants.length =>
      ((rustcDiscriminants inp.variants).getD i.val 0).toNat) =
      fun i => info.variants[i].variant_repr := funext h.discr_eq
  rw [hd]
  have hmax : ¬ info.max_discrim + 1 ≥ 2 ^ 32 := by have := h.max_lt; omega
  have hf := h.fits
  have h64 : info.max_discrim < 64 → ∀ i,
      (info.variant_map.getD 0 0).toNat.testBit i = true ↔
        ∃ v : Fin info.variants.length, info.variants[v].variant_repr = i := by
    intro hm i
    rw [toNat_testBit, getD_bit0, ← mem_reprs, ← wbit_variant_map]
    constructor
    · intro hh; simp at hh; exact hh.2
    · intro hh
      have := h.mem_le hh
      simp [hh]; omega
  have h64lt : ∀ w, info.max_discrim < w → w ≤ 64 →
      (info.variant_map.getD 0 0).toNat < 2 ^ w := by
    intro w hw hw2
    apply lt_of_bits
    intro i hi
    rw [toNat_testBit, getD_bit0] at hi
    simp at hi
    have := h.mem_le hi.2
    omega
  unfold enum_set_type_impl
  simp only
  rw [if_neg hmax]
  cases hr : info.internal_repr with
  | u8 =>
    rw [hr] at hf
    simp only [InternalRepr.supported_variants] at hf
    simp only [checkLit]
    rw [if_pos (h64lt 8 hf (by omega))]
    exact ⟨_, rfl, .prim 8 1 _ (by rw [hr]; rfl) _ (fun _ => rfl) (h64 (by omega))⟩
  | u16 =>
    rw [hr] at hf
    simp only [InternalRepr.supported_variants] at hf
    simp only [checkLit]
    rw [if_pos (h64lt 16 hf (by omega))]
    exact ⟨_, rfl, .prim 16 1 _ (by rw [hr]; rfl) _ (fun _ => rfl) (h64 (by omega))⟩
  | u32 =>
    rw [hr] at hf
    simp only [InternalRepr.supported_variants] at hf
    simp only [checkLit]
    rw [if_pos (h64lt 32 hf (by omega))]
    exact ⟨_, rfl, .prim 32 1 _ (by rw [hr]; rfl) _ (fun _ => rfl) (h64 (by omega))⟩
  | u64 =>
    rw [hr] at hf
    simp only [InternalRepr.supported_variants] at hf
    simp only [checkLit]
    rw [if_pos (h64lt 64 hf (by omega))]
    exact ⟨_, rfl, .prim 64 1 _ (by rw [hr]; rfl) _ (fun _ => rfl) (h64 (by omega))⟩
  | u128 =>
    rw [hr] at hf
    simp only [InternalRepr.supported_variants] at hf
    simp only [checkLit]
    rw [if_pos (BitVec.isLt _)]
    refine ⟨_, rfl, .prim 128 2 _ (by rw [hr]; rfl) _ (fun _ => rfl) ?_⟩
    intro i
    rw [toNat_testBit, lit128_bit, ← mem_reprs, ← wbit_variant_map]
    constructor
    · intro hh; simp at hh; exact hh.2
    · intro hh
      have := h.mem_le hh
      simp [hh]; omega
  | array size =>
    rw [hr] at hf
    simp only [InternalRepr.supported_variants] at hf
    refine ⟨_, rfl, .array size hr _ _ (fun _ => rfl) ?_⟩
    intro i
    rw [← mem_reprs, ← wbit_variant_map]
    by_cases hi : i < 64 * size
    · rw [wbit_vec _ i (by omega)]
      simp only [Vector.getElem_ofFn]
      rw [getD_bit _ _ _ (by omega)]
      have : 64 * (i / 64) + i % 64 = i := by omega
      rw [this]
    · rw [wbit_vec_ge _ i (by omega)]
      constructor
      · intro hh; cases hh
      · intro hh
        have := h.mem_le hh
        omega

theorem derive_shape {inp : DeriveInput} {T : EnumSetType} (hT : derive inp = .ok T) :
    ∃ info, deriveInfo inp = .ok info ∧ InfoOk inp info ∧ GenShape info T := by
  unfold derive at hT
  split at hT
  · cases hT
  rename_i info hinfo
  have hok := deriveInfo_ok hinfo
  obtain ⟨T', e, hs⟩ := impl_ok hok
  rw [e] at hT
  injection hT with hT
  subst hT
  exact ⟨info, hinfo, hok, hs⟩

omit [Platform] in
theorem InfoOk.core {inp : DeriveInput} {info : EnumSetInfo} (h : InfoOk inp info)
    (discr : Fin info.variants.length → Nat) (hd : ∀ i, discr i = info.variants[i].variant_repr) :
    (∀ u v, discr u = discr v → u = v) ∧ (∀ v, discr v < info.max_discrim + 1) ∧
      info.variants.length < 2 ^ 32 := by
  have hnd : (info.variants.map (·.variant_repr)).Nodup := by rw [h.reprs]; exact h.nodup
  have hmem : ∀ d ∈ info.variants.map (·.variant_repr), d ≤ info.max_discrim := by
    rw [h.reprs, h.max]; exact fun d hd => mem_le_maxD _ _ _ hd
  have hmax := h.max_lt
  refine ⟨?_, ?_, ?_⟩
  · intro u v e
    rw [hd, hd] at e
    apply Fin.ext
    have hp := List.pairwise_iff_getElem.mp hnd
    have hu := u.isLt
    have hv := v.isLt
    rcases Nat.lt_trichotomy u.val v.val with hlt | heq | hlt
    · exact absurd (by simpa using e) (hp u.val v.val (by simp) (by simp) hlt)
    · exact heq
    · exact absurd (by simpa using e.symm) (hp v.val u.val (by simp) (by simp) hlt)
  · intro v
    have := hmem (discr v) ((mem_reprs _).mpr ⟨v, (hd v).symm⟩)
    omega
  · have := nodup_length_le 0xFFFFFFC0 _ hnd (by intro d hd; have := hmem d hd; omega)
    simp at this
    omega

theorem wf_of_shape {inp : DeriveInput} {info : EnumSetInfo} (h : InfoOk inp info)
    {T : EnumSetType} (hs : GenShape info T) (hfit : Fits T) : Nonempty (WF T) := by
  have key : ∀ discr : Fin info.variants.length → Nat,
      (∀ i, discr i = info.variants[i].variant_repr) → info.max_discrim + 1 < 2 ^ usizeBits →
      GenOk info.variants.length discr (info.max_discrim + 1) info := by
    intro discr hd hfit
    have hmax := h.max_lt
    obtain ⟨h1, h2, h3⟩ := h.core discr hd
    exact ⟨h1, h2, by omega, by omega, hfit, h3, fun k hk => h.sfits k hk⟩
  have hf := h.fits
  cases hs with
  | prim w pal lit hr discr hd hl =>
    obtain ⟨hw, hsz⟩ := primOf_ok hr
    exact ⟨wfPrim hw (key discr hd hfit) (by omega) hl⟩
  | array size hr all discr hd hl =>
    have hsize := array_size h hr
    have hmax := h.max_lt
    have hfit' : info.max_discrim + 1 < 2 ^ usizeBits := hfit
    exact ⟨wfArray (by omega) (by omega) (by omega) (key discr hd hfit) (by omega) hl⟩

/-- Every derived type is well formed. -/
theorem wf_of_derive {inp : DeriveInput} {T : EnumSetType} (hT : derive inp = .ok T)
    (hfit : Fits T) : Nonempty (WF T) := by
  obtain ⟨info, -, hok, hs⟩ := derive_shape hT
  exact wf_of_shape hok hs hfit

theorem shape_bw {info : EnumSetInfo} {T : EnumSetType} (hs : GenShape info T) :
    T.BIT_WIDTH = info.max_discrim + 1 := by
  cases hs <;> rfl

/-- `Fits` is automatic unless `usize` has 16 bits. -/
theorem fits_of_usize {inp : DeriveInput} {T : EnumSetType} (hT : derive inp = .ok T)
    (hu : usizeBits ≠ 16) : Fits T := by
  obtain ⟨info, -, hok, hs⟩ := derive_shape hT
  have hmax := hok.max_lt
  unfold Fits
  rw [shape_bw hs]
  rcases Target.usize_ok with h | h | h
  · exact absurd h hu
  · rw [show usizeBits = 32 from h]; omega
  · rw [show usizeBits = 64 from h]; omega

end

end Enumset
