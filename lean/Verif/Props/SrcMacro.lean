import Verif.Src.MacroLemmas
import Verif.Bits
/-!
# C70: the text of the derive macro does what the model does

The functions of `InternalRepr`, `SerdeRepr` and `EnumSetInfo` (enumset_derive/src/lib.rs:20-318), as parsed
from the repository (`Src/DeriveRs.lean`) and run by the interpreter of C66 with the functions of `syn`,
`quote` and `std` in `Src/Macro.lean`, against `Derive.lean`.  The macro runs on the machine of the compiler,
so `usize` there is at least 32 bits wide.
-/
set_option autoImplicit false
set_option linter.unusedSectionVars false
set_option linter.unusedSimpArgs false

namespace Enumset.Src

/-- What a function of the macro that returns `Result<(), Error>` and changes `self` answers. -/
def Pushed (crate : Option String) (hdr : Header) (r : Except DeriveErr EnumSetInfo)
    (o : Res (Val Code × List (Nat × Val Code))) : Prop :=
  match r with
  | .ok info => o = .ok (.ok .unit, [(0, encInfo crate hdr info)])
  | .error e => ∃ w, o = .ok (.err (encErr e), [(0, w)])

section
variable [Host] {fuel : Nat} (k : Nat) (c : Env Code) (cs : List (Val Code))

theorem C70_crate_error (sp : Val Code) (msg : String) :
    macroCall fuel (k + 1) "crate" "error" c cs [sp, .str msg] =
      .ok (.err (synError sp (.str msg)), []) := by
  rw [mcall_of (d := DeriveRs.crate_error) rfl]
  mrun [DeriveRs.crate_error]

theorem C70_serde_supported_variants (r : SerdeRepr) :
    macroCall fuel (k + 1) "SerdeRepr" "supported_variants" c cs [encSerde r] =
      .ok (opt (.int .usize) r.supported_variants, []) := by
  rw [mcall_of (d := DeriveRs.SerdeRepr_supported_variants) rfl]
  cases r <;> mrun [DeriveRs.SerdeRepr_supported_variants, encSerde, SerdeRepr.supported_variants, opt]

theorem C70_supported_variants (r : InternalRepr) (h : ∀ n, r = .array n → n * 64 < 2 ^ usizeBits) :
    macroCall fuel (k + 1) "InternalRepr" "supported_variants" c cs [encRepr r] =
      .ok (.int .usize r.supported_variants, []) := by
  rw [mcall_of (d := DeriveRs.InternalRepr_supported_variants) rfl]
  cases r with
  | array n =>
    have := Enumset.mulW_ok (h n rfl)
    mrun [DeriveRs.InternalRepr_supported_variants, encRepr, InternalRepr.supported_variants, mulW_usize,
      this]
  | _ => mrun [DeriveRs.InternalRepr_supported_variants, encRepr, InternalRepr.supported_variants]

variable (cr : Option String) (hdr : Header) (info : EnumSetInfo)

theorem C70_push_repr (ty : String) :
    Pushed cr hdr (info.push_repr ty)
      (macroCall fuel (k + 2) "EnumSetInfo" "push_repr" c cs
        [encInfo cr hdr info, encSpan .repr, .str ty]) := by
  rw [mcall_of (d := DeriveRs.EnumSetInfo_push_repr) rfl]
  unfold EnumSetInfo.push_repr
  split
  case h_7 h1 h2 h3 h4 h5 h6 =>
    mrun [DeriveRs.EnumSetInfo_push_repr, C70_crate_error, Pushed, encErr, Ne.symm h1, Ne.symm h2,
      Ne.symm h3, Ne.symm h4, Ne.symm h5, Ne.symm h6]
    simp [toString, String.append_assoc]
  all_goals mrun [DeriveRs.EnumSetInfo_push_repr, C70_crate_error, Pushed]

theorem C70_push_serialize_repr (ty : String) :
    Pushed cr hdr (info.push_serialize_repr ty)
      (macroCall fuel (k + 2) "EnumSetInfo" "push_serialize_repr" c cs
        [encInfo cr hdr info, encSpan .serializeRepr, .str ty]) := by
  rw [mcall_of (d := DeriveRs.EnumSetInfo_push_serialize_repr) rfl]
  unfold EnumSetInfo.push_serialize_repr
  split
  case h_9 h1 h2 h3 h4 h5 h6 h7 h8 =>
    mrun [DeriveRs.EnumSetInfo_push_serialize_repr, C70_crate_error, Pushed, encErr, Ne.symm h1,
      Ne.symm h2, Ne.symm h3, Ne.symm h4, Ne.symm h5, Ne.symm h6, Ne.symm h7, Ne.symm h8]
    simp [toString, String.append_assoc]
  all_goals mrun [DeriveRs.EnumSetInfo_push_serialize_repr, C70_crate_error, Pushed]

theorem C70_serde_repr :
    macroCall fuel (k + 1) "EnumSetInfo" "serde_repr" c cs [encInfo cr hdr info] =
      .ok (encSerde info.serde_repr, []) := by
  rw [mcall_of (d := DeriveRs.EnumSetInfo_serde_repr) rfl]
  unfold EnumSetInfo.serde_repr
  cases h : info.explicit_serde_repr with
  | some x => mrun [DeriveRs.EnumSetInfo_serde_repr, h]
  | none =>
    mrun [DeriveRs.EnumSetInfo_serde_repr, h]
    repeat' split
    all_goals first | rfl | simp

theorem C70_internal_repr (h : info.max_discrim + 64 < 2 ^ usizeBits) :
    macroCall fuel (k + 1) "EnumSetInfo" "internal_repr" c cs [encInfo cr hdr info] =
      .ok (encRepr info.internal_repr, []) := by
  rw [mcall_of (d := DeriveRs.EnumSetInfo_internal_repr) rfl]
  unfold EnumSetInfo.internal_repr
  have h1 : castW usizeBits info.max_discrim = info.max_discrim := Nat.mod_eq_of_lt (by omega)
  cases hx : info.explicit_internal_repr with
  | some x => mrun [DeriveRs.EnumSetInfo_internal_repr, hx]
  | none =>
    cases hf : info.internal_repr_force_array <;>
    mrun [DeriveRs.EnumSetInfo_internal_repr, hx, h1, Enumset.addW_ok h, hf]
    repeat' split
    all_goals first | rfl | simp

/-- The array has at most 64 bits more than needed. -/
theorem array_fits (ha : ∀ n, info.explicit_internal_repr ≠ some (.array n)) (n : Nat)
    (hn : info.internal_repr = .array n) : n * 64 ≤ info.max_discrim + 64 := by
  unfold EnumSetInfo.internal_repr at hn
  revert hn
  split
  · intro hn; subst hn; exact absurd ‹_› (ha n)
  · simp only []
    repeat' split
    all_goals intro hn; injection hn
    omega

theorem C70_validate (hh : 32 ≤ usizeBits) (h : info.max_discrim < 0xFFFFFFC0)
    (ha : ∀ n, info.explicit_internal_repr ≠ some (.array n)) :
    macroCall fuel (k + 2) "EnumSetInfo" "validate" c cs [encInfo cr hdr info] =
      match info.validate with
      | .ok _ => .ok (.ok .unit, [])
      | .error e => .ok (.err (encErr e), []) := by
  have h2 := Nat.pow_le_pow_right (show 0 < 2 by omega) hh
  rw [mcall_of (d := DeriveRs.EnumSetInfo_validate) rfl]
  have h1 : castW usizeBits info.max_discrim = info.max_discrim := Nat.mod_eq_of_lt (by omega)
  have h64 : info.max_discrim + 64 < 2 ^ usizeBits := by omega
  have hi := fun c cs => C70_internal_repr (fuel := fuel) k c cs cr hdr info h64
  have hr := fun c cs => C70_supported_variants (fuel := fuel) k c cs info.internal_repr
    fun n hn => Nat.lt_of_le_of_lt (array_fits info ha n hn) h64
  have hl : ¬ 0xFFFFFFC0 ≤ info.max_discrim := by omega
  have hl2 : ¬ 2 ^ 32 ≤ info.internal_repr.supported_variants := by
    cases hx : info.internal_repr with
    | array n => have := array_fits info ha n hx; simp only [InternalRepr.supported_variants]; omega
    | _ => simp [InternalRepr.supported_variants]
  unfold EnumSetInfo.validate
  cases hs : info.max_discrim_span <;> cases hv : info.serde_repr.supported_variants <;>
    mrun [DeriveRs.EnumSetInfo_validate, h1, hi, hr, C70_serde_repr, C70_serde_supported_variants, C70_crate_error, hs, hv,
      hl, hl2] <;>
    repeat' split
  all_goals simp_all [encErr, throw, throwThe, MonadExceptOf.throw, bind, Except.bind, pure, Except.pure]
  all_goals subst_vars; rfl

theorem C70_new (input : DeriveInput) (v : Val Code) (hv : SynInput input hdr v) (a : EnumsetAttrs)
    (hc : ∀ x, a.crate_name = some x → Host.isIdent x = true) :
    macroCall fuel (k + 1) "EnumSetInfo" "new" c cs [v, encAttrs a] =
      .ok (encInfo a.crate_name hdr (EnumSetInfo.new a), []) := by
  rw [mcall_of (d := DeriveRs.EnumSetInfo_new) rfl]
  cases hv
  cases h : a.crate_name with
  | none => mrun [DeriveRs.EnumSetInfo_new, encAttrs, encInfo, EnumSetInfo.new, h]
  | some x =>
    have hx := hc x h
    mrun [DeriveRs.EnumSetInfo_new, encAttrs, encInfo, EnumSetInfo.new, h, hx]

/-- `Ident::new` panics if `crate_name` is no identifier. -/
theorem C70_new_panic (input : DeriveInput) (v : Val Code) (hv : SynInput input hdr v) (a : EnumsetAttrs) (x : String)
    (h : a.crate_name = some x) (hx : Host.isIdent x = false) :
    macroCall fuel (k + 1) "EnumSetInfo" "new" c cs [v, encAttrs a] = .panic (.explicit "not a valid identifier") := by
  rw [mcall_of (d := DeriveRs.EnumSetInfo_new) rfl]
  cases hv
  mrun [DeriveRs.EnumSetInfo_new, encAttrs, encInfo, EnumSetInfo.new, h, hx]

/-- The cases of `push_variant`, in the model. -/
theorem model_push_variant (v : Variant) :
    info.push_variant v =
      if v.ident ∈ info.used_variant_names then
        .error (.msg (.variant info.variants.length) "Duplicated variant name.")
      else if v.unit = false then .error (.msg (.variant info.variants.length)
        "`#[derive(EnumSetType)]` can only be used on fieldless enums.")
      else match EnumSetInfo.parseDiscriminant info.variants.length info.cur_discrim v.discriminant with
      | .error e => .error e
      | .ok cur =>
        if 0xFFFFFFC0 ≤ cur then .error (.msg (.variant info.variants.length)
          "Maximum discriminant allowed is `0xFFFFFFBF`.")
        else if cur ∈ info.used_discriminants then
          .error (.msg (.variant info.variants.length) "Duplicated enum discriminant.")
        else if info.max_discrim < cur then .ok { info with
            cur_discrim := cur + 1
            max_discrim := cur
            max_discrim_span := some (.variant info.variants.length)
            variants := info.variants ++ [{ name := v.ident, variant_repr := cur }]
            used_variant_names := v.ident :: info.used_variant_names
            used_discriminants := cur :: info.used_discriminants }
        else .ok { info with
            cur_discrim := cur + 1
            variants := info.variants ++ [{ name := v.ident, variant_repr := cur }]
            used_variant_names := v.ident :: info.used_variant_names
            used_discriminants := cur :: info.used_discriminants } := by
  unfold EnumSetInfo.push_variant
  by_cases hn : v.ident ∈ info.used_variant_names
  · simp [hn]
  cases hu : v.unit
  · simp [hn]
  cases hp : EnumSetInfo.parseDiscriminant info.variants.length info.cur_discrim v.discriminant with
  | error e => simp [hn, hp, bind, Except.bind]
  | ok cur =>
    by_cases h1 : 0xFFFFFFC0 ≤ cur
    · simp [hn, hp, bind, Except.bind, h1, throw, throwThe, MonadExceptOf.throw]
    by_cases h2 : cur ∈ info.used_discriminants
    · simp [hn, hp, bind, Except.bind, h1, h2, throw, throwThe, MonadExceptOf.throw]
    have h3 : ¬ 4294967295 ≤ cur := by omega
    by_cases h4 : info.max_discrim < cur
    · simp [hn, hp, bind, Except.bind, h1, h2, h3, h4, pure, Except.pure]
    · simp [hn, hp, bind, Except.bind, h1, h2, h3, h4, pure, Except.pure]

set_option maxHeartbeats 2000000 in
theorem C70_push_variant (v : Variant) (w : Val Code) (hw : SynVariant info.variants.length v w) :
    Pushed cr hdr (info.push_variant v)
      (macroCall fuel (k + 2) "EnumSetInfo" "push_variant" c cs [encInfo cr hdr info, w]) := by
  rw [mcall_of (d := DeriveRs.EnumSetInfo_push_variant) rfl, model_push_variant]
  obtain ⟨cc, fs, d, hc, hd⟩ := hw
  by_cases hn : v.ident ∈ info.used_variant_names
  · mrun [DeriveRs.EnumSetInfo_push_variant, C70_crate_error, hn, Pushed, encErr]
  by_cases hu : cc = "Unit"
  case neg =>
    have : v.unit = false := by simp [hc, hu]
    mrun [DeriveRs.EnumSetInfo_push_variant, C70_crate_error, hn, Pushed, encErr, this, Ne.symm hu]
  subst hu
  have : v.unit = true := by simp [hc]
  rw [if_neg hn, if_neg (by simp [this])]
  generalize v.discriminant = vd at hd
  cases hd with
  | none =>
    simp only [EnumSetInfo.parseDiscriminant]
    by_cases h1 : 0xFFFFFFC0 ≤ info.cur_discrim
    · mrun [DeriveRs.EnumSetInfo_push_variant, C70_crate_error, hn, Pushed, encErr, h1]
    by_cases h2 : info.cur_discrim ∈ info.used_discriminants
    · mrun [DeriveRs.EnumSetInfo_push_variant, C70_crate_error, hn, Pushed, encErr, h1, h2]
    have h3 : info.cur_discrim + 1 < 2 ^ 32 := by omega
    by_cases h4 : info.max_discrim < info.cur_discrim
    · mrun [DeriveRs.EnumSetInfo_push_variant, C70_crate_error, hn, Pushed, encErr, h1, h2, Enumset.addW_ok h3, h4]
    · mrun [DeriveRs.EnumSetInfo_push_variant, C70_crate_error, hn, Pushed, encErr, h1, h2, Enumset.addW_ok h3, h4]
  | some e v h =>
    cases h with
    | lit n =>
      simp only [EnumSetInfo.parseDiscriminant]
      by_cases h0 : n < 2 ^ 32
      case neg => mrun [DeriveRs.EnumSetInfo_push_variant, C70_crate_error, hn, Pushed, encErr, h0]
      rw [if_pos h0]
      simp only []
      by_cases h1 : 0xFFFFFFC0 ≤ n
      · mrun [DeriveRs.EnumSetInfo_push_variant, C70_crate_error, hn, Pushed, encErr, h0, h1]
      by_cases h2 : n ∈ info.used_discriminants
      · mrun [DeriveRs.EnumSetInfo_push_variant, C70_crate_error, hn, Pushed, encErr, h0, h1, h2]
      have h3 : n + 1 < 2 ^ 32 := by omega
      by_cases h4 : info.max_discrim < n
      · mrun [DeriveRs.EnumSetInfo_push_variant, C70_crate_error, hn, Pushed, encErr, h0, h1, h2, Enumset.addW_ok h3, h4]
      · mrun [DeriveRs.EnumSetInfo_push_variant, C70_crate_error, hn, Pushed, encErr, h0, h1, h2, Enumset.addW_ok h3, h4]
    | neg x e =>
      mrun [DeriveRs.EnumSetInfo_push_variant, C70_crate_error, hn, Pushed, encErr, EnumSetInfo.parseDiscriminant]
    | otherLit x cc fs h =>
      mrun [DeriveRs.EnumSetInfo_push_variant, C70_crate_error, hn, Pushed, encErr, EnumSetInfo.parseDiscriminant,
        Ne.symm h]
    | otherUnary x cc fs e h =>
      mrun [DeriveRs.EnumSetInfo_push_variant, C70_crate_error, hn, Pushed, encErr, EnumSetInfo.parseDiscriminant,
        Ne.symm h]
    | other x cc fs h h' =>
      mrun [DeriveRs.EnumSetInfo_push_variant, C70_crate_error, hn, Pushed, encErr, EnumSetInfo.parseDiscriminant,
        Ne.symm h, Ne.symm h']
end
end Enumset.Src
