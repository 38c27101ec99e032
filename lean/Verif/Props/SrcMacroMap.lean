import Verif.Props.SrcMacro
/-!
# C70: `EnumSetInfo::variant_map`
-/
set_option autoImplicit false
set_option linter.unusedSectionVars false
set_option linter.unusedSimpArgs false

namespace Enumset.Src

/-- A loop over the items of a list. -/
theorem items_sim {H σ α γ : Type} (enc : σ → Env H) (encA : α → Val H) {P : σ → Prop} {xs : List α} {s : σ}
    {f : Val H → Env H → Res (Out H)} {g : σ → α → σ} {env : Env H}
    {K : Val H → Env H → Res (Out H)} {fin : Out H → Res γ} {r : Res γ}
    (he : env = enc s) (hP : P s)
    (h : ∀ a ∈ xs, ∀ s, P s → P (g s a) ∧ ∃ v, f (encA a) (enc s) = .ok (.val v (enc (g s a))))
    (hK : ∀ v, K v (enc (xs.foldl g s)) >>= fin = r) :
    Out.andThen (forItems f (xs.map encA) env) K >>= fin = r := by
  subst he
  induction xs generalizing s with
  | nil => exact hK .unit
  | cons x xs ih =>
    obtain ⟨hp, v, hv⟩ := h x (by simp) s hP
    simp only [List.map, forItems, hv, Res.ok_bind]
    exact ih hp (fun a ha => h a (by simp [ha])) hK

/-- Putting the bit `b` into the word `x` -/
theorem bor_shl [Platform] {C : Ctx Code} (x : U64) {α : Type} (K : Val Code → Res α) {b : Nat} (h : b < 64) :
    (shl1 NumTy.u64.bits b >>= fun a => binVal C .bor (word x) (bv .u64 a) >>= K) =
      K (word (x ||| 1#64 <<< b)) := by
  have h1 : shl1 NumTy.u64.bits b = (.ok (1#64 <<< b) : Res (BitVec 64)) := shl1_ok (w := 64) h
  rw [h1]
  exact congrArg (· >>= K) (bor_word C x _)

/-- `while idx >= vec.len() { vec.push(0); }` -/
theorem while_fill {idx : Nat} (enc : List U64 → Env Code) {c body : Env Code → Res (Out Code)}
    (hc : ∀ l, c (enc l) = .ok (.val (.bool (decide (l.length ≤ idx))) (enc l)))
    (hb : ∀ l, l ≠ [] → ∃ v, body (enc l) = .ok (.val v (enc (l ++ [0]))))
    {l : List U64} {fuel : Nat} {env : Env Code} (he : env = enc l) (hl : l ≠ []) (hf : idx + 1 < fuel) :
    whileLoop c body fuel env = .ok (.val .unit (enc (l ++ List.replicate (idx + 1 - l.length) 0))) := by
  subst he
  have : ∀ m fuel l, l ≠ [] → idx + 1 - l.length = m → m < fuel →
      whileLoop c body fuel (enc l) = .ok (.val .unit (enc (l ++ List.replicate m 0))) := by
    intro m
    induction m with
    | zero =>
      intro fuel l _ hm hf
      obtain ⟨fuel, rfl⟩ := Nat.exists_eq_succ_of_ne_zero (show fuel ≠ 0 by omega)
      simp [whileLoop, hc, show ¬ l.length ≤ idx by omega]
    | succ m ih =>
      intro fuel l hl hm hf
      obtain ⟨fuel, rfl⟩ := Nat.exists_eq_succ_of_ne_zero (show fuel ≠ 0 by omega)
      obtain ⟨v, hv⟩ := hb l hl
      simp only [whileLoop, hc, show l.length ≤ idx by omega, decide_true, Res.ok_bind, hv]
      rw [ih fuel (l ++ [0]) (by simp) (by simp; omega) (by omega)]
      simp [List.replicate_succ]
  exact this _ _ l hl rfl (by omega)

section
variable [Host] {fuel : Nat} (k : Nat) (c : Env Code) (cs : List (Val Code))
variable (cr : Option String) (hdr : Header) (info : EnumSetInfo)

theorem m_push_zero (l : List U64) (hl : l ≠ []) :
    macroCall fuel k "array" "push" c cs [words l, .lit 0] = .ok (.unit, [(0, words (l ++ [0]))]) := by
  rw [mbase (fn := fun _ _ args => match args with
    | [.arr xs, v] => .ok (.unit, [(0, .arr (xs ++ [match xs with
      | x :: _ => x.exp.adopt v
      | [] => v]))])
    | _ => .ub) rfl rfl]
  cases l with
  | nil => exact absurd rfl hl
  | cons x l => simp [words, word, Val.exp, Exp.adopt]

theorem bv_u64 (x : U64) : (bv .u64 x : Val Code) = word x := rfl
theorem tag_words (l : List U64) : (words l : Val Code).tag = "array" := rfl

theorem C70_variant_map (hf : 2 ^ 26 ≤ fuel) (hh : 32 ≤ usizeBits)
    (h : ∀ v ∈ info.variants, v.variant_repr < 0xFFFFFFC0) :
    macroCall fuel (k + 1) "EnumSetInfo" "variant_map" c cs [encInfo cr hdr info] =
      .ok (words info.variant_map, []) := by
  rw [mcall_of (d := DeriveRs.EnumSetInfo_variant_map) rfl]
  mrun [DeriveRs.EnumSetInfo_variant_map, iterate]
  refine items_sim (fun l => [("vec", words l), ("self", encInfo cr hdr info)]) encValue
    (g := fun vec v => EnumSetInfo.variantMapStep vec v.variant_repr) (P := (· ≠ [])) (s := [0]) rfl (by simp)
    ?_ ?_
  · intro v hv l hl
    have hv := h v hv
    have h2 := Nat.pow_le_pow_right (show 0 < 2 by omega) hh
    have h1 : castW usizeBits v.variant_repr = v.variant_repr := Nat.mod_eq_of_lt (by omega)
    refine ⟨?_, .unit, ?_⟩
    · simp [EnumSetInfo.variantMapStep, hl]
    mrun [encValue, h1]
    rw [while_fill (idx := v.variant_repr / 64) (fun l => [("bit", .int .u32 (v.variant_repr % 64)), ("idx", .int .usize (v.variant_repr / 64)),
      ("variant", .struct "EnumSetValue" [("name", ident v.name), ("variant_repr", .int .u32 v.variant_repr)]), ("vec", words l), ("self", encInfo cr hdr info)]) ?_ ?_ rfl hl]
    · mrun [encValue, h1, index_words, set_words, shl_one, bor_word, adopt_words, bv_u64]
      generalize hl' : l ++ List.replicate (v.variant_repr / 64 + 1 - l.length) 0#64 = l'
      have hi : v.variant_repr / 64 < l'.length := by subst hl'; simp; omega
      simp only [idxL, hi, dite_true, Res.ok_bind]
      rw [bor_shl _ _ (Nat.mod_lt _ (by omega))]
      simp only [Res.ok_bind, set_words, setL, hi, if_true]
      simp [EnumSetInfo.variantMapStep, hl', List.getD_eq_getElem?_getD, List.getElem?_eq_getElem hi]
    · omega
    · intro l
      mrun [encValue, h1, len_words]
    · intro l hl
      mrun [encValue, h1, m_push_zero, hl, tag_words, adopt_words]
  · intro v
    mrun [adopt_words, EnumSetInfo.variant_map]
end
end Enumset.Src
