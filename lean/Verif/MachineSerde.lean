import Verif.MachineLemmas
import Verif.Props.SerdeMore
/-!
# Helper lemmas for histories: serialization
-/
set_option autoImplicit false
set_option linter.unusedSectionVars false

namespace Enumset

namespace Hist

variable [Platform] {inp : DeriveInput} {T : EnumSetType}

theorem compiles_eq (hT : derive inp = .ok T) :
    Serde.compiles T = (layoutOf inp).serializable := by
  rw [Bool.eq_iff_iff, C40_compiles hT]
  simp only [layoutOf, Layout.serializable]
  cases inp.attrs.serialize_deny_unknown <;> cases formatOf inp <;> cases storageOf inp <;> simp

theorem numOfWidth_format (hT : derive inp = .ok T) {w : Nat} (hf : formatOf inp = .int w) :
    ∃ t : NumTy, t ≠ .usize ∧ w = t.bits ∧ numOfWidth w = some t := by
  have h := (serde_facts hT).format.symm.trans hf
  cases hs : T.serde <;> rw [hs] at h <;> simp [SerdeRepr.format] at h <;> subst h
  · exact ⟨.u8, by decide, rfl, rfl⟩
  · exact ⟨.u16, by decide, rfl, rfl⟩
  · exact ⟨.u32, by decide, rfl, rfl⟩
  · exact ⟨.u64, by decide, rfl, rfl⟩
  · exact ⟨.u128, by decide, rfl, rfl⟩

theorem largest_spec {n : Nat} (discr : Fin n → Nat) (A : Fin n → Bool) (h : ¬ ∀ v, A v = false) :
    ∃ v, A v = true ∧ discr v = largest discr A ∧ ∀ u, A u = true → discr u ≤ discr v := by
  have key : ∀ (l : List (Fin n)) (m : Nat),
      m ≤ l.foldl (fun m v => Nat.max m (discr v)) m ∧
      (∀ v ∈ l, discr v ≤ l.foldl (fun m v => Nat.max m (discr v)) m) ∧
      (l.foldl (fun m v => Nat.max m (discr v)) m = m ∨
        ∃ v ∈ l, discr v = l.foldl (fun m v => Nat.max m (discr v)) m) := by
    intro l
    induction l with
    | nil => intro m; simp
    | cons v l ih =>
      intro m
      obtain ⟨h1, h2, h3⟩ := ih (Nat.max m (discr v))
      rw [List.foldl_cons]
      have e1 : m ≤ Nat.max m (discr v) := Nat.le_max_left _ _
      have e2 : discr v ≤ Nat.max m (discr v) := Nat.le_max_right _ _
      refine ⟨by omega, ?_, ?_⟩
      · intro u hu
        rcases List.mem_cons.mp hu with rfl | hu
        · omega
        · exact h2 u hu
      · rcases h3 with h3 | ⟨u, hu, h3⟩
        · have : Nat.max m (discr v) = m ∨ Nat.max m (discr v) = discr v := by
            change max m (discr v) = m ∨ max m (discr v) = discr v
            omega
          rcases this with h | h
          · exact .inl (by omega)
          · exact .inr ⟨v, by simp, by omega⟩
        · exact .inr ⟨u, by simp [hu], h3⟩
  obtain ⟨h1, h2, h3⟩ := key ((List.finRange n).filter A) 0
  have hmem : ∀ v, v ∈ (List.finRange n).filter A ↔ A v = true := by simp
  obtain ⟨u, hu⟩ : ∃ u, A u = true := by
    apply Classical.byContradiction
    intro hn
    apply h
    intro v
    cases hv : A v with
    | false => rfl
    | true => exact absurd ⟨v, hv⟩ hn
  have hle : ∀ v, A v = true → discr v ≤ largest discr A := fun v hv => h2 v ((hmem v).mpr hv)
  rcases h3 with h3 | ⟨v, hv, h3⟩
  · have h0 : largest discr A = 0 := h3
    refine ⟨u, hu, ?_, fun v hv => ?_⟩
    · have := hle u hu; omega
    · have := hle v hv; omega
  · have e : discr v = largest discr A := h3
    exact ⟨v, (hmem v).mp hv, e, fun u hu => by rw [e]; exact hle u hu⟩

theorem ofVal_self : (ofVal (T := T) rfl) = id := rfl
theorem toVal_self : (toVal (T := T) rfl) = id := rfl

/-- Serialization. -/
theorem serialize_agrees (hT : derive inp = .ok T) (hfit : Fits T) {s : EnumSet T} (hs : Safe s)
    {A : T.Val → Bool} (hA : Members s A) (hc : (layoutOf inp).serializable = true) :
    serObs rfl <$> Serde.serialize s = .ok (serialized T.discr (layoutOf inp) A) := by
  unfold serialized
  rw [hc, if_pos rfl]
  cases hf : formatOf inp with
  | int w =>
    obtain ⟨t, ht, rfl, hw⟩ := numOfWidth_format hT hf
    obtain ⟨x, e, hx⟩ := C36_serialize hT hfit ht hf hs hA
    simp only [layoutOf, hf, hw, e, Res.map_ok, serObs]
    have : x = BitVec.ofNat t.bits (mask T.discr A) := by
      apply BitVec.eq_of_getLsbD_eq
      intro i hi
      rw [Bool.eq_iff_iff, hx, BitVec.getLsbD_ofNat, decide_eq_true hi, Bool.true_and,
        mask_testBit]
      rfl
    rw [this]
  | list =>
    simp only [layoutOf, hf, C37_serialize_list hT hfit hf hs hA, Res.map_ok, serObs, ofVal_self,
      List.map_id]
  | map =>
    simp only [layoutOf, hf, C37_serialize_map hT hfit hf hs hA, Res.map_ok, serObs, ofVal_self,
      List.map_map, Function.comp_def, id]
  | array =>
    obtain ⟨ws, e, h1, h2⟩ := C50_length hT hfit hf hs hA
    obtain ⟨-, ws', -, -, e', -, hb, -⟩ := C38_serialize hT hfit hf hs hA
    rw [e] at e'
    injection e' with e'
    injection e' with e'
    subst e'
    simp only [layoutOf, hf, e, Res.map_ok, serObs]
    split
    · next h => rw [h1 h]
    · next h =>
      obtain ⟨v, hv, hl, hm⟩ := largest_spec T.discr A h
      have hlen := h2 v hv hm
      rw [hl] at hlen
      have : ws = toWords (Nat.min (storageOf inp).words (largest T.discr A / 64 + 2))
          (mask T.discr A) := by
        apply words_ext
        · rw [hlen, toWords_length]
        · intro i
          rw [toWords_wbit, Bool.eq_iff_iff, Bool.and_eq_true, decide_eq_true_iff, mask_testBit]
          refine ⟨fun h => ⟨?_, (hb i).mp h⟩, fun h => (hb i).mpr h.2⟩
          apply Classical.byContradiction
          intro hn
          rw [wbit_of_ge (by rw [hlen]; exact Nat.le_of_not_lt hn)] at h
          cases h
      rw [this]

/-- Deserialization, as the command `deserialize` uses it. -/
def Reads (r : Option (Res (Except (DeError Unit) (EnumSet T)))) : Read T.n → Prop
  | .set A => ∃ s, r = some (.ok (.ok s)) ∧ Safe s ∧ Members s A
  | .refused false => r = some (.ok (.error (.de ())))
  | .refused true => r = some (.ok (.error .unknownBits))
  | .panic p => r = some (.panic p)
  | .unavailable => r = none

theorem deserialize_none (hT : derive inp = .ok T) (x : Data T.n) (broken : Bool)
    (h : match formatOf inp, x with
      | .int w, .int t _ => numOfWidth w ≠ some t
      | .list, .seq _ | .map, .map _ | .array, .words _ => False
      | _, _ => True) :
    Serde.deserialize (T := T) (x.input rfl broken) = none := by
  have hF := (serde_facts hT).format
  rw [hF] at h
  unfold Serde.deserialize
  cases hs : T.serde <;> rw [hs] at h <;> cases x with
    | int t x => cases t <;> first | rfl | exact absurd rfl h | exact absurd h id
    | seq vs => first | rfl | exact absurd h id
    | map es => first | rfl | exact absurd h id
    | words ws => first | rfl | exact absurd h id

theorem items_ok {α β : Type} (f : α → β) (xs : List α) :
    items f false xs = (xs.map f).map .ok := by
  simp [items]
theorem items_broken {α β : Type} (f : α → β) (xs : List α) :
    items f true xs = (xs.map f).map .ok ++ .error () :: [] := by
  simp [items]

theorem read_agrees (hT : derive inp = .ok T) (hfit : Fits T)
    (hc : (layoutOf inp).serializable = true) (x : Data T.n) (broken : Bool) :
    Reads (Serde.deserialize (T := T) (x.input rfl broken))
      (x.read T.discr (layoutOf inp) broken) := by
  unfold Data.read
  rw [hc, if_pos rfl]
  have hN := deserialize_none hT x broken
  cases hf : formatOf inp with
  | int w =>
    rw [hf] at hN
    obtain ⟨t, ht, rfl, hw⟩ := numOfWidth_format hT hf
    cases x with
    | int t' x =>
      simp only [layoutOf, hf]
      by_cases htt : numOfWidth t.bits = some t'
      · rw [if_pos htt]
        obtain rfl : t = t' := by rw [hw] at htt; injection htt
        have hk : known T.discr x.toNat = true ↔ OnlyVariants T x.getLsbD := by
          rw [known_iff]
          unfold OnlyVariants
          simp only [BitVec.testBit_toNat]
        simp only [BitVec.testBit_toNat]
        cases hd : inp.attrs.serialize_deny_unknown with
        | false =>
          obtain ⟨-, h1, h2⟩ := C36_default hT hfit ht hf hd (E := Unit)
          cases broken with
          | true => exact h2 ()
          | false =>
            obtain ⟨s, e, hm⟩ := h1 x
            exact ⟨s, e, .deserialize e, hm⟩
        | true =>
          have hcc : Serde.compiles T = true := (compiles_eq hT).trans hc
          obtain ⟨h1, h2, h3⟩ := C36_deny_partial hT hfit ht hf hd hcc (E := Unit)
          cases broken with
          | true => exact h3 ()
          | false =>
            cases hkn : known T.discr x.toNat with
            | true =>
              obtain ⟨s, e, hm⟩ := h1 x (hk.mp hkn)
              exact ⟨s, e, .deserialize e, hm⟩
            | false => exact h2 x (fun h => by rw [hk.mpr h] at hkn; cases hkn)
      · rw [if_neg htt]
        exact hN htt
    | seq vs => simp only [layoutOf, hf]; exact hN trivial
    | map es => simp only [layoutOf, hf]; exact hN trivial
    | words ws => simp only [layoutOf, hf]; exact hN trivial
  | list =>
    rw [hf] at hN
    cases x with
    | seq vs =>
      simp only [layoutOf, hf]
      obtain ⟨⟨s, e, hm⟩, h2⟩ := C37_deserialize_list hT hfit hf (E := Unit) vs
      cases broken with
      | true =>
        have := h2 () []
        simp only [Data.input, items_broken, toVal_self, List.map_id]
        exact this
      | false =>
        simp only [Data.input, items_ok, toVal_self, List.map_id]
        exact ⟨s, e, .deserialize e, hm⟩
    | int t x => simp only [layoutOf, hf]; exact hN trivial
    | map es => simp only [layoutOf, hf]; exact hN trivial
    | words ws => simp only [layoutOf, hf]; exact hN trivial
  | map =>
    rw [hf] at hN
    cases x with
    | map es =>
      simp only [layoutOf, hf]
      obtain ⟨⟨s, e, hm⟩, h2⟩ := C37_deserialize_map hT hfit hf (E := Unit) es
      have hid : es.map (fun x => (toVal (T := T) rfl x.1, x.2)) = es := List.map_id _
      cases broken with
      | true =>
        have := h2 () []
        simp only [Data.input, items_broken, hid]
        exact this
      | false =>
        simp only [Data.input, items_ok, hid]
        exact ⟨s, e, .deserialize e, hm⟩
    | int t x => simp only [layoutOf, hf]; exact hN trivial
    | seq es => simp only [layoutOf, hf]; exact hN trivial
    | words ws => simp only [layoutOf, hf]; exact hN trivial
  | array =>
    rw [hf] at hN
    cases x with
    | words ws =>
      simp only [layoutOf, hf]
      obtain ⟨h1, h2⟩ := C50_reads hT hfit hf (E := Unit) ws
      have hk : known T.discr (ofWords (ws.take (storageOf inp).words)) = true ↔
          OnlyVariants T (wbit (ws.take (storageOf inp).words)) := by
        rw [known_iff]
        unfold OnlyVariants
        simp only [ofWords_testBit]
      cases broken with
      | true =>
        have := C39_error hT hfit hf ws () []
        simp only [Data.input, items_broken, List.map_id]
        exact this
      | false =>
        simp only [Data.input, items_ok, List.map_id, ofWords_testBit]
        cases hkn : known T.discr (ofWords (ws.take (storageOf inp).words)) with
        | true =>
          obtain ⟨s, e, hm⟩ := h1 (hk.mp hkn)
          exact ⟨s, e, .deserialize e, hm⟩
        | false => exact h2 (fun h => by rw [hk.mpr h] at hkn; cases hkn)
    | int t x => simp only [layoutOf, hf]; exact hN trivial
    | seq es => simp only [layoutOf, hf]; exact hN trivial
    | map ws => simp only [layoutOf, hf]; exact hN trivial

end Hist

end Enumset
