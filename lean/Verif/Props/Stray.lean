import Verif.Props.Storage
import Verif.Props.Conv
import Verif.Props.Derive
import Verif.Props.Serde
/-!
# Property C62: sets with bits that belong to no variant

The `unsafe` constructors `from_*_unchecked` can make sets whose storage has a one bit at a position
that is not the discriminant of a variant.  What such sets do.
-/
set_option autoImplicit false
set_option linter.unusedSectionVars false

namespace Enumset

open EnumSetTypeRepr (WIDTH)

section

variable [Platform] {T : EnumSetType}

namespace WF

variable (W : WF T)
include W

theorem hasBits (s : EnumSet T) : HasBits s (W.bit s) := fun O => W.as_array_truncated_ok O s

theorem hasBits_iff {s : EnumSet T} {p : Nat → Bool} : HasBits s p ↔ ∀ i, W.bit s i = p i := by
  constructor
  · intro h i
    obtain ⟨x, e, hx⟩ := h (i / 64 + 1)
    obtain ⟨y, e', hy⟩ := W.as_array_truncated_ok (i / 64 + 1) s
    rw [e] at e'
    injection e' with e'
    subst e'
    have := (hx i).symm.trans (hy i)
    rw [decide_eq_true (show i < 64 * (i / 64 + 1) by omega), Bool.true_and, Bool.true_and] at this
    exact this.symm
  · intro h
    rw [show p = W.bit s from funext fun i => (h i).symm]
    exact W.hasBits s

theorem bit_eq {s : EnumSet T} {p : Nat → Bool} (h : HasBits s p) : W.bit s = p :=
  funext (W.hasBits_iff.mp h)

theorem givesBits {r : Res (EnumSet T)} {p : Nat → Bool}
    (h : ∃ s, r = .ok s ∧ ∀ i, W.bit s i = p i) : GivesBits r p := by
  obtain ⟨s, e, hs⟩ := h
  exact ⟨s, e, W.hasBits_iff.mpr hs⟩

theorem isDiscr_eq (i : Nat) : isDiscr T i = W.bit EnumSet.ALL_REPR i := by
  rw [Bool.eq_iff_iff, W.bit_all, isDiscr, List.any_eq_true]
  constructor
  · rintro ⟨v, -, h⟩; exact ⟨v, by simpa using h⟩
  · rintro ⟨v, h⟩; exact ⟨v, by simp, by simpa using h⟩

theorem safe_iff_clean (s : EnumSet T) : Safe s ↔ W.Clean s := by
  refine ⟨W.clean_of_safe, fun h => ?_⟩
  have := (W.try_from_repr_ok s.priv_repr).1 h
  exact .try_from_repr this

theorem next_rep {it : EnumSetIter T} {l : List Nat} (h : W.lawful.Rep it.iter l) :
    ∃ it', W.lawful.Rep it' l.tail ∧ it.next = (match l.head? with
      | none => .ok (none, ⟨it'⟩)
      | some b => (T.enum_from_u32 b >>= fun v => .ok (some v, ⟨it'⟩))) := by
  obtain ⟨it', e, h'⟩ := h.next
  refine ⟨it', h', ?_⟩
  unfold EnumSetIter.next
  rw [e, Res.ok_bind]
  cases l with
  | nil => rfl
  | cons a l => rfl

theorem next_back_rep {it : EnumSetIter T} {l : List Nat} (h : W.lawful.Rep it.iter l) :
    ∃ it', W.lawful.Rep it' l.dropLast ∧ it.next_back = (match l.getLast? with
      | none => .ok (none, ⟨it'⟩)
      | some b => (T.enum_from_u32 b >>= fun v => .ok (some v, ⟨it'⟩))) := by
  obtain ⟨it', e, h'⟩ := h.next_back
  refine ⟨it', h', ?_⟩
  unfold EnumSetIter.next_back
  rw [e, Res.ok_bind]
  rcases snoc_cases l with rfl | ⟨l, a, rfl⟩
  · rfl
  · rw [List.getLast?_concat]; rfl


/-- The answers of a program using a list of positions, each position taken converted by `f`. -/
def runPos (W : WF T) : List IterOp → List Nat → Res (List (IterObs T.Val))
  | [], _ => .ok []
  | .next :: ops, l => do
    let r ← (match l.head? with
      | none => .ok none
      | some b => (T.enum_from_u32 b >>= fun v => .ok (some v)))
    let obs ← runPos W ops l.tail
    pure (.item r :: obs)
  | .nextBack :: ops, l => do
    let r ← (match l.getLast? with
      | none => .ok none
      | some b => (T.enum_from_u32 b >>= fun v => .ok (some v)))
    let obs ← runPos W ops l.dropLast
    pure (.item r :: obs)
  | .sizeHint :: ops, l => do
    let obs ← runPos W ops l
    pure (.size l.length (some l.length) :: obs)

theorem run_rep (hw : WIDTH T.Repr < 2 ^ usizeBits) (ops : List IterOp) :
    ∀ {it : EnumSetIter T} {l : List Nat}, W.lawful.Rep it.iter l →
      (do let (obs, _) ← runIter ops it; pure obs) = W.runPos ops l := by
  induction ops with
  | nil => intro it l _; rfl
  | cons op ops ih =>
    intro it l h
    cases op with
    | next =>
      obtain ⟨it', h', e⟩ := W.next_rep h
      simp only [runIter, runPos, ← ih (it := ⟨it'⟩) h', e]
      cases l.head? with
      | none =>
        simp only [Res.ok_bind]
        cases runIter ops (⟨it'⟩ : EnumSetIter T) <;> rfl
      | some b =>
        dsimp only
        cases T.enum_from_u32 b with
        | ok v =>
          simp only [Res.ok_bind]
          cases runIter ops (⟨it'⟩ : EnumSetIter T) <;> rfl
        | panic p => rfl
        | ub => rfl
        | diverge => rfl
    | nextBack =>
      obtain ⟨it', h', e⟩ := W.next_back_rep h
      simp only [runIter, runPos, ← ih (it := ⟨it'⟩) h', e]
      cases l.getLast? with
      | none =>
        simp only [Res.ok_bind]
        cases runIter ops (⟨it'⟩ : EnumSetIter T) <;> rfl
      | some b =>
        dsimp only
        cases T.enum_from_u32 b with
        | ok v =>
          simp only [Res.ok_bind]
          cases runIter ops (⟨it'⟩ : EnumSetIter T) <;> rfl
        | panic p => rfl
        | ub => rfl
        | diverge => rfl
    | sizeHint =>
      have e : it.size_hint = .ok (l.length, some l.length) := h.size_hint hw
      simp only [runIter, runPos, ← ih h, e, Res.ok_bind]
      cases runIter ops it <;> rfl

theorem iter_rep (s : EnumSet T) : ∃ it, s.iter = .ok it ∧
    W.lawful.Rep it.iter (positions (WIDTH T.Repr) (W.bit s)) := by
  obtain ⟨it, e, hI, h⟩ := W.lawful.iter_ok s.priv_repr
  refine ⟨⟨it⟩, by unfold EnumSet.iter; rw [e]; rfl, hI,
    List.Pairwise.filter _ List.pairwise_lt_range, fun i => ?_⟩
  rw [h i, positions, List.mem_filter, List.mem_range]
  exact ⟨fun hi => ⟨W.lawful.bit_lt hi, hi⟩, fun hi => hi.2⟩

theorem runPos_known (ops : List IterOp) : ∀ l : List Nat,
    (∀ i ∈ IterObs.items (runDeque ops l).1, ∃ v, T.discr v = i) →
    ∃ obs, W.runPos ops l = .ok obs ∧ obs.map (IterObs.map T.discr) = (runDeque ops l).1 := by
  induction ops with
  | nil => intro l _; exact ⟨[], rfl, rfl⟩
  | cons op ops ih =>
    intro l h
    cases op with
    | next =>
      simp only [runDeque] at h
      cases hl : l.head? with
      | none =>
        rw [hl] at h
        obtain ⟨obs, e, ho⟩ := ih l.tail (fun i hi => h i (by simpa [IterObs.items] using hi))
        refine ⟨.item none :: obs, ?_, ?_⟩
        · simp only [runPos, hl, Res.ok_bind, e]; rfl
        · simp only [List.map_cons, ho, runDeque, hl, IterObs.map, Option.map_none]
      | some b =>
        rw [hl] at h
        obtain ⟨obs, e, ho⟩ := ih l.tail (fun i hi => h i (by simp [IterObs.items, hi]))
        obtain ⟨v, rfl⟩ := h b (by simp [IterObs.items])
        refine ⟨.item (some v) :: obs, ?_, ?_⟩
        · simp only [runPos, hl, W.from_ok, Res.ok_bind, e]; rfl
        · simp only [List.map_cons, ho, runDeque, hl, IterObs.map, Option.map_some]
    | nextBack =>
      simp only [runDeque] at h
      cases hl : l.getLast? with
      | none =>
        rw [hl] at h
        obtain ⟨obs, e, ho⟩ := ih l.dropLast (fun i hi => h i (by simpa [IterObs.items] using hi))
        refine ⟨.item none :: obs, ?_, ?_⟩
        · simp only [runPos, hl, Res.ok_bind, e]; rfl
        · simp only [List.map_cons, ho, runDeque, hl, IterObs.map, Option.map_none]
      | some b =>
        rw [hl] at h
        obtain ⟨obs, e, ho⟩ := ih l.dropLast (fun i hi => h i (by simp [IterObs.items, hi]))
        obtain ⟨v, rfl⟩ := h b (by simp [IterObs.items])
        refine ⟨.item (some v) :: obs, ?_, ?_⟩
        · simp only [runPos, hl, W.from_ok, Res.ok_bind, e]; rfl
        · simp only [List.map_cons, ho, runDeque, hl, IterObs.map, Option.map_some]
    | sizeHint =>
      simp only [runDeque] at h
      obtain ⟨obs, e, ho⟩ := ih l (fun i hi => h i (by simpa [IterObs.items] using hi))
      refine ⟨.size l.length (some l.length) :: obs, ?_, ?_⟩
      · simp only [runPos, e, Res.ok_bind]; rfl
      · simp only [List.map_cons, ho, runDeque, IterObs.map]

theorem runPos_const (v : T.Val) (hv : ∀ b, T.enum_from_u32 b = .ok v) (ops : List IterOp) :
    ∀ l : List Nat, W.runPos ops l = .ok ((runDeque ops l).1.map (IterObs.map fun _ => v)) := by
  induction ops with
  | nil => intro l; rfl
  | cons op ops ih =>
    intro l
    cases op with
    | next =>
      simp only [runPos, runDeque, ih, hv, Res.ok_bind]
      cases l.head? <;> rfl
    | nextBack =>
      simp only [runPos, runDeque, ih, hv, Res.ok_bind]
      cases l.getLast? <;> rfl
    | sizeHint =>
      simp only [runPos, runDeque, ih, Res.ok_bind]
      rfl

theorem runPos_stray (hub : ∀ b, (∀ v, T.discr v ≠ b) → T.enum_from_u32 b = .ub)
    (ops : List IterOp) : ∀ l : List Nat,
    (∃ i ∈ IterObs.items (runDeque ops l).1, ∀ v, T.discr v ≠ i) → W.runPos ops l = .ub := by
  induction ops with
  | nil => intro l h; simp [runDeque, IterObs.items] at h
  | cons op ops ih =>
    intro l h
    cases op with
    | next =>
      simp only [runDeque] at h
      cases hl : l.head? with
      | none =>
        rw [hl] at h
        simp only [runPos, hl, Res.ok_bind, ih l.tail (by simpa [IterObs.items] using h)]
        rfl
      | some b =>
        rw [hl] at h
        by_cases hb : ∀ v, T.discr v ≠ b
        · simp only [runPos, hl, hub b hb]; rfl
        · obtain ⟨v, rfl⟩ : ∃ v, T.discr v = b := Classical.byContradiction fun hn =>
            hb fun v hv => hn ⟨v, hv⟩
          have : ∃ i ∈ IterObs.items (runDeque ops l.tail).1, ∀ v, T.discr v ≠ i := by
            obtain ⟨i, hi, hs⟩ := h
            simp only [IterObs.items, List.mem_cons] at hi
            rcases hi with rfl | hi
            · exact absurd rfl (hs v)
            · exact ⟨i, hi, hs⟩
          simp only [runPos, hl, W.from_ok, Res.ok_bind, ih l.tail this]
          rfl
    | nextBack =>
      simp only [runDeque] at h
      cases hl : l.getLast? with
      | none =>
        rw [hl] at h
        simp only [runPos, hl, Res.ok_bind, ih l.dropLast (by simpa [IterObs.items] using h)]
        rfl
      | some b =>
        rw [hl] at h
        by_cases hb : ∀ v, T.discr v ≠ b
        · simp only [runPos, hl, hub b hb]; rfl
        · obtain ⟨v, rfl⟩ : ∃ v, T.discr v = b := Classical.byContradiction fun hn =>
            hb fun v hv => hn ⟨v, hv⟩
          have : ∃ i ∈ IterObs.items (runDeque ops l.dropLast).1, ∀ v, T.discr v ≠ i := by
            obtain ⟨i, hi, hs⟩ := h
            simp only [IterObs.items, List.mem_cons] at hi
            rcases hi with rfl | hi
            · exact absurd rfl (hs v)
            · exact ⟨i, hi, hs⟩
          simp only [runPos, hl, W.from_ok, Res.ok_bind, ih l.dropLast this]
          rfl
    | sizeHint =>
      simp only [runDeque] at h
      simp only [runPos, ih l (by simpa [IterObs.items] using h)]
      rfl

end WF

theorem run_of_fst {α β : Type} {r : Res (α × β)} {x : α}
    (h : (do let (a, _) ← r; pure a) = .ok x) : ∃ b, r = .ok (x, b) := by
  cases r with
  | ok p =>
    obtain ⟨a, b⟩ := p
    injection h with h
    exact ⟨b, by rw [h]⟩
  | panic p => cases h
  | ub => cases h
  | diverge => cases h

theorem ub_of_fst {α β : Type} {r : Res (α × β)}
    (h : (do let (a, _) ← r; pure a) = (.ub : Res α)) : r = .ub := by
  cases r with
  | ok p => cases h
  | panic p => cases h
  | ub => rfl
  | diverge => cases h

variable {inp : DeriveInput}

/-- Every set, however made, is described by its bits, which are within the storage; sets with the same
bits are the same, and equality and hashing look at all the bits. -/
theorem C62_bits (hT : derive inp = .ok T) (hfit : Fits T) :
    (∀ s : EnumSet T, ∃ p, HasBits s p ∧ ∀ i, p i = true → i < (storageOf inp).bits) ∧
    (∀ (s t : EnumSet T) (p q : Nat → Bool), HasBits s p → HasBits t q →
      (s = t ↔ p = q) ∧ (s.eq t = true ↔ p = q) ∧ (s.hash = t.hash ↔ p = q)) := by
  obtain ⟨W⟩ := wf_of_derive hT hfit
  refine ⟨fun s => ⟨W.bit s, W.hasBits s, fun i hi => ?_⟩, fun s t p q hp hq => ?_⟩
  · rw [← (C31_storage hT).2.2]
    exact W.lawful.bit_lt hi
  · have key : s = t ↔ p = q := by
      rw [← W.bit_eq hp, ← W.bit_eq hq]
      exact ⟨fun h => by rw [h], fun h => W.ext (congrFun h)⟩
    refine ⟨key, (W.eq_iff s t).trans key, ?_⟩
    rw [← key]
    constructor
    · intro h
      have := W.lawful.hash_inj h
      cases s; cases t; simp only at this; rw [this]
    · intro h; rw [h]

/-- What the unchecked constructors make: the given bits as far as the storage has room; every set can
be made in this way, and the sets built without `unsafe` are exactly those without stray bits. -/
theorem C62_unchecked (hT : derive inp = .ok T) (hfit : Fits T) :
    (∀ (n : NumTy) (x : BitVec n.bits), GivesBits (EnumSet.from_num_unchecked n x : Res (EnumSet T))
      fun i => decide (i < (storageOf inp).bits) && x.getLsbD i) ∧
    (∀ (O : Nat) (x : Vector U64 O), GivesBits (EnumSet.from_array_unchecked O x : Res (EnumSet T))
      fun i => decide (i < (storageOf inp).bits) && wbit x.toList i) ∧
    (∀ x : List U64, GivesBits (EnumSet.from_slice_unchecked x : Res (EnumSet T))
      fun i => decide (i < (storageOf inp).bits) && wbit x i) ∧
    (∀ s : EnumSet T, ∃ x, s.to_vec = .ok x ∧ EnumSet.from_slice_unchecked x = .ok s) ∧
    (∀ (s : EnumSet T) (p : Nat → Bool), HasBits s p → (Safe s ↔ OnlyVariants T p)) := by
  obtain ⟨W⟩ := wf_of_derive hT hfit
  rw [← (C31_storage hT).2.2]
  refine ⟨fun n x => W.givesBits (W.from_num_unchecked_ok n x),
    fun O x => W.givesBits (W.from_array_unchecked_ok O x),
    fun x => W.givesBits (W.from_slice_unchecked_ok x), fun s => ?_, fun s p hp => ?_⟩
  · obtain ⟨x, e, -, hx⟩ := W.to_vec_ok s
    obtain ⟨t, e', ht⟩ := W.from_slice_unchecked_ok x
    refine ⟨x, e, ?_⟩
    rw [e']
    congr 1
    apply W.ext
    intro i
    rw [ht, hx]
    cases hb : W.bit s i with
    | false => simp
    | true => rw [decide_eq_true (W.lawful.bit_lt hb)]; rfl
  · rw [W.safe_iff_clean, ← W.bit_eq hp]
    rfl

/-- The operations work bit by bit and keep stray bits, except the complement, which has none. -/
theorem C62_operations (hT : derive inp = .ok T) (hfit : Fits T) {a b : EnumSet T}
    {p q : Nat → Bool} (hp : HasBits a p) (hq : HasBits b q) (v : T.Val) :
    GivesBits (a.union b) (fun i => p i || q i) ∧
    GivesBits (a.intersection b) (fun i => p i && q i) ∧
    GivesBits (a.difference b) (fun i => p i && !q i) ∧
    GivesBits (a.symmetrical_difference b) (fun i => p i != q i) ∧
    GivesBits a.complement (fun i => isDiscr T i && !p i) ∧
    GivesBits (a.insert_all b) (fun i => p i || q i) ∧
    GivesBits (a.remove_all b) (fun i => p i && !q i) ∧
    (∃ s, a.insert v = .ok (!p (T.discr v), s) ∧ HasBits s fun i => p i || decide (i = T.discr v)) ∧
    (∃ s, a.remove v = .ok (p (T.discr v), s) ∧
      HasBits s fun i => p i && !decide (i = T.discr v)) ∧
    HasBits a.clear (fun _ => false) ∧ HasBits (EnumSet.all : EnumSet T) (isDiscr T) := by
  obtain ⟨W⟩ := wf_of_derive hT hfit
  obtain rfl := W.bit_eq hp
  obtain rfl := W.bit_eq hq
  refine ⟨W.givesBits (W.union_set_ok a b), W.givesBits (W.intersection_ok a b),
    W.givesBits (W.difference_ok a b), W.givesBits (W.symmetrical_difference_ok a b), ?_,
    W.givesBits (W.union_set_ok a b), W.givesBits (W.difference_ok a b), ?_, ?_,
    W.hasBits_iff.mpr W.bit_empty, W.hasBits_iff.mpr fun i => (W.isDiscr_eq i).symm⟩
  · obtain ⟨s, e, h⟩ := W.complement_ok a
    exact W.givesBits ⟨s, e, fun i => by rw [h, W.isDiscr_eq, Bool.and_comm]⟩
  · obtain ⟨s, e, h⟩ := W.insert_ok a v
    exact ⟨s, e, W.hasBits_iff.mpr h⟩
  · obtain ⟨s, e, h⟩ := W.remove_ok a v
    exact ⟨s, e, W.hasBits_iff.mpr h⟩

/-- The tests look at all bits, `len` counts all of them; only `contains` asks for a variant. -/
theorem C62_tests (hT : derive inp = .ok T) (hfit : Fits T) {a b : EnumSet T}
    {p q : Nat → Bool} (hp : HasBits a p) (hq : HasBits b q) (v : T.Val) :
    a.contains v = .ok (p (T.discr v)) ∧
    a.len = .ok ((positions (storageOf inp).bits p).length % 2 ^ usizeBits) ∧
    (∃ r, a.is_empty = .ok r ∧ (r = true ↔ ∀ i, p i = false)) ∧
    (∃ r, a.is_subset b = .ok r ∧ (r = true ↔ ∀ i, p i = true → q i = true)) ∧
    (∃ r, a.is_superset b = .ok r ∧ (r = true ↔ ∀ i, q i = true → p i = true)) ∧
    (∃ r, a.is_disjoint b = .ok r ∧ (r = true ↔ ∀ i, ¬ (p i = true ∧ q i = true))) ∧
    (∃ r, a.eq_val v = .ok r ∧ (r = true ↔ ∀ i, p i = decide (i = T.discr v))) := by
  obtain ⟨W⟩ := wf_of_derive hT hfit
  obtain rfl := W.bit_eq hp
  obtain rfl := W.bit_eq hq
  refine ⟨W.contains_ok a v, ?_, W.is_empty_ok a, W.is_subset_ok a b, W.is_superset_ok a b,
    W.is_disjoint_ok a b, ?_⟩
  · unfold EnumSet.len
    rw [W.lawful.count_ones_ok, Res.ok_bind, ← (C31_storage hT).2.2, List.countP_eq_length_filter]
    rfl
  · obtain ⟨s, e, h⟩ := W.only_set_ok v
    refine ⟨a.eq s, by unfold EnumSet.eq_val; rw [e]; rfl, ?_⟩
    rw [W.eq_iff]
    constructor
    · rintro rfl; exact h
    · intro h'; apply W.ext; intro i; rw [h', h]

/-- Exports show stray bits.  The checked imports refuse such an export and the truncating ones drop
the stray bits, as does the intersection with `all()`. -/
theorem C62_exports (hT : derive inp = .ok T) (hfit : Fits T) {a : EnumSet T} {p : Nat → Bool}
    (hp : HasBits a p) (n : NumTy) :
    Gives BitVec.getLsbD (a.as_num_truncated n) (fun i => decide (i < n.bits) && p i) ∧
    GivesIf BitVec.getLsbD (a.try_as_num n) (∀ i, p i = true → i < n.bits) p ∧
    Gives wbit a.to_vec p ∧
    (¬ OnlyVariants T p → ∃ x, a.to_vec = .ok x ∧
      EnumSet.try_from_slice (T := T) x = .ok none) ∧
    (∃ (x : List U64) (s : EnumSet T), a.to_vec = .ok x ∧
      EnumSet.from_slice_truncated x = .ok s ∧ Safe s ∧ HasBits s (fun i => p i && isDiscr T i) ∧
      a.intersection EnumSet.all = .ok s) := by
  obtain ⟨W⟩ := wf_of_derive hT hfit
  obtain rfl := W.bit_eq hp
  obtain ⟨x, e, -, hx⟩ := W.to_vec_ok a
  refine ⟨W.as_num_truncated_ok n a, W.try_as_num_ok n a, ⟨x, e, hx⟩, fun hn => ⟨x, e, ?_⟩, ?_⟩
  · exact (W.try_from_slice_ok x).2 (by rw [funext hx]; exact hn)
  · obtain ⟨s, es, hs⟩ := W.from_slice_truncated_ok x
    obtain ⟨t, et, ht⟩ := W.intersection_ok a EnumSet.all
    have hst : t = s := W.ext fun i => by rw [ht, hs, hx]; rfl
    exact ⟨x, s, e, es, .from_slice_truncated es,
      W.hasBits_iff.mpr fun i => by rw [hs, hx, W.isDiscr_eq], by rw [et, hst]⟩

/-- Iteration, under every sequence of calls, goes through the positions of all the bits.  As long as
only positions of variants are taken (from either side), the answers are these variants; the size hint
counts the stray bits, too. -/
theorem C62_iter (hT : derive inp = .ok T) (hfit : Fits T)
    (hw : (storageOf inp).bits < 2 ^ usizeBits) {a : EnumSet T} {p : Nat → Bool}
    (hp : HasBits a p) (ops : List IterOp)
    (h : ∀ i ∈ IterObs.items (runDeque ops (positions (storageOf inp).bits p)).1,
      ∃ v : T.Val, T.discr v = i) :
    ∃ it it' obs, a.iter = .ok it ∧ runIter ops it = .ok (obs, it') ∧
      obs.map (IterObs.map T.discr) = (runDeque ops (positions (storageOf inp).bits p)).1 := by
  obtain ⟨W⟩ := wf_of_derive hT hfit
  obtain rfl := W.bit_eq hp
  rw [← (C31_storage hT).2.2] at hw h ⊢
  obtain ⟨it, e, hr⟩ := W.iter_rep a
  obtain ⟨obs, eo, ho⟩ := W.runPos_known ops _ h
  obtain ⟨it', e'⟩ := run_of_fst ((W.run_rep hw ops hr).trans eo)
  exact ⟨it, it', obs, e, e', ho⟩

/-- Taking a stray position is undefined behaviour if there are at least two variants.  (In the model
`ub` also stands for the arms of `enum_from_u32` that reinterpret the number as the enum.) -/
theorem C62_iter_stray (hT : derive inp = .ok T) (hfit : Fits T) (h2 : 2 ≤ T.n)
    (hw : (storageOf inp).bits < 2 ^ usizeBits) {a : EnumSet T} {p : Nat → Bool}
    (hp : HasBits a p) (ops : List IterOp)
    (h : ∃ i ∈ IterObs.items (runDeque ops (positions (storageOf inp).bits p)).1,
      ∀ v : T.Val, T.discr v ≠ i) :
    ∃ it, a.iter = .ok it ∧ runIter ops it = .ub := by
  obtain ⟨W⟩ := wf_of_derive hT hfit
  obtain rfl := W.bit_eq hp
  rw [← (C31_storage hT).2.2] at hw h
  obtain ⟨it, e, hr⟩ := W.iter_rep a
  exact ⟨it, e, ub_of_fst ((W.run_rep hw ops hr).trans
    (W.runPos_stray (fun b hb => C15_danger hT h2 hb) ops _ h))⟩

/-- An enum with a single variant has no such danger: every bit yields that variant, so that it can be
yielded more than once. -/
theorem C62_iter_single (hT : derive inp = .ok T) (hfit : Fits T) (h1 : T.n = 1)
    (hw : (storageOf inp).bits < 2 ^ usizeBits) {a : EnumSet T} {p : Nat → Bool}
    (hp : HasBits a p) (ops : List IterOp) (v : T.Val) :
    ∃ it it', a.iter = .ok it ∧ runIter ops it =
      .ok ((runDeque ops (positions (storageOf inp).bits p)).1.map (IterObs.map fun _ => v), it') := by
  obtain ⟨W⟩ := wf_of_derive hT hfit
  obtain rfl := W.bit_eq hp
  rw [← (C31_storage hT).2.2] at hw ⊢
  obtain ⟨it, e, hr⟩ := W.iter_rep a
  have hv : ∀ b, T.enum_from_u32 b = .ok v := by
    intro b
    obtain ⟨info, -, hok, hs⟩ := derive_shape hT
    have key : ∀ (n : Nat) (discr : Fin n → Nat) (v : Fin n), n = 1 → genFrom n discr b = .ok v := by
      intro n discr v hn
      subst hn
      unfold genFrom
      rw [dif_neg (by omega), dif_pos rfl]
      congr 1
      exact Subsingleton.elim _ _
    cases hs with
    | prim => exact key _ _ _ h1
    | array => exact key _ _ _ h1
  obtain ⟨it', e'⟩ := run_of_fst ((W.run_rep hw ops hr).trans (W.runPos_const v hv ops _))
  exact ⟨it, it', e, e'⟩

/-- The const macros with two sets: `enum_set_difference!` drops stray bits, which the operator `-`
keeps (`C62_operations`); the other macros are like their operators. -/
theorem C62_macros (hT : derive inp = .ok T) (hfit : Fits T) {a b : EnumSet T} {p q : Nat → Bool}
    (hp : HasBits a p) (hq : HasBits b q) :
    GivesBits (ConstMacro.enum_set_union (.set a) [.set b]) (fun i => p i || q i) ∧
    GivesBits (ConstMacro.enum_set_intersection (.set a) [.set b]) (fun i => p i && q i) ∧
    GivesBits (ConstMacro.enum_set_symmetric_difference (.set a) [.set b]) (fun i => p i != q i) ∧
    GivesBits (ConstMacro.enum_set_difference (.set a) [.set b])
      (fun i => p i && !q i && isDiscr T i) ∧
    GivesBits (ConstMacro.enum_set_complement (.set a)) (fun i => isDiscr T i && !p i) := by
  obtain ⟨W⟩ := wf_of_derive hT hfit
  obtain rfl := W.bit_eq hp
  obtain rfl := W.bit_eq hq
  refine ⟨W.givesBits (W.enum_set_union_ok _ _), W.givesBits (W.enum_set_intersection_ok _ _),
    W.givesBits (W.enum_set_symmetric_difference_ok _ _), ?_, ?_⟩
  · obtain ⟨s, e, h⟩ := W.enum_set_difference_ok (.set a) [.set b]
    refine W.givesBits ⟨s, e, fun i => ?_⟩
    rw [h, W.isDiscr_eq, Bool.and_assoc]
    rfl
  · obtain ⟨s, e, h⟩ := W.enum_set_complement_ok (.set a)
    refine W.givesBits ⟨s, e, fun i => ?_⟩
    rw [h, W.isDiscr_eq, Bool.and_comm]
    rfl

/-- Serialization as an integer writes stray bits, too; reading the integer back drops them (or refuses
it, see C36). -/
theorem C62_serialize (hT : derive inp = .ok T) (hfit : Fits T) {n : NumTy} (hn : n ≠ .usize)
    (hf : formatOf inp = .int n.bits) {a : EnumSet T} {p : Nat → Bool} (hp : HasBits a p) :
    ∃ x, Serde.serialize a = .ok (.int n x) ∧
      ∀ i, x.getLsbD i = (decide (i < n.bits) && p i) := by
  obtain ⟨W⟩ := wf_of_derive hT hfit
  obtain rfl := W.bit_eq hp
  have hr := numTy_of_format hn ((serde_facts hT).format.symm.trans hf)
  obtain ⟨x, e, hx⟩ := W.serializeInt_ok n a
  exact ⟨x, (serialize_num hr a).trans e, hx⟩

end

namespace Ex

open scoped Ex

/-- `enum { A, B = 3, C }` with the bits 0, 1 (stray) and 4 -/
def stray : EnumSet T := ⟨⟨0b10011#8⟩⟩

theorem bits_stray : HasBits stray fun i => decide (i < 8) && (0b10011#8).getLsbD i := by
  obtain ⟨s, e, h⟩ := (C62_unchecked hT fitT).1 .u8 0b10011#8
  obtain rfl : s = stray := by injection e with e; exact e.symm
  exact h

/-- bits that the storage has no room for are lost -/
example : EnumSet.from_num_unchecked .u16 0x113#16 = .ok stray := rfl
example : stray.contains tA = .ok true ∧ stray.contains tB = .ok false := ⟨rfl, rfl⟩
/-- it has two variants and length 3 -/
example : stray.len = .ok 3 := rfl
example := (C62_bits hT fitT).2 stray stray _ _ bits_stray bits_stray
example := C62_operations hT fitT bits_stray bits_stray tA
example := C62_tests hT fitT bits_stray bits_stray tA
example := C62_exports hT fitT bits_stray .u8
example := C62_macros hT fitT bits_stray bits_stray
example := C62_serialize hT fitT (n := .u8) (by decide) rfl bits_stray
/-- it is not a set that can be built without `unsafe` -/
example : ¬ Safe stray := by
  rw [(C62_unchecked hT fitT).2.2.2.2 stray _ bits_stray]
  intro h
  obtain ⟨v, hv⟩ := h 1 rfl
  revert v
  decide
/-- `next` yields `A`, `next_back` yields `C`: both are variants -/
example := C62_iter hT fitT (by decide) bits_stray [.next, .nextBack, .sizeHint] (by decide)
/-- the second `next` takes the stray bit -/
example := C62_iter_stray hT fitT (by decide) (by decide) bits_stray [.next, .next]
  ⟨1, by decide, by decide⟩
/-- `enum { A = 2 }` -/
def inp1 : DeriveInput := { variants := [{ ident := "A", discriminant := some (.lit 2) }] }
/-- with bits 0 and 2: `A` is yielded twice -/
example : ∃ T' : EnumSetType, derive inp1 = .ok T' ∧ ∃ (a : EnumSet T') (v : T'.Val) (it it' : _),
    EnumSet.from_num_unchecked .u8 5#8 = .ok a ∧ a.iter = .ok it ∧
    runIter [.next, .next, .next] it = .ok ([.item (some v), .item (some v), .item none], it') := by
  have h : ∃ T', derive inp1 = .ok T' := ⟨_, rfl⟩
  obtain ⟨T', h⟩ := h
  have hf := C44_fits h (by decide)
  have hn : T'.n = 1 := (core_of_derive h).n_eq
  obtain ⟨a, ea, ha⟩ := (C62_unchecked h hf).1 .u8 5#8
  obtain ⟨it, it', e, e'⟩ := C62_iter_single h hf hn (by decide) ha [.next, .next, .next]
    ⟨0, by omega⟩
  exact ⟨T', h, a, _, it, it', ea, e, e'⟩

end Ex

end Enumset
