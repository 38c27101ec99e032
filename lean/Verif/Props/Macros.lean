import Verif.MacroLemmas
import Verif.Props.Basic
/-!
# Properties C34, C35, C47: const macros, operators on variants, macro syntax
-/
set_option autoImplicit false

namespace Enumset

open ConstMacro

section spec

variable [Platform] {T : EnumSetType}

/-- The run time operator a binary macro corresponds to. -/
def ConstMacro.Kind.runtime : Kind → EnumSet T → Operand T → Res (EnumSet T)
  | .union => EnumSet.bitor
  | .intersection => EnumSet.bitand
  | .difference => EnumSet.sub
  | .symmetric_difference => EnumSet.bitxor

/-- The Boolean function it computes for each variant. -/
def ConstMacro.Kind.bool : Kind → Bool → Bool → Bool
  | .union, a, b => a || b
  | .intersection, a, b => a && b
  | .difference, a, b => a && !b
  | .symmetric_difference, a, b => a != b

end spec

section helpers

variable [Platform] {T : EnumSetType}

theorem WF.foldlM_ok (W : WF T) (k : Kind) (rest : List (Operand T)) (s0 : EnumSet T) :
    ∃ s, rest.foldlM k.runtime s0 = .ok s ∧
      ∀ i, W.bit s i = rest.foldl (fun b o => k.bool b (W.obit o i)) (W.bit s0 i) := by
  have step : ∀ (a : EnumSet T) (o : Operand T), ∃ s, k.runtime a o = .ok s ∧
      ∀ i, W.bit s i = k.bool (W.bit a i) (W.obit o i) := by
    intro a o
    cases k with
    | union => exact W.bitor_ok a o
    | intersection => exact W.bitand_ok a o
    | difference => exact W.sub_ok a o
    | symmetric_difference =>
      obtain ⟨s, e, h⟩ := W.bitxor_ok a o
      exact ⟨s, e, fun i => (h i).trans (by cases W.bit a i <;> cases W.obit o i <;> rfl)⟩
  induction rest generalizing s0 with
  | nil => exact ⟨s0, rfl, fun _ => rfl⟩
  | cons o rest ih =>
    obtain ⟨s1, e1, h1⟩ := step s0 o
    obtain ⟨s, e, h⟩ := ih s1
    refine ⟨s, ?_, fun i => by rw [h, List.foldl_cons, h1]⟩
    rw [List.foldlM_cons, e1]
    exact e

/-- The macros' bits: the difference macro masks with the enum's bits, which changes nothing when
starting from a set without stray bits. -/
theorem WF.evalKind_ok (W : WF T) (k : Kind) (v : Operand T) (rest : List (Operand T))
    (hv : W.OClean v) : ∃ s, evalKind k (v :: rest) = some (.ok s) ∧
      ∀ i, W.bit s i = rest.foldl (fun b o => k.bool b (W.obit o i)) (W.obit v i) := by
  cases k with
  | union =>
    obtain ⟨s, e, h⟩ := W.enum_set_union_ok v rest
    exact ⟨s, congrArg some e, h⟩
  | intersection =>
    obtain ⟨s, e, h⟩ := W.enum_set_intersection_ok v rest
    exact ⟨s, congrArg some e, h⟩
  | symmetric_difference =>
    obtain ⟨s, e, h⟩ := W.enum_set_symmetric_difference_ok v rest
    refine ⟨s, congrArg some e, fun i => (h i).trans ?_⟩
    rw [show (fun b o => b ^^ W.obit o i) =
      (fun b o => Kind.bool .symmetric_difference b (W.obit o i)) from
      funext fun b => funext fun o => by cases b <;> cases W.obit o i <;> rfl]
  | difference =>
    obtain ⟨s, e, h⟩ := W.enum_set_difference_ok v rest
    refine ⟨s, congrArg some e, fun i => (h i).trans ?_⟩
    have key : ∀ (l : List (Operand T)) (b : Bool), (b = true → ∃ v, T.discr v = i) →
        l.foldl (fun b o => b && (!W.obit o i && W.bit EnumSet.ALL_REPR i)) b =
        l.foldl (fun b o => Kind.bool .difference b (W.obit o i)) b := by
      intro l
      induction l with
      | nil => intro b _; rfl
      | cons o l ih =>
        intro b hb
        simp only [List.foldl_cons]
        have : (b && (!W.obit o i && W.bit EnumSet.ALL_REPR i)) =
            Kind.bool .difference b (W.obit o i) := by
          cases b with
          | false => rfl
          | true => simp [Kind.bool, (W.bit_all i).mpr (hb rfl)]
        rw [this]
        refine ih _ fun ht => hb ?_
        simp [Kind.bool] at ht
        exact ht.1
    exact key rest _ (hv i)

theorem WF.oclean_of_safe (W : WF T) {o : Operand T} (h : ∀ s, o = .set s → Safe s) :
    W.OClean o := W.oclean_of fun b hb => W.clean_of_safe (h b hb)

end helpers

/-! ## C34 Const macros -/

/-- `enum_set_union!`, `enum_set_intersection!`, `enum_set_difference!`,
`enum_set_symmetric_difference!`: the same value as applying `|`, `&`, `-`, `^` from left to right at
run time, namely the elementwise Boolean fold.  (`hsafe`: a constant set used as first operand was
built without `unsafe`.) -/
theorem C34_list_macros [Platform] {inp : DeriveInput} {T : EnumSetType}
    (hT : derive inp = .ok T) (hfit : Fits T) (k : Kind) (v : Operand T) (rest : List (Operand T))
    (hsafe : ∀ s, v = .set s → Safe s) {B : Operand T → T.Val → Bool}
    (hB : ∀ o ∈ v :: rest, Denotes o (B o)) :
    ∃ s, evalKind k (v :: rest) = some (.ok s) ∧
      (v.into >>= fun a => rest.foldlM k.runtime a) = .ok s ∧
      Members s fun u => rest.foldl (fun b o => k.bool b (B o u)) (B v u) := by
  obtain ⟨W⟩ := wf_of_derive hT hfit
  obtain ⟨s, e, hs⟩ := W.evalKind_ok k v rest (W.oclean_of_safe hsafe)
  obtain ⟨a, ea, ha⟩ := W.into_set_ok v
  obtain ⟨s', e', hs'⟩ := W.foldlM_ok k rest a
  refine ⟨s, e, ?_, W.members_of_bits fun u => ?_⟩
  · rw [ea, Res.ok_bind, e', show s' = s from W.ext fun i => by rw [hs, hs', ha]]
  · rw [hs, W.denotes_iff.mp (hB v (by simp)) u]
    have key : ∀ (l : List (Operand T)), (∀ o ∈ l, Denotes o (B o)) → ∀ b,
        l.foldl (fun b o => k.bool b (W.obit o (T.discr u))) b =
        l.foldl (fun b o => k.bool b (B o u)) b := by
      intro l hl
      induction l with
      | nil => intro b; rfl
      | cons o l ih =>
        intro b
        rw [List.foldl_cons, List.foldl_cons, W.denotes_iff.mp (hl o (by simp)) u,
          ih fun o ho => hl o (by simp [ho])]
    exact key rest (fun o ho => hB o (by simp [ho])) _

/-- `enum_set!` -/
theorem C34_enum_set [Platform] {inp : DeriveInput} {T : EnumSetType}
    (hT : derive inp = .ok T) (hfit : Fits T) (l : List (Operand T))
    {B : Operand T → T.Val → Bool} (hB : ∀ o ∈ l, Denotes o (B o)) :
    ∃ s, enum_set l = .ok s ∧ l.foldlM EnumSet.bitor EnumSet.empty = .ok s ∧
      Members s fun u => l.any fun o => B o u := by
  obtain ⟨W⟩ := wf_of_derive hT hfit
  obtain ⟨s, e, hs⟩ := W.enum_set_ok l
  obtain ⟨s', e', hs'⟩ := W.foldlM_ok .union l EnumSet.empty
  have key : ∀ (i : Nat) (l : List (Operand T)) (b : Bool),
      l.foldl (fun b o => Kind.bool .union b (W.obit o i)) b = (b || l.any fun o => W.obit o i) := by
    intro i l
    induction l with
    | nil => simp
    | cons o l ih =>
      intro b
      rw [List.foldl_cons, ih, List.any_cons, ← Bool.or_assoc]
      rfl
  refine ⟨s, e, ?_, W.members_of_bits fun u => ?_⟩
  · refine e'.trans ?_
    congr 1
    apply W.ext
    intro i
    rw [hs, hs', key, show W.bit EnumSet.empty i = false from W.bit_empty i, Bool.false_or]
  · rw [hs, Bool.eq_iff_iff, List.any_eq_true, List.any_eq_true]
    constructor
    · rintro ⟨o, ho, h⟩; exact ⟨o, ho, by rw [← W.denotes_iff.mp (hB o ho) u]; exact h⟩
    · rintro ⟨o, ho, h⟩; exact ⟨o, ho, by rw [W.denotes_iff.mp (hB o ho) u]; exact h⟩

/-- `enum_set_complement!` -/
theorem C34_complement [Platform] {inp : DeriveInput} {T : EnumSetType}
    (hT : derive inp = .ok T) (hfit : Fits T) (v : Operand T) {B : T.Val → Bool}
    (hB : Denotes v B) :
    ∃ s, enum_set_complement v = .ok s ∧ (v.into >>= EnumSet.not) = .ok s ∧
      Members s fun u => !B u := by
  obtain ⟨W⟩ := wf_of_derive hT hfit
  obtain ⟨s, e, hs⟩ := W.enum_set_complement_ok v
  obtain ⟨a, ea, ha⟩ := W.into_set_ok v
  obtain ⟨s', e', hs'⟩ := W.complement_ok a
  refine ⟨s, e, ?_, W.members_of_bits fun u => ?_⟩
  · rw [ea, Res.ok_bind]
    refine e'.trans ?_
    rw [show s' = s from W.ext fun i => by rw [hs, hs', ha]]
  · rw [hs, W.denotes_iff.mp hB u, show W.bit EnumSet.ALL_REPR (T.discr u) = true from W.mem_all u,
      Bool.and_true]

section examples
open scoped Ex

/-- `A`, the constant `{A, C}` and `B` as operands -/
private def opsB : Operand Ex.L → Ex.L.Val → Bool
  | .val v, u => decide (u = v)
  | .set s, u => match s.contains u with
    | .ok b => b
    | _ => false

private theorem opsB_ok (o : Operand Ex.L) : Denotes o (opsB o) := by
  cases o with
  | val v => exact fun _ => rfl
  | set s =>
    obtain ⟨A, hA⟩ := C03_contains Ex.hL Ex.fitL s
    intro v
    rw [hA v, opsB, hA v]

example := C34_list_macros Ex.hL Ex.fitL .difference (.set Ex.rAC) [.val Ex.lA, .set Ex.rB]
  (by rintro s h; injection h with h; subst h; exact Ex.safe_rAC) (fun o _ => opsB_ok o)
example := C34_enum_set Ex.hL Ex.fitL [.val Ex.lA, .set Ex.rAC] (fun o _ => opsB_ok o)
example := C34_complement Ex.hL Ex.fitL (.set Ex.rAC) (opsB_ok _)

end examples

/-! ## C35 Operators on variants -/

/-- The operators on a variant are those of the set `{a}`. -/
theorem C35_operators [Platform] {inp : DeriveInput} {T : EnumSetType}
    (hT : derive inp = .ok T) (hfit : Fits T) (a : T.Val) (o : Operand T) :
    ∃ s : EnumSet T, EnumSet.only a = .ok s ∧ (Operand.val a).into = .ok s ∧
      Members s (fun u => decide (u = a)) ∧
      Returns (s.bitor o) ∧ EnumVal.bitor a o = s.bitor o ∧
      Returns (s.bitand o) ∧ EnumVal.bitand a o = s.bitand o ∧
      Returns (s.sub o) ∧ EnumVal.sub a o = s.sub o ∧
      Returns (s.bitxor o) ∧ EnumVal.bitxor a o = s.bitxor o ∧
      Returns s.not ∧ EnumVal.not a = s.not := by
  obtain ⟨W⟩ := wf_of_derive hT hfit
  obtain ⟨s, e, hs⟩ := W.only_set_ok a
  obtain ⟨b, eb, hb⟩ := W.into_set_ok o
  have ret : ∀ {r : Res (EnumSet T)} {p : EnumSet T → Prop}, (∃ s, r = .ok s ∧ p s) → Returns r :=
    fun ⟨s, e, _⟩ => ⟨s, e⟩
  refine ⟨s, e, e, W.members_of_bits fun u => by rw [hs, W.decide_discr], ret (W.bitor_ok s o), ?_,
    ret (W.bitand_ok s o), ?_, ret (W.sub_ok s o), ?_, ret (W.bitxor_ok s o), ?_,
    ret (W.complement_ok s), ?_⟩
  · unfold EnumVal.bitor EnumSet.bitor; rw [e, Res.ok_bind, eb]; rfl
  · unfold EnumVal.bitand EnumSet.bitand; rw [e, Res.ok_bind, eb]; rfl
  · unfold EnumVal.sub EnumSet.sub; rw [e, Res.ok_bind, eb]; rfl
  · unfold EnumVal.bitxor EnumSet.bitxor; rw [e, Res.ok_bind, eb]; rfl
  · unfold EnumVal.not; rw [e, Res.ok_bind]

/-- In terms of members: `a | x`, `a & x`, `a - x`, `a ^ x`, `!a`. -/
theorem C35_members [Platform] {inp : DeriveInput} {T : EnumSetType}
    (hT : derive inp = .ok T) (hfit : Fits T) (a : T.Val) {o : Operand T} {B : T.Val → Bool}
    (hB : Denotes o B) :
    (∃ s, EnumVal.bitor a o = .ok s ∧ Members s fun u => decide (u = a) || B u) ∧
    (∃ s, EnumVal.bitand a o = .ok s ∧ Members s fun u => decide (u = a) && B u) ∧
    (∃ s, EnumVal.sub a o = .ok s ∧ Members s fun u => decide (u = a) && !B u) ∧
    (∃ s, EnumVal.bitxor a o = .ok s ∧ Members s fun u => decide (u = a) != B u) ∧
    (∃ s : EnumSet T, EnumVal.not a = .ok s ∧ Members s fun u => !decide (u = a)) := by
  obtain ⟨s, -, -, hs, -, h1, -, h2, -, h3, -, h4, -, h5⟩ := C35_operators hT hfit a o
  rw [h1, h2, h3, h4, h5]
  exact C04_operators hT hfit hs hB

/-- `a == s` iff `s == a` iff `s` is `{a}`. -/
theorem C35_eq [Platform] {inp : DeriveInput} {T : EnumSetType}
    (hT : derive inp = .ok T) (hfit : Fits T) {s : EnumSet T} (hs : Safe s)
    {A : T.Val → Bool} (hA : Members s A) (a : T.Val) :
    ∃ r, EnumVal.eq_set a s = .ok r ∧ s.eq_val a = .ok r ∧
      (r = true ↔ ∀ u, A u = decide (u = a)) := by
  obtain ⟨r, h1, h2, h3⟩ := C08_eq_variant hT hfit hs hA a
  exact ⟨r, h2, h1, h3⟩

open scoped Ex in
example := C35_operators Ex.hL Ex.fitL Ex.lC (.val Ex.lA)
open scoped Ex in
example := C35_members Ex.hL Ex.fitL Ex.lC (o := .set Ex.rAC) Ex.mem_rAC
open scoped Ex in
example := C35_eq Ex.hL Ex.fitL Ex.safe_rB Ex.mem_rB Ex.lB

/-! ## C47 Macro syntax -/

/-- `enum_set!(…)` compiles exactly if its tokens are operands separated by `|` and followed by any
number of `|`, and then is `enum_set` of those operands. -/
theorem C47_enum_set [Platform] {T : EnumSetType} (ts : List (Tok (Operand T)))
    (r : Res (EnumSet T)) :
    enum_set_call ts = some r ↔ ∃ (l : List (Operand T)) (k : Nat),
      ts = List.intersperse .bar (l.map .path) ++ List.replicate k .bar ∧ r = enum_set l := by
  unfold enum_set_call
  rw [Option.map_eq_some_iff]
  constructor
  · rintro ⟨l, h, rfl⟩
    obtain ⟨k, hk⟩ := (Tok.expandEnumSet_iff ts l).mp h
    exact ⟨l, k, hk, rfl⟩
  · rintro ⟨l, k, h, rfl⟩
    exact ⟨l, (Tok.expandEnumSet_iff ts l).mpr ⟨k, h⟩, rfl⟩

/-- The comma macros compile exactly if their tokens are one or more operands separated by `,` with
an optional trailing `,`; in addition a single operand may be followed by two commas. -/
theorem C47_list [Platform] {T : EnumSetType} (kind : Kind) (ts : List (Tok (Operand T)))
    (r : Res (EnumSet T)) :
    list_call kind ts = some r ↔ ∃ (v : Operand T) (rest : List (Operand T)),
      (ts = List.intersperse .comma ((v :: rest).map .path) ∨
       ts = List.intersperse .comma ((v :: rest).map .path) ++ [.comma] ∨
       (rest = [] ∧ ts = [.path v, .comma, .comma])) ∧
      evalKind kind (v :: rest) = some r := by
  unfold list_call
  rw [Option.bind_eq_some_iff]
  constructor
  · rintro ⟨l, h, hr⟩
    obtain ⟨hne, h⟩ := (Tok.expandList_iff ts l).mp h
    cases l with
    | nil => exact absurd rfl hne
    | cons v rest =>
      refine ⟨v, rest, ?_, hr⟩
      rcases h with h | h | ⟨a, h1, h2⟩
      · exact .inl h
      · exact .inr (.inl h)
      · injection h1 with h1 h3
        subst h1
        exact .inr (.inr ⟨h3, h2⟩)
  · rintro ⟨v, rest, h, hr⟩
    refine ⟨v :: rest, (Tok.expandList_iff ts _).mpr ⟨by simp, ?_⟩, hr⟩
    rcases h with h | h | ⟨h1, h2⟩
    · exact .inl h
    · exact .inr (.inl h)
    · exact .inr (.inr ⟨v, by rw [h1], h2⟩)

/-- `enum_set_complement!` takes one operand and an optional comma. -/
theorem C47_complement [Platform] {T : EnumSetType} (ts : List (Tok (Operand T)))
    (r : Res (EnumSet T)) :
    complement_call ts = some r ↔
      ∃ v : Operand T, (ts = [.path v] ∨ ts = [.path v, .comma]) ∧ r = enum_set_complement v := by
  unfold complement_call
  rw [Option.map_eq_some_iff]
  constructor
  · rintro ⟨v, h, rfl⟩; exact ⟨v, (Tok.expandComplement_iff ts v).mp h, rfl⟩
  · rintro ⟨v, h, rfl⟩; exact ⟨v, (Tok.expandComplement_iff ts v).mpr h, rfl⟩

section examples
open scoped Ex

/-- `enum_set!(A | B ||)` written with two `|` tokens -/
example : enum_set_call [.path (.val Ex.lA), .bar, .path (.val Ex.lB), .bar, .bar] =
    some (enum_set [.val Ex.lA, .val Ex.lB]) :=
  (C47_enum_set _ _).mpr ⟨_, 2, rfl, rfl⟩
/-- `enum_set!(A B)` is rejected -/
example : enum_set_call [.path (.val Ex.lA), .path (.val Ex.lB)] = none := rfl
example : list_call .union [.path (.val Ex.lA), .comma, .path (.val Ex.lB), .comma] =
    evalKind .union [.val Ex.lA, .val Ex.lB] := rfl
example := (C47_list .union [.path (.val Ex.lA), .comma, .path (.val Ex.lB), .comma] _).mp rfl
/-- `enum_set_complement!(A,)` -/
example : complement_call [.path (.val Ex.lA), .comma] = some (enum_set_complement (.val Ex.lA)) :=
  (C47_complement _ _).mpr ⟨_, .inr rfl, rfl⟩

end examples

end Enumset
