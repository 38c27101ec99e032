import Verif.SpecSrc
import Verif.Props.SrcStorage
import Verif.Props.Basic
import Verif.Props.Iter
/-!
# C69: programs on the text of set.rs behave as on mathematical sets

C68 and the properties of the model together: running the text of the functions, as parsed from the
repository, in any order and on any variables, answers what the mathematical sets answer.  The
statement mentions no function of the model.
-/
set_option autoImplicit false
set_option maxRecDepth 10000

namespace Enumset.Src

section history
variable [Platform] {T : EnumSetType} {P : Prog T.Val} {enc : T.Repr → Val T.Val}
  {encI : EnumSetTypeRepr.Iter T.Repr → Val T.Val} {okI : EnumSetTypeRepr.Iter T.Repr → Prop}

/-- The values of the variables are sets a user can build, with the members `σ`. -/
def Rel (enc : T.Repr → Val T.Val) (ρ : Nat → Val T.Val) (σ : Nat → T.Val → Bool) : Prop :=
  ∀ i, ∃ s : EnumSet T, ρ i = setOf enc s ∧ Safe s ∧ Members s (σ i)

theorem Rel.upd {ρ : Nat → Val T.Val} {σ : Nat → T.Val → Bool} (h : Rel enc ρ σ) (r : Nat)
    {s : EnumSet T} {A : T.Val → Bool} (hs : Safe s) (hA : Members s A) :
    Rel enc (upd ρ r (setOf enc s)) (Src.upd σ r A) := by
  intro i
  unfold Src.upd
  by_cases hi : i = r
  · simp only [hi, if_true]; exact ⟨s, rfl, hs, hA⟩
  · simp only [hi, if_false]; exact h i

theorem operand_arg {ρ : Nat → Val T.Val} {σ : Nat → T.Val → Bool} (h : Rel enc ρ σ) (o : Arg T.n) :
    ∃ a : Operand T, o.value ρ = operandOf enc id a ∧ (∀ b, a = .set b → Safe b) ∧
      Denotes a (o.sem σ) := by
  cases o with
  | set a =>
    obtain ⟨s, e, hs, hA⟩ := h a
    exact ⟨.set s, e, by rintro b ⟨⟩; exact hs, hA⟩
  | val v => exact ⟨.val v, rfl, (by rintro b ⟨⟩), fun u => rfl⟩

variable (S : Storage P T.Repr enc encI okI) (E : EnumItems P T enc id) (k : Nat)

section
include S
theorem okI_of_next {it it' : EnumSetIter T} {o : Option T.Val} (h : okI it.iter)
    (e : it.next = .ok (o, it')) : okI it'.iter := by
  unfold EnumSetIter.next at e
  rcases hn : EnumSetTypeRepr.iter_next it.iter with r | _ | _ | _ <;> rw [hn] at e <;>
    first | cases e | skip
  obtain ⟨r, i⟩ := r
  have := S.okI_next _ _ _ h hn
  cases r with
  | none => cases e; exact this
  | some x =>
    simp only [Res.ok_bind] at e
    rcases hv : T.enum_from_u32 x with v | _ | _ | _ <;> rw [hv] at e <;> first | cases e | skip
    exact this
theorem okI_of_next_back {it it' : EnumSetIter T} {o : Option T.Val} (h : okI it.iter)
    (e : it.next_back = .ok (o, it')) : okI it'.iter := by
  unfold EnumSetIter.next_back at e
  rcases hn : EnumSetTypeRepr.iter_next_back it.iter with r | _ | _ | _ <;> rw [hn] at e <;>
    first | cases e | skip
  obtain ⟨r, i⟩ := r
  have := S.okI_next_back _ _ _ h hn
  cases r with
  | none => cases e; exact this
  | some x =>
    simp only [Res.ok_bind] at e
    rcases hv : T.enum_from_u32 x with v | _ | _ | _ <;> rw [hv] at e <;> first | cases e | skip
    exact this
theorem okI_of_iter {s : EnumSet T} {it : EnumSetIter T} (e : s.iter = .ok it) : okI it.iter := by
  unfold EnumSet.iter at e
  rcases hn : EnumSetTypeRepr.iter s.priv_repr with r | _ | _ | _ <;> rw [hn] at e <;> cases e
  exact S.okI_iter _ _ hn
end

include S E

theorem drain_next (W : WF T) (L : List T.Val) : ∀ (fuel : Nat) (it : EnumSetIter T), L.length < fuel →
    okI it.iter → W.ItRep it L → P.drain (k + 20) "next" fuel (setIterOf encI it) = .ok L := by
  induction L with
  | nil =>
    intro fuel it hf hok h
    cases fuel with
    | zero => simp at hf
    | succ fuel =>
      obtain ⟨it', e, -⟩ := W.next_nil h
      rw [Prog.drain, C68_next S E (k + 16) [] it hok, e]
      rfl
  | cons v L ih =>
    intro fuel it hf hok h
    cases fuel with
    | zero => simp at hf
    | succ fuel =>
      obtain ⟨it', e, h'⟩ := W.next_cons h
      rw [Prog.drain, C68_next S E (k + 16) [] it hok, e]
      have hok' : okI it'.iter := okI_of_next S hok e
      show (P.drain (k + 20) "next" fuel (setIterOf encI it') >>= fun l => .ok (v :: l)) = _
      rw [ih fuel it' (by simpa using hf) hok' h']
      rfl

theorem drain_next_back (W : WF T) (L : List T.Val) : ∀ (fuel : Nat) (it : EnumSetIter T),
    L.length < fuel → okI it.iter → W.ItRep it L.reverse →
      P.drain (k + 20) "next_back" fuel (setIterOf encI it) = .ok L := by
  induction L with
  | nil =>
    intro fuel it hf hok h
    cases fuel with
    | zero => simp at hf
    | succ fuel =>
      obtain ⟨it', e, -⟩ := W.next_back_nil h
      rw [Prog.drain, C68_next_back S E (k + 16) [] it hok, e]
      rfl
  | cons v L ih =>
    intro fuel it hf hok h
    cases fuel with
    | zero => simp at hf
    | succ fuel =>
      rw [List.reverse_cons] at h
      obtain ⟨it', e, h'⟩ := W.next_back_concat h
      rw [Prog.drain, C68_next_back S E (k + 16) [] it hok, e]
      have hok' : okI it'.iter := okI_of_next_back S hok e
      show (P.drain (k + 20) "next_back" fuel (setIterOf encI it') >>= fun l => .ok (v :: l)) = _
      rw [ih fuel it' (by simpa using hf) hok' h']
      rfl

/-- One command. -/
theorem step_sim {inp : DeriveInput} (hT : derive inp = .ok T) (hfit : Fits T) (hfuel : T.n < P.fuel)
    (c : Cmd T.n) {ρ : Nat → Val T.Val} {σ : Nat → T.Val → Bool} (h : Rel enc ρ σ) :
    ∃ ρ', P.step (k + 20) ρ c = .ok ((c.sem T.discr σ).1, ρ') ∧
      Rel enc ρ' (c.sem T.discr σ).2 := by
  obtain ⟨W⟩ := wf_of_derive hT hfit
  have hnone : ∀ {s : EnumSet T}, s = EnumSet.EMPTY_REPR → Members s fun _ => false := by
    rintro _ rfl; exact W.members_of_bits fun v => W.bit_empty _
  have hall : ∀ {s : EnumSet T}, s = EnumSet.ALL_REPR → Members s fun _ => true := by
    rintro _ rfl; exact W.members_iff.mpr W.mem_all
  have honly : ∀ v : T.Val, ∃ s : EnumSet T, EnumSet.only v = .ok s ∧ Safe s ∧
      Members s fun u => decide (u = v) := by
    intro v
    obtain ⟨o, e, ho⟩ := W.only_set_ok v
    exact ⟨o, e, .only e, W.members_of_bits fun u => by rw [ho, W.decide_discr]⟩
  cases c with
  | nullary f r =>
    cases f with
    | new =>
      refine ⟨_, ?_, h.upd r Safe.new (hnone rfl)⟩
      simp only [Prog.step, Prog.get, Nullary.name, C68_new S (k + 15) [], Res.ok_bind]
      rfl
    | empty =>
      refine ⟨_, ?_, h.upd r Safe.empty (hnone rfl)⟩
      simp only [Prog.step, Prog.get, Nullary.name, C68_empty S (k + 15) [], Res.ok_bind]
      rfl
    | default =>
      refine ⟨_, ?_, h.upd r Safe.default (hnone rfl)⟩
      simp only [Prog.step, Prog.get, Nullary.name, C68_default S (k + 14) [], Res.ok_bind]
      rfl
    | EMPTY =>
      refine ⟨_, ?_, h.upd r Safe.EMPTY (hnone rfl)⟩
      simp only [Prog.step, Prog.get, Nullary.name, C68_EMPTY S (k + 15) [], Res.ok_bind]
      rfl
    | all =>
      refine ⟨_, ?_, h.upd r Safe.all (hall rfl)⟩
      simp only [Prog.step, Prog.get, Nullary.name, C68_all S E (k + 15) [], Res.ok_bind]
      rfl
    | ALL =>
      refine ⟨_, ?_, h.upd r Safe.ALL (hall rfl)⟩
      simp only [Prog.step, Prog.get, Nullary.name, C68_ALL S E (k + 15) [], Res.ok_bind]
      rfl
  | only r v =>
    obtain ⟨s, e, hs, hA⟩ := honly v
    have hc := C68_only S E (k + 14) [] v
    rw [e] at hc
    refine ⟨_, ?_, h.upd r hs hA⟩
    show (P.call (k + 20) "EnumSet" "only" [] [] [.host "T" v] >>= _) >>= _ = _
    rw [show P.call (k + 20) "EnumSet" "only" [] [] [.host "T" v] = _ from hc]
    rfl
  | «from» r v =>
    obtain ⟨s, e, hs, hA⟩ := honly v
    have hc := C68_from S E (k + 13) [] v
    rw [e] at hc
    refine ⟨_, ?_, h.upd r hs hA⟩
    show (P.call (k + 20) "EnumSet" "from" [] [] [.host "T" v] >>= _) >>= _ = _
    rw [show P.call (k + 20) "EnumSet" "from" [] [] [.host "T" v] = _ from hc]
    rfl
  | binary f r a b =>
    obtain ⟨s, es, hs, hA⟩ := h a
    obtain ⟨t, et, ht, hB⟩ := h b
    cases f with
    | union =>
      obtain ⟨u, e, hu⟩ := C04_union hT hfit hA hB
      refine ⟨_, ?_, h.upd r (.union hs ht e) hu⟩
      simp only [Prog.step, Prog.get, Binary.name, es, et, C68_union S (k + 16) [], e, Res.ok_bind]
      rfl
    | intersection =>
      obtain ⟨u, e, hu⟩ := C04_intersection hT hfit hA hB
      refine ⟨_, ?_, h.upd r (.intersection hs ht e) hu⟩
      simp only [Prog.step, Prog.get, Binary.name, es, et, C68_intersection S (k + 16) [], e, Res.ok_bind]
      rfl
    | difference =>
      obtain ⟨u, e, hu⟩ := C04_difference hT hfit hA hB
      refine ⟨_, ?_, h.upd r (.difference hs ht e) hu⟩
      simp only [Prog.step, Prog.get, Binary.name, es, et, C68_difference S (k + 16) [], e, Res.ok_bind]
      rfl
    | symmetrical_difference =>
      obtain ⟨u, e, hu⟩ := C04_symmetrical_difference hT hfit hA hB
      refine ⟨_, ?_, h.upd r (.symmetrical_difference hs ht e) hu⟩
      simp only [Prog.step, Prog.get, Binary.name, es, et, C68_symmetrical_difference S (k + 16) [], e, Res.ok_bind]
      rfl
  | oper f r a o =>
    obtain ⟨s, es, hs, hA⟩ := h a
    obtain ⟨t, et, ht, hB⟩ := operand_arg h o
    cases f with
    | bitor =>
      obtain ⟨u, e, hu⟩ := (C04_operators hT hfit hA hB).1
      refine ⟨_, ?_, h.upd r (.bitor hs ht e) hu⟩
      simp only [Prog.step, Prog.get, Oper.name, es, et, C68_bitor_operand S E (k + 11) [], e, Res.ok_bind]
      rfl
    | bitand =>
      obtain ⟨u, e, hu⟩ := (C04_operators hT hfit hA hB).2.1
      refine ⟨_, ?_, h.upd r (.bitand hs ht e) hu⟩
      simp only [Prog.step, Prog.get, Oper.name, es, et, C68_bitand_operand S E (k + 11) [], e, Res.ok_bind]
      rfl
    | sub =>
      obtain ⟨u, e, hu⟩ := (C04_operators hT hfit hA hB).2.2.1
      refine ⟨_, ?_, h.upd r (.sub hs ht e) hu⟩
      simp only [Prog.step, Prog.get, Oper.name, es, et, C68_sub_operand S E (k + 11) [], e, Res.ok_bind]
      rfl
    | bitxor =>
      obtain ⟨u, e, hu⟩ := (C04_operators hT hfit hA hB).2.2.2.1
      refine ⟨_, ?_, h.upd r (.bitxor hs ht e) hu⟩
      simp only [Prog.step, Prog.get, Oper.name, es, et, C68_bitxor_operand S E (k + 11) [], e, Res.ok_bind]
      rfl
  | operAssign f r o =>
    obtain ⟨s, es, hs, hA⟩ := h r
    obtain ⟨t, et, ht, hB⟩ := operand_arg h o
    cases f with
    | bitor =>
      obtain ⟨u, e, hu⟩ := (C04_assigning hT hfit hA hB hA).1
      refine ⟨_, ?_, h.upd r (.bitor_assign hs ht e) hu⟩
      simp only [Prog.step, Prog.getMut, Oper.assignName, es, et, C68_bitor_assign_operand S E (k + 10) [],
        e, Res.ok_bind]
      rfl
    | bitand =>
      obtain ⟨u, e, hu⟩ := (C04_assigning hT hfit hA hB hA).2.1
      refine ⟨_, ?_, h.upd r (.bitand_assign hs ht e) hu⟩
      simp only [Prog.step, Prog.getMut, Oper.assignName, es, et, C68_bitand_assign_operand S E (k + 10) [],
        e, Res.ok_bind]
      rfl
    | sub =>
      obtain ⟨u, e, hu⟩ := (C04_assigning hT hfit hA hB hA).2.2.1
      refine ⟨_, ?_, h.upd r (.sub_assign hs ht e) hu⟩
      simp only [Prog.step, Prog.getMut, Oper.assignName, es, et, C68_sub_assign_operand S E (k + 10) [],
        e, Res.ok_bind]
      rfl
    | bitxor =>
      obtain ⟨u, e, hu⟩ := (C04_assigning hT hfit hA hB hA).2.2.2.1
      refine ⟨_, ?_, h.upd r (.bitxor_assign hs ht e) hu⟩
      simp only [Prog.step, Prog.getMut, Oper.assignName, es, et, C68_bitxor_assign_operand S E (k + 10) [],
        e, Res.ok_bind]
      rfl
  | complement r a =>
    obtain ⟨s, es, hs, hA⟩ := h a
    obtain ⟨u, e, hu⟩ := C04_complement hT hfit hA
    refine ⟨_, ?_, h.upd r (.complement hs e) hu⟩
    simp only [Prog.step, Prog.get, es, C68_complement S E (k + 16) [], e, Res.ok_bind]
    rfl
  | not r a =>
    obtain ⟨s, es, hs, hA⟩ := h a
    obtain ⟨u, e, hu⟩ := C04_complement hT hfit hA
    refine ⟨_, ?_, h.upd r (.complement hs e) hu⟩
    simp only [Prog.step, Prog.get, es, C68_not S E (k + 15) [], EnumSet.not, e, Res.ok_bind]
    rfl
  | insert_all r a =>
    obtain ⟨s, es, hs, hA⟩ := h r
    obtain ⟨t, et, ht, hB⟩ := h a
    obtain ⟨u, e, hu⟩ := C04_union hT hfit hA hB
    have e : s.insert_all t = .ok u := e
    refine ⟨_, ?_, h.upd r (.insert_all hs ht e) hu⟩
    simp only [Prog.step, Prog.getMut, es, et, C68_insert_all S (k + 16) [], e, Res.ok_bind]
    rfl
  | remove_all r a =>
    obtain ⟨s, es, hs, hA⟩ := h r
    obtain ⟨t, et, ht, hB⟩ := h a
    obtain ⟨u, e, hu⟩ := C04_difference hT hfit hA hB
    have e : s.remove_all t = .ok u := e
    refine ⟨_, ?_, h.upd r (.remove_all hs ht e) hu⟩
    simp only [Prog.step, Prog.getMut, es, et, C68_remove_all S (k + 16) [], e, Res.ok_bind]
    rfl
  | clear r =>
    obtain ⟨s, es, hs, hA⟩ := h r
    refine ⟨_, ?_, h.upd r (.clear hs) (hnone rfl)⟩
    simp only [Prog.step, Prog.getMut, es, C68_clear S (k + 16) [], Res.ok_bind]
    rfl
  | insert r v =>
    obtain ⟨s, es, hs, hA⟩ := h r
    obtain ⟨u, e, hu⟩ := C03_insert hT hfit hA v
    have hc := C68_insert S E (k + 15) [] s v
    rw [e] at hc
    refine ⟨_, ?_, h.upd r (.insert hs e) hu⟩
    simp only [Prog.step, Prog.getMut, es]
    rw [show P.call (k + 20) "EnumSet" "insert" [] [] [setOf enc s, variant v] = _ from hc]
    rfl
  | remove r v =>
    obtain ⟨s, es, hs, hA⟩ := h r
    obtain ⟨u, e, hu⟩ := C03_remove hT hfit hA v
    have hc := C68_remove S E (k + 15) [] s v
    rw [e] at hc
    refine ⟨_, ?_, h.upd r (.remove hs e) hu⟩
    simp only [Prog.step, Prog.getMut, es]
    rw [show P.call (k + 20) "EnumSet" "remove" [] [] [setOf enc s, variant v] = _ from hc]
    rfl
  | contains a v =>
    obtain ⟨s, es, hs, hA⟩ := h a
    have hc := C68_contains S E (k + 16) [] s v
    rw [hA v] at hc
    refine ⟨_, ?_, h⟩
    simp only [Prog.step, Prog.get, es]
    rw [show P.call (k + 20) "EnumSet" "contains" [] [] [setOf enc s, variant v] = _ from hc]
    rfl
  | test f a b =>
    obtain ⟨s, es, hs, hA⟩ := h a
    obtain ⟨t, et, ht, hB⟩ := h b
    cases f with
    | eq =>
      have hr := (C08_eq_iff hT hfit hs ht hA hB).1
      have he : s.eq t = decide (∀ v, σ a v = σ b v) := by rw [Bool.eq_iff_iff, hr]; simp
      refine ⟨_, ?_, h⟩
      simp only [Prog.step, Prog.get, Test.name, es, et, C68_eq S (k + 20) [], he, Res.ok_bind]
      rfl
    | is_subset =>
      obtain ⟨r, e, hr⟩ := (C06_relations hT hfit hs ht hA hB).1
      have he : r = Test.sem (σ a) (σ b) .is_subset := by
        rw [Bool.eq_iff_iff, hr]; simp only [Test.sem, decide_eq_true_iff]
      refine ⟨_, ?_, h⟩
      simp only [Prog.step, Prog.get, Test.name, es, et, C68_is_subset S (k + 13) [], e, he, Res.ok_bind]
      rfl
    | is_superset =>
      obtain ⟨r, e, hr⟩ := (C06_relations hT hfit hs ht hA hB).2.1
      have he : r = Test.sem (σ a) (σ b) .is_superset := by
        rw [Bool.eq_iff_iff, hr]; simp only [Test.sem, decide_eq_true_iff]
      refine ⟨_, ?_, h⟩
      simp only [Prog.step, Prog.get, Test.name, es, et, C68_is_superset S (k + 14) [], e, he, Res.ok_bind]
      rfl
    | is_disjoint =>
      obtain ⟨r, e, hr⟩ := (C06_relations hT hfit hs ht hA hB).2.2
      have he : r = Test.sem (σ a) (σ b) .is_disjoint := by
        rw [Bool.eq_iff_iff, hr]; simp only [Test.sem, decide_eq_true_iff]
      refine ⟨_, ?_, h⟩
      simp only [Prog.step, Prog.get, Test.name, es, et, C68_is_disjoint S (k + 14) [], e, he, Res.ok_bind]
      rfl
  | eq_variant a v =>
    obtain ⟨s, es, hs, hA⟩ := h a
    obtain ⟨r, e, -, hr⟩ := C08_eq_variant hT hfit hs hA v
    have he : r = decide (∀ u, σ a u = decide (u = v)) := by rw [Bool.eq_iff_iff, hr]; simp
    have hc := C68_eq_variant S E (k + 13) [] s v
    rw [e, he] at hc
    refine ⟨_, ?_, h⟩
    simp only [Prog.step, Prog.get, es]
    rw [show P.call (k + 20) "EnumSet" "eq_variant" [] [] [setOf enc s, variant v] = _ from hc]
    rfl
  | len a =>
    obtain ⟨s, es, hs, hA⟩ := h a
    refine ⟨_, ?_, h⟩
    simp only [Prog.step, Prog.get, es, C68_len S (k + 16) [], C07_len hT hfit hs hA, Res.ok_bind]
    rfl
  | is_empty a =>
    obtain ⟨s, es, hs, hA⟩ := h a
    obtain ⟨r, e, hr, -⟩ := C07_is_empty hT hfit hs hA
    have he : r = decide (∀ v, σ a v = false) := by rw [Bool.eq_iff_iff, hr]; simp
    refine ⟨_, ?_, h⟩
    simp only [Prog.step, Prog.get, es, C68_is_empty S (k + 16) [], e, he, Res.ok_bind]
    rfl
  | items a =>
    obtain ⟨s, es, hs, hA⟩ := h a
    obtain ⟨it, e, hit⟩ := W.iter_sorted hs hA
    have hlen : (sortedMembers T.discr (σ a)).length < P.fuel := by
      simp only [length_sortedMembers]
      exact Nat.lt_of_le_of_lt (card_le _) hfuel
    refine ⟨_, ?_, h⟩
    simp only [Prog.step, Prog.get, es, C68_iter S (k + 15) [], e, Res.ok_bind]
    rw [drain_next S E k W _ P.fuel it hlen (okI_of_iter S e) (by simpa using hit)]
    rfl
  | itemsBack a =>
    obtain ⟨s, es, hs, hA⟩ := h a
    obtain ⟨it, e, hit⟩ := W.iter_sorted hs hA
    have hlen : ((sortedMembers T.discr (σ a)).reverse).length < P.fuel := by
      simp only [List.length_reverse, length_sortedMembers]
      exact Nat.lt_of_le_of_lt (card_le _) hfuel
    refine ⟨_, ?_, h⟩
    simp only [Prog.step, Prog.get, es, C68_iter S (k + 15) [], e, Res.ok_bind]
    rw [drain_next_back S E k W _ P.fuel it hlen (okI_of_iter S e) (by simpa using hit)]
    rfl

/-- Every program on the text, started with empty sets, answers as on mathematical sets.  `P` is a
program for the derived enum `T` (one exists by `C68_derived`); calls may nest `k + 20` deep. -/
theorem C69_history {inp : DeriveInput} (hT : derive inp = .ok T) (hfit : Fits T)
    (hfuel : T.n < P.fuel) (cs : List (Cmd T.n)) :
    P.run (k + 20) cs = .ok (answers T.discr cs fun _ _ => false) := by
  obtain ⟨W⟩ := wf_of_derive hT hfit
  have key : ∀ (cs : List (Cmd T.n)) ρ σ, Rel enc ρ σ →
      P.runFrom (k + 20) cs ρ = .ok (answers T.discr cs σ) := by
    intro cs
    induction cs with
    | nil => intro ρ σ _; rfl
    | cons c cs ih =>
      intro ρ σ h
      obtain ⟨ρ', e, h'⟩ := step_sim S E k hT hfit hfuel c h
      rw [Prog.runFrom, e, Res.ok_bind, ih _ _ h']
      rfl
  simp only [Prog.run, Prog.get, C68_new S (k + 15) [], Res.ok_bind]
  exact key cs _ _ fun i => ⟨_, rfl, .new, W.members_of_bits fun v => W.bit_empty _⟩

end history

/-! ### Examples -/

namespace Ex
open Enumset.Ex
open scoped Enumset.Ex

/-- `x.insert(C); x.insert(A); x.insert(C); y = !x; x.iter(); y.iter(); x |= B; x.len();
x.iter().rev(); y.is_subset(x)` -/
def cmds : List (Cmd 3) :=
  [.insert 0 2, .insert 0 0, .insert 0 2, .not 1 0, .items 0, .items 1, .operAssign .bitor 0 (.val 1),
   .len 0, .itemsBack 0, .test .is_subset 1 0]

/-- The answers on mathematical sets. -/
def cmdsAnswers : List (Ans 3) :=
  [.bool true, .bool true, .bool false, .unit, .list [0, 2], .list [1], .unit, .num 3, .list [2, 1, 0],
   .bool true]

example : answers (n := 3) T.discr cmds (fun _ _ => false) = cmdsAnswers := by
  have h0 : T.discr (0 : Fin 3) = 0 := by rfl
  have h1 : T.discr (1 : Fin 3) = 3 := by rfl
  have h2 : T.discr (2 : Fin 3) = 4 := by rfl
  have hf : List.finRange 3 = [0, 1, 2] := by decide
  simp [answers, cmds, cmdsAnswers, Cmd.sem, Oper.sem, Arg.sem, Test.sem, upd, sortedMembers, card, hf,
    List.mergeSort, List.filter, List.MergeSort.Internal.splitInTwo, List.splitAt,
    List.splitAt.go, h0, h1, h2]
  decide
-- the theorem applies, with an integer and with an array as storage
example : progT.run 20 cmds = .ok (answers T.discr cmds fun _ _ => false) :=
  C69_history storageT itemsT 0 hT fitT (by decide) cmds
example : progL.run 20 cmds = .ok (answers L.discr cmds fun _ _ => false) :=
  C69_history storageL itemsL 0 hL fitL (by decide) cmds
end Ex
end Enumset.Src
