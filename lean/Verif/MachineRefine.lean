import Verif.MachineLemmas
import Verif.Props.Basic
import Verif.Props.Order
import Verif.Props.Derive
import Verif.Props.Macros
import Verif.Props.Fmt
import Verif.Props.UserIter
import Verif.MachineSerde
/-!
# Helper lemmas for histories: every command of the model agrees with its meaning
-/
set_option autoImplicit false
set_option linter.unusedSectionVars false

namespace Enumset

namespace Hist

open ConstMacro

variable [Platform] {inp : DeriveInput} {T : EnumSetType}

/-- The variables hold safe sets with the given elements and iterators with the given queues. -/
structure Rel (W : WF T) (st : St T) (ast : ASt T.n) : Prop where
  safe : ∀ a, Safe (st.sets a)
  mem : ∀ a, Members (st.sets a) (ast.sets a)
  itr : ∀ k, W.ItRep (st.iters k) (ast.iters k)

theorem toVal_rfl (v : T.Val) : toVal (T := T) rfl v = v := rfl
theorem toVal_rfl' : (toVal (T := T) rfl) = id := rfl
theorem ofVal_rfl' : (ofVal (T := T) rfl) = id := rfl
theorem ofVal_rfl (v : T.Val) : ofVal (T := T) rfl v = v := rfl

/-- The outcome of a set-valued call agrees with its meaning. -/
def Agrees (r : Res (EnumSet T)) : Except Panic (T.Val → Bool) → Prop
  | .ok A => ∃ s, r = .ok s ∧ Safe s ∧ Members s A
  | .error p => r = .panic p

theorem Rel.operand {W : WF T} {st : St T} {ast : ASt T.n} (R : Rel W st ast) (x : Arg T.n) :
    Denotes (x.operand rfl st) (x.den ast) := by
  cases x with
  | val v => intro u; rfl
  | reg a => exact R.mem a

theorem Rel.opsafe {W : WF T} {st : St T} {ast : ASt T.n} (R : Rel W st ast) (x : Arg T.n) :
    ∀ b, x.operand rfl st = .set b → Safe b := by
  cases x with
  | val v => intro b h; cases h
  | reg a => intro b h; injection h with h; subst h; exact R.safe a

theorem testBit_known {discr : T.Val → Nat} (hd : discr = T.discr) (x : Nat) (p : Nat → Bool)
    (hp : ∀ i, x.testBit i = p i) : known discr x = true ↔ OnlyVariants T p := by
  subst hd
  rw [known_iff]
  unfold OnlyVariants
  simp only [hp]

/-- The bits of a source. -/
def Source.bit : Source → Nat → Bool
  | .num _ x => x.getLsbD
  | .array ws => wbit ws
  | .slice ws => wbit ws

theorem Source.testBit_toNat (src : Source) (i : Nat) : src.toNat.testBit i = src.bit i := by
  cases src with
  | num t x => exact (BitVec.testBit_toNat x)
  | array ws => exact ofWords_testBit ws i
  | slice ws => exact ofWords_testBit ws i

theorem arr_toList (ws : List U64) : (arr ws).toList = ws := by simp [arr]

theorem import_all (hT : derive inp = .ok T) (hfit : Fits T) (src : Source) :
    (known T.discr src.toNat = true → ∃ s : EnumSet T, src.tryImport = .ok (some s) ∧
      src.import = .ok s ∧ Safe s ∧ Members s fun u => src.toNat.testBit (T.discr u)) ∧
    (known T.discr src.toNat = false → src.tryImport (T := T) = .ok none ∧
      src.import (T := T) = .panic invalidVariants) ∧
    (∃ s : EnumSet T, src.importTruncated = .ok s ∧ Safe s ∧
      Members s fun u => src.toNat.testBit (T.discr u)) := by
  have hk := testBit_known (T := T) rfl src.toNat src.bit src.testBit_toNat
  have hkn : known T.discr src.toNat = false ↔ ¬ OnlyVariants T src.bit := by
    rw [← hk, Bool.not_eq_true]
  rw [hk, hkn]
  simp only [src.testBit_toNat]
  cases src with
  | num t x =>
    obtain ⟨h1, h2, h3⟩ := C19_from_num hT hfit t x
    refine ⟨fun h => ?_, h2, ?_⟩
    · obtain ⟨s, e1, e2, hm⟩ := h1 h; exact ⟨s, e1, e2, .from_num e2, hm⟩
    · obtain ⟨s, e, hm⟩ := h3; exact ⟨s, e, .from_num_truncated e, hm⟩
  | array ws =>
    obtain ⟨h1, h2, h3⟩ := C22_from_array hT hfit _ (arr ws)
    rw [arr_toList] at h1 h2 h3
    refine ⟨fun h => ?_, h2, ?_⟩
    · obtain ⟨s, e1, e2, hm⟩ := h1 h; exact ⟨s, e1, e2, .from_array e2, hm⟩
    · obtain ⟨s, e, hm⟩ := h3; exact ⟨s, e, .from_array_truncated e, hm⟩
  | slice ws =>
    obtain ⟨h1, h2, h3⟩ := C22_from_slice hT hfit ws
    refine ⟨fun h => ?_, h2, ?_⟩
    · obtain ⟨s, e1, e2, hm⟩ := h1 h; exact ⟨s, e1, e2, .from_slice e2, hm⟩
    · obtain ⟨s, e, hm⟩ := h3; exact ⟨s, e, .from_slice_truncated e, hm⟩

theorem members_congr {s : EnumSet T} {A B : T.Val → Bool} (h : Members s A) (e : ∀ v, A v = B v) :
    Members s B := fun v => by rw [h v, e v]

theorem members_any (W : WF T) {st : St T} {ast : ASt T.n} (R : Rel W st ast) (l : List Nat)
    (v : T.Val) : (∃ x ∈ l.map st.sets, x.contains v = .ok true) ↔
      (l.any fun a => ast.sets a v) = true := by
  rw [List.any_eq_true]
  constructor
  · rintro ⟨x, hx, h⟩
    obtain ⟨a, ha, rfl⟩ := List.mem_map.mp hx
    rw [R.mem a v] at h
    injection h with h
    exact ⟨a, ha, h⟩
  · rintro ⟨a, ha, h⟩
    exact ⟨_, List.mem_map.mpr ⟨a, ha, rfl⟩, by rw [R.mem a v, h]⟩

theorem members_of_iff {s : EnumSet T} (W : WF T) {A : T.Val → Bool}
    (h : ∀ v, s.contains v = .ok true ↔ A v = true) : Members s A := by
  rw [W.members_iff]
  intro v
  have := h v
  rw [W.contains_ok, Res.ok.injEq] at this
  exact Bool.eq_iff_iff.mpr this

theorem mem_of_intersperse {α : Type} {sep x : α} {l : List α} (h : x ∈ l.intersperse sep) :
    x = sep ∨ x ∈ l := by
  induction l with
  | nil => exact .inr h
  | cons a l ih =>
    cases l with
    | nil => exact .inr h
    | cons b l =>
      rw [List.intersperse_cons_cons, List.mem_cons, List.mem_cons] at h
      rcases h with h | h | h
      · exact .inr (by simp [h])
      · exact .inl h
      · rcases ih h with h | h
        · exact .inl h
        · exact .inr (List.mem_cons_of_mem _ h)

theorem Rel.toks {W : WF T} {st : St T} {ast : ASt T.n} (R : Rel W st ast) (xs : List (Arg T.n))
    {sep : Tok (Operand T)} (hsep : ∀ o, sep ≠ .path o) (b : EnumSet T)
    (hb : Tok.path (.set b) ∈ List.intersperse sep ((xs.map (Arg.operand rfl st)).map Tok.path)) :
    Safe b := by
  rcases mem_of_intersperse hb with h | h
  · exact absurd h.symm (hsep _)
  · obtain ⟨o, ho, eo⟩ := List.mem_map.mp h
    obtain ⟨x, -, rfl⟩ := List.mem_map.mp ho
    injection eo with eo
    exact R.opsafe x b eo

/-- The kind of a macro. -/
def BinOp.kind : BinOp → ConstMacro.Kind
  | .union => .union
  | .inter => .intersection
  | .diff => .difference
  | .symm => .symmetric_difference

theorem expr_agrees (hT : derive inp = .ok T) (hfit : Fits T) (W : WF T) {st : St T}
    {ast : ASt T.n} (R : Rel W st ast) (e : Expr T.n) :
    Agrees (e.eval rfl st) (e.den T.discr ast) := by
  obtain ⟨z1, z2, z3, z4, z5, z6, z7⟩ := C43_empty_all hT hfit
  cases e with
  | new => exact ⟨_, rfl, .new, z1⟩
  | empty => exact ⟨_, rfl, .empty, z2⟩
  | all => exact ⟨_, rfl, .all, z6⟩
  | EMPTY => exact ⟨_, rfl, .EMPTY, z3⟩
  | ALL => exact ⟨_, rfl, .ALL, z7⟩
  | default => exact ⟨_, rfl, .default, z4⟩
  | only v =>
    obtain ⟨s, e, hs⟩ := W.only_set_ok v
    exact ⟨s, e, .only e, W.members_of_bits fun u => by rw [hs, W.decide_discr]⟩
  | copy a => exact ⟨_, rfl, R.safe a, R.mem a⟩
  | into x =>
    obtain ⟨s, e, hs⟩ := W.into_set_ok (x.operand rfl st)
    exact ⟨s, e, .into (R.opsafe x) e, W.members_of_bits fun u => by
      rw [hs]; exact W.denotes_iff.mp (R.operand x) u⟩
  | clear a => exact ⟨_, rfl, .clear (R.safe a), z5 _⟩
  | method op a b =>
    cases op with
    | union =>
      obtain ⟨s, e, hs⟩ := C04_union hT hfit (R.mem a) (R.mem b)
      exact ⟨s, e, .union (R.safe a) (R.safe b) e, hs⟩
    | inter =>
      obtain ⟨s, e, hs⟩ := C04_intersection hT hfit (R.mem a) (R.mem b)
      exact ⟨s, e, .intersection (R.safe a) (R.safe b) e, hs⟩
    | diff =>
      obtain ⟨s, e, hs⟩ := C04_difference hT hfit (R.mem a) (R.mem b)
      exact ⟨s, e, .difference (R.safe a) (R.safe b) e, hs⟩
    | symm =>
      obtain ⟨s, e, hs⟩ := C04_symmetrical_difference hT hfit (R.mem a) (R.mem b)
      exact ⟨s, e, .symmetrical_difference (R.safe a) (R.safe b) e, hs⟩
  | insertAll a b =>
    obtain ⟨s, e, hs⟩ := C04_union hT hfit (R.mem a) (R.mem b)
    exact ⟨s, e, .insert_all (R.safe a) (R.safe b) e, hs⟩
  | removeAll a b =>
    obtain ⟨s, e, hs⟩ := C04_difference hT hfit (R.mem a) (R.mem b)
    exact ⟨s, e, .remove_all (R.safe a) (R.safe b) e, hs⟩
  | complement a =>
    obtain ⟨s, e, hs⟩ := C04_complement hT hfit (R.mem a)
    exact ⟨s, e, .complement (R.safe a) e, hs⟩
  | operator op a x =>
    obtain ⟨h1, h2, h3, h4, -⟩ := C04_operators hT hfit (R.mem a) (R.operand x)
    cases op with
    | union => obtain ⟨s, e, hs⟩ := h1; exact ⟨s, e, .bitor (R.safe a) (R.opsafe x) e, hs⟩
    | inter => obtain ⟨s, e, hs⟩ := h2; exact ⟨s, e, .bitand (R.safe a) (R.opsafe x) e, hs⟩
    | diff => obtain ⟨s, e, hs⟩ := h3; exact ⟨s, e, .sub (R.safe a) (R.opsafe x) e, hs⟩
    | symm => obtain ⟨s, e, hs⟩ := h4; exact ⟨s, e, .bitxor (R.safe a) (R.opsafe x) e, hs⟩
  | assign op a x =>
    obtain ⟨h1, h2, h3, h4, -⟩ := C04_assigning hT hfit (R.mem a) (R.operand x) (R.mem a)
    cases op with
    | union => obtain ⟨s, e, hs⟩ := h1; exact ⟨s, e, .bitor_assign (R.safe a) (R.opsafe x) e, hs⟩
    | inter => obtain ⟨s, e, hs⟩ := h2; exact ⟨s, e, .bitand_assign (R.safe a) (R.opsafe x) e, hs⟩
    | diff => obtain ⟨s, e, hs⟩ := h3; exact ⟨s, e, .sub_assign (R.safe a) (R.opsafe x) e, hs⟩
    | symm => obtain ⟨s, e, hs⟩ := h4; exact ⟨s, e, .bitxor_assign (R.safe a) (R.opsafe x) e, hs⟩
  | not a =>
    obtain ⟨-, -, -, -, s, e, hs⟩ := C04_operators hT hfit (R.mem a) (R.mem a)
      (o := .set (st.sets a))
    exact ⟨s, e, .not (R.safe a) e, hs⟩
  | valOperator op v x =>
    obtain ⟨h1, h2, h3, h4, -⟩ := C35_members hT hfit v (R.operand x)
    cases op with
    | union => obtain ⟨s, e, hs⟩ := h1; exact ⟨s, e, .val_bitor (R.opsafe x) e, hs⟩
    | inter => obtain ⟨s, e, hs⟩ := h2; exact ⟨s, e, .val_bitand (R.opsafe x) e, hs⟩
    | diff => obtain ⟨s, e, hs⟩ := h3; exact ⟨s, e, .val_sub (R.opsafe x) e, hs⟩
    | symm => obtain ⟨s, e, hs⟩ := h4; exact ⟨s, e, .val_bitxor (R.opsafe x) e, hs⟩
  | valNot v =>
    obtain ⟨-, -, -, -, s, e, hs⟩ := C35_members hT hfit v (o := .val v) (fun _ => rfl)
    exact ⟨s, e, .val_not e, hs⟩
  | fromIter vs =>
    obtain ⟨⟨s, e, hs⟩, -, -⟩ := C16_collect hT hfit (vs.map (toVal rfl)) (R.mem 0)
    refine ⟨s, e, .from_iter e, ?_⟩
    rw [toVal_rfl', List.map_id] at hs
    exact hs
  | extend a vs =>
    obtain ⟨-, -, s, e, hs⟩ := C16_collect hT hfit (vs.map (toVal rfl)) (R.mem a)
    refine ⟨s, e, .extend (R.safe a) e, ?_⟩
    rw [toVal_rfl', List.map_id] at hs
    exact hs
  | sum vs =>
    obtain ⟨-, ⟨s, e, hs⟩, -⟩ := C16_collect hT hfit (vs.map (toVal rfl)) (R.mem 0)
    refine ⟨s, e, .sum e, ?_⟩
    rw [toVal_rfl', List.map_id] at hs
    exact hs
  | fromSets l =>
    obtain ⟨⟨s, e, hs⟩, -, -⟩ := C17_collect_sets hT hfit (l.map st.sets) (st.sets 0)
    refine ⟨s, e, .from_iter_sets ?_ e, members_of_iff W fun v => (hs v).trans (members_any W R l v)⟩
    intro x hx
    obtain ⟨a, -, rfl⟩ := List.mem_map.mp hx
    exact R.safe a
  | sumSets l =>
    obtain ⟨-, ⟨s, e, hs⟩, -⟩ := C17_collect_sets hT hfit (l.map st.sets) (st.sets 0)
    refine ⟨s, e, .sum_sets ?_ e, members_of_iff W fun v => (hs v).trans (members_any W R l v)⟩
    intro x hx
    obtain ⟨a, -, rfl⟩ := List.mem_map.mp hx
    exact R.safe a
  | extendSets a l =>
    obtain ⟨-, -, s, e, hs⟩ := C17_collect_sets hT hfit (l.map st.sets) (st.sets a)
    refine ⟨s, e, .extend_sets (R.safe a) ?_ e, members_of_iff W fun v => (hs v).trans ?_⟩
    · intro x hx
      obtain ⟨a, -, rfl⟩ := List.mem_map.mp hx
      exact R.safe a
    · rw [members_any W R l v, R.mem a v, Bool.or_eq_true, Res.ok.injEq]
  | collect k =>
    have e := W.extend_iter_eq (R.itr k) EnumSet.empty
    obtain ⟨-, -, s, e', hs⟩ := C16_collect hT hfit (ast.iters k) z2
    refine ⟨s, e.trans e', .collect (e.trans e'), members_congr hs fun v => ?_⟩
    rw [Bool.false_or]
  | extendIter a k =>
    have e := W.extend_iter_eq (R.itr k) (st.sets a)
    obtain ⟨-, -, s, e', hs⟩ := C16_collect hT hfit (ast.iters k) (R.mem a)
    exact ⟨s, e.trans e', .extend_iter (R.safe a) (e.trans e'), hs⟩
  | enumSet xs =>
    obtain ⟨s, e, hs⟩ := W.enum_set_ok (xs.map (Arg.operand rfl st))
    refine ⟨s, e, ?_, W.members_of_bits fun u => ?_⟩
    · have hcall := (C47_enum_set _ (.ok s)).mpr ⟨xs.map (Arg.operand rfl st), 0, rfl, e.symm⟩
      refine .enum_set ?_ hcall
      intro b hb
      rw [List.replicate_zero, List.append_nil] at hb
      exact R.toks xs (by intro o h; cases h) b hb
    · rw [hs, List.any_map]
      congr 1
      funext x
      exact W.denotes_iff.mp (R.operand x) u
  | listMacro op x xs =>
    obtain ⟨s, e, hs⟩ := W.evalKind_ok op.kind (x.operand rfl st) (xs.map (Arg.operand rfl st))
      (W.oclean_of_safe (R.opsafe x))
    have em : evalKind op.kind (x.operand rfl st :: xs.map (Arg.operand rfl st)) =
        some (op.macro (x.operand rfl st) (xs.map (Arg.operand rfl st))) := by cases op <;> rfl
    have e' : op.macro (x.operand rfl st) (xs.map (Arg.operand rfl st)) = .ok s := by
      rw [em] at e; injection e
    refine ⟨s, e', ?_, W.members_of_bits fun u => ?_⟩
    · refine .list_macro (k := op.kind) (ts := List.intersperse .comma
        (((x :: xs).map (Arg.operand rfl st)).map .path)) (fun b hb => R.toks (x :: xs)
          (by intro o h; cases h) b hb) ?_
      unfold list_call
      rw [(Tok.expandList_iff _ ((x :: xs).map (Arg.operand rfl st))).mpr ⟨by simp, .inl rfl⟩]
      exact e
    · rw [hs, List.foldl_map]
      have h0 : W.obit (x.operand rfl st) (T.discr u) = x.den ast u :=
        W.denotes_iff.mp (R.operand x) u
      rw [h0]
      congr 1
      funext b y
      rw [W.denotes_iff.mp (R.operand y) u]
      cases op <;> rfl
  | complementMacro x =>
    obtain ⟨s, e, -, hs⟩ := C34_complement hT hfit (x.operand rfl st) (R.operand x)
    refine ⟨s, e, .complement_macro (ts := [.path (x.operand rfl st)]) ?_ ?_, hs⟩
    · intro b hb
      rw [List.mem_singleton] at hb
      injection hb with hb
      exact R.opsafe x b hb.symm
    · exact congrArg some e
  | «import» src =>
    obtain ⟨h1, h2, -⟩ := import_all hT hfit src
    cases hk : known T.discr src.toNat with
    | true =>
      obtain ⟨s, -, e, hs, hm⟩ := h1 hk
      simp only [Expr.den, hk, if_true]
      exact ⟨s, e, hs, hm⟩
    | false =>
      simp only [Expr.den, hk]
      exact (h2 hk).2
  | importTruncated src => exact (import_all hT hfit src).2.2
  | viaRepr a =>
    have h : EnumSet.try_from_repr (st.sets a).as_repr = .ok (some (st.sets a)) :=
      (W.try_from_repr_ok (st.sets a).as_repr).1 fun i hi => W.clean_of_safe (R.safe a) i hi
    refine ⟨st.sets a, ?_, R.safe a, R.mem a⟩
    change EnumSet.from_repr _ = _
    unfold EnumSet.from_repr
    rw [h]
    rfl
  | viaReprTruncated a =>
    obtain ⟨s, e, hs⟩ := W.from_repr_truncated_ok (st.sets a).as_repr
    refine ⟨s, e, .from_repr_truncated e, W.members_of_bits fun v => ?_⟩
    rw [hs, show W.bit EnumSet.ALL_REPR (T.discr v) = true from W.mem_all v, Bool.and_true]
    exact W.members_iff.mp (R.mem a) v

theorem less_iff (hT : derive inp = .ok T) (hfit : Fits T) {a b : EnumSet T} (ha : Safe a)
    (hb : Safe b) {A B : T.Val → Bool} (hA : Members a A) (hB : Members b B) :
    less T.discr (storageOf inp) A B = true ↔ a.cmp b = .lt := by
  unfold less
  rw [decide_eq_true_iff]
  cases hst : storageOf inp with
  | int w =>
    rw [C10_integer_order hT hfit hst ha hb hA hB]
    simp only [before, decide_eq_true_iff]
  | array N =>
    rw [C10_array_order hT hfit hst ha hb hA hB]
    simp only [before, decide_eq_true_iff]
    constructor
    · rintro ⟨v, h1, h2, h3⟩
      exact ⟨v, h1, h2, fun u hu => h3 u (.inl hu), fun u h4 h5 => h3 u (.inr ⟨h4, h5⟩)⟩
    · rintro ⟨v, h1, h2, h3, h4⟩
      exact ⟨v, h1, h2, fun u hu => hu.elim (h3 u) fun hu => h4 u hu.1 hu.2⟩

theorem cmp_eq_compared (hT : derive inp = .ok T) (hfit : Fits T) {a b : EnumSet T} (ha : Safe a)
    (hb : Safe b) {A B : T.Val → Bool} (hA : Members a A) (hB : Members b B) :
    a.cmp b = compared T.discr (storageOf inp) A B := by
  have h1 := less_iff hT hfit ha hb hA hB
  have h2 := less_iff hT hfit hb ha hB hA
  rw [(C09_total_order hT hfit a b a).2.2.1] at h2
  unfold compared
  cases hc : a.cmp b with
  | lt => rw [hc] at h1; rw [if_pos (h1.mpr rfl)]
  | eq =>
    rw [hc] at h1 h2
    rw [if_neg (fun h => by cases h1.mp h), if_neg (fun h => by cases h2.mp h)]
  | gt =>
    rw [hc] at h1 h2
    rw [if_neg (fun h => by cases h1.mp h), if_pos (h2.mpr rfl)]

theorem fold_max {n : Nat} (discr : Fin n → Nat) (l : List (Fin n)) (m : Nat) :
    m ≤ l.foldl (fun m v => Nat.max m (discr v)) m ∧
    (∀ v ∈ l, discr v ≤ l.foldl (fun m v => Nat.max m (discr v)) m) ∧
    (l.foldl (fun m v => Nat.max m (discr v)) m = m ∨
      ∃ v ∈ l, discr v = l.foldl (fun m v => Nat.max m (discr v)) m) := by
  induction l generalizing m with
  | nil => simp
  | cons v l ih =>
    obtain ⟨h1, h2, h3⟩ := ih (Nat.max m (discr v))
    rw [List.foldl_cons]
    have e1 : m ≤ Nat.max m (discr v) := Nat.le_max_left _ _
    have e2 : discr v ≤ Nat.max m (discr v) := Nat.le_max_right _ _
    refine ⟨by omega, ?_, ?_⟩
    · intro u hu
      rcases List.mem_cons.mp hu with rfl | hu
      · omega
      · exact h2 u hu
    · rcases h3 with h3 | ⟨u, hu, h3⟩
      · have : Nat.max m (discr v) = m ∨ Nat.max m (discr v) = discr v := by
          change max m (discr v) = m ∨ max m (discr v) = discr v
          omega
        rcases this with h | h
        · exact .inl (by omega)
        · exact .inr ⟨v, by simp, by omega⟩
      · exact .inr ⟨u, by simp [hu], h3⟩

theorem bit_width_eq (hT : derive inp = .ok T) :
    EnumSet.bit_width T = (List.finRange T.n).foldl (fun m v => Nat.max m (T.discr v)) 0 + 1 := by
  have C := core_of_derive hT
  obtain ⟨h1, h2, h3⟩ := fold_max T.discr (List.finRange T.n) 0
  change T.BIT_WIDTH = _
  have hb := C.bw
  have hlt := C.lt
  rw [hb] at hlt ⊢
  congr 1
  rcases C.attained with h | ⟨v, hv⟩
  · rcases h3 with h3 | ⟨u, -, h3⟩
    · omega
    · have := hlt u; omega
  · have h4 := h2 v (List.mem_finRange v)
    rcases h3 with h3 | ⟨u, -, h3⟩
    · omega
    · have := hlt u; omega

theorem bool_eq {b : Bool} {p : Prop} [Decidable p] (h : b = true ↔ p) : b = decide p := by
  rw [Bool.eq_iff_iff, decide_eq_true_iff]; exact h

theorem num_eq {n : Nat} {discr : Fin n → Nat} {A : Fin n → Bool} {w : Nat} {x : BitVec w}
    (h : ∀ i, x.getLsbD i = true ↔ i < w ∧ ∃ v, discr v = i ∧ A v = true) :
    x.toNat = mask discr A % 2 ^ w := by
  apply Nat.eq_of_testBit_eq
  intro i
  rw [BitVec.testBit_toNat, Nat.testBit_mod_two_pow, Bool.eq_iff_iff, h, Bool.and_eq_true,
    decide_eq_true_iff, mask_testBit]

theorem query_agrees (hT : derive inp = .ok T) (hfit : Fits T) (W : WF T) {st : St T}
    {ast : ASt T.n} (R : Rel W st ast) (q : Query T.n) :
    q.eval rfl st = .ok (q.den T.discr (layoutOf inp) ast) ∨
    ∃ p, q.eval rfl st = .panic p ∧ q.den T.discr (layoutOf inp) ast = .panic p := by
  have hrel := fun a b => C06_relations hT hfit (R.safe a) (R.safe b) (R.mem a) (R.mem b)
  have hmod : ∀ {x k : Nat}, x < 2 ^ k → x % 2 ^ k = x := fun h => Nat.mod_eq_of_lt h
  cases q with
  | bitWidth => left; simp only [Query.eval, Query.den, bit_width_eq hT]
  | variantCount =>
    left
    simp only [Query.eval, Query.den]
    rw [show EnumSet.variant_count T = T.n from (core_of_derive hT).count]
  | contains a v =>
    left
    simp only [Query.eval, Query.den, toVal_rfl, R.mem a v, Res.map_ok]
  | len a =>
    left
    simp only [Query.eval, Query.den, C07_len hT hfit (R.safe a) (R.mem a), Res.map_ok]
  | isEmpty a =>
    left
    obtain ⟨b, e, h, -⟩ := C07_is_empty hT hfit (R.safe a) (R.mem a)
    simp only [Query.eval, Query.den, e, Res.map_ok, bool_eq h]
  | isDisjoint a b =>
    left
    obtain ⟨-, -, r, e, h⟩ := hrel a b
    simp only [Query.eval, Query.den, e, Res.map_ok, bool_eq h]
  | isSubset a b =>
    left
    obtain ⟨⟨r, e, h⟩, -, -⟩ := hrel a b
    simp only [Query.eval, Query.den, e, Res.map_ok, bool_eq h]
  | isSuperset a b =>
    left
    obtain ⟨-, ⟨r, e, h⟩, -⟩ := hrel a b
    simp only [Query.eval, Query.den, e, Res.map_ok, bool_eq h]
  | eq a b =>
    left
    simp only [Query.eval, Query.den,
      bool_eq (C08_eq_iff hT hfit (R.safe a) (R.safe b) (R.mem a) (R.mem b)).1]
  | eqVal a v =>
    left
    obtain ⟨r, e, -, h⟩ := C08_eq_variant hT hfit (R.safe a) (R.mem a) v
    simp only [Query.eval, Query.den, toVal_rfl, e, Res.map_ok, bool_eq h]
  | valEq v a =>
    left
    obtain ⟨r, -, e, h⟩ := C08_eq_variant hT hfit (R.safe a) (R.mem a) v
    simp only [Query.eval, Query.den, toVal_rfl, e, Res.map_ok, bool_eq h]
  | valEqVal u v =>
    left
    simp only [Query.eval, Query.den, toVal_rfl, (core_of_derive hT).val_eq_ok u v, Res.map_ok]
  | cmp a b =>
    left
    simp only [Query.eval, Query.den, layoutOf,
      cmp_eq_compared hT hfit (R.safe a) (R.safe b) (R.mem a) (R.mem b)]
  | partialCmp a b =>
    left
    simp only [Query.eval, Query.den, layoutOf,
      (C09_total_order hT hfit (st.sets a) (st.sets b) (st.sets a)).1,
      cmp_eq_compared hT hfit (R.safe a) (R.safe b) (R.mem a) (R.mem b)]
  | sameHash a b =>
    left
    simp only [Query.eval, Query.den]
    rw [decide_eq_decide.mpr (C08_eq_iff hT hfit (R.safe a) (R.safe b) (R.mem a) (R.mem b)).2]
  | serialize a =>
    left
    simp only [Query.eval, Query.den]
    rw [compiles_eq hT]
    cases hc : (layoutOf inp).serializable with
    | true => rw [if_pos rfl, serialize_agrees hT hfit (R.safe a) (R.mem a) hc]
    | false => simp [serialized, hc]
  | asNum m t a =>
    obtain ⟨x, e, hx, h1, h2⟩ := C18_as_num hT hfit (R.safe a) (R.mem a) t
    have hx' := num_eq hx
    by_cases hb : Below (ast.sets a) t.bits
    · have hl := (mask_lt T.discr (ast.sets a) t.bits).mpr hb
      obtain ⟨e1, e2⟩ := h1 hb
      left
      cases m with
      | checked =>
        simp only [Query.eval, Query.den, e2, Res.map_ok, hx', if_pos hl, hmod hl]
      | try_ =>
        simp only [Query.eval, Query.den, e1, Res.map_ok, Option.map_some, hx', if_pos hl, hmod hl]
      | truncated => simp only [Query.eval, Query.den, e, Res.map_ok, hx']
    · have hl : ¬ mask T.discr (ast.sets a) < 2 ^ t.bits :=
        fun h => hb ((mask_lt T.discr (ast.sets a) t.bits).mp h)
      obtain ⟨e1, e2⟩ := h2 hb
      cases m with
      | checked =>
        right
        refine ⟨doesNotFitType, ?_, ?_⟩
        · simp only [Query.eval, e2]; rfl
        · simp only [Query.den, if_neg hl]
      | try_ =>
        left
        simp only [Query.eval, Query.den, e1, Res.map_ok, Option.map_none, if_neg hl]
      | truncated => left; simp only [Query.eval, Query.den, e, Res.map_ok, hx']
  | asArray m O a =>
    obtain ⟨x, e, hx, h1, h2⟩ := C21_as_array hT hfit (R.safe a) (R.mem a) O
    have hx' : x.toList = toWords O (mask T.discr (ast.sets a)) := by
      apply words_eq (by simp)
      intro j hj b hb
      have hj' : j < O := by simpa using hj
      have := hx j hj' b hb
      rw [Vector.getElem_toList]
      exact this
    by_cases hb : Below (ast.sets a) (64 * O)
    · have hl := (mask_lt T.discr (ast.sets a) (64 * O)).mpr hb
      obtain ⟨e1, e2⟩ := h1 hb
      left
      cases m with
      | checked => simp only [Query.eval, Query.den, e2, Res.map_ok, hx', if_pos hl]
      | try_ =>
        simp only [Query.eval, Query.den, e1, Res.map_ok, Option.map_some, hx', if_pos hl]
      | truncated => simp only [Query.eval, Query.den, e, Res.map_ok, hx']
    · have hl : ¬ mask T.discr (ast.sets a) < 2 ^ (64 * O) :=
        fun h => hb ((mask_lt T.discr (ast.sets a) (64 * O)).mp h)
      obtain ⟨e1, e2⟩ := h2 hb
      cases m with
      | checked =>
        right
        refine ⟨doesNotFitType, ?_, ?_⟩
        · simp only [Query.eval, e2]; rfl
        · simp only [Query.den, if_neg hl]
      | try_ =>
        left
        simp only [Query.eval, Query.den, e1, Res.map_ok, Option.map_none, if_neg hl]
      | truncated => left; simp only [Query.eval, Query.den, e, Res.map_ok, hx']
  | copyIntoSlice m a data =>
    left
    obtain ⟨x, e, hlen, hx, h1, h2⟩ := C23_copy_into_slice hT hfit (R.safe a) (R.mem a) data
    have hx' : x = toWords data.length (mask T.discr (ast.sets a)) := words_eq hlen hx
    by_cases hb : Below (ast.sets a) (64 * data.length)
    · have hl := (mask_lt T.discr (ast.sets a) (64 * data.length)).mpr hb
      obtain ⟨e1, e2⟩ := h1 hb
      rw [hx'] at e e1 e2
      cases m with
      | checked =>
        simp only [Query.eval, Query.den, e2, Res.ok_bind, Res.caught, if_pos hl, Res.pure_eq]
      | try_ => simp only [Query.eval, Query.den, e1, Res.map_ok, if_pos hl, Option.isSome_some]
      | truncated => simp only [Query.eval, Query.den, e, Res.map_ok]
    · have hl : ¬ mask T.discr (ast.sets a) < 2 ^ (64 * data.length) :=
        fun h => hb ((mask_lt T.discr (ast.sets a) (64 * data.length)).mp h)
      obtain ⟨e1, e2⟩ := h2 hb
      rw [hx'] at e
      cases m with
      | checked =>
        simp only [Query.eval, Query.den, e2, Res.ok_bind, Res.caught, if_neg hl, Res.pure_eq]
        rfl
      | try_ => simp only [Query.eval, Query.den, e1, Res.map_ok, if_neg hl, Option.isSome_none]
      | truncated => simp only [Query.eval, Query.den, e, Res.map_ok]
  | toVec a =>
    left
    obtain ⟨x, e, hl, hx, -⟩ := C21_to_vec hT hfit (R.safe a) (R.mem a)
    have hx' : x = toWords (storageOf inp).words (mask T.discr (ast.sets a)) := words_eq hl hx
    simp only [Query.eval, Query.den, e, Res.map_ok, hx', layoutOf]
  | debug a names =>
    left
    have h := (C41_text hT hfit (R.safe a) (R.mem a) names "").1
    simp only [Query.eval, Query.den, textOf, ofVal_rfl]
    rw [h, Res.map_ok]
    congr 2
    simp [setText, String.join_append, String.append_assoc]
  | display a names =>
    left
    have h := (C41_text hT hfit (R.safe a) (R.mem a) names "").2
    simp only [Query.eval, Query.den, textOf, ofVal_rfl]
    rw [h, Res.map_ok, String.empty_append]
    rfl
  | sizeHint k =>
    left
    simp only [Query.eval, Query.den, W.size_hint_ok (R.itr k), Res.map_ok]
  | iterLen k =>
    left
    simp only [Query.eval, Query.den, EnumSetIter.len, W.size_hint_ok (R.itr k), Res.ok_bind,
      if_true, Res.pure_eq, Res.map_ok]
  | count k =>
    left
    simp only [Query.eval, Query.den, (W.provided (R.itr k)).1, Res.map_ok]
  | last k =>
    left
    simp only [Query.eval, Query.den, (W.provided (R.itr k)).2.1, Res.map_ok, ofVal_rfl',
      Option.map_id, id]
  | min k =>
    left
    simp only [Query.eval, Query.den, (W.provided (R.itr k)).2.2.2.2.1, Res.map_ok, ofVal_rfl',
      Option.map_id, id]
  | max k =>
    left
    simp only [Query.eval, Query.den, (W.provided (R.itr k)).2.2.2.2.2, Res.map_ok, ofVal_rfl',
      Option.map_id, id]
  | collectVec k =>
    left
    simp only [Query.eval, Query.den, W.collectVec_ok (R.itr k), Res.map_ok, ofVal_rfl',
      List.map_id]
  | collectVecRev k =>
    left
    simp only [Query.eval, Query.den, W.collectVecRev_ok (R.itr k), Res.map_ok, ofVal_rfl',
      List.map_id]

theorem Rel.setSet {W : WF T} {st : St T} {ast : ASt T.n} (R : Rel W st ast) (d : Nat)
    {s : EnumSet T} {A : T.Val → Bool} (hs : Safe s) (hA : Members s A) :
    Rel W (st.setSet d s) (ast.setSet d A) := by
  refine ⟨fun a => ?_, fun a => ?_, R.itr⟩
  · simp only [St.setSet]
    split
    · exact hs
    · exact R.safe a
  · simp only [St.setSet, ASt.setSet]
    split
    · exact hA
    · exact R.mem a

theorem Rel.setIter {W : WF T} {st : St T} {ast : ASt T.n} (R : Rel W st ast) (k : Nat)
    {it : EnumSetIter T} {L : List T.Val} (h : W.ItRep it L) :
    Rel W (st.setIter k it) (ast.setIter k L) := by
  refine ⟨R.safe, R.mem, fun j => ?_⟩
  simp only [St.setIter, ASt.setIter]
  split
  · exact h
  · exact R.itr j

theorem guarded_ok {α : Type} {n : Nat} {st : St T} {r : Res α} {a : α} (h : r = .ok a)
    (k : α → Obs n × St T) : guarded st r k = .ok (k a) := by
  rw [h]; rfl

theorem guarded_panic {α : Type} {n : Nat} {st : St T} {r : Res α} {p : Panic} (h : r = .panic p)
    (k : α → Obs n × St T) : guarded st r k = .ok (.panic p, st) := by
  rw [h]; rfl

theorem scripted_produces {α : Type} (p : Option Panic) (xs : List α) :
    Produces (scripted p) xs xs [] := by
  induction xs with
  | nil => exact .nil []
  | cons x xs ih => exact .cons rfl ih

/-- The ending of a scripted iterator. -/
def ending : Option Panic → Ending
  | none => .none
  | some p => .panic p

theorem scripted_ends {α : Type} (p : Option Panic) :
    scripted (α := α) p [] = ((ending p).answer, []) := by cases p <;> rfl

/-- One command. -/
theorem cmd_agrees (hT : derive inp = .ok T) (hfit : Fits T) (W : WF T) {st : St T}
    {ast : ASt T.n} (R : Rel W st ast) (c : Cmd T.n) :
    ∃ st', c.exec rfl st = .ok ((c.den T.discr (layoutOf inp) ast).1, st') ∧
      Rel W st' (c.den T.discr (layoutOf inp) ast).2 := by
  cases c with
  | set d e =>
    have h := expr_agrees hT hfit W R e
    simp only [Cmd.exec, Cmd.den]
    cases hd : e.den T.discr ast with
    | ok A =>
      rw [hd] at h
      obtain ⟨s, e', hs, hm⟩ := h
      exact ⟨_, guarded_ok e' _, R.setSet d hs hm⟩
    | error p =>
      rw [hd] at h
      exact ⟨_, guarded_panic h _, R⟩
  | tryImport d src =>
    obtain ⟨h1, h2, -⟩ := import_all hT hfit src
    simp only [Cmd.exec, Cmd.den]
    cases hk : known T.discr src.toNat with
    | true =>
      obtain ⟨s, e, -, hs, hm⟩ := h1 hk
      exact ⟨_, guarded_ok e _, R.setSet d hs hm⟩
    | false => exact ⟨_, guarded_ok (h2 hk).1 _, R⟩
  | insert d v =>
    obtain ⟨s, e, hs⟩ := C03_insert hT hfit (R.mem d) v
    exact ⟨_, guarded_ok e _, R.setSet d (.insert (R.safe d) e) hs⟩
  | remove d v =>
    obtain ⟨s, e, hs⟩ := C03_remove hT hfit (R.mem d) v
    exact ⟨_, guarded_ok e _, R.setSet d (.remove (R.safe d) e) hs⟩
  | deserialize d x broken =>
    simp only [Cmd.exec, Cmd.den]
    rw [compiles_eq hT]
    cases hc : (layoutOf inp).serializable with
    | false =>
      have : x.read T.discr (layoutOf inp) broken = .unavailable := by simp [Data.read, hc]
      rw [this]
      exact ⟨st, rfl, R⟩
    | true =>
      have h := read_agrees hT hfit hc x broken
      rw [if_pos rfl]
      cases hr : x.read T.discr (layoutOf inp) broken with
      | set A =>
        rw [hr] at h
        obtain ⟨s, e, hs, hm⟩ := h
        rw [e]
        exact ⟨_, guarded_ok rfl _, R.setSet d hs hm⟩
      | refused b =>
        rw [hr] at h
        cases b with
        | false =>
          rw [show Serde.deserialize (T := T) (x.input rfl broken) = _ from h]
          exact ⟨_, guarded_ok rfl _, R⟩
        | true =>
          rw [show Serde.deserialize (T := T) (x.input rfl broken) = _ from h]
          exact ⟨_, guarded_ok rfl _, R⟩
      | panic p =>
        rw [hr] at h
        rw [show Serde.deserialize (T := T) (x.input rfl broken) = _ from h]
        exact ⟨_, guarded_panic rfl _, R⟩
      | unavailable =>
        rw [hr] at h
        rw [show Serde.deserialize (T := T) (x.input rfl broken) = _ from h]
        exact ⟨_, rfl, R⟩
  | extendFrom d vs p =>
    obtain ⟨s, hs, hm, e⟩ := C56_extend hT hfit (scripted_produces p vs) (ending p)
      (scripted_ends p) (R.safe d) (R.mem d)
    refine ⟨_, ?_, R.setSet d hs hm⟩
    simp only [Cmd.exec, Cmd.den, toVal_rfl', List.map_id, e _ (Nat.lt_succ_self _)]
    cases p <;> rfl
  | extendSetsFrom d l p =>
    obtain ⟨⟨s, hs, hm, e⟩, -, -⟩ := C56_sets hT hfit (scripted_produces p (l.map st.sets))
      (by
        intro x hx
        obtain ⟨a, -, rfl⟩ := List.mem_map.mp hx
        exact R.safe a) (ending p) (scripted_ends p) (R.safe d)
    have hm' : Members s fun u => ast.sets d u || l.any fun b => ast.sets b u :=
      members_of_iff W fun v => (hm v).trans (by
        rw [members_any W R l v, R.mem d v, Bool.or_eq_true, Res.ok.injEq])
    refine ⟨_, ?_, R.setSet d hs hm'⟩
    simp only [Cmd.exec, Cmd.den]
    rw [e _ (by rw [List.length_map]; exact Nat.lt_succ_self _)]
    cases p <;> rfl
  | find k p =>
    obtain ⟨it, e, h⟩ := W.find_ok p _ (R.itr k) (W.fuel_ok _ (R.itr k).2.1)
    refine ⟨_, (guarded_ok e _).trans ?_, R.setIter k h⟩
    rw [ofVal_rfl', Option.map_id, id]
    rfl
  | rfind k p =>
    obtain ⟨it, e, h⟩ := W.rfind_ok p _ (R.itr k) (W.fuel_ok _ (R.itr k).2.1)
    refine ⟨_, (guarded_ok e _).trans ?_, R.setIter k h⟩
    rw [ofVal_rfl', Option.map_id, id]
    rfl
  | ask q =>
    rcases query_agrees hT hfit W R q with h | ⟨p, h1, h2⟩
    · exact ⟨_, guarded_ok h _, R⟩
    · refine ⟨st, ?_, R⟩
      simp only [Cmd.exec, Cmd.den]
      rw [h2]
      exact guarded_panic h1 _
  | iter k a =>
    obtain ⟨it, e, h⟩ := W.iter_sorted (R.safe a) (R.mem a)
    exact ⟨_, guarded_ok e _, R.setIter k h⟩
  | cloneIter k l => exact ⟨_, rfl, R.setIter k (R.itr l)⟩
  | next k =>
    obtain ⟨it, e, h⟩ := W.next_ok (R.itr k)
    refine ⟨_, (guarded_ok e _).trans ?_, R.setIter k h⟩
    rw [ofVal_rfl', Option.map_id, id]
    rfl
  | nextBack k =>
    obtain ⟨it, e, h⟩ := W.next_back_ok (R.itr k)
    refine ⟨_, (guarded_ok e _).trans ?_, R.setIter k h⟩
    rw [ofVal_rfl', Option.map_id, id]
    rfl
  | nth k m =>
    obtain ⟨it, e, h⟩ := W.nth_ok m (R.itr k)
    refine ⟨_, (guarded_ok e _).trans ?_, R.setIter k h⟩
    rw [ofVal_rfl', Option.map_id, id]
    rfl
  | nthBack k m =>
    obtain ⟨it, e, h⟩ := W.nth_back_ok m (R.itr k)
    refine ⟨_, (guarded_ok e _).trans ?_, R.setIter k h⟩
    rw [ofVal_rfl', Option.map_id, id]
    rfl

theorem runFrom_agrees (hT : derive inp = .ok T) (hfit : Fits T) (W : WF T) (cs : List (Cmd T.n)) :
    ∀ {st : St T} {ast : ASt T.n}, Rel W st ast →
      runFrom rfl cs st = .ok (answers T.discr (layoutOf inp) cs ast) := by
  induction cs with
  | nil => intro st ast _; rfl
  | cons c cs ih =>
    intro st ast R
    obtain ⟨st', e, R'⟩ := cmd_agrees hT hfit W R c
    simp only [runFrom, e, Res.ok_bind, ih R', answers, Res.pure_eq]

theorem init_agrees (hT : derive inp = .ok T) (hfit : Fits T) (W : WF T) :
    ∃ st, St.init T = .ok st ∧ Rel W st ASt.init := by
  have hz : Members (EnumSet.new : EnumSet T) fun _ => false := (C43_empty_all hT hfit).1
  obtain ⟨it, e, h⟩ := W.iter_sorted Safe.new hz
  refine ⟨⟨fun _ => EnumSet.new, fun _ => it⟩, ?_, fun _ => .new, fun _ => hz, fun _ => ?_⟩
  · unfold St.init; rw [e]; rfl
  · have : sortedMembers T.discr (fun _ : T.Val => false) = [] := by
      apply List.eq_nil_iff_forall_not_mem.mpr
      intro v hv
      cases (mem_sortedMembers _ _ v).mp hv
    rw [this] at h
    exact h

end Hist
end Enumset
