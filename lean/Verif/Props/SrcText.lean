import Verif.SpecText
import Verif.Props.SrcTextLib
import Verif.Props.SrcTextIter
import Verif.Props.SrcRulesHistory
/-!
# C75: every history of the machine of C01, on the text

The histories of SpecMachine.lean, run on the text of the crate and of the code the text of the derive macro returns,
answer what the mathematical sets answer.  The statement mentions no function of the model.
-/
set_option autoImplicit false
set_option maxRecDepth 10000

namespace Enumset.Hist
open Src (Val Prog variant ConstMac Storage EnumItems GenFns setOf setIterOf operandOf)
open Src hiding Cmd Arg Expr BinOp Rel answers Source bind_congr bind_assoc wordsOf_words

section
variable [Platform] {T : EnumSetType} {P : Prog T.Val} {enc : T.Repr → Val T.Val}
  {encI : EnumSetTypeRepr.Iter T.Repr → Val T.Val} {okI : EnumSetTypeRepr.Iter T.Repr → Prop}

/-- The values of the variables of the text are those of the model. -/
structure TRel (enc : T.Repr → Val T.Val) (encI : EnumSetTypeRepr.Iter T.Repr → Val T.Val)
    (okI : EnumSetTypeRepr.Iter T.Repr → Prop) (ρ : TSt T.n) (st : St T) : Prop where
  sets : ∀ a, ρ.sets a = setOf enc (st.sets a)
  iters : ∀ k, ρ.iters k = setIterOf encI (st.iters k)
  ok : ∀ k, okI (st.iters k).iter

theorem TRel.setSet {ρ : TSt T.n} {st : St T} (h : TRel enc encI okI ρ st) (r : Nat) (s : EnumSet T) :
    TRel enc encI okI (ρ.setSet r (setOf enc s)) (st.setSet r s) := by
  refine ⟨fun a => ?_, h.iters, h.ok⟩
  by_cases ha : a = r
  · simp only [TSt.setSet, St.setSet, ha, if_true]
  · simp only [TSt.setSet, St.setSet, ha, if_false]; exact h.sets a

theorem TRel.setIter {ρ : TSt T.n} {st : St T} (h : TRel enc encI okI ρ st) (r : Nat) {it : EnumSetIter T} (ho : okI it.iter) :
    TRel enc encI okI (ρ.setIter r (setIterOf encI it)) (st.setIter r it) := by
  refine ⟨h.sets, fun a => ?_, fun a => ?_⟩
  · by_cases ha : a = r
    · simp only [TSt.setIter, St.setIter, ha, if_true]
    · simp only [TSt.setIter, St.setIter, ha, if_false]; exact h.iters a
  · by_cases ha : a = r
    · simp only [St.setIter, ha, if_true]; exact ho
    · simp only [St.setIter, ha, if_false]; exact h.ok a

theorem TRel.value {ρ : TSt T.n} {st : St T} (h : TRel enc encI okI ρ st) (x : Arg T.n) :
    x.value ρ = operandOf enc id (x.operand rfl st) := by
  cases x with
  | val v => rfl
  | reg a => exact h.sets a

variable {k : Nat}

theorem getOf_of {α : Type} {ty f : String} {args : List (Val T.Val)} {r : Res α} {g : α → Val T.Val}
    {w : α → List (Nat × Val T.Val)} (h : P.call k ty f [] [] args = r >>= fun x => .ok (g x, w x)) :
    P.getOf k ty f args = r >>= fun x => .ok (g x) := by
  rw [Prog.getOf, h, Src.bind_assoc]; rfl
theorem get_of {α : Type} {f : String} {args : List (Val T.Val)} {r : Res α} {g : α → Val T.Val}
    {w : α → List (Nat × Val T.Val)} (h : P.call k "EnumSet" f [] [] args = r >>= fun x => .ok (g x, w x)) :
    P.get k f args = r >>= fun x => .ok (g x) := by
  rw [Prog.get, h, Src.bind_assoc]; rfl
theorem getMut_of {α : Type} {f : String} {args : List (Val T.Val)} {r : Res α} {u g : α → Val T.Val}
    (h : P.call k "EnumSet" f [] [] args = r >>= fun x => .ok (u x, [(0, g x)])) :
    P.getMut k f args = r >>= fun x => .ok (u x, g x) := by
  rw [Prog.getMut, h, Src.bind_assoc]; rfl
theorem newSelf_of {α : Type} {f : String} {args : List (Val T.Val)} {r : Res α} {u g : α → Val T.Val}
    (h : P.call k "EnumSet" f [] [] args = r >>= fun x => .ok (u x, [(0, g x)])) :
    newSelf P k f args = r >>= fun x => .ok (g x) := by
  rw [newSelf, getMut_of h, Src.bind_assoc]; rfl

theorem getOf_ok {ty f : String} {args : List (Val T.Val)} {v : Val T.Val} {w : List (Nat × Val T.Val)}
    (h : P.call k ty f [] [] args = .ok (v, w)) : P.getOf k ty f args = .ok v := by rw [Prog.getOf, h]; rfl
theorem get_ok {f : String} {args : List (Val T.Val)} {v : Val T.Val} {w : List (Nat × Val T.Val)}
    (h : P.call k "EnumSet" f [] [] args = .ok (v, w)) : P.get k f args = .ok v := by rw [Prog.get, h]; rfl
theorem newSelf_ok {f : String} {args : List (Val T.Val)} {u v : Val T.Val}
    (h : P.call k "EnumSet" f [] [] args = .ok (u, [(0, v)])) : newSelf P k f args = .ok v := by
  rw [newSelf, Prog.getMut, h]; rfl

theorem map_variant (vs : List T.Val) : vs.map variant = (vs.map (toVal (T := T) rfl)).map fun v => .host "T" (id v) := by
  rw [toVal_rfl', List.map_id]; rfl
theorem map_sets {ρ : TSt T.n} {st : St T} (h : TRel enc encI okI ρ st) (l : List Nat) :
    l.map ρ.sets = (l.map st.sets).map (setOf enc) := by
  rw [List.map_map]; exact List.map_congr_left fun a _ => h.sets a

theorem arg_sem (ast : ASt T.n) (x : Arg T.n) : x.operandOf.sem ast.sets = x.den ast := by cases x <;> rfl

theorem u64s_words (ws : List U64) : (u64s ws : Val T.Val) = words ws := rfl

theorem source_vec (ws : List U64) : (u64s ws : Val T.Val) = vec (arr ws) := rfl

variable (S : Src.Storage P T.Repr enc encI okI) (E : EnumItems P T enc id) (F : GenFns P T enc id) (k)
include S E F

theorem macro_text {inp : DeriveInput} (hT : derive inp = .ok T) (hfit : Fits T) (hfuel : T.n < P.fuel)
    {nm : T.Val → String} (hnm : ∀ env v, P.call (k + 20) "enum T" (nm v) env [] [] = .ok (.host "T" v, []))
    (W : WF T) {ρ : TSt T.n} {st : St T} {ast : ASt T.n} (h : TRel enc encI okI ρ st) (R : Rel W st ast)
    {m : ConstMac} {sep : Tok (Src.Arg T.n)} {l : List (Arg T.n)} {r : Res (EnumSet T)} {A : T.Val → Bool}
    (ha : Agrees r (.ok A))
    (hg : m.Grammar (List.intersperse sep ((l.map Arg.operandOf).map .path)) (l.map Arg.operandOf))
    (hA : m.sem (l.map fun x => x.den ast) = A) :
    macroText P nm (k + 20) ρ m sep l = r >>= fun s => .ok (setOf enc s) := by
  obtain ⟨s, e, hs, hm⟩ := ha
  obtain ⟨ρ', e', h'⟩ := stepMac_sim S E F k hT hfit hfuel hnm
    (.mac m 0 (List.intersperse sep ((l.map Arg.operandOf).map .path))) ⟨_, hg⟩
    (ρ := ρ.sets) (σ := ast.sets) fun i => ⟨st.sets i, h.sets i, R.safe i, R.mem i⟩
  obtain ⟨s', es, hs', hm'⟩ := h' 0
  rw [macroText, e', e, Res.ok_bind, Res.ok_bind]
  show Res.ok (ρ' 0) = _
  rw [es]
  congr 2
  refine W.ext_members hs (W.clean_of_safe hs') ?_ hm'
  have hp : pathsOf (List.intersperse sep ((l.map Arg.operandOf).map .path)) = l.map Arg.operandOf := pathsOf_grammar hg
  show Members s (m.sem ((pathsOf _).map _))
  rw [hp, List.map_map]
  have : ((fun x => Src.Arg.sem ast.sets x) ∘ Arg.operandOf) = fun x : Arg T.n => x.den ast := funext fun x => arg_sem ast x
  rw [this, hA]
  exact hm

theorem expr_text {inp : DeriveInput} (hT : derive inp = .ok T) (hfit : Fits T) (hfuel : T.n < P.fuel)
    (hf : EnumSetIter.fuel T ≤ P.fuel)
    {nm : T.Val → String} (hnm : ∀ env v, P.call (k + 20) "enum T" (nm v) env [] [] = .ok (.host "T" v, []))
    (W : WF T) {ρ : TSt T.n} {st : St T} {ast : ASt T.n} (h : TRel enc encI okI ρ st) (R : Rel W st ast)
    (e : Expr T.n) (he : e.Runs inp.attrs) :
    e.text P nm (k + 20) ρ = e.eval rfl st >>= fun s => .ok (setOf enc s) := by
  have hop : inp.attrs.no_ops = false → T.ops = true := fun h => by rw [(C58_switches hT).1, h]; rfl
  have ag := expr_agrees hT hfit W R e
  have hd : e.eval rfl st ≠ .diverge := by
    intro h
    rw [h] at ag
    revert ag
    cases e.den T.discr ast with
    | error p => exact nofun
    | ok A => rintro ⟨s, e, -⟩; cases e
  cases e with
  | new => exact get_ok (C68_new S (k + 15) [])
  | empty => exact get_ok (C68_empty S (k + 15) [])
  | all => exact get_ok (C68_all S E (k + 15) [])
  | EMPTY => exact get_ok (C68_EMPTY S (k + 15) [])
  | ALL => exact get_ok (C68_ALL S E (k + 15) [])
  | default => exact get_ok (C68_default S (k + 14) [])
  | only v => exact get_of (C68_only S E (k + 14) [] v)
  | copy a => exact congrArg Res.ok (h.sets a)
  | into x =>
    rw [Expr.text, h.value x]
    cases x with
    | val v => exact getOf_of (C68_into_variant S E (k + 12) [] v)
    | reg a => exact getOf_ok (C68_into_set S (k + 19) [] (st.sets a))
  | clear a =>
    rw [Expr.text, h.sets]
    exact newSelf_ok (C68_clear S (k + 16) [] _)
  | method op a b =>
    rw [Expr.text, h.sets, h.sets]
    cases op with
    | union => exact get_of (C68_union S (k + 16) [] _ _)
    | inter => exact get_of (C68_intersection S (k + 16) [] _ _)
    | diff => exact get_of (C68_difference S (k + 16) [] _ _)
    | symm => exact get_of (C68_symmetrical_difference S (k + 16) [] _ _)
  | insertAll a b => rw [Expr.text, h.sets, h.sets]; exact newSelf_of (C68_insert_all S (k + 16) [] _ _)
  | removeAll a b => rw [Expr.text, h.sets, h.sets]; exact newSelf_of (C68_remove_all S (k + 16) [] _ _)
  | complement a => rw [Expr.text, h.sets]; exact get_of (C68_complement S E (k + 16) [] _)
  | operator op a x =>
    rw [Expr.text, h.sets, h.value]
    cases op with
    | union => exact get_of (C68_bitor_operand S E (k + 11) [] _ _)
    | inter => exact get_of (C68_bitand_operand S E (k + 11) [] _ _)
    | diff => exact get_of (C68_sub_operand S E (k + 11) [] _ _)
    | symm => exact get_of (C68_bitxor_operand S E (k + 11) [] _ _)
  | assign op a x =>
    rw [Expr.text, h.sets, h.value]
    cases op with
    | union => exact newSelf_of (C68_bitor_assign_operand S E (k + 10) [] _ _)
    | inter => exact newSelf_of (C68_bitand_assign_operand S E (k + 10) [] _ _)
    | diff => exact newSelf_of (C68_sub_assign_operand S E (k + 10) [] _ _)
    | symm => exact newSelf_of (C68_bitxor_assign_operand S E (k + 10) [] _ _)
  | not a => rw [Expr.text, h.sets]; exact get_of (C68_not S E (k + 15) [] _)
  | valOperator op v x =>
    rw [Expr.text, h.value]
    cases op with
    | union => exact getOf_of (F.bitor (hop he) (k + 20) [] v _)
    | inter => exact getOf_of (F.bitand (hop he) (k + 20) [] v _)
    | diff => exact getOf_of (F.sub (hop he) (k + 20) [] v _)
    | symm => exact getOf_of (F.bitxor (hop he) (k + 20) [] v _)
  | valNot v => exact getOf_of (F.not (hop he) (k + 20) [] v)
  | fromIter vs => rw [Expr.text, map_variant]; exact get_of (C68_from_iter_variants_list S E (k + 13) [] _)
  | extend a vs => rw [Expr.text, map_variant, h.sets]; exact newSelf_of (C68_extend_variants_list S E (k + 14) [] _ _)
  | fromSets l => rw [Expr.text, map_sets h]; exact get_of (C68_from_iter_sets_list S E (k + 13) [] _)
  | extendSets a l => rw [Expr.text, map_sets h, h.sets]; exact newSelf_of (C68_extend_sets_list S E (k + 14) [] _ _)
  | sum vs => rw [Expr.text, map_variant]; exact get_of (C68_sum_variants_list S E (k + 10) [] _)
  | sumSets l => rw [Expr.text, map_sets h]; exact get_of (C68_sum_sets_list S E (k + 14) [] _)
  | collect j => rw [Expr.text, h.iters]; exact get_of (C68_collect S E (k + 9) [] _ (h.ok j) hf hd)
  | extendIter a j =>
    rw [Expr.text, h.iters, h.sets]; exact newSelf_of (C68_extend_iter S E (k + 10) [] _ _ (h.ok j) hf hd)
  | enumSet xs =>
    refine macro_text k S E F hT hfit hfuel hnm W h R ag ⟨0, by simp⟩ ?_
    funext u
    simp only [ConstMac.sem, List.any_map]
    rfl
  | listMacro op x xs =>
    have hk : ∃ c, op.constMac.kind = some c ∧ c.bool = op.bool := by cases op <;> exact ⟨_, rfl, rfl⟩
    obtain ⟨c, hc, hb⟩ := hk
    refine macro_text k S E F hT hfit hfuel hnm W h R ag ?_ ?_
    · cases op <;> exact ⟨by simp, .inl rfl⟩
    · funext u
      show op.constMac.sem (x.den ast :: xs.map fun x => x.den ast) u = _
      rw [← foldl_sem hc, List.foldl_map, hb]
  | complementMacro x =>
    refine macro_text k S E F hT hfit hfuel hnm W h R ag ⟨_, rfl, .inl rfl⟩ ?_
    funext u
    simp [ConstMac.sem]
  | «import» src =>
    rw [Expr.text]
    cases src with
    | num t x => exact get_of (C68_from_num S E (k + 15) [] t x)
    | array ws => exact get_of (C68_from_array S E (k + 15) [] ws.length (arr ws))
    | slice ws => exact get_of (C68_from_slice S E (k + 15) [] ws)
  | importTruncated src =>
    rw [Expr.text]
    cases src with
    | num t x => exact get_of (C68_from_num_truncated S E (k + 14) [] t x)
    | array ws => exact get_of (C68_from_array_truncated S E (k + 16) [] ws.length (arr ws))
    | slice ws => exact get_of (C68_from_slice_truncated S E (k + 16) [] ws)
  | viaRepr a =>
    rw [Expr.text, h.sets, get_ok (C68_as_repr S (k + 19) [] _), Res.ok_bind]
    exact get_of (C68_from_repr S E (k + 13) [] _)
  | viaReprTruncated a =>
    rw [Expr.text, h.sets, get_ok (C68_as_repr S (k + 19) [] _), Res.ok_bind]
    exact get_of (C68_from_repr_truncated S E (k + 14) [] _)
end

/-! ### provided methods of iterators -/

section
variable {α ι κ β : Type} {f : ι → Res (Option α × ι)} {g : κ → Res (Option α × κ)} {e : ι → κ} {ok : ι → Prop}

theorem bind_ne {γ δ : Type} {r : Res γ} {h : γ → Res δ} {x : γ} (hr : r = .ok x) (hd : (r >>= h) ≠ .diverge) :
    h x ≠ .diverge := by rw [hr] at hd; exact hd

theorem foldIter_mono (b : α → β → Res β) {n m : Nat} (hm : n ≤ m) (s : β) (it : ι)
    (h : foldIter f n it s b ≠ .diverge) : foldIter f m it s b = foldIter f n it s b := by
  induction n generalizing s it m with
  | zero => exact absurd rfl h
  | succ n ih =>
    obtain ⟨m, rfl⟩ : ∃ m', m = m' + 1 := ⟨m - 1, by omega⟩
    rw [foldIter] at h ⊢
    rw [foldIter]
    cases hn : f it with
    | ok r =>
      obtain ⟨o, it'⟩ := r
      cases o with
      | none => rfl
      | some v =>
        rw [hn] at h
        simp only [Res.ok_bind] at h ⊢
        cases hg : b v s with
        | ok s' => rw [hg] at h; exact ih (by omega) s' it' h
        | _ => rfl
    | _ => rfl

theorem findIter_mono (p : α → Bool) {n m : Nat} (hm : n ≤ m) (it : ι)
    (h : findIter f p n it ≠ .diverge) : findIter f p m it = findIter f p n it := by
  induction n generalizing it m with
  | zero => exact absurd rfl h
  | succ n ih =>
    obtain ⟨m, rfl⟩ : ∃ m', m = m' + 1 := ⟨m - 1, by omega⟩
    rw [findIter] at h ⊢
    rw [findIter]
    cases hn : f it with
    | ok r =>
      obtain ⟨o, it'⟩ := r
      cases o with
      | none => rfl
      | some v =>
        rw [hn] at h
        simp only [Res.ok_bind] at h ⊢
        by_cases hp : p v = true
        · simp only [hp, if_true]
        · simp only [hp] at h ⊢
          exact ih (by omega) it' h
    | _ => rfl

variable (hg : ∀ it, ok it → g (e it) = f it >>= fun r => .ok (r.1, e r.2))
  (hok : ∀ it o it', ok it → f it = .ok (o, it') → ok it')
include hg hok

theorem foldIter_sim (b : α → β → Res β) (n : Nat) (s : β) (it : ι) (h : ok it) :
    foldIter g n (e it) s b = foldIter f n it s b := by
  induction n generalizing s it with
  | zero => rfl
  | succ n ih =>
    rw [foldIter, foldIter, hg it h]
    cases hn : f it with
    | ok r =>
      obtain ⟨o, it'⟩ := r
      have := hok _ _ _ h hn
      cases o with
      | none => rfl
      | some v => exact bind_congr fun s' => ih s' it' this
    | _ => rfl

theorem nthIter_sim (n : Nat) (it : ι) (h : ok it) :
    nthIter g n (e it) = nthIter f n it >>= fun r => .ok (r.1, e r.2) := by
  induction n generalizing it with
  | zero => exact hg it h
  | succ n ih =>
    rw [nthIter, nthIter, hg it h]
    cases hn : f it with
    | ok r =>
      obtain ⟨o, it'⟩ := r
      have := hok _ _ _ h hn
      cases o with
      | none => rfl
      | some v => exact ih it' this
    | _ => rfl

omit hg in
theorem nthIter_ok (n : Nat) (it : ι) (h : ok it) {o : Option α} {it' : ι} (he : nthIter f n it = .ok (o, it')) : ok it' := by
  induction n generalizing it with
  | zero => exact hok _ _ _ h he
  | succ n ih =>
    rw [nthIter] at he
    cases hn : f it with
    | ok r =>
      obtain ⟨o1, it1⟩ := r
      have := hok _ _ _ h hn
      rw [hn] at he
      cases o1 with
      | none => cases he; exact this
      | some v => exact ih it1 this he
    | _ => rw [hn] at he; cases he

theorem findIter_sim (p : α → Bool) (n : Nat) (it : ι) (h : ok it) :
    findIter g p n (e it) = findIter f p n it >>= fun r => .ok (r.1, e r.2) := by
  induction n generalizing it with
  | zero => rfl
  | succ n ih =>
    rw [findIter, findIter, hg it h]
    cases hn : f it with
    | ok r =>
      obtain ⟨o, it'⟩ := r
      have := hok _ _ _ h hn
      cases o with
      | none => rfl
      | some v =>
        simp only [Res.ok_bind]
        by_cases hp : p v = true
        · simp only [hp, if_true, Res.ok_bind]
        · simp only [hp]
          exact ih it' this
    | _ => rfl

omit hg in
theorem findIter_ok (p : α → Bool) (n : Nat) (it : ι) (h : ok it) {o : Option α} {it' : ι}
    (he : findIter f p n it = .ok (o, it')) : ok it' := by
  induction n generalizing it with
  | zero => cases he
  | succ n ih =>
    rw [findIter] at he
    cases hn : f it with
    | ok r =>
      obtain ⟨o1, it1⟩ := r
      have := hok _ _ _ h hn
      rw [hn] at he
      cases o1 with
      | none => cases he; exact this
      | some v =>
        simp only [Res.ok_bind] at he
        by_cases hp : p v = true
        · simp only [hp, if_true] at he; cases he; exact this
        · simp only [hp] at he; exact ih it1 this he
    | _ => rw [hn] at he; cases he
end

section
variable [Platform] {T : EnumSetType}

theorem forLoop_eq {β : Type} (b : T.Val → β → Res β) (n : Nat) (it : EnumSetIter T) (s : β) :
    EnumSetIter.forLoop n it s b = foldIter EnumSetIter.next n it s b := by
  induction n generalizing it s with
  | zero => rfl
  | succ n ih =>
    rw [EnumSetIter.forLoop, foldIter]
    refine bind_congr fun r => ?_
    obtain ⟨o, it'⟩ := r
    cases o with
    | none => rfl
    | some v => exact bind_congr fun s' => ih it' s'
theorem forLoopBack_eq {β : Type} (b : T.Val → β → Res β) (n : Nat) (it : EnumSetIter T) (s : β) :
    EnumSetIter.forLoopBack n it s b = foldIter EnumSetIter.next_back n it s b := by
  induction n generalizing it s with
  | zero => rfl
  | succ n ih =>
    rw [EnumSetIter.forLoopBack, foldIter]
    refine bind_congr fun r => ?_
    obtain ⟨o, it'⟩ := r
    cases o with
    | none => rfl
    | some v => exact bind_congr fun s' => ih it' s'
theorem nth_eq (n : Nat) (it : EnumSetIter T) : it.nth n = nthIter EnumSetIter.next n it := by
  induction n generalizing it with
  | zero => rfl
  | succ n ih =>
    rw [EnumSetIter.nth, nthIter]
    refine bind_congr fun r => ?_
    obtain ⟨o, it'⟩ := r
    cases o with
    | none => rfl
    | some v => exact ih it'
theorem nth_back_eq (n : Nat) (it : EnumSetIter T) : it.nth_back n = nthIter EnumSetIter.next_back n it := by
  induction n generalizing it with
  | zero => rfl
  | succ n ih =>
    rw [EnumSetIter.nth_back, nthIter]
    refine bind_congr fun r => ?_
    obtain ⟨o, it'⟩ := r
    cases o with
    | none => rfl
    | some v => exact ih it'
theorem find_eq (p : T.Val → Bool) (n : Nat) (it : EnumSetIter T) :
    it.find p n = findIter EnumSetIter.next p n it := by
  induction n generalizing it with
  | zero => rfl
  | succ n ih =>
    rw [EnumSetIter.find, findIter]
    refine bind_congr fun r => ?_
    obtain ⟨o, it'⟩ := r
    cases o with
    | none => rfl
    | some v => simp only [ih]; rfl
theorem rfind_eq (p : T.Val → Bool) (n : Nat) (it : EnumSetIter T) :
    it.rfind p n = findIter EnumSetIter.next_back p n it := by
  induction n generalizing it with
  | zero => rfl
  | succ n ih =>
    rw [EnumSetIter.rfind, findIter]
    refine bind_congr fun r => ?_
    obtain ⟨o, it'⟩ := r
    cases o with
    | none => rfl
    | some v => simp only [ih]; rfl

variable {P : Prog T.Val} {enc : T.Repr → Val T.Val}
  {encI : EnumSetTypeRepr.Iter T.Repr → Val T.Val} {okI : EnumSetTypeRepr.Iter T.Repr → Prop}
  (S : Src.Storage P T.Repr enc encI okI) (E : EnumItems P T enc id) (F : GenFns P T enc id) (k : Nat)

section
include S E

theorem nextText_next (it : EnumSetIter T) (h : okI it.iter) :
    nextText P (k + 20) "next" (setIterOf encI it) = it.next >>= fun r => .ok (r.1, setIterOf encI r.2) := by
  rw [nextText, C68_next S E (k + 16) [] it h, Src.bind_assoc]
  refine bind_congr fun r => ?_
  obtain ⟨o, it'⟩ := r
  cases o <;> rfl
theorem nextText_next_back (it : EnumSetIter T) (h : okI it.iter) :
    nextText P (k + 20) "next_back" (setIterOf encI it) = it.next_back >>= fun r => .ok (r.1, setIterOf encI r.2) := by
  rw [nextText, C68_next_back S E (k + 16) [] it h, Src.bind_assoc]
  refine bind_congr fun r => ?_
  obtain ⟨o, it'⟩ := r
  cases o <;> rfl

theorem fold_text {β : Type} (hf : EnumSetIter.fuel T ≤ P.fuel) (b : T.Val → β → Res β) (s : β) (it : EnumSetIter T)
    (h : okI it.iter) (hd : it.forLoop (EnumSetIter.fuel T) s b ≠ .diverge) :
    foldIter (nextText P (k + 20) "next") P.fuel (setIterOf encI it) s b = it.forLoop (EnumSetIter.fuel T) s b := by
  rw [foldIter_sim (f := EnumSetIter.next) (ok := fun it => okI it.iter) (nextText_next S E k)
    (fun _ _ _ h e => okI_of_next S h e) b _ s it h]
  rw [forLoop_eq] at hd ⊢
  exact foldIter_mono b hf s it hd
theorem fold_back_text {β : Type} (hf : EnumSetIter.fuel T ≤ P.fuel) (b : T.Val → β → Res β) (s : β) (it : EnumSetIter T)
    (h : okI it.iter) (hd : it.forLoopBack (EnumSetIter.fuel T) s b ≠ .diverge) :
    foldIter (nextText P (k + 20) "next_back") P.fuel (setIterOf encI it) s b = it.forLoopBack (EnumSetIter.fuel T) s b := by
  rw [foldIter_sim (f := EnumSetIter.next_back) (ok := fun it => okI it.iter) (nextText_next_back S E k)
    (fun _ _ _ h e => okI_of_next_back S h e) b _ s it h]
  rw [forLoopBack_eq] at hd ⊢
  exact foldIter_mono b hf s it hd
theorem reduce_text (hf : EnumSetIter.fuel T ≤ P.fuel) (f : T.Val → T.Val → T.Val) (it : EnumSetIter T)
    (h : okI it.iter) {r : Res (Option T.Val)}
    (hr : r = it.next >>= fun x => match x.1 with
      | none => .ok none
      | some v => x.2.forLoop (EnumSetIter.fuel T) v (fun y x => .ok (f y x)) >>= fun m => .ok (some m))
    (hd : r ≠ .diverge) :
    reduceIter (nextText P (k + 20) "next") P.fuel (setIterOf encI it) f = r := by
  subst hr
  rw [reduceIter, nextText_next S E k it h]
  cases hn : it.next with
  | ok x =>
    obtain ⟨o, it'⟩ := x
    cases o with
    | none => rfl
    | some v =>
      rw [hn] at hd
      simp only [Res.ok_bind] at hd ⊢
      rw [fold_text S E k hf _ v it' (okI_of_next S h hn) (by intro h; rw [h] at hd; exact hd rfl)]
  | _ => rfl
end

/-- What a query answers on the text: as in the model, but the slice is lost in a panic. -/
def lower : Res (Obs T.n) → Res (Obs T.n)
  | .ok (.slicePanic p _) => .panic p
  | r => r

theorem lower_bind {α : Type} (r : Res α) {f : α → Obs T.n} (hf : ∀ x, (f x).blur = f x) :
    lower (f <$> r) = r >>= fun x => .ok (f x) := by
  cases r with
  | ok x =>
    show lower (.ok (f x)) = .ok (f x)
    have := hf x
    revert this
    cases f x <;> first | (intro; rfl) | nofun
  | _ => rfl

theorem wordsOf_words (l : List U64) : wordsOf (l.map word : List (Val T.Val)) = some l := by
  induction l with
  | nil => rfl
  | cons x l ih =>
    show (wordsOf (l.map word)).map (BitVec.ofNat 64 x.toNat :: ·) = _
    rw [ih, BitVec.ofNat_toNat, BitVec.setWidth_eq]; rfl
theorem readU64s_words (ws : List U64) : readU64s (words ws : Val T.Val) = .ok ws := by
  show (match wordsOf (ws.map word) with | some ws => Res.ok ws | none => .ub) = _
  rw [wordsOf_words]
theorem readU64s_vec {O : Nat} (ws : Vector U64 O) : readU64s (vec ws : Val T.Val) = .ok ws.toList := readU64s_words _

/-- The functions of the libraries of SpecText.lean, and the serde functions of the crate. -/
structure LibFns (P : Prog T.Val) (enc : T.Repr → Val T.Val) (k : Nat) (serde : Bool) : Prop where
  write_str : ∀ j caller st s,
    P.call j "Formatter" "write_str" caller [] [.struct "Formatter" [("0", st)], .str s] =
      .ok (fmtResult (formatStr st s).1, [(0, .struct "Formatter" [("0", (formatStr st s).2)])])
  fmt : ∀ j caller st (v : T.Val),
    P.call j "T" "fmt" caller [] [.host "T" v, .struct "Formatter" [("0", st)]] =
      .ok (fmtResult (formatVariant v st).1, [(1, .struct "Formatter" [("0", (formatVariant v st).2)])])
  hash : ∀ j caller st (r : T.Repr),
    P.call j (P.alias "T::Repr") "hash" caller [] [enc r, .struct "Hasher" [("0", st)]] =
      .ok (.unit, [(1, .struct "Hasher" [("0", (EnumSetTypeRepr.hash r).foldl (fun st w => push (hashCall w) st) st)])])
  user : UserFns (T := T) P
  serialize : serde = true → ∀ (s : EnumSet T) st, Serde.serializeTo recorder s st ≠ .diverge →
    P.call (k + 20) "EnumSet" "serialize" [] [] [setOf enc s, .struct "Serializer" [("0", st)]] =
      Serde.serializeTo recorder s st >>= fun r => .ok (serEnd r, [])
  deserialize : serde = true → ∀ st,
    P.call (k + 20) "EnumSet" "deserialize" [] [] [.struct "Deserializer" [("0", st)]] =
      deserializeAt (T := T) histLib P.fuel st >>= fun r => .ok (deVal histLib enc r, [])

variable {serde : Bool}

omit P enc encI okI in
theorem afterOf_histLib (st v : Val T.Val) : afterOf T histLib st v = v := by
  unfold afterOf
  cases T.serde.numTy with
  | some _ => rfl
  | none => cases v <;> rfl

theorem hash_text (S : Src.Storage P T.Repr enc encI okI) (k : Nat) (L : LibFns P enc k serde) (s : EnumSet T) : hashText P (k + 20) (setOf enc s) = .ok s.hash := by
  rw [hashText, C68_hash S (k + 19) [] s (.arr []) (fun l st => l.foldl (fun st w => push (hashCall w) st) st)
    fun env r st => L.hash (k + 19) env st r]
  simp only [Res.ok_bind, push_all, List.nil_append]
  exact decodeAll_map readCall_eq _

include S E F
theorem query_text {inp : DeriveInput} (hT : derive inp = .ok T) (hfit : Fits T)
    (hf : EnumSetIter.fuel T ≤ P.fuel)
    (W : WF T) {ρ : TSt T.n} {st : St T} {ast : ASt T.n} (h : TRel enc encI okI ρ st) (R : Rel W st ast)
    (L : LibFns P enc k serde) (hser : serde = true → (layoutOf inp).serializable = true)
    (q : Query T.n) (hq : q.Runs inp.attrs serde) :
    q.text P T.discr (k + 20) ρ = lower (q.eval rfl st) := by
  have hop : inp.attrs.no_ops = false → T.ops = true := fun h => by rw [(C58_switches hT).1, h]; rfl
  have hsup : inp.attrs.no_super_impls = false → T.superImpls = true := fun h => by rw [(C58_switches hT).2.1, h]; rfl
  have hd : q.eval rfl st ≠ .diverge := by
    rcases query_agrees hT hfit W R q with h | ⟨p, h, -⟩ <;> rw [h] <;> nofun
  have hmap : ∀ {α : Type} {r : Res α} {f : α → Obs T.n}, f <$> r ≠ .diverge → r ≠ .diverge := by
    rintro α r f h rfl; exact h rfl
  cases q with
  | bitWidth => rw [Query.text, get_ok (C68_bit_width S E (k + 19) [])]; rfl
  | variantCount => rw [Query.text, get_ok (C68_variant_count S E (k + 19) [])]; rfl
  | contains a v =>
    rw [Query.text, Query.eval, lower_bind _ fun _ => rfl, h.sets]
    rw [show P.get (k + 20) "contains" [setOf enc (st.sets a), variant v] = _ from get_of (C68_contains S E (k + 16) [] _ v), Src.bind_assoc]; rfl
  | len a =>
    rw [Query.text, Query.eval, lower_bind _ fun _ => rfl, h.sets]
    rw [get_of (C68_len S (k + 16) [] _), Src.bind_assoc]; rfl
  | isEmpty a =>
    rw [Query.text, Query.eval, lower_bind _ fun _ => rfl, h.sets]
    rw [get_of (C68_is_empty S (k + 16) [] _), Src.bind_assoc]; rfl
  | isDisjoint a b =>
    rw [Query.text, Query.eval, lower_bind _ fun _ => rfl, h.sets, h.sets]
    rw [get_of (C68_is_disjoint S (k + 14) [] _ _), Src.bind_assoc]; rfl
  | isSubset a b =>
    rw [Query.text, Query.eval, lower_bind _ fun _ => rfl, h.sets, h.sets]
    rw [get_of (C68_is_subset S (k + 13) [] _ _), Src.bind_assoc]; rfl
  | isSuperset a b =>
    rw [Query.text, Query.eval, lower_bind _ fun _ => rfl, h.sets, h.sets]
    rw [get_of (C68_is_superset S (k + 14) [] _ _), Src.bind_assoc]; rfl
  | eq a b => rw [Query.text, h.sets, h.sets, get_ok (C68_eq S (k + 20) [] _ _)]; rfl
  | eqVal a v =>
    rw [Query.text, Query.eval, lower_bind _ fun _ => rfl, h.sets]
    rw [show P.get (k + 20) "eq_variant" [setOf enc (st.sets a), variant v] = _ from get_of (C68_eq_variant S E (k + 13) [] _ v), Src.bind_assoc]; rfl
  | valEq v a =>
    rw [Query.text, Query.eval, lower_bind _ fun _ => rfl, h.sets]
    rw [show P.getOf (k + 20) "T" "eq_set" [variant v, setOf enc (st.sets a)] = _ from
      getOf_of (F.eq_set (hop hq) (k + 20) [] v _), Src.bind_assoc]; rfl
  | valEqVal u v =>
    rw [Query.text, Query.eval, lower_bind _ fun _ => rfl]
    rw [show P.getOf (k + 20) "T" "eq" [variant u, variant v] = _ from
      getOf_of (F.eq (hsup hq) (k + 20) [] u v), Src.bind_assoc]; rfl
  | cmp a b =>
    rw [Query.text, h.sets, h.sets, get_ok (C68_cmp S (k + 19) [] _ _)]
    show readOrd (ordering _) = lower (.ok (.ord ((st.sets a).cmp (st.sets b))))
    cases (st.sets a).cmp (st.sets b) <;> rfl
  | partialCmp a b =>
    rw [Query.text, h.sets, h.sets, get_ok (C68_partial_cmp S (k + 19) [] _ _), Query.eval]
    cases (st.sets a).partial_cmp (st.sets b) with
    | none => rfl
    | some o => cases o <;> rfl
  | asNum m t a =>
    cases m with
    | checked =>
      rw [Query.text, Query.eval, lower_bind _ fun _ => rfl, h.sets]
      rw [get_of (C68_as_num S (k + 15) [] t _), Src.bind_assoc]
      refine bind_congr fun x => ?_
      show (if t = t then _ else _) = _
      rw [if_pos rfl]
    | try_ =>
      rw [Query.text, Query.eval, lower_bind _ fun _ => rfl, h.sets]
      rw [get_of (C68_try_as_num S (k + 16) [] t _), Src.bind_assoc]
      refine bind_congr fun x => ?_
      cases x with
      | none => rfl
      | some x =>
        show (if t = t then _ else _) = _
        rw [if_pos rfl]; rfl
    | truncated =>
      rw [Query.text, Query.eval, lower_bind _ fun _ => rfl, h.sets]
      rw [get_of (C68_as_num_truncated S (k + 16) [] t _), Src.bind_assoc]
      refine bind_congr fun x => ?_
      show (if t = t then _ else _) = _
      rw [if_pos rfl]
  | asArray m O a =>
    cases m with
    | checked =>
      rw [Query.text, Query.eval, lower_bind _ fun _ => rfl, h.sets, arrayText, C68_as_array S (k + 15) [] O]
      simp only [Src.bind_assoc, Res.ok_bind, readU64s_vec]
    | try_ =>
      rw [Query.text, Query.eval, lower_bind _ fun _ => rfl, h.sets, arrayText, C68_try_as_array S (k + 16) [] O]
      simp only [Src.bind_assoc, Res.ok_bind]
      refine bind_congr fun x => ?_
      cases x with
      | none => rfl
      | some x => simp only [opt, readOptU64s, readU64s_vec, Res.ok_bind]; rfl
    | truncated =>
      rw [Query.text, Query.eval, lower_bind _ fun _ => rfl, h.sets, arrayText, C68_as_array_truncated S (k + 16) [] O]
      simp only [Src.bind_assoc, Res.ok_bind, readU64s_vec]
  | copyIntoSlice m a data =>
    cases m with
    | checked =>
      rw [Query.text, Query.eval, h.sets, sliceText, u64s_words, C68_copy_into_slice S (k + 15) []]
      cases (st.sets a).copy_into_slice data with
      | ok x =>
        obtain ⟨r, ws⟩ := x
        cases r with
        | ok u => simp only [Res.ok_bind, readU64s_words]; rfl
        | _ => rfl
      | _ => rfl
    | try_ =>
      rw [Query.text, Query.eval, lower_bind _ fun _ => rfl, h.sets, sliceText, u64s_words,
        C68_try_copy_into_slice S (k + 16) []]
      simp only [Src.bind_assoc, Res.ok_bind, readU64s_words]
      refine bind_congr fun x => ?_
      obtain ⟨o, ws⟩ := x
      cases o <;> rfl
    | truncated =>
      rw [Query.text, Query.eval, lower_bind _ fun _ => rfl, h.sets, sliceText, u64s_words,
        C68_copy_into_slice_truncated S (k + 16) []]
      simp only [Src.bind_assoc, Res.ok_bind, readU64s_words]
  | toVec a =>
    rw [Query.text, Query.eval, lower_bind _ fun _ => rfl, h.sets]
    rw [get_of (C68_to_vec S (k + 16) [] _)]
    simp only [Src.bind_assoc, Res.ok_bind, readU64s_words]
  | sizeHint j =>
    rw [Query.text, Query.eval, lower_bind _ fun _ => rfl, h.iters]
    rw [getOf_of (C68_size_hint S (k + 16) [] _)]
    simp only [Src.bind_assoc, Res.ok_bind]
    refine bind_congr fun x => ?_
    obtain ⟨a, o⟩ := x
    cases o <;> rfl
  | iterLen j =>
    rw [Query.text, Query.eval, lower_bind _ fun _ => rfl, h.iters]
    rw [getOf_of (C68_size_hint S (k + 16) [] _)]
    simp only [EnumSetIter.len, Src.bind_assoc, Res.ok_bind]
    refine bind_congr fun x => ?_
    obtain ⟨a, o⟩ := x
    cases o with
    | none => rfl
    | some b =>
      simp only [opt, readSize, Res.ok_bind]
      split <;> rfl
  | count j =>
    have hd := hmap hd
    rw [Query.text, Query.eval, lower_bind _ fun _ => rfl, h.iters]
    rw [EnumSetIter.count] at hd ⊢
    rw [fold_text S E k hf _ _ _ (h.ok j) hd]
  | last j =>
    have hd := hmap hd
    rw [Query.text, Query.eval, lower_bind _ fun _ => rfl, h.iters]
    rw [EnumSetIter.last] at hd ⊢
    rw [fold_text S E k hf _ _ _ (h.ok j) hd, ofVal_rfl']
    simp only [Option.map_id, id]
  | min j =>
    have hd := hmap hd
    rw [Query.text, Query.eval, lower_bind _ fun _ => rfl, h.iters]
    rw [reduce_text S E k hf _ _ (h.ok j) (r := (st.iters j).min_by_discr) rfl hd, ofVal_rfl']
    simp only [Option.map_id, id]
  | max j =>
    have hd := hmap hd
    rw [Query.text, Query.eval, lower_bind _ fun _ => rfl, h.iters]
    rw [reduce_text S E k hf _ _ (h.ok j) (r := (st.iters j).max_by_discr) rfl hd, ofVal_rfl']
    simp only [Option.map_id, id]
  | collectVec j =>
    have hd := hmap hd
    rw [Query.text, Query.eval, lower_bind _ fun _ => rfl, h.iters]
    rw [EnumSetIter.collectVec] at hd ⊢
    rw [fold_text S E k hf _ _ _ (h.ok j) hd, ofVal_rfl']
    simp only [List.map_id]
  | collectVecRev j =>
    have hd := hmap hd
    rw [Query.text, Query.eval, lower_bind _ fun _ => rfl, h.iters]
    rw [EnumSetIter.collectVecRev] at hd ⊢
    rw [fold_back_text S E k hf _ _ _ (h.ok j) hd, ofVal_rfl']
    simp only [List.map_id]
  | sameHash a b =>
    rw [Query.text, h.sets, h.sets, hash_text S k L, hash_text S k L]; rfl
  | serialize a =>
    obtain ⟨v, e, ev⟩ := C48_serializer hT hfit (R.safe a)
    have ev := ev recorder (.unit : Val T.Val)
    obtain ⟨x, y, e1, e2⟩ := readData_handTo (T := T) v
    rw [Query.text, h.sets, Query.eval, compiles_eq hT, hser hq, if_pos rfl, e,
      get_of (L.serialize hq _ _ (by rw [ev]; nofun)), ev, Res.ok_bind, e1]
    show readData x = _
    rw [e2]
    cases v <;> rfl
  | debug a names =>
    have e := (C41_text hT hfit (R.safe a) (R.mem a) names "").1
    have ht := C68_fmt_debug (K := stringSink) (vfmt := fun v t => (true, t ++ names v)) (encF := formatter names)
      S E (k + 14) [] (fun j env t str => L.write_str j env _ str)
      (fun j env v t => by rw [show Val.host "T" (id v) = .host "T" v from rfl, L.fmt, formatVariant_eq]) hf (st.sets a) ""
      (by rw [e]; nofun)
    rw [Query.text, Query.eval, formatText, h.sets, ht, e]
    rw [show (fun v t => (true, t ++ names (ofVal (T := T) rfl v))) = fun v t => (true, t ++ names v) from rfl, e]
    rfl
  | display a names =>
    have e := (C41_text hT hfit (R.safe a) (R.mem a) names "").2
    have ht := C68_fmt_display (K := stringSink) (vfmt := fun v t => (true, t ++ names v)) (encF := formatter names)
      S E (k + 14) [] (fun j env t str => L.write_str j env _ str)
      (fun j env v t => by rw [show Val.host "T" (id v) = .host "T" v from rfl, L.fmt, formatVariant_eq]) hf (st.sets a) ""
      (by rw [e]; nofun)
    rw [Query.text, Query.eval, formatText, h.sets, ht, e]
    rw [show (fun v t => (true, t ++ names (ofVal (T := T) rfl v))) = fun v t => (true, t ++ names v) from rfl, e]
    rfl

omit S E F in
theorem guard_text {α β : Type} {ρ : TSt T.n} {st st' : St T} (h : TRel enc encI okI ρ st) {r : Res α} {r' : Res β}
    {g : α → β} (hr : r' = r >>= fun x => .ok (g x)) {f : α → Obs T.n × St T} {f' : β → Obs T.n × TSt T.n} {o : Obs T.n}
    (he : guarded st r f = .ok (o, st'))
    (hf : ∀ x, r = .ok x → (f' (g x)).1 = (f x).1.blur ∧ TRel enc encI okI (f' (g x)).2 (f x).2) :
    ∃ ρ', guardText ρ r' f' = .ok (o.blur, ρ') ∧ TRel enc encI okI ρ' st' := by
  subst hr
  cases r with
  | ok x =>
    have he : f x = (o, st') := by injection he
    obtain ⟨h1, h2⟩ := hf x rfl
    rw [he] at h1 h2
    exact ⟨_, by rw [← h1]; rfl, h2⟩
  | panic p =>
    have he : (Obs.panic p, st) = (o, st') := by injection he
    cases he
    exact ⟨ρ, rfl, h⟩
  | ub => cases he
  | diverge => cases he

theorem cmd_text {inp : DeriveInput} (hT : derive inp = .ok T) (hfit : Fits T) (hfuel : T.n < P.fuel)
    (hf : EnumSetIter.fuel T ≤ P.fuel)
    {nm : T.Val → String} (hnm : ∀ env v, P.call (k + 20) "enum T" (nm v) env [] [] = .ok (.host "T" v, []))
    (W : WF T) {ρ : TSt T.n} {st : St T} {ast : ASt T.n} (h : TRel enc encI okI ρ st) (R : Rel W st ast)
    (L : LibFns P enc k serde) (hser : serde = true → (layoutOf inp).serializable = true)
    (hwords : (storageOf inp).words ≤ P.fuel) (c : Cmd T.n) (hc : c.Runs inp.attrs serde P.fuel) {o : Obs T.n} {st' : St T} (he : c.exec rfl st = .ok (o, st')) :
    ∃ ρ', c.text P nm T.discr (k + 20) ρ = .ok (o.blur, ρ') ∧ TRel enc encI okI ρ' st' := by
  have hnext : ∀ it : EnumSetIter T, okI it.iter → _ := nextText_next S E k
  have hback : ∀ it : EnumSetIter T, okI it.iter → _ := nextText_next_back S E k
  cases c with
  | set r e =>
    exact guard_text h (expr_text k S E F hT hfit hfuel hf hnm W h R e hc) he fun s _ => ⟨rfl, h.setSet r s⟩
  | tryImport r src =>
    have hi : P.get (k + 20) ("try_from_" ++ src.kind) [src.value] =
        src.tryImport (T := T) >>= fun o => .ok (opt (setOf enc) o) := by
      cases src with
      | num t x => exact get_of (C68_try_from_num S E (k + 16) [] t x)
      | array ws => exact get_of (C68_try_from_array S E (k + 16) [] ws.length (arr ws))
      | slice ws => exact get_of (C68_try_from_slice S E (k + 16) [] ws)
    refine guard_text (g := fun o => match o with
      | some s => (.bool true, ρ.setSet r (setOf enc s)) | none => (.bool false, ρ)) h ?_ he fun o _ => ?_
    · rw [hi, Src.bind_assoc]
      refine bind_congr fun o => ?_
      cases o <;> rfl
    · cases o with
      | none => exact ⟨rfl, h⟩
      | some s => exact ⟨rfl, h.setSet r s⟩
  | insert r v =>
    refine guard_text (g := fun x : Bool × EnumSet T => (.bool x.1, ρ.setSet r (setOf enc x.2))) h ?_ he fun x _ =>
      ⟨rfl, h.setSet r x.2⟩
    rw [h.sets, show P.getMut (k + 20) "insert" [setOf enc (st.sets r), variant v] = _ from
      getMut_of (C68_insert S E (k + 15) [] _ v), Src.bind_assoc]
    rfl
  | remove r v =>
    refine guard_text (g := fun x : Bool × EnumSet T => (.bool x.1, ρ.setSet r (setOf enc x.2))) h ?_ he fun x _ =>
      ⟨rfl, h.setSet r x.2⟩
    rw [h.sets, show P.getMut (k + 20) "remove" [setOf enc (st.sets r), variant v] = _ from
      getMut_of (C68_remove S E (k + 15) [] _ v), Src.bind_assoc]
    rfl
  | ask q =>
    have ht := query_text S E F k hT hfit hf W h R L hser q hc
    rw [Cmd.text, ht]
    rw [Cmd.exec] at he
    cases hq : q.eval rfl st with
    | ok x =>
      rw [hq] at he
      have he : (x, st) = (o, st') := by injection he
      cases he
      exact ⟨ρ, by cases o <;> rfl, h⟩
    | panic p =>
      rw [hq] at he
      have he : (Obs.panic p, st) = (o, st') := by injection he
      cases he
      exact ⟨ρ, rfl, h⟩
    | ub => rw [hq] at he; cases he
    | diverge => rw [hq] at he; cases he
  | iter j a =>
    refine guard_text h (g := setIterOf encI) ?_ he fun it hi => ⟨rfl, h.setIter j (okI_of_iter S hi)⟩
    rw [h.sets]
    exact get_of (C68_iter S (k + 15) [] _)
  | cloneIter j l =>
    cases he
    refine ⟨_, rfl, ?_⟩
    rw [h.iters]
    exact h.setIter j (h.ok l)
  | next j =>
    refine guard_text h (g := fun r => (r.1, setIterOf encI r.2)) ?_ he fun r hr =>
      ⟨by rw [ofVal_rfl']; simp [Obs.blur], h.setIter j (okI_of_next S (h.ok j) hr)⟩
    rw [h.iters]
    exact nextText_next S E k _ (h.ok j)
  | nextBack j =>
    refine guard_text h (g := fun r => (r.1, setIterOf encI r.2)) ?_ he fun r hr =>
      ⟨by rw [ofVal_rfl']; simp [Obs.blur], h.setIter j (okI_of_next_back S (h.ok j) hr)⟩
    rw [h.iters]
    exact nextText_next_back S E k _ (h.ok j)
  | nth j m =>
    rw [Cmd.exec, nth_eq] at he
    refine guard_text h (g := fun r => (r.1, setIterOf encI r.2)) ?_ he fun r hr =>
      ⟨by rw [ofVal_rfl']; simp [Obs.blur], h.setIter j (nthIter_ok (ok := fun it : EnumSetIter T => okI it.iter)
        (fun _ _ _ h e => okI_of_next S h e) m _ (h.ok j) hr)⟩
    rw [h.iters]
    exact nthIter_sim (ok := fun it : EnumSetIter T => okI it.iter) (nextText_next S E k)
      (fun _ _ _ h e => okI_of_next S h e) m _ (h.ok j)
  | nthBack j m =>
    rw [Cmd.exec, nth_back_eq] at he
    refine guard_text h (g := fun r => (r.1, setIterOf encI r.2)) ?_ he fun r hr =>
      ⟨by rw [ofVal_rfl']; simp [Obs.blur], h.setIter j (nthIter_ok (ok := fun it : EnumSetIter T => okI it.iter)
        (fun _ _ _ h e => okI_of_next_back S h e) m _ (h.ok j) hr)⟩
    rw [h.iters]
    exact nthIter_sim (ok := fun it : EnumSetIter T => okI it.iter) (nextText_next_back S E k)
      (fun _ _ _ h e => okI_of_next_back S h e) m _ (h.ok j)
  | find j p =>
    rw [Cmd.exec, find_eq] at he
    refine guard_text h (g := fun r => (r.1, setIterOf encI r.2)) ?_ he fun r hr =>
      ⟨by rw [ofVal_rfl']; simp [Obs.blur], h.setIter j (findIter_ok (ok := fun it : EnumSetIter T => okI it.iter)
        (fun _ _ _ h e => okI_of_next S h e) _ _ _ (h.ok j) hr)⟩
    rw [h.iters, findIter_sim (f := EnumSetIter.next) (ok := fun it : EnumSetIter T => okI it.iter) (nextText_next S E k)
      (fun _ _ _ h e => okI_of_next S h e) p _ _ (h.ok j)]
    rw [findIter_mono p hf _ (fun hd => by
      rw [show findIter EnumSetIter.next (fun v => p (ofVal rfl v)) _ _ = _ from hd] at he; cases he)]
    rfl
  | rfind j p =>
    rw [Cmd.exec, rfind_eq] at he
    refine guard_text h (g := fun r => (r.1, setIterOf encI r.2)) ?_ he fun r hr =>
      ⟨by rw [ofVal_rfl']; simp [Obs.blur], h.setIter j (findIter_ok (ok := fun it : EnumSetIter T => okI it.iter)
        (fun _ _ _ h e => okI_of_next_back S h e) _ _ _ (h.ok j) hr)⟩
    rw [h.iters, findIter_sim (f := EnumSetIter.next_back) (ok := fun it : EnumSetIter T => okI it.iter)
      (nextText_next_back S E k) (fun _ _ _ h e => okI_of_next_back S h e) p _ _ (h.ok j)]
    rw [findIter_mono p hf _ (fun hd => by
      rw [show findIter EnumSetIter.next_back (fun v => p (ofVal rfl v)) _ _ = _ from hd] at he; cases he)]
    rfl
  | deserialize r x broken =>
    obtain ⟨hs, hx⟩ := hc
    have hc := hser hs
    have hF := fetched (d := T.discr) hc (fun w hw => by obtain ⟨t, -, -, e⟩ := numOfWidth_format hT hw; exact ⟨t, e⟩)
      (words_pos inp) x broken hx
    have hD := deserializeAt_fetch hT hfit histLib hwords (x.value broken)
    have hM := read_agrees hT hfit hc x broken
    have ht : ∀ res, deserializeAt (T := T) histLib P.fuel (x.value broken) = res → P.get (k + 20) "deserialize"
        [.struct "Deserializer" [("0", x.value broken)]] = res >>= fun r => .ok (deVal histLib enc r) := by
      rintro _ rfl
      exact get_of (L.deserialize hs (x.value broken))
    rw [Cmd.exec, compiles_eq hT, hc, if_pos rfl] at he
    rw [Cmd.text]
    generalize x.read T.discr (layoutOf inp) broken = rd at hF hM
    generalize fetch histLib P.fuel (layoutOf inp) (x.value broken) = fe at hF hD
    cases hF with
    | wrong =>
      rw [show Serde.deserialize (T := T) (x.input rfl broken) = _ from hM] at he
      cases he
      rw [ht _ hD]
      exact ⟨ρ, rfl, h⟩
    | broken =>
      rw [show Serde.deserialize (T := T) (x.input rfl broken) = _ from hM] at he
      cases he
      rw [ht _ hD]
      exact ⟨ρ, rfl, h⟩
    | data y hy hy' =>
      have hO := read_ok (E := Val T.Val) hT hfit hc y
      have hD : deserializeAt (T := T) histLib P.fuel (x.value broken) = (Serde.deserialize (okInput y)).getD .ub := hD
      cases hr : y.read T.discr (layoutOf inp) false with
      | set A =>
        rw [hr] at hM hO
        obtain ⟨s, e, hs, hm⟩ := hM
        obtain ⟨s', e', hs', hm'⟩ := hO
        have := W.ext_members hs (W.clean_of_safe hs') hm hm'
        subst this
        rw [e] at he
        cases he
        rw [ht _ hD, e']
        exact ⟨_, rfl, h.setSet r _⟩
      | refused b =>
        cases b with
        | false => exact absurd hr hy'
        | true =>
          rw [hr] at hM hO
          rw [show Serde.deserialize (T := T) (x.input rfl broken) = _ from hM] at he
          cases he
          rw [ht _ hD, show _ = Res.ok _ from hO]
          exact ⟨ρ, rfl, h⟩
      | panic p =>
        rw [hr] at hM hO
        rw [show Serde.deserialize (T := T) (x.input rfl broken) = _ from hM] at he
        cases he
        rw [ht _ hD, show _ = Res.panic p from hO]
        exact ⟨_, rfl, h⟩
      | unavailable => exact absurd hr hy
  | extendFrom r vs p =>
    obtain ⟨s, hs, hm, e⟩ := C56_extend hT hfit (scripted_produces p vs) (ending p)
      (scripted_ends p) (R.safe r) (R.mem r)
    obtain ⟨s', e', hs', hm'⟩ := expr_agrees hT hfit W R (.extend r vs)
    have := W.ext_members hs (W.clean_of_safe hs') hm hm'
    rw [this] at e'
    have e' : (st.sets r).extend vs = .ok s := by simpa only [Expr.eval, toVal_rfl', List.map_id] using e'
    have ht : ∀ x, P.call (k + 20) "EnumSet" "extend_variants" [] [] [ρ.sets r, userIter (vs.map variant) x] =
        extendEnd x (setOf enc s) := fun x => by
      have := extend_user_text S E (k + 14) [] L.user (st.sets r) vs hc x
      rw [e'] at this
      rw [h.sets]; exact this
    simp only [Cmd.exec, toVal_rfl', List.map_id, e _ (Nat.lt_succ_self _)] at he
    cases p with
    | none =>
      cases he
      rw [Cmd.text, extendText_eq ht]
      exact ⟨_, rfl, h.setSet r _⟩
    | some p =>
      cases he
      rw [Cmd.text, extendPanicText_eq ht]
      exact ⟨_, rfl, h.setSet r _⟩
  | extendSetsFrom r l p =>
    obtain ⟨⟨s, hs, hm, e⟩, -, -⟩ := C56_sets hT hfit (scripted_produces p (l.map st.sets))
      (by
        intro x hx
        obtain ⟨a, -, rfl⟩ := List.mem_map.mp hx
        exact R.safe a) (ending p) (scripted_ends p) (R.safe r)
    have hm' : Members s fun u => ast.sets r u || l.any fun b => ast.sets b u :=
      members_of_iff W fun v => (hm v).trans (by
        rw [members_any W R l v, R.mem r v, Bool.or_eq_true, Res.ok.injEq])
    obtain ⟨s', e', hs', hm''⟩ := expr_agrees hT hfit W R (.extendSets r l)
    have := W.ext_members hs (W.clean_of_safe hs') hm' hm''
    rw [this] at e'
    have e' : (st.sets r).extend_sets (l.map st.sets) = .ok s := e'
    have ht : ∀ x, P.call (k + 20) "EnumSet" "extend_sets" [] [] [ρ.sets r, userIter (l.map ρ.sets) x] =
        extendEnd x (setOf enc s) := fun x => by
      have := extend_sets_user_text S (k + 14) [] L.user (st.sets r) (l.map st.sets) (by rw [List.length_map]; exact hc) x
      rw [e', List.map_map] at this
      rw [show l.map ρ.sets = l.map (setOf enc ∘ st.sets) from List.map_congr_left fun a _ => h.sets a, h.sets]
      exact this
    simp only [Cmd.exec] at he
    rw [e _ (by rw [List.length_map]; exact Nat.lt_succ_self _)] at he
    cases p with
    | none =>
      cases he
      rw [Cmd.text, extendText_eq ht]
      exact ⟨_, rfl, h.setSet r _⟩
    | some p =>
      cases he
      rw [Cmd.text, extendPanicText_eq ht]
      exact ⟨_, rfl, h.setSet r _⟩

theorem program_text {inp : DeriveInput} (hT : derive inp = .ok T) (hfit : Fits T) (hfuel : T.n < P.fuel)
    (hf : EnumSetIter.fuel T ≤ P.fuel)
    {nm : T.Val → String} (hnm : ∀ env v, P.call (k + 20) "enum T" (nm v) env [] [] = .ok (.host "T" v, []))
    (L : LibFns P enc k serde) (hser : serde = true → (layoutOf inp).serializable = true)
    (hwords : (storageOf inp).words ≤ P.fuel) (cs : List (Cmd T.n)) (hcs : ∀ c ∈ cs, c.Runs inp.attrs serde P.fuel) :
    runText P nm T.discr (k + 20) cs = .ok ((answers T.discr (layoutOf inp) cs ASt.init).map Obs.blur) := by
  obtain ⟨W⟩ := wf_of_derive hT hfit
  have key : ∀ (cs : List (Cmd T.n)) ρ st ast, (∀ c ∈ cs, c.Runs inp.attrs serde P.fuel) → TRel enc encI okI ρ st → Rel W st ast →
      runTextFrom P nm T.discr (k + 20) cs ρ = .ok ((answers T.discr (layoutOf inp) cs ast).map Obs.blur) := by
    intro cs
    induction cs with
    | nil => intro ρ st ast _ _ _; rfl
    | cons c cs ih =>
      intro ρ st ast hcs h R
      obtain ⟨st', e, R'⟩ := cmd_agrees hT hfit W R c
      obtain ⟨ρ', e', h'⟩ := cmd_text S E F k hT hfit hfuel hf hnm W h R L hser hwords c (hcs c (List.mem_cons_self ..)) e
      rw [runTextFrom, e', Res.ok_bind, ih ρ' st' _ (fun c hc => hcs c (List.mem_cons_of_mem _ hc)) h' R']
      rfl
  obtain ⟨st, e, R⟩ := init_agrees hT hfit W
  unfold St.init at e
  cases hi : (EnumSet.new : EnumSet T).iter with
  | ok it =>
    rw [hi] at e
    have e : (⟨fun _ => EnumSet.new, fun _ => it⟩ : St T) = st := by injection e
    subst e
    rw [runText, get_ok (C68_new S (k + 15) []), Res.ok_bind, get_of (C68_iter S (k + 15) [] _), hi]
    exact key cs _ _ _ hcs ⟨fun _ => rfl, fun _ => rfl, fun _ => okI_of_iter S hi⟩ R
  | _ => rw [hi] at e; cases e
end

/-- The text of the derive macro is run on an item; the code it returns is linked with the text of the crate, with the
enum of the item and with libraries (a formatter, a hasher, a serializer and a deserializer), and run on any target.  Every
history of calls of the functions of the crate, of the operators and methods of the enum, of the methods of iterators, of
the macros, and of formatting, hashing and serde answers what mathematical sets answer (SpecMachine.lean).  `Cmd.Runs`
leaves out what does not compile, and data that is longer than loops may run. -/
theorem C75_history [Platform] {inp : DeriveInput} {tok : Val Code} (hx : Expands inp tok)
    {n : Nat} {E : EnumDef n} (hE : E.Of inp) (hu : ∀ t x, E.read t x = .ub)
    (hfit : ∀ i, E.discr i + 1 < 2 ^ usizeBits)
    {fuel : Nat} (hfuel : 64 * (storageOf inp).words < fuel)
    (k k' : Nat) (cs : List (Cmd n))
    (hcs : ∀ c ∈ cs, c.Runs inp.attrs (Platform.serde && (layoutOf inp).serializable) fuel) :
    runText ((Gen.mk (toItems tok) E fuel histLib).toProg (k' + 13)) E.name E.discr (k + 20) cs =
      .ok ((answers E.discr (layoutOf inp) cs ASt.init).map Obs.blur) := by
  refine hx.elim_runs hE hu hfit hfuel (Q := fun n E lib => lib = histLib → ∀ cs : List (Cmd n),
    (∀ c ∈ cs, c.Runs inp.attrs (Platform.serde && (layoutOf inp).serializable) fuel) →
    runText ((Gen.mk (toItems tok) E fuel lib).toProg (k' + 13)) E.name E.discr (k + 20) cs =
      .ok ((answers E.discr (layoutOf inp) cs ASt.init).map Obs.blur)) ?_ rfl cs hcs
  intro T E lib enc encI okI hT hfit hn hf hd hE R hlib cs hcs
  subst hlib
  obtain ⟨info, w, hi, -⟩ := hx.info
  have hinj : ∀ i j, E.name i = E.name j → i = j := hE.inj hi
  have hser : (Platform.serde && (layoutOf inp).serializable) = true →
      Platform.serde = true ∧ (layoutOf inp).serializable = true := by simp
  have hS : (Platform.serde && (layoutOf inp).serializable) = true → SerdeFns (Gen.mk (toItems tok) E fuel histLib) enc :=
    fun h => R.serde (hser h).1 ((compiles_eq hT).trans (hser h).2) hf
  rw [hd]
  exact program_text (R.storage (k' + 13)) (R.items (k' + 12)) (R.fns (k' + 3)) k hT hfit hn hf
    (fun env v => enum_variant (G := Gen.mk (toItems tok) E fuel histLib) hinj _ _ env v)
    ⟨R.write_str (k' + 12), R.fmt (k' + 12), R.hash (k' + 12), ⟨R.into_iter (k' + 12), R.next (k' + 12)⟩, fun h s st => (hS h).serialize k' (k + 19) [] s st,
      fun h st => ((hS h).deserialize k' (k + 19) [] st).trans (bind_congr fun r => by rw [afterOf_histLib])⟩
    (fun h => (hser h).2) (by
      show _ ≤ fuel
      omega) cs hcs

/-! ### concrete cases -/

namespace Ex
open Enumset.Ex (inpT plat64)
open Src.Ex (expandsT enumT enumT_of infoT)
open scoped Enumset.Ex

/-- `enum T { A, B = 3, C = 4 }`: `a = enum_set!(A | C); i = a.iter(); i.nth_back(0); i.next(); i.count();
a.as_u8(); a.as_array::<0>(); a.copy_into_slice(&mut []); b = EnumSet::from_u8(0xff);
b = EnumSet::from_u8_truncated(0xff); b.cmp(&a); a == b; format!("{a:?}"); hash(&a) == hash(&b);
c.extend([A, C].map(|x| x)); hash(&a) == hash(&c); d.extend([A, C].map(|x| x).chain(panics)); hash(&a) == hash(&d);
e.extend([a, d].map(|x| x).chain(panics)); a == e` -/
def cmds : List (Cmd 3) :=
  [.set 0 (.enumSet [.val 0, .val 2]), .iter 0 0, .nthBack 0 0, .next 0, .ask (.count 0),
   .ask (.asNum .checked .u8 0), .ask (.asArray .checked 0 0), .ask (.copyIntoSlice .checked 0 []),
   .set 1 (.import (.num .u8 0xff)), .set 1 (.importTruncated (.num .u8 0xff)), .ask (.cmp 1 0), .ask (.eq 0 1),
   .ask (.debug 0 enumT.name), .ask (.sameHash 0 1), .extendFrom 2 [0, 2] none, .ask (.sameHash 0 2),
   .extendFrom 3 [0, 2] (some (.explicit "oh")), .ask (.sameHash 0 3), .extendSetsFrom 4 [0, 3] (some .index), .ask (.eq 0 4)]

theorem cmds_run (attrs : EnumsetAttrs) (serde : Bool) (fuel : Nat) (h : 64 < fuel) : ∀ c ∈ cmds, c.Runs attrs serde fuel := by
  simp [cmds, Cmd.Runs, Expr.Runs, Query.Runs]
  omega

example (fuel : Nat) (h : 64 < fuel) :
    runText ((Gen.mk (toItems (genTok "T" infoT [])) enumT fuel histLib).toProg 13) enumT.name enumT.discr 20 cmds =
      .ok ((answers enumT.discr (layoutOf inpT) cmds ASt.init).map Obs.blur) :=
  C75_history expandsT enumT_of (fun _ _ => rfl) (by decide) h 0 0 cmds (cmds_run _ _ _ h)

example : (answers enumT.discr (layoutOf inpT) cmds ASt.init).map Obs.blur =
    [.done, .done, .val (some 2), .val (some 0), .nat 0, .nat 17, .panic (.expect "Bitset will not fit into this type."),
     .panic (.expect "Bitset will not fit into slice."), .panic invalidVariants, .done, .ord .gt, .bool false,
     .text "EnumSet(A | C)", .bool false, .done, .bool true, .panic (.explicit "oh"), .bool true, .panic .index, .bool true] := by
  have hn0 : enumT.name (0 : Fin 3) = "A" := by rfl
  have hn2 : enumT.name (2 : Fin 3) = "C" := by rfl
  have h0 : enumT.discr (0 : Fin 3) = 0 := by rfl
  have h2 : enumT.discr (2 : Fin 3) = 4 := by rfl
  have hf : List.finRange 3 = [0, 1, 2] := by decide
  have hk : known enumT.discr 255 = false := by decide
  simp [answers, cmds, Cmd.den, Expr.den, Query.den, Arg.den, ASt.init, ASt.setSet, ASt.setIter, Obs.blur, mask,
    sortedMembers, hf, List.mergeSort, List.filter, List.MergeSort.Internal.splitInTwo, List.splitAt, List.splitAt.go, h0, h2,
    Source.toNat, hk, compared, NumTy.bits, doesNotFitType, doesNotFitSlice, setText, hn0, hn2, String.join]
  decide

/-! with serde -/
section
open Src.Ex (platS hostS namesOff inpS synS_ok enumL enumL_of)
attribute [-instance] Enumset.Ex.plat64
attribute [local instance] platS

/-- `enum T { A, B = 64, C = 130 }` with `serialize_repr = "list"`: `a = A | C; a.serialize(..);
b = deserialize(C, A, C); a == b; b = deserialize(B, an error); b = deserialize(7u8); b == a` -/
def serdeCmds : List (Cmd 3) :=
  [.set 0 (.valOperator .union 0 (.val 2)), .ask (.serialize 0), .deserialize 1 (.seq [2, 0, 2]) false, .ask (.eq 0 1),
   .deserialize 1 (.seq [1]) true, .deserialize 1 (.int .u8 7) false, .ask (.eq 0 1)]

theorem serdeCmds_run {fuel : Nat} (h : 192 < fuel) :
    ∀ c ∈ serdeCmds, c.Runs inpS.attrs (platS.serde && (layoutOf inpS).serializable) fuel := by
  have : (platS.serde && (layoutOf inpS).serializable) = true := rfl
  rw [this]
  simp [serdeCmds, Cmd.Runs, Expr.Runs, Query.Runs, Data.items, show inpS.attrs.no_ops = false from rfl]
  omega

example (fuel : Nat) (h : 192 < fuel) : ∃ tok, Expands inpS tok ∧
    runText ((Gen.mk (toItems tok) enumL fuel histLib).toProg 13) enumL.name enumL.discr 20 serdeCmds =
      .ok ((answers enumL.discr (layoutOf inpS) serdeCmds ASt.init).map Obs.blur) := by
  rcases C72_expands hostS rfl (by decide) (Nat.le_refl (2 ^ 26)) 0 [] [] (namesOff rfl rfl) synS_ok with ⟨-, tok, hx, -⟩ | ⟨h, -⟩
  · exact ⟨tok, hx, C75_history hx ⟨enumL_of.count, enumL_of.name, enumL_of.discr⟩ (fun _ _ => rfl) (by decide) h 0 0
      serdeCmds (serdeCmds_run h)⟩
  · exact absurd ((deriveInfo_iff _).1 ⟨_, rfl⟩) h

example : (answers enumL.discr (layoutOf inpS) serdeCmds ASt.init).map Obs.blur =
    [.done, .data (some 2) (.seq [0, 2]), .done, .bool true, .refused false, .unavailable, .bool true] := by
  have h0 : enumL.discr (0 : Fin 3) = 0 := by rfl
  have h2 : enumL.discr (2 : Fin 3) = 130 := by rfl
  have hf : List.finRange 3 = [0, 1, 2] := by decide
  simp [answers, serdeCmds, Cmd.den, Expr.den, Query.den, Arg.den, ASt.init, ASt.setSet, Obs.blur, Data.read, serialized,
    show (layoutOf inpS).serializable = true from rfl, show (layoutOf inpS).format = .list from rfl, card, BinOp.bool,
    sortedMembers, hf, List.mergeSort, List.filter, List.MergeSort.Internal.splitInTwo, List.splitAt, List.splitAt.go, h0, h2]
  try decide
end

end Ex
end Enumset.Hist
