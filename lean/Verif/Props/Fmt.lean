import Verif.Props.Examples
/-!
# Property C41: formatting

A sink has a state and a `write_str` that may fail at any point; `vfmt` is the variants' own
formatting, writing to the sink in any way it likes, which may fail as well.
-/
set_option autoImplicit false

namespace Enumset

section helpers

variable {σ : Type}

theorem writeAll_append (a b : List (σ → Bool × σ)) (st : σ) :
    writeAll (a ++ b) st =
      if (writeAll a st).1 then writeAll b (writeAll a st).2 else writeAll a st := by
  induction a generalizing st with
  | nil => rfl
  | cons w a ih =>
    cases h : w st with
    | mk c st' =>
      have e : ∀ l, writeAll (w :: l) st = if c then writeAll l st' else (false, st') := by
        intro l; simp only [writeAll, h]
      rw [List.cons_append, e, e]
      cases c with
      | true => exact ih st'
      | false => rfl

theorem writeAll_singleton (w : σ → Bool × σ) (st : σ) : writeAll [w] st = w st := by
  unfold writeAll
  cases h : w st with
  | mk b st' => cases b <;> rfl

variable [Platform] {T : EnumSetType}

/-- The separator before every element but the first. -/
def WF.pieces (k : Sink σ) (vfmt : T.Val → σ → Bool × σ) (first : Bool) :
    List T.Val → List (σ → Bool × σ)
  | [] => []
  | v :: L => (if first then [] else [fun st => k.write_str st " | "]) ++ vfmt v ::
      pieces k vfmt false L

theorem WF.pieces_eq (k : Sink σ) (vfmt : T.Val → σ → Bool × σ) (L : List T.Val) :
    WF.pieces k vfmt true L =
      (L.map vfmt).intersperse (fun st => k.write_str st " | ") := by
  cases L with
  | nil => rfl
  | cons v L =>
    have : ∀ v L, vfmt v :: WF.pieces k vfmt false L =
        ((v :: L).map vfmt).intersperse (fun st => k.write_str st " | ") := by
      intro v L
      induction L generalizing v with
      | nil => rfl
      | cons u L ih => simp [pieces, ih]
    exact this v L

theorem WF.fmtLoop_ok (W : WF T) (k : Sink σ) (vfmt : T.Val → σ → Bool × σ)
    (fin : List (σ → Bool × σ)) (L : List T.Val) :
    ∀ (fuel : Nat) (it : EnumSetIter T) (first : Bool) (st : σ), W.ItRep it L → L.length < fuel →
      EnumSet.fmtLoop k vfmt (fun st => .ok (writeAll fin st)) fuel it first st =
        .ok (writeAll (WF.pieces k vfmt first L ++ fin) st) := by
  induction L with
  | nil =>
    intro fuel it first st h hf
    obtain ⟨fuel, rfl⟩ : ∃ k, fuel = k + 1 := ⟨fuel - 1, by simp at hf; omega⟩
    obtain ⟨it', e, -⟩ := W.next_nil h
    simp [EnumSet.fmtLoop, e, WF.pieces]
  | cons v L ih =>
    intro fuel it first st h hf
    obtain ⟨fuel, rfl⟩ : ∃ k, fuel = k + 1 := ⟨fuel - 1, by simp at hf; omega⟩
    obtain ⟨it', e, h'⟩ := W.next_cons h
    have ih' := fun st => ih fuel it' false st h' (by simp at hf; omega)
    simp only [EnumSet.fmtLoop, e, Res.ok_bind, ih', Sink.andThen, WF.pieces]
    cases first with
    | true =>
      simp only [Bool.not_true, Bool.false_eq_true, if_false, if_true, List.nil_append,
        List.cons_append, writeAll]
      split <;> rfl
    | false =>
      simp only [Bool.not_false, if_true, Bool.false_eq_true, if_false, List.cons_append,
        List.nil_append, writeAll]
      split
      · split <;> rfl
      · rfl

end helpers

/-- `Debug` runs exactly these writes in this order, stopping at the first failure and reporting it:
`EnumSet(`, then the contained variants' own formatting in increasing order of discriminant with
` | ` in between, then `)`. -/
theorem C41_debug [Platform] {inp : DeriveInput} {T : EnumSetType} (hT : derive inp = .ok T)
    (hfit : Fits T) {s : EnumSet T} (hs : Safe s) {A : T.Val → Bool} (hA : Members s A)
    {σ : Type} (k : Sink σ) (vfmt : T.Val → σ → Bool × σ) (st : σ) :
    s.fmt_debug k vfmt st = .ok (writeAll
      ([fun st => k.write_str st "EnumSet("] ++
        ((sortedMembers T.discr A).map vfmt).intersperse (fun st => k.write_str st " | ") ++
        [fun st => k.write_str st ")"]) st) := by
  obtain ⟨W⟩ := wf_of_derive hT hfit
  obtain ⟨it, e, hit⟩ := W.iter_ok s (W.clean_of_safe hs)
  rw [W.mem_funext hA, ← W.sortedMembers_eq] at hit
  have h := fun st => W.fmtLoop_ok k vfmt [fun st => k.write_str st ")"] _ (EnumSetIter.fuel T) it
    true st hit (W.fuel_ok _ hit.2.1)
  have hfin : (fun st => Res.ok (writeAll [fun st => k.write_str st ")"] st)) =
      fun st => Res.ok (k.write_str st ")") := by
    funext st
    rw [writeAll_singleton]
  simp only [hfin] at h
  unfold EnumSet.fmt_debug
  simp only [e, Res.ok_bind, h, Sink.andThen, ← WF.pieces_eq, List.cons_append, writeAll]
  split <;> rfl

theorem C41_display [Platform] {inp : DeriveInput} {T : EnumSetType} (hT : derive inp = .ok T)
    (hfit : Fits T) {s : EnumSet T} (hs : Safe s) {A : T.Val → Bool} (hA : Members s A)
    {σ : Type} (k : Sink σ) (vfmt : T.Val → σ → Bool × σ) (st : σ) :
    s.fmt_display k vfmt st = .ok (writeAll
      (((sortedMembers T.discr A).map vfmt).intersperse (fun st => k.write_str st " | ")) st) := by
  obtain ⟨W⟩ := wf_of_derive hT hfit
  obtain ⟨it, e, hit⟩ := W.iter_ok s (W.clean_of_safe hs)
  rw [W.mem_funext hA, ← W.sortedMembers_eq] at hit
  have h := W.fmtLoop_ok k vfmt [] _ (EnumSetIter.fuel T) it true st hit (W.fuel_ok _ hit.2.1)
  rw [List.append_nil, WF.pieces_eq] at h
  unfold EnumSet.fmt_display
  rw [e, Res.ok_bind]
  exact h

/-- What stopping at the first failure means: if the writes before some write succeed and that write
fails, the outcome is a failure and none of the later writes took place; and every reported failure
is of this kind. -/
theorem C41_failure {σ : Type} (ws : List (σ → Bool × σ)) (st st' : σ) :
    writeAll ws st = (false, st') ↔
      ∃ before w after st₁, ws = before ++ w :: after ∧ writeAll before st = (true, st₁) ∧
        w st₁ = (false, st') := by
  constructor
  · intro h
    induction ws generalizing st with
    | nil => cases h
    | cons w ws ih =>
      simp only [writeAll] at h
      cases hw : w st with
      | mk b st₁ =>
        rw [hw] at h
        cases b with
        | true =>
          obtain ⟨before, w', after, st₂, e, h1, h2⟩ := ih st₁ h
          refine ⟨w :: before, w', after, st₂, by rw [e]; rfl, ?_, h2⟩
          simp only [writeAll, hw]
          exact h1
        | false =>
          simp only [Bool.false_eq_true, if_false] at h
          injection h with _ h
          subst h
          exact ⟨[], w, ws, st, rfl, rfl, hw⟩
  · rintro ⟨before, w, after, st₁, rfl, h1, h2⟩
    rw [writeAll_append, h1]
    simp [writeAll, h2]

/-- Writing to a string, with variants that write their names: the text. -/
theorem C41_text [Platform] {inp : DeriveInput} {T : EnumSetType} (hT : derive inp = .ok T)
    (hfit : Fits T) {s : EnumSet T} (hs : Safe s) {A : T.Val → Bool} (hA : Members s A)
    (name : T.Val → String) (st : String) :
    s.fmt_debug stringSink (fun v st => (true, st ++ name v)) st = .ok (true, st ++ String.join
      (["EnumSet("] ++ ((sortedMembers T.discr A).map name).intersperse " | " ++ [")"])) ∧
    s.fmt_display stringSink (fun v st => (true, st ++ name v)) st = .ok (true, st ++ String.join
      (((sortedMembers T.discr A).map name).intersperse " | ")) := by
  have key : ∀ (ts : List String) (st : String),
      writeAll (ts.map fun t st => (true, st ++ t)) st = (true, st ++ String.join ts) := by
    intro ts
    induction ts with
    | nil => intro st; simp [writeAll, String.join]
    | cons t ts ih =>
      intro st
      simp only [List.map_cons, writeAll, if_true, ih, String.join_cons, String.append_assoc]
  have hmap : ((sortedMembers T.discr A).map fun v (st : String) => (true, st ++ name v)).intersperse
      (fun st => stringSink.write_str st " | ") =
      (((sortedMembers T.discr A).map name).intersperse " | ").map fun t st => (true, st ++ t) := by
    generalize sortedMembers T.discr A = L
    cases L with
    | nil => rfl
    | cons v L =>
      induction L generalizing v with
      | nil => rfl
      | cons u L ih =>
        have := ih u
        simp only [List.map_cons, List.intersperse] at this ⊢
        rw [this]
        rfl
  rw [C41_debug hT hfit hs hA, C41_display hT hfit hs hA, hmap, ← key, ← key]
  refine ⟨?_, rfl⟩
  simp only [List.map_append]
  rfl

open scoped Ex in
example := C41_debug Ex.hL Ex.fitL Ex.safe_rAC Ex.mem_rAC (σ := Nat) ⟨fun n _ => (n != 2, n + 1)⟩
  (fun _ n => (true, n)) 0
open scoped Ex in
example := C41_display Ex.hL Ex.fitL Ex.safe_rAC Ex.mem_rAC (σ := Nat) ⟨fun n _ => (n != 2, n + 1)⟩
  (fun _ n => (true, n)) 0
/-- The second of three writes fails. -/
example := (C41_failure (σ := Nat)
  [fun n => (true, n + 1), fun n => (false, n), fun n => (true, n + 5)] 0 1).mp rfl
open scoped Ex in
example : Ex.rAC.fmt_debug stringSink (fun v st => (true, st ++ ["A", "B", "C"][v.val])) "" =
    .ok (true, "EnumSet(A | C)") := by
  have := (C41_text Ex.hL Ex.fitL Ex.safe_rAC Ex.mem_rAC (fun v => ["A", "B", "C"][v.val]) "").1
  have h : sortedMembers Ex.L.discr (fun v => v != Ex.lB) = [Ex.lA, Ex.lC] := by
    unfold sortedMembers
    rw [show (List.finRange Ex.L.n).filter (fun v => v != Ex.lB) = [Ex.lA, Ex.lC] by decide]
    exact List.mergeSort_of_pairwise (by decide)
  rw [this, h]
  rfl

end Enumset
