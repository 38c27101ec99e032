import Verif.SpecUserIter
import Verif.Props.Iter
/-!
# Property C56: collecting from any iterator
-/
set_option autoImplicit false

namespace Enumset

theorem drive_produces {α β σ : Type} {next : UserNext α σ} {f : α → β → Res β} {st st' : σ}
    {xs : List α} (h : Produces next st xs st') : ∀ {b b' : β}, forEach xs b f = .ok b' →
    ∀ k, drive next f (xs.length + k) b st = drive next f k b' st' := by
  induction h with
  | nil st =>
    intro b b' e k
    cases e
    simp
  | @cons st st₁ st₂ x xs hn h ih =>
    intro b b' e k
    rw [List.length_cons, show xs.length + 1 + k = xs.length + k + 1 by omega]
    simp only [forEach] at e
    cases hf : f x b with
    | ok b₁ =>
      rw [hf] at e
      rw [← ih e k]
      simp only [drive, hn, hf]
    | panic p => rw [hf] at e; cases e
    | ub => rw [hf] at e; cases e
    | diverge => rw [hf] at e; cases e

theorem drive_ending {α β σ : Type} {next : UserNext α σ} {f : α → β → Res β} {st st' st'' : σ}
    {xs : List α} (h : Produces next st xs st') (en : Ending) (hn : next st' = (en.answer, st''))
    {b b' : β} (hf : forEach xs b f = .ok b') {fuel : Nat} (hk : xs.length < fuel) :
    drive next f fuel b st = (en.outcome (), b', st'') := by
  obtain ⟨k, rfl⟩ : ∃ k, fuel = xs.length + (k + 1) := ⟨fuel - xs.length - 1, by omega⟩
  rw [drive_produces h hf]
  unfold drive
  rw [hn]
  cases en <;> rfl

theorem driveValue_ending {β σ : Type} (en : Ending) (b : β) (st : σ) :
    driveValue (en.outcome (), b, st) = (en.outcome b, st) := by
  cases en <;> rfl

theorem drive_endless {α β σ : Type} {next : UserNext α σ} {f : α → β → Res β} {st : σ}
    (h : NeverEnds next st) (hf : ∀ v b, ∃ b', f v b = .ok b') (fuel : Nat) (b : β) :
    (drive next f fuel b st).1 = .diverge := by
  obtain ⟨xs, st', hl, hp⟩ := h fuel
  have : ∃ b', forEach xs b f = .ok b' := by
    clear hp hl
    induction xs generalizing b with
    | nil => exact ⟨b, rfl⟩
    | cons x xs ih =>
      obtain ⟨b₁, e⟩ := hf x b
      simp only [forEach, e]
      exact ih b₁
  obtain ⟨b', e⟩ := this
  have := drive_produces hp e 0
  rw [hl, Nat.add_zero] at this
  rw [this]
  rfl

/-- `set.extend(iter)`: if the iterator yields `xs` and then ends (or panics), `extend` returns (or
passes the panic on), and in both cases the set then is a valid set that contains what it contained
before and the items of `xs`; the iterator has been asked `xs.len() + 1` times. -/
theorem C56_extend [Platform] {inp : DeriveInput} {T : EnumSetType} (hT : derive inp = .ok T)
    (hfit : Fits T) {σ : Type} {next : UserNext T.Val σ} {st st' st'' : σ} {xs : List T.Val}
    (hp : Produces next st xs st') (en : Ending) (hn : next st' = (en.answer, st''))
    {s : EnumSet T} (hs : Safe s) {A : T.Val → Bool} (hA : Members s A) :
    ∃ s', Safe s' ∧ Members s' (fun v => A v || decide (v ∈ xs)) ∧
      ∀ fuel, xs.length < fuel → s.extend_user next fuel st = (en.outcome (), s', st'') := by
  obtain ⟨-, -, r, e, hr⟩ := C16_collect hT hfit xs hA
  exact ⟨r, .extend hs e, hr, fun fuel hk => drive_ending hp en hn e hk⟩

/-- `iter.collect()` and `iter.sum()`: if the iterator yields `xs` and then ends, the result is the
set of the items of `xs`; if it panics, the panic is passed on. -/
theorem C56_collect [Platform] {inp : DeriveInput} {T : EnumSetType} (hT : derive inp = .ok T)
    (hfit : Fits T) {σ : Type} {next : UserNext T.Val σ} {st st' st'' : σ} {xs : List T.Val}
    (hp : Produces next st xs st') (en : Ending) (hn : next st' = (en.answer, st'')) :
    ∃ s' : EnumSet T, Members s' (fun v => decide (v ∈ xs)) ∧
      ∀ fuel, xs.length < fuel →
        EnumSet.from_iter_user next fuel st = (en.outcome s', st'') ∧
        EnumSet.sum_user next fuel st = (en.outcome s', st'') := by
  obtain ⟨W⟩ := wf_of_derive hT hfit
  obtain ⟨⟨r, e, hr⟩, ⟨r', e', hr'⟩, -⟩ :=
    C16_collect hT hfit xs (s := EnumSet.empty) (W.members_self _)
  have hrr : r = r' := W.clean_ext (W.clean_of_safe (.from_iter e)) (W.clean_of_safe (.sum e'))
    fun v => by rw [W.members_iff.mp hr v, W.members_iff.mp hr' v]
  subst hrr
  refine ⟨r, hr, fun fuel hk => ⟨?_, ?_⟩⟩
  · unfold EnumSet.from_iter_user EnumSet.extend_user
    rw [drive_ending hp en hn e hk, driveValue_ending]
  · unfold EnumSet.sum_user
    rw [drive_ending hp en hn e' hk, driveValue_ending]

/-- The same for iterators over sets: the result contains the variants of all the sets. -/
theorem C56_sets [Platform] {inp : DeriveInput} {T : EnumSetType} (hT : derive inp = .ok T)
    (hfit : Fits T) {σ : Type} {next : UserNext (EnumSet T) σ} {st st' st'' : σ}
    {xs : List (EnumSet T)} (hp : Produces next st xs st') (hx : ∀ x ∈ xs, Safe x)
    (en : Ending) (hn : next st' = (en.answer, st'')) {s : EnumSet T} (hs : Safe s) :
    (∃ s', Safe s' ∧
      (∀ v, s'.contains v = .ok true ↔ s.contains v = .ok true ∨ ∃ x ∈ xs, x.contains v = .ok true) ∧
      ∀ fuel, xs.length < fuel → s.extend_sets_user next fuel st = (en.outcome (), s', st'')) ∧
    (∃ s' : EnumSet T, (∀ v, s'.contains v = .ok true ↔ ∃ x ∈ xs, x.contains v = .ok true) ∧
      ∀ fuel, xs.length < fuel →
        EnumSet.from_iter_sets_user next fuel st = (en.outcome s', st'')) ∧
    (∃ s' : EnumSet T, (∀ v, s'.contains v = .ok true ↔ ∃ x ∈ xs, x.contains v = .ok true) ∧
      ∀ fuel, xs.length < fuel →
        EnumSet.sum_sets_user next fuel st = (en.outcome s', st'')) := by
  obtain ⟨⟨r, e, hr⟩, ⟨r', e', hr'⟩, r'', e'', hr''⟩ := C17_collect_sets hT hfit xs s
  refine ⟨⟨r'', .extend_sets hs hx e'', hr'', fun fuel hk => drive_ending hp en hn e'' hk⟩,
    ⟨r, hr, fun fuel hk => ?_⟩, ⟨r', hr', fun fuel hk => ?_⟩⟩
  · unfold EnumSet.from_iter_sets_user EnumSet.extend_sets_user
    rw [drive_ending hp en hn e hk, driveValue_ending]
  · unfold EnumSet.sum_sets_user
    rw [drive_ending hp en hn e' hk, driveValue_ending]

/-- Collecting from an iterator that never ends does not return, although there are only finitely many
variants. -/
theorem C56_endless [Platform] {inp : DeriveInput} {T : EnumSetType} (hT : derive inp = .ok T)
    (hfit : Fits T) {σ : Type} {next : UserNext T.Val σ} {st : σ} (h : NeverEnds next st)
    (s : EnumSet T) (fuel : Nat) :
    (s.extend_user next fuel st).1 = .diverge ∧
    (EnumSet.from_iter_user next fuel st : Res (EnumSet T) × σ).1 = .diverge ∧
    (EnumSet.sum_user next fuel st : Res (EnumSet T) × σ).1 = .diverge := by
  obtain ⟨W⟩ := wf_of_derive hT hfit
  have h1 : ∀ (v : T.Val) (b : EnumSet T), ∃ b', (do
      let (_, self) ← b.insert v
      pure self) = .ok b' := by
    intro v b
    obtain ⟨r, e, -⟩ := W.extend_ok [v] b
    refine ⟨r, ?_⟩
    unfold EnumSet.extend at e
    simp only [forEach] at e
    cases hi : b.insert v with
    | ok x => rw [hi] at e; exact e
    | panic p => rw [hi] at e; cases e
    | ub => rw [hi] at e; cases e
    | diverge => rw [hi] at e; cases e
  have h2 : ∀ (v : T.Val) (b : EnumSet T), ∃ b', b.bitor (.val v) = .ok b' := by
    intro v b
    obtain ⟨r, e, -⟩ := W.bitor_ok b (.val v)
    exact ⟨r, e⟩
  refine ⟨drive_endless h h1 fuel s, ?_, ?_⟩
  · unfold EnumSet.from_iter_user driveValue EnumSet.extend_user
    simp only
    rw [drive_endless h h1 fuel EnumSet.default]
    rfl
  · unfold EnumSet.sum_user driveValue
    simp only
    rw [drive_endless h h2 fuel EnumSet.empty]
    rfl

namespace Ex

/-- An iterator over the variants `C`, `A`, `C`, which panics when asked for a fourth item. -/
def nextCAC : UserNext T.Val Nat
  | 0 => (.ok (some tC), 1)
  | 1 => (.ok (some tA), 2)
  | 2 => (.ok (some tC), 3)
  | n => (.panic (.explicit "boom"), n)

theorem producesCAC : Produces nextCAC 0 [tC, tA, tC] 3 :=
  .cons rfl (.cons rfl (.cons rfl (.nil 3)))

/-- `std::iter::repeat(A)` -/
def repeatA : UserNext T.Val Unit := fun _ => (.ok (some tA), ())

theorem repeatA_endless : NeverEnds repeatA () := by
  intro n
  refine ⟨List.replicate n tA, (), List.length_replicate, ?_⟩
  induction n with
  | zero => exact .nil ()
  | succ n ih => exact .cons rfl ih

end Ex

open scoped Ex in
example := C56_extend Ex.hT Ex.fitT Ex.producesCAC (.panic (.explicit "boom")) rfl Ex.safe_sB Ex.mem_sB
open scoped Ex in
/-- After the panic the set `{B}` has become `{A, B, C}`. -/
example : (Ex.sB.extend_user Ex.nextCAC 10 0) = (.panic (.explicit "boom"), ⟨⟨0b11001#8⟩⟩, 3) :=
  rfl
open scoped Ex in
example := C56_collect Ex.hT Ex.fitT Ex.producesCAC (.panic (.explicit "boom")) rfl
open scoped Ex in
example := C56_sets Ex.hL Ex.fitL (next := fun n : Nat =>
    if n = 0 then (.ok (some Ex.rAC), 1) else (.ok none, 2)) (st := 0)
  (.cons rfl (.nil 1)) (by intro x hx; cases List.mem_singleton.mp hx; exact Ex.safe_rAC) .none rfl
  Ex.safe_rB
open scoped Ex in
example := C56_endless Ex.hT Ex.fitT Ex.repeatA_endless Ex.sB

end Enumset
