import Verif.PropLemmas
/-!
# Concrete enums used to show that the hypotheses of the theorems are met

`Ex.T`: `enum { A, B = 3, C }` (stored as `u8`, serialized as `u8`); `Ex.L`:
`enum { A, B = 64, C = 130 }` (stored as `ArrayRepr<3>`, serialized as an array); on a target with
64-bit `usize`.
-/
set_option autoImplicit false

namespace Enumset

/-- The payload of a successful macro call. -/
def okOf {ε : Type} {α : Type 1} : (x : Except ε α) → (∃ a, x = .ok a) → α
  | .ok a, _ => a
  | .error _, h => absurd h (by rintro ⟨a, h⟩; cases h)

theorem okOf_eq {ε : Type} {α : Type 1} (x : Except ε α) (h : ∃ a, x = .ok a) :
    x = .ok (okOf x h) := by
  cases x with
  | ok a => rfl
  | error e => obtain ⟨a, h⟩ := h; cases h

namespace Ex

/-- 64-bit `usize` -/
scoped instance plat64 : Platform :=
  { usizeBits := 64, usize_ok := .inr (.inr rfl), overflowChecks := true }

/-- `enum { A, B = 3, C }` -/
def inpT : DeriveInput :=
  { variants := [{ ident := "A" }, { ident := "B", discriminant := some (.lit 3) },
      { ident := "C" }] }
/-- `enum { A, B = 64, C = 130 }` -/
def inpL : DeriveInput :=
  { variants := [{ ident := "A" }, { ident := "B", discriminant := some (.lit 64) },
      { ident := "C", discriminant := some (.lit 130) }] }

def T : EnumSetType := okOf (derive inpT) ⟨_, rfl⟩
def L : EnumSetType := okOf (derive inpL) ⟨_, rfl⟩

theorem hT : derive inpT = .ok T := okOf_eq _ _
theorem hL : derive inpL = .ok L := okOf_eq _ _

theorem fitT : Fits T := by unfold Fits; decide
theorem fitL : Fits L := by unfold Fits; decide

/-- the variants -/
def tA : T.Val := ⟨0, by decide⟩
def tB : T.Val := ⟨1, by decide⟩
def tC : T.Val := ⟨2, by decide⟩
def lA : L.Val := ⟨0, by decide⟩
def lB : L.Val := ⟨1, by decide⟩
def lC : L.Val := ⟨2, by decide⟩

/-- `{A, C}` -/
def sAC : EnumSet T := ⟨⟨0b10001#8⟩⟩
/-- `{B}` -/
def sB : EnumSet T := ⟨⟨0b1000#8⟩⟩
/-- `{A, C}` -/
def rAC : EnumSet L := ⟨⟨#v[1#64, 0#64, 4#64]⟩⟩
/-- `{B}` -/
def rB : EnumSet L := ⟨⟨#v[0#64, 1#64, 0#64]⟩⟩

theorem safe_sAC : Safe sAC := .from_iter (l := [tA, tC]) rfl
theorem safe_sB : Safe sB := .only (v := tB) rfl
theorem safe_rAC : Safe rAC := .from_iter (l := [lA, lC]) rfl
theorem safe_rB : Safe rB := .only (v := lB) rfl

theorem mem_sAC : Members sAC fun v => v != tB := by unfold Members; decide
theorem mem_sB : Members sB fun v => v == tB := by unfold Members; decide
theorem mem_rAC : Members rAC fun v => v != lB := by unfold Members; decide
theorem mem_rB : Members rB fun v => v == lB := by unfold Members; decide

end Ex

end Enumset
