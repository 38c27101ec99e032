import Verif.Src.MacroRules
/-!
# Equality of terms

A procedure that finds out whether two terms of `Verif/Src/Syntax.lean` are equal, and if it finds that they are,
returns a proof.  It is used to compare what the parser builds with the terms the other files are about.
-/
set_option autoImplicit false

namespace Enumset.Src

deriving instance DecidableEq for UnOp
deriving instance DecidableEq for BinOp

/-- A proof that `a` and `b` are equal, or nothing. -/
def Same {α : Type} (a b : α) : Type := Option (PLift (a = b))

namespace Same
variable {α β : Type}

def no {a b : α} : Same a b := none

def refl (a : α) : Same a a := some ⟨rfl⟩

def app {f g : α → β} {a b : α} (x : Same f g) (y : Same a b) : Same (f a) (g b) :=
  match x, y with
  | some ⟨h⟩, some ⟨k⟩ => some ⟨by rw [h, k]⟩
  | _, _ => none

def dec [DecidableEq α] (a b : α) : Same a b :=
  if h : a = b then some ⟨h⟩ else none

theorem eq (f : (a b : α) → Same a b) {a b : α} (h : (f a b).isSome = true) : a = b := ((f a b).get h).down

def list (f : (a b : α) → Same a b) : (a b : List α) → Same a b
  | [], [] => refl []
  | a :: as, b :: bs => app (app (refl List.cons) (f a b)) (list f as bs)
  | _, _ => none

def pair (f : (a b : α) → Same a b) (g : (a b : β) → Same a b) : (a b : α × β) → Same a b
  | (_, _), (_, _) => app (app (refl Prod.mk) (f _ _)) (g _ _)

def option (f : (a b : α) → Same a b) : (a b : Option α) → Same a b
  | none, none => refl none
  | some a, some b => app (refl some) (f a b)
  | _, _ => none

end Same

mutual
def Ty.same : (a b : Ty) → Same a b
  | .name a0 a1, .name b0 b1 => .app (.app (.refl (@Ty.name)) (Same.dec a0 b0)) (Ty.sameList a1 b1)
  | .ref a0, .ref b0 => .app (.refl (@Ty.ref)) (Ty.same a0 b0)
  | .refMut a0, .refMut b0 => .app (.refl (@Ty.refMut)) (Ty.same a0 b0)
  | .arr a0 a1, .arr b0 b1 => .app (.app (.refl (@Ty.arr)) (Ty.same a0 b0)) (Same.dec a1 b1)
  | .slice a0, .slice b0 => .app (.refl (@Ty.slice)) (Ty.same a0 b0)
  | .tuple a0, .tuple b0 => .app (.refl (@Ty.tuple)) (Ty.sameList a0 b0)
  | .ptr a0, .ptr b0 => .app (.refl (@Ty.ptr)) (Ty.same a0 b0)
  | .num a0, .num b0 => .app (.refl (@Ty.num)) (Same.dec a0 b0)
  | _, _ => .no

def Ty.sameList : (a b : List Ty) → Same a b
  | [], [] => .refl []
  | a :: as, b :: bs => .app (.app (.refl List.cons) (Ty.same a b)) (Ty.sameList as bs)
  | _, _ => .no

end

def Ty.sameOption : (a b : Option Ty) → Same a b := Same.option Ty.same

mutual
def Pat.same : (a b : Pat) → Same a b
  | .var a0, .var b0 => .app (.refl (@Pat.var)) (Same.dec a0 b0)
  | .wild, .wild => .refl (@Pat.wild)
  | .tup a0, .tup b0 => .app (.refl (@Pat.tup)) (Pat.sameList a0 b0)
  | .some a0, .some b0 => .app (.refl (@Pat.some)) (Pat.same a0 b0)
  | .none, .none => .refl (@Pat.none)
  | .lit a0, .lit b0 => .app (.refl (@Pat.lit)) (Same.dec a0 b0)
  | .int a0 a1, .int b0 b1 => .app (.app (.refl (@Pat.int)) (Same.dec a0 b0)) (Same.dec a1 b1)
  | .str a0, .str b0 => .app (.refl (@Pat.str)) (Same.dec a0 b0)
  | .ok a0, .ok b0 => .app (.refl (@Pat.ok)) (Pat.same a0 b0)
  | .err a0, .err b0 => .app (.refl (@Pat.err)) (Pat.same a0 b0)
  | .variant a0 a1 a2 a3, .variant b0 b1 b2 b3 => .app (.app (.app (.app (.refl (@Pat.variant)) (Same.dec a0 b0)) (Same.dec a1 b1)) (Same.dec a2 b2)) (Pat.sameList a3 b3)
  | .struct a0 a1 a2, .struct b0 b1 b2 => .app (.app (.app (.refl (@Pat.struct)) (Same.dec a0 b0)) (Same.dec a1 b1)) (Pat.sameList a2 b2)
  | .or a0, .or b0 => .app (.refl (@Pat.or)) (Pat.sameList a0 b0)
  | _, _ => .no

def Pat.sameList : (a b : List Pat) → Same a b
  | [], [] => .refl []
  | a :: as, b :: bs => .app (.app (.refl List.cons) (Pat.same a b)) (Pat.sameList as bs)
  | _, _ => .no

end

mutual
def Expr.same : (a b : Expr) → Same a b
  | .var a0, .var b0 => .app (.refl (@Expr.var)) (Same.dec a0 b0)
  | .lit a0, .lit b0 => .app (.refl (@Expr.lit)) (Same.dec a0 b0)
  | .bool a0, .bool b0 => .app (.refl (@Expr.bool)) (Same.dec a0 b0)
  | .str a0, .str b0 => .app (.refl (@Expr.str)) (Same.dec a0 b0)
  | .path a0 a1, .path b0 b1 => .app (.app (.refl (@Expr.path)) (Same.dec a0 b0)) (Same.dec a1 b1)
  | .field a0 a1, .field b0 b1 => .app (.app (.refl (@Expr.field)) (Expr.same a0 b0)) (Same.dec a1 b1)
  | .index a0 a1, .index b0 b1 => .app (.app (.refl (@Expr.index)) (Expr.same a0 b0)) (Expr.same a1 b1)
  | .sliceTo a0 a1, .sliceTo b0 b1 => .app (.app (.refl (@Expr.sliceTo)) (Expr.same a0 b0)) (Expr.same a1 b1)
  | .un a0 a1, .un b0 b1 => .app (.app (.refl (@Expr.un)) (Same.dec a0 b0)) (Expr.same a1 b1)
  | .bin a0 a1 a2, .bin b0 b1 b2 => .app (.app (.app (.refl (@Expr.bin)) (Same.dec a0 b0)) (Expr.same a1 b1)) (Expr.same a2 b2)
  | .and a0 a1, .and b0 b1 => .app (.app (.refl (@Expr.and)) (Expr.same a0 b0)) (Expr.same a1 b1)
  | .or a0 a1, .or b0 b1 => .app (.app (.refl (@Expr.or)) (Expr.same a0 b0)) (Expr.same a1 b1)
  | .cast a0 a1, .cast b0 b1 => .app (.app (.refl (@Expr.cast)) (Expr.same a0 b0)) (Ty.same a1 b1)
  | .assign a0 a1, .assign b0 b1 => .app (.app (.refl (@Expr.assign)) (Expr.same a0 b0)) (Expr.same a1 b1)
  | .assignOp a0 a1 a2, .assignOp b0 b1 b2 => .app (.app (.app (.refl (@Expr.assignOp)) (Same.dec a0 b0)) (Expr.same a1 b1)) (Expr.same a2 b2)
  | .none, .none => .refl (@Expr.none)
  | .some a0, .some b0 => .app (.refl (@Expr.some)) (Expr.same a0 b0)
  | .ok a0, .ok b0 => .app (.refl (@Expr.ok)) (Expr.same a0 b0)
  | .ctor a0 a1, .ctor b0 b1 => .app (.app (.refl (@Expr.ctor)) (Same.dec a0 b0)) (Expr.same a1 b1)
  | .call a0 a1, .call b0 b1 => .app (.app (.refl (@Expr.call)) (Same.dec a0 b0)) (Expr.sameList a1 b1)
  | .pcall a0 a1 a2 a3, .pcall b0 b1 b2 b3 => .app (.app (.app (.app (.refl (@Expr.pcall)) (Same.dec a0 b0)) (Same.dec a1 b1)) (Same.dec a2 b2)) (Expr.sameList a3 b3)
  | .mcall a0 a1 a2 a3, .mcall b0 b1 b2 b3 => .app (.app (.app (.app (.refl (@Expr.mcall)) (Expr.same a0 b0)) (Same.dec a1 b1)) (Same.dec a2 b2)) (Expr.sameList a3 b3)
  | .mclosure a0 a1 a2 a3, .mclosure b0 b1 b2 b3 => .app (.app (.app (.app (.refl (@Expr.mclosure)) (Expr.same a0 b0)) (Same.dec a1 b1)) (Pat.same a2 b2)) (Expr.same a3 b3)
  | .fold a0 a1 a2 a3 a4, .fold b0 b1 b2 b3 b4 => .app (.app (.app (.app (.app (.refl (@Expr.fold)) (Expr.same a0 b0)) (Expr.same a1 b1)) (Pat.same a2 b2)) (Pat.same a3 b3)) (Expr.same a4 b4)
  | .mapCtor a0 a1, .mapCtor b0 b1 => .app (.app (.refl (@Expr.mapCtor)) (Expr.same a0 b0)) (Same.dec a1 b1)
  | .sum a0, .sum b0 => .app (.refl (@Expr.sum)) (Expr.same a0 b0)
  | .tryIntoOk a0, .tryIntoOk b0 => .app (.refl (@Expr.tryIntoOk)) (Expr.same a0 b0)
  | .struct a0 a1 a2, .struct b0 b1 b2 => .app (.app (.app (.refl (@Expr.struct)) (Same.dec a0 b0)) (Same.dec a1 b1)) (Expr.sameList a2 b2)
  | .repeat a0 a1, .repeat b0 b1 => .app (.app (.refl (@Expr.«repeat»)) (Expr.same a0 b0)) (Expr.same a1 b1)
  | .tuple a0, .tuple b0 => .app (.refl (@Expr.tuple)) (Expr.sameList a0 b0)
  | .ite a0 a1 a2, .ite b0 b1 b2 => .app (.app (.app (.refl (@Expr.ite)) (Expr.same a0 b0)) (Expr.same a1 b1)) (Expr.same a2 b2)
  | .ifLet a0 a1 a2 a3, .ifLet b0 b1 b2 b3 => .app (.app (.app (.app (.refl (@Expr.ifLet)) (Pat.same a0 b0)) (Expr.same a1 b1)) (Expr.same a2 b2)) (Expr.same a3 b3)
  | .block a0, .block b0 => .app (.refl (@Expr.block)) (Stmt.sameList a0 b0)
  | .ret a0, .ret b0 => .app (.refl (@Expr.ret)) (Expr.same a0 b0)
  | .brk, .brk => .refl (@Expr.brk)
  | .while a0 a1, .while b0 b1 => .app (.app (.refl (@Expr.«while»)) (Expr.same a0 b0)) (Expr.same a1 b1)
  | .whileLet a0 a1 a2, .whileLet b0 b1 b2 => .app (.app (.app (.refl (@Expr.whileLet)) (Pat.same a0 b0)) (Expr.same a1 b1)) (Expr.same a2 b2)
  | .for a0 a1 a2, .for b0 b1 b2 => .app (.app (.app (.refl (@Expr.«for»)) (Pat.same a0 b0)) (Expr.same a1 b1)) (Expr.same a2 b2)
  | .range a0 a1, .range b0 b1 => .app (.app (.refl (@Expr.range)) (Expr.same a0 b0)) (Expr.same a1 b1)
  | .try a0, .try b0 => .app (.refl (@Expr.«try»)) (Expr.same a0 b0)
  | .int a0 a1, .int b0 b1 => .app (.app (.refl (@Expr.int)) (Same.dec a0 b0)) (Same.dec a1 b1)
  | .match a0 a1, .match b0 b1 => .app (.app (.refl (@Expr.«match»)) (Expr.same a0 b0)) (Arm.sameList a1 b1)
  | .err a0, .err b0 => .app (.refl (@Expr.err)) (Expr.same a0 b0)
  | .array a0, .array b0 => .app (.refl (@Expr.array)) (Expr.sameList a0 b0)
  | .rep a0 a1, .rep b0 b1 => .app (.app (.refl (@Expr.rep)) (Same.dec a0 b0)) (Expr.same a1 b1)
  | .format a0 a1, .format b0 b1 => .app (.app (.refl (@Expr.format)) (Same.dec a0 b0)) (Expr.sameList a1 b1)
  | .mapOr a0 a1 a2 a3, .mapOr b0 b1 b2 b3 => .app (.app (.app (.app (.refl (@Expr.mapOr)) (Expr.same a0 b0)) (Expr.same a1 b1)) (Pat.same a2 b2)) (Expr.same a3 b3)
  | .panic a0, .panic b0 => .app (.refl (@Expr.panic)) (Expr.same a0 b0)
  | .stringify a0, .stringify b0 => .app (.refl (@Expr.stringify)) (Same.dec a0 b0)
  | .sizeOf a0, .sizeOf b0 => .app (.refl (@Expr.sizeOf)) (Ty.same a0 b0)
  | _, _ => .no

def Expr.sameList : (a b : List Expr) → Same a b
  | [], [] => .refl []
  | a :: as, b :: bs => .app (.app (.refl List.cons) (Expr.same a b)) (Expr.sameList as bs)
  | _, _ => .no

def Arm.same : (a b : Arm) → Same a b
  | .mk a0 a1 a2, .mk b0 b1 b2 => .app (.app (.app (.refl (@Arm.mk)) (Pat.same a0 b0)) (Expr.same a1 b1)) (Expr.same a2 b2)
  | .rep a0 a1, .rep b0 b1 => .app (.app (.refl (@Arm.rep)) (Same.dec a0 b0)) (Arm.same a1 b1)
  | _, _ => .no

def Arm.sameList : (a b : List Arm) → Same a b
  | [], [] => .refl []
  | a :: as, b :: bs => .app (.app (.refl List.cons) (Arm.same a b)) (Arm.sameList as bs)
  | _, _ => .no

def Stmt.same : (a b : Stmt) → Same a b
  | .let a0 a1 a2, .let b0 b1 b2 => .app (.app (.app (.refl (@Stmt.«let»)) (Pat.same a0 b0)) (Ty.sameOption a1 b1)) (Expr.same a2 b2)
  | .semi a0, .semi b0 => .app (.refl (@Stmt.semi)) (Expr.same a0 b0)
  | .tail a0, .tail b0 => .app (.refl (@Stmt.tail)) (Expr.same a0 b0)
  | .hole a0, .hole b0 => .app (.refl (@Stmt.hole)) (Same.dec a0 b0)
  | .rep a0 a1, .rep b0 b1 => .app (.app (.refl (@Stmt.rep)) (Same.dec a0 b0)) (Stmt.same a1 b1)
  | .attr a0 a1, .attr b0 b1 => .app (.app (.refl (@Stmt.attr)) (Same.dec a0 b0)) (Expr.same a1 b1)
  | .spanned a0 a1, .spanned b0 b1 => .app (.app (.refl (@Stmt.spanned)) (Expr.same a0 b0)) (Stmt.sameList a1 b1)
  | _, _ => .no

def Stmt.sameList : (a b : List Stmt) → Same a b
  | [], [] => .refl []
  | a :: as, b :: bs => .app (.app (.refl List.cons) (Stmt.same a b)) (Stmt.sameList as bs)
  | _, _ => .no

end

def sameParams : (a b : List (String × Ty)) → Same a b := .list (.pair .dec Ty.same)

def FnDecl.same : (a b : FnDecl) → Same a b
  | ⟨a, b, c, d, e⟩, ⟨a', b', c', d', e'⟩ =>
    .app (.app (.app (.app (.app (.refl FnDecl.mk) (.dec a a')) (.dec b b')) (sameParams c c')) (Ty.same d d'))
      (Stmt.sameList e e')

def StructDecl.same : (a b : StructDecl) → Same a b
  | ⟨a, b, c⟩, ⟨a', b', c'⟩ =>
    .app (.app (.app (.refl StructDecl.mk) (.dec a a')) (sameParams b b')) (.dec c c')

def sameFns : (a b : List ((String × String) × FnDecl)) → Same a b := .list (.pair .dec FnDecl.same)

def sameStructs : (a b : List (String × StructDecl)) → Same a b := .list (.pair .dec StructDecl.same)

def File.same : (a b : File) → Same a b
  | ⟨a, b, c⟩, ⟨a', b', c'⟩ =>
    .app (.app (.app (.refl File.mk) (sameFns a a')) (sameStructs b b'))
      (.list (.list (.pair .dec Expr.same)) c c')

mutual
def Item.same : (a b : Item) → Same a b
  | .fn a0 a1, .fn b0 b1 => .app (.app (.refl (@Item.fn)) (Same.dec a0 b0)) (FnDecl.same a1 b1)
  | .type a0 a1, .type b0 b1 => .app (.app (.refl (@Item.type)) (Same.dec a0 b0)) (Ty.same a1 b1)
  | .impl a0 a1 a2 a3, .impl b0 b1 b2 b3 => .app (.app (.app (.app (.refl (@Item.impl)) (Same.dec a0 b0)) (Ty.sameList a1 b1)) (Ty.same a2 b2)) (Item.sameList a3 b3)
  | .struct a0, .struct b0 => .app (.refl (@Item.struct)) (Same.dec a0 b0)
  | .hole a0, .hole b0 => .app (.refl (@Item.hole)) (Same.dec a0 b0)
  | _, _ => .no

def Item.sameList : (a b : List Item) → Same a b
  | [], [] => .refl []
  | a :: as, b :: bs => .app (.app (.refl List.cons) (Item.same a b)) (Item.sameList as bs)
  | _, _ => .no

end

def Code.same : (a b : Code) → Same a b
  | .expr a, .expr b => .app (.refl Code.expr) (Expr.same a b)
  | .ty a, .ty b => .app (.refl Code.ty) (Ty.same a b)
  | .items a, .items b => .app (.refl Code.items) (Item.sameList a b)
  | .stmts a, .stmts b => .app (.refl Code.stmts) (Stmt.sameList a b)
  | _, _ => .no

def Tmpl.same : (a b : Tmpl) → Same a b
  | ⟨a, b⟩, ⟨a', b'⟩ => .app (.app (.refl Tmpl.mk) (.dec a a')) (Code.same b b')

/-! ### `macro_rules!` -/

deriving instance DecidableEq for MAtom
deriving instance DecidableEq for MRep
deriving instance DecidableEq for MPat
deriving instance DecidableEq for MArg
deriving instance DecidableEq for MArgs

def MBody.same : (a b : MBody) → Same a b
  | .code a, .code b => .app (.refl MBody.code) (Tmpl.same a b)
  | .call m a, .call n b => .app (.app (.refl MBody.call) (.dec m n)) (.dec a b)
  | _, _ => .no

def MArm.same : (a b : MArm) → Same a b
  | ⟨a, b⟩, ⟨a', b'⟩ => .app (.app (.refl MArm.mk) (.dec a a')) (MBody.same b b')

end Enumset.Src
