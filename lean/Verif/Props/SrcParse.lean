import Verif.Src.Parse
import Verif.Src.Same
import Verif.Src.Text.PrimitiveRs
import Verif.Src.Text.ArrayRs
import Verif.Src.Text.SetRs
import Verif.Src.Text.MacrosRs
import Verif.Src.PrimitiveRs
import Verif.Src.ArrayRs
import Verif.Src.SetRs
import Verif.Src.MacrosRs
/-!
# C76: the terms are what the text of the files parses to

The theorems C66 – C68 and C70 – C75 are about terms of `Verif/Src/Syntax.lean` that stand for source files.  Here
the text of these files is parsed, by a lexer and a parser written in Lean (`Verif/Src/Lex.lean`,
`Verif/Src/Parse.lean`), and the result is compared with these terms.  The text is in `Verif/Src/Text/*.lean`, as
the list of the lines of a file.
-/
set_option autoImplicit false

namespace Enumset.Src
open Parse

theorem lex_ofList (cs : List (List Char)) :
    lex (cs.map String.ofList) = Lex.lexFrom 1 .code (cs.map (·.map Char.toNat)) := by
  simp [lex, Function.comp_def]

/-! Some texts. -/

/-- names, numbers, strings, lifetimes, operators of several characters, comments -/
example : (lex ["let x: &'a str = \"a \\\"b\\\" // c\"; // d", "", "y >>= 0x1f_u8 /* + */ ..z"]).map
      (fun t => (t.kind, t.text, t.line)) =
    [(.id, "let", 1), (.id, "x", 1), (.p, ":", 1), (.p, "&", 1), (.life, "'a", 1), (.id, "str", 1), (.p, "=", 1),
      (.str, "a \"b\" // c", 1), (.p, ";", 1), (.id, "y", 3), (.p, ">>=", 3), (.int, "0x1f_u8", 3),
      (.p, "..", 3), (.id, "z", 3)] := by decide +kernel

/-- a string over two lines -/
example : (lex ["x(\"ab\\", "   cd\")"]).map (fun t => (t.kind, t.text, t.line)) =
    [(.id, "x", 1), (.p, "(", 1), (.str, "abcd", 1), (.p, ")", 2)] := by decide +kernel

/-- operators bind as in Rust: `as`, then `*`, `+`, `<<`, `&`, `^`, `|`, `==`, `&&`, `||` -/
example : parseExpr ["a | b ^ c & d << e + f * g as u8 == h && i || j"] =
    some (.or (.and (.bin .eq (.bin .bor (.var "a") (.bin .bxor (.var "b") (.bin .band (.var "c")
      (.bin .shl (.var "d") (.bin .add (.var "e") (.bin .mul (.var "f") (.cast (.var "g") (.name "u8" []))))))))
      (.var "h")) (.var "i")) (.var "j")) :=
  Same.eq (Same.option Expr.same) (by decide +kernel)

/-- and to the left; brackets change that -/
example : parseExpr ["a - b - (c - d)"] =
    some (.bin .sub (.bin .sub (.var "a") (.var "b")) (.bin .sub (.var "c") (.var "d"))) :=
  Same.eq (Same.option Expr.same) (by decide +kernel)

/-- methods, fields, indices and `?` bind stronger than what is in front; `&&` is two references here -/
example : parseExpr ["!&&x.f(1)[2].0?"] =
    some (.un .not (.un .ref (.un .ref (.try (.field (.index (.mcall (.var "x") "f" [] [.lit 1]) (.lit 2)) "0"))))) :=
  Same.eq (Same.option Expr.same) (by decide +kernel)

/-- statements: a block without `;` is a statement, the last expression is the value -/
example : parseExpr ["{ let y = S { f: 1 }; while x < y { x += 1; } match x {", "0 | 1 => 2, z if z > 3 => z, _ => 4 } }"] =
    some (.block [.let (.var "y") none (.struct "S" ["f"] [.lit 1]),
      .semi (.while (.bin .lt (.var "x") (.var "y")) (.block [.semi (.assignOp .add (.var "x") (.lit 1))])),
      .tail (.match (.var "x") [.mk (.or [.lit 0, .lit 1]) (.bool true) (.lit 2),
        .mk (.var "z") (.bin .gt (.var "z") (.lit 3)) (.var "z"), .mk .wild (.bool true) (.lit 4)])]) :=
  Same.eq (Same.option Expr.same) (by decide +kernel)

/-- what is no expression is not accepted -/
example : (parseExpr ["a +"]).isNone ∧ (parseExpr ["f(a"]).isNone ∧ (parseExpr ["a b"]).isNone := by decide +kernel

/-- a file; `>>` closes two lists of arguments -/
example : parseFile ["/// a comment", "pub struct A<const N: usize>(pub Option<Vec<u8>>);",
      "impl<const N: usize> A<N> {", "    #[inline]", "    pub const fn f(&self, i: usize) -> u8 { self.0[i] }", "}"] =
    some { fns := [(("A", "f"), ⟨["N"], [], [("self", .ref (.name "Self" [])), ("i", .name "usize" [])], .name "u8" [],
             [.tail (.index (.field (.var "self") "0") (.var "i"))]⟩)]
           structs := [("A", ⟨["N"], [("0", .name "Option" [.name "Vec" [.name "u8" []]])], []⟩)]
           invocations := [] } :=
  Same.eq (Same.option File.same) (by decide +kernel)

set_option maxRecDepth 100000

/-- `enumset/src/repr/primitive.rs` -/
theorem C76_primitive : parseFile PrimitiveRs.text = some PrimitiveRs.file := by
  rw [PrimitiveRs.text_eq, parseFile, lex_ofList]
  exact Same.eq (Same.option File.same) (by decide +kernel)

/-- `enumset/src/repr/array.rs` -/
theorem C76_array : parseFile ArrayRs.text = some ArrayRs.file := by
  rw [ArrayRs.text_eq, parseFile, lex_ofList]
  exact Same.eq (Same.option File.same) (by decide +kernel)

/-- `enumset/src/set.rs` -/
theorem C76_set : parseFile SetRs.text = some SetRs.file := by
  rw [SetRs.text_eq, parseFile, lex_ofList]
  exact Same.eq (Same.option File.same) (by decide +kernel)

/-- `enumset/src/macros.rs` -/
theorem C76_macros : parseRules MacrosRs.text = some MacrosRs.macros := by
  rw [MacrosRs.text_eq, parseRules, lex_ofList]
  exact Same.eq (Same.option (Same.list (Same.pair Same.dec (Same.list MArm.same))))
    (by decide +kernel)

end Enumset.Src
