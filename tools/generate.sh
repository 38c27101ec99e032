#!/bin/bash
# Rewrite lean/Verif/Src/*Rs.lean and lean/Verif/Src/Text/*Rs.lean from the sources in /repo (or in $1).
repo="${1:-/repo}"
cd "$(dirname "$0")/.."
for x in "repr/primitive PrimitiveRs" "repr/array ArrayRs" "set SetRs"; do
  set -- $x
  python3 tools/rs2lean.py "$repo/enumset/src/$1.rs" "$2" "enumset/src/$1.rs" > "lean/Verif/Src/$2.lean" || exit 1
done
python3 tools/rs2lean.py "$repo/enumset_derive/src/lib.rs" DeriveRs enumset_derive/src/lib.rs features \
  > lean/Verif/Src/DeriveRs.lean || exit 1
python3 tools/rs2lean.py "$repo/enumset/src/macros.rs" MacrosRs enumset/src/macros.rs macro_rules \
  > lean/Verif/Src/MacrosRs.lean
[ $? = 0 ] || exit 1
for x in "repr/primitive PrimitiveRs" "repr/array ArrayRs" "set SetRs" "macros MacrosRs"; do
  set -- $x
  python3 tools/text2lean.py "$repo/enumset/src/$1.rs" "$2" "enumset/src/$1.rs" > "lean/Verif/Src/Text/$2.lean" || exit 1
done
python3 tools/text2lean.py "$repo/enumset_derive/src/lib.rs" DeriveRs enumset_derive/src/lib.rs \
  > lean/Verif/Src/Text/DeriveRs.lean
[ $? = 0 ] || exit 1
cd lean && lake build Verif.Src.Lex Verif.Src.Text.DeriveRs || exit 1
cat > /tmp/toks2lean.lean <<'E'
import Verif.Src.Lex
import Verif.Src.Text.DeriveRs
open Enumset.Src
def kindS : Kind → String
  | .id => ".id" | .int => ".int" | .str => ".str" | .life => ".life" | .chr => ".chr" | .p => ".p" | .eof => ".eof"
def main : IO Unit := do
  let ts := Lex.lexFrom 1 .code (DeriveRs.text.map (·.toList.map Char.toNat))
  let mut ws : Array (List Nat) := #[]
  for t in ts do
    unless ws.contains t.chars do ws := ws.push t.chars
  IO.println "import Verif.Src.Lex\n/-!\n# The tokens of `enumset_derive/src/lib.rs`\n\nWritten by `tools/generate.sh`; `deriveToks_eq` in `Verif/Props/SrcParsePlain.lean` says that they are those of the text.\n-/\n\nset_option maxRecDepth 100000\n\nnamespace Enumset.Src.DeriveRs\n"
  for h : i in [0:ws.size] do
    IO.println s!"def w{i} : List Nat := {ws[i]}"
  IO.println "\n/-- the tokens of enumset_derive/src/lib.rs -/\ndef toks : List Tok :="
  let mut cur := "  ["
  let mut first := true
  for t in ts do
    let s := s!"⟨{kindS t.kind}, w{ws.idxOf t.chars}, {t.line}⟩"
    if !first then cur := cur ++ ","
    if cur.length + s.length > 115 then
      IO.println cur
      cur := "   " ++ s
    else cur := cur ++ (if first then "" else " ") ++ s
    first := false
  IO.println (cur ++ "]")
  IO.println "\nend Enumset.Src.DeriveRs"
E
lake env lean --run /tmp/toks2lean.lean > Verif/Src/Text/DeriveToks.lean
