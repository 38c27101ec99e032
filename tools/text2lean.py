#!/usr/bin/env python3
"""Write the text of a source file as a Lean file: the list of its lines, and their characters.

usage: text2lean.py SOURCE.rs LeanNamespace NAME-TO-SHOW > Out.lean
"""
import sys
path, ns, shown = sys.argv[1:4]


def lstr(s):
    return '"' + s.replace('\\','\\\\').replace('"','\\"').replace('\t','\\t') + '"'


def ch(c):
    return {"'":"'\\''","\\":"'\\\\'"}.get(c,"'"+c+"'")


src = open(path).read()
assert src.endswith('\n')
lines = src[:-1].split('\n')
print(f'/-!\n# The text of `{shown}`\n\nWritten by `tools/generate.sh`.\n-/\n')
print(f'set_option maxRecDepth 100000\n\nnamespace Enumset.Src.{ns}\n')
print(f'/-- {shown}, line by line -/\ndef text : List String :=\n  [' + ',\n   '.join(map(lstr, lines)) + ']\n')
print(f'/-- the characters of `text` -/\ndef chars : List (List Char) :=\n  [' + ',\n   '.join('['+', '.join(map(ch,l))+']' for l in lines) + ']\n')
print(f'theorem text_eq : text = chars.map String.ofList := by rfl\n')
print(f'end Enumset.Src.{ns}')
