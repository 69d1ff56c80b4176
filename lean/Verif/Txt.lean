import Lean.Elab.Term
/-
  `txt "…" "…"` is the list of the characters of the given strings, written out when it is elaborated (the kernel is slow at decoding strings).
-/
open Lean in
elab "txt" ss:str* : term => return toExpr (String.join (ss.map TSyntax.getString).toList).toList
