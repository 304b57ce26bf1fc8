#!/bin/sh
# Lists the axioms that each property theorem depends on: sh tools/axioms.sh > AXIOMS.txt, after `lake build` in lean/.
t=$(mktemp -d)
cat > $t/ax.lean <<'X'
import Lean
import Verif
open Lean Elab Command
run_cmd do
  let env ← getEnv
  let mut names : Array Name := #[]
  for (n, ci) in env.constants.toList do
    if let .thmInfo _ := ci then
      match n with
      | .str (.str .anonymous "Verif") s =>
        let cs := s.toList
        if cs.head? == some 'c' && (cs.drop 1).head?.any (·.isDigit) && (cs.dropWhile (· != '_')).length > 1 && ((cs.drop 1).takeWhile (· != '_')).all (·.isDigit) then
          names := names.push n
      | _ => pure ()
  let sorted := names.qsort (fun a b => a.toString < b.toString)
  let mut out := ""
  for n in sorted do
    let ax ← liftCoreM (collectAxioms n)
    let axs := (ax.qsort (fun a b => a.toString < b.toString)).toList.map toString
    out := out ++ s!"{n}: {if axs.isEmpty then "none" else ", ".intercalate axs}\n"
  IO.print out
X
cd "$(dirname "$0")/../lean" && lake env lean $t/ax.lean
rm -r $t
