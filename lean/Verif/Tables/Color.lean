/-!
Generated by `tools/gen_color.py` from `/repo/docs/Terminal.md:156-201`: the codes for text attributes.
-/

namespace Verif.Tables

def colorCodes : List (List Char) := [
  ['0'], ['1'], ['2'], ['4'], ['7'], ['2', '2'], ['2', '3'], ['2', '4'],
  ['2', '7'], ['2', '9'], ['3', '0'], ['3', '1'], ['3', '2'], ['3', '3'], ['3', '4'], ['3', '5'],
  ['3', '6'], ['3', '7'], ['3', '9'], ['4', '0'], ['4', '1'], ['4', '2'], ['4', '3'], ['4', '4'],
  ['4', '5'], ['4', '6'], ['4', '7'], ['4', '9'], ['9', '0'], ['9', '1'], ['9', '2'], ['9', '3'],
  ['9', '4'], ['9', '5'], ['9', '6'], ['9', '7'], ['1', '0', '0'], ['1', '0', '1'], ['1', '0', '2'], ['1', '0', '3'],
  ['1', '0', '4'], ['1', '0', '5'], ['1', '0', '6'], ['1', '0', '7']]

end Verif.Tables
