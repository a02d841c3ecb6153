import Verif.Enums
/-!
# The names of the value enumerations, letter by letter

Generated by `tools/gen_enumnames.py`; only used to spare the kernel the comparison of strings.
-/
namespace BM

set_option maxRecDepth 100000 in
def enumChars : List (List (List Char)) := [
  [['O', 'F', 'F'],
   ['O', 'N']],
  [['D', 'I', 'S', 'A', 'B', 'L', 'E', 'D'],
   ['E', 'N', 'A', 'B', 'L', 'E', 'D'],
   ['N', 'O', 'T', '_', 'S', 'U', 'P', 'P', 'O', 'R', 'T', 'E', 'D']],
  [['D', 'I', 'S', 'A', 'B', 'L', 'E', 'D'],
   ['E', 'N', 'A', 'B', 'L', 'E', 'D'],
   ['N', 'O', 'T', '_', 'S', 'U', 'P', 'P', 'O', 'R', 'T', 'E', 'D']],
  [['D', 'I', 'S', 'A', 'B', 'L', 'E', 'D'],
   ['E', 'N', 'A', 'B', 'L', 'E', 'D'],
   ['N', 'O', 'T', '_', 'S', 'U', 'P', 'P', 'O', 'R', 'T', 'E', 'D']],
  [['S', 'T', 'O', 'P', 'P', 'E', 'D'],
   ['R', 'U', 'N', 'N', 'I', 'N', 'G'],
   ['N', 'O', 'T', '_', 'S', 'U', 'P', 'P', 'O', 'R', 'T', 'E', 'D']],
  [['N', 'O', 'R', 'M', 'A', 'L'],
   ['F', 'I', 'R', 'S', 'T'],
   ['S', 'E', 'C', 'O', 'N', 'D']],
  [['S', 'E', 'C', 'O', 'N', 'D'],
   ['T', 'H', 'I', 'R', 'D']],
  [['M', 'A', 'S', 'T', 'E', 'R', '_', 'S', 'E', 'C', 'U', 'R', 'I', 'T', 'Y'],
   ['F', 'R', 'I', 'E', 'N', 'D', 'S', 'H', 'I', 'P', '_', 'S', 'E', 'C', 'U', 'R', 'I', 'T', 'Y']],
  [['R', 'E', 'S', 'O', 'L', 'U', 'T', 'I', 'O', 'N', '_', '1', '0', '0', '_', 'M', 'S'],
   ['R', 'E', 'S', 'O', 'L', 'U', 'T', 'I', 'O', 'N', '_', '1', '_', 'S'],
   ['R', 'E', 'S', 'O', 'L', 'U', 'T', 'I', 'O', 'N', '_', '1', '0', '_', 'S'],
   ['R', 'E', 'S', 'O', 'L', 'U', 'T', 'I', 'O', 'N', '_', '1', '0', '_', 'M', 'I', 'N']],
  [['S', 'U', 'C', 'C', 'E', 'S', 'S'],
   ['I', 'N', 'V', 'A', 'L', 'I', 'D', '_', 'A', 'D', 'D', 'R', 'E', 'S', 'S'],
   ['I', 'N', 'V', 'A', 'L', 'I', 'D', '_', 'M', 'O', 'D', 'E', 'L'],
   ['I', 'N', 'V', 'A', 'L', 'I', 'D', '_', 'A', 'P', 'P', 'K', 'E', 'Y', '_', 'I', 'N', 'D', 'E', 'X'],
   ['I', 'N', 'V', 'A', 'L', 'I', 'D', '_', 'N', 'E', 'T', 'K', 'E', 'Y', '_', 'I', 'N', 'D', 'E', 'X'],
   ['I', 'N', 'S', 'U', 'F', 'F', 'I', 'C', 'I', 'E', 'N', 'T', '_', 'R', 'E', 'S', 'O', 'U', 'R', 'C', 'E', 'S'],
   ['K', 'E', 'Y', '_', 'I', 'N', 'D', 'E', 'X', '_', 'A', 'L', 'R', 'E', 'A', 'D', 'Y', '_', 'S', 'T', 'O', 'R', 'E', 'D'],
   ['I', 'N', 'V', 'A', 'L', 'I', 'D', '_', 'P', 'U', 'B', 'L', 'I', 'S', 'H', '_', 'P', 'A', 'R', 'A', 'M', 'E', 'T', 'E', 'R', 'S'],
   ['N', 'O', 'T', '_', 'A', '_', 'S', 'U', 'B', 'S', 'C', 'R', 'I', 'B', 'E', '_', 'M', 'O', 'D', 'E', 'L'],
   ['S', 'T', 'O', 'R', 'A', 'G', 'E', '_', 'F', 'A', 'I', 'L', 'U', 'R', 'E'],
   ['F', 'E', 'A', 'T', 'U', 'R', 'E', '_', 'N', 'O', 'T', '_', 'S', 'U', 'P', 'P', 'O', 'R', 'T', 'E', 'D'],
   ['C', 'A', 'N', 'N', 'O', 'T', '_', 'U', 'P', 'D', 'A', 'T', 'E'],
   ['C', 'A', 'N', 'N', 'O', 'T', '_', 'R', 'E', 'M', 'O', 'V', 'E'],
   ['C', 'A', 'N', 'N', 'O', 'T', '_', 'B', 'I', 'N', 'D'],
   ['T', 'E', 'M', 'P', 'O', 'R', 'A', 'R', 'I', 'L', 'Y', '_', 'U', 'N', 'A', 'B', 'L', 'E', '_', 'T', 'O', '_', 'C', 'H', 'A', 'N', 'G', 'E', '_', 'S', 'T', 'A', 'T', 'E'],
   ['C', 'A', 'N', 'N', 'O', 'T', '_', 'S', 'E', 'T'],
   ['U', 'N', 'S', 'P', 'E', 'C', 'I', 'F', 'I', 'E', 'D', '_', 'E', 'R', 'R', 'O', 'R'],
   ['I', 'N', 'V', 'A', 'L', 'I', 'D', '_', 'B', 'I', 'N', 'D', 'I', 'N', 'G']],
  [['Z', 'E', 'R', 'O'],
   ['F', 'I', 'R', 'S', 'T'],
   ['S', 'E', 'C', 'O', 'N', 'D'],
   ['T', 'W', 'O', '_', 'H', 'U', 'N', 'D', 'R', 'E', 'D', '_', 'A', 'N', 'D', '_', 'F', 'I', 'F', 'T', 'Y', '_', 'F', 'I', 'F', 'T', 'H']],
  [['S', 'H', 'O', 'R', 'T'],
   ['L', 'O', 'N', 'G']],
  [['B', 'A', 'T', 'T', 'E', 'R', 'Y', '_', 'N', 'O', 'T', '_', 'P', 'R', 'E', 'S', 'E', 'N', 'T'],
   ['B', 'A', 'T', 'T', 'E', 'R', 'Y', '_', 'P', 'R', 'E', 'S', 'E', 'N', 'T', '_', 'R', 'E', 'M', 'O', 'V', 'A', 'B', 'L', 'E'],
   ['B', 'A', 'T', 'T', 'E', 'R', 'Y', '_', 'P', 'R', 'E', 'S', 'E', 'N', 'T', '_', 'N', 'O', 'N', '_', 'R', 'E', 'M', 'O', 'V', 'A', 'B', 'L', 'E'],
   ['B', 'A', 'T', 'T', 'E', 'R', 'Y', '_', 'P', 'R', 'E', 'S', 'E', 'N', 'C', 'E', '_', 'U', 'N', 'K', 'N', 'O', 'W', 'N']],
  [['B', 'A', 'T', 'T', 'E', 'R', 'Y', '_', 'C', 'H', 'A', 'R', 'G', 'E', '_', 'C', 'R', 'I', 'T', 'I', 'C', 'A', 'L', 'L', 'Y', '_', 'L', 'O', 'W'],
   ['B', 'A', 'T', 'T', 'E', 'R', 'Y', '_', 'C', 'H', 'A', 'R', 'G', 'E', '_', 'L', 'O', 'W'],
   ['B', 'A', 'T', 'T', 'E', 'R', 'Y', '_', 'C', 'H', 'A', 'R', 'G', 'E', '_', 'G', 'O', 'O', 'D'],
   ['B', 'A', 'T', 'T', 'E', 'R', 'Y', '_', 'C', 'H', 'A', 'R', 'G', 'E', '_', 'U', 'N', 'K', 'N', 'O', 'W', 'N']],
  [['B', 'A', 'T', 'T', 'E', 'R', 'Y', '_', 'N', 'O', 'T', '_', 'C', 'H', 'A', 'R', 'G', 'E', 'A', 'B', 'L', 'E'],
   ['B', 'A', 'T', 'T', 'E', 'R', 'Y', '_', 'C', 'H', 'A', 'R', 'G', 'E', 'A', 'B', 'L', 'E', '_', 'N', 'O', 'T', '_', 'C', 'H', 'A', 'R', 'G', 'I', 'N', 'G'],
   ['B', 'A', 'T', 'T', 'E', 'R', 'Y', '_', 'C', 'H', 'A', 'R', 'G', 'E', 'A', 'B', 'L', 'E', '_', 'C', 'H', 'A', 'R', 'G', 'I', 'N', 'G'],
   ['B', 'A', 'T', 'T', 'E', 'R', 'Y', '_', 'C', 'H', 'A', 'R', 'G', 'I', 'N', 'G', '_', 'S', 'T', 'A', 'T', 'E', '_', 'U', 'N', 'K', 'N', 'O', 'W', 'N']],
  [['R', 'F', 'U'],
   ['B', 'A', 'T', 'T', 'E', 'R', 'Y', '_', 'N', 'O', 'T', '_', 'R', 'E', 'Q', 'U', 'I', 'R', 'E', '_', 'S', 'E', 'R', 'V', 'I', 'C', 'E'],
   ['B', 'A', 'T', 'T', 'E', 'R', 'Y', '_', 'R', 'E', 'Q', 'U', 'I', 'R', 'E', '_', 'S', 'E', 'R', 'V', 'I', 'C', 'E'],
   ['B', 'A', 'T', 'T', 'E', 'R', 'Y', '_', 'S', 'E', 'R', 'V', 'I', 'C', 'E', 'A', 'B', 'I', 'L', 'I', 'T', 'Y', '_', 'U', 'N', 'K', 'N', 'O', 'W', 'N']],
  [['R', 'E', 'A', 'D', '_', 'O', 'N', 'L', 'Y'],
   ['W', 'R', 'I', 'T', 'E', '_', 'O', 'N', 'L', 'Y'],
   ['R', 'E', 'A', 'D', '_', 'W', 'R', 'I', 'T', 'E']],
  [['N', 'O', 'T', '_', 'U', 'S', 'E', 'R', '_', 'P', 'R', 'O', 'P', 'E', 'R', 'T', 'Y'],
   ['R', 'E', 'A', 'D', '_', 'O', 'N', 'L', 'Y'],
   ['W', 'R', 'I', 'T', 'E', '_', 'O', 'N', 'L', 'Y'],
   ['R', 'E', 'A', 'D', '_', 'W', 'R', 'I', 'T', 'E']],
  [['R', 'E', 'A', 'D', '_', 'O', 'N', 'L', 'Y'],
   ['W', 'R', 'I', 'T', 'E', '_', 'O', 'N', 'L', 'Y'],
   ['R', 'E', 'A', 'D', '_', 'W', 'R', 'I', 'T', 'E']],
  [['N', 'O', 'T', '_', 'U', 'S', 'E', 'R', '_', 'P', 'R', 'O', 'P', 'E', 'R', 'T', 'Y'],
   ['R', 'E', 'A', 'D', '_', 'O', 'N', 'L', 'Y']],
  [['U', 'N', 'S', 'P', 'E', 'C', 'I', 'F', 'I', 'E', 'D'],
   ['I', 'N', 'S', 'T', 'A', 'N', 'T', 'A', 'N', 'E', 'O', 'U', 'S'],
   ['A', 'R', 'I', 'T', 'H', 'M', 'E', 'T', 'I', 'C', '_', 'M', 'E', 'A', 'N'],
   ['R', 'M', 'S'],
   ['M', 'A', 'X', 'I', 'M', 'U', 'M'],
   ['M', 'I', 'N', 'I', 'M', 'U', 'M'],
   ['A', 'C', 'C', 'U', 'M', 'U', 'L', 'A', 'T', 'E', 'D'],
   ['C', 'O', 'U', 'N', 'T']],
  [['S', 'U', 'C', 'C', 'E', 'S', 'S'],
   ['S', 'C', 'E', 'N', 'E', '_', 'R', 'E', 'G', 'I', 'S', 'T', 'E', 'R', '_', 'F', 'U', 'L', 'L'],
   ['S', 'C', 'E', 'N', 'E', '_', 'N', 'O', 'T', '_', 'F', 'O', 'U', 'N', 'D']],
  [['N', 'O', 'N', 'E'],
   ['T', 'I', 'M', 'E', '_', 'A', 'U', 'T', 'H', 'O', 'R', 'I', 'T', 'Y'],
   ['T', 'I', 'M', 'E', '_', 'R', 'E', 'L', 'A', 'Y'],
   ['T', 'I', 'M', 'E', '_', 'C', 'L', 'I', 'E', 'N', 'T']],
  [['T', 'Y', 'P', 'E', '_', 'N', 'O', 'T', '_', 'S', 'P', 'E', 'C', 'I', 'F', 'I', 'E', 'D'],
   ['T', 'Y', 'P', 'E', '_', 'I'],
   ['T', 'Y', 'P', 'E', '_', 'I', 'I'],
   ['T', 'Y', 'P', 'E', '_', 'I', 'I', 'I'],
   ['T', 'Y', 'P', 'E', '_', 'I', 'V'],
   ['T', 'Y', 'P', 'E', '_', 'V']],
  [['T', 'Y', 'P', 'E', '_', 'N', 'O', 'T', '_', 'S', 'P', 'E', 'C', 'I', 'F', 'I', 'E', 'D'],
   ['L', 'O', 'W', '_', 'P', 'R', 'E', 'S', 'S', 'U', 'R', 'E', '_', 'F', 'L', 'U', 'O', 'R', 'E', 'S', 'C', 'E', 'N', 'T'],
   ['H', 'I', 'G', 'H', '_', 'I', 'N', 'T', 'E', 'N', 'S', 'I', 'T', 'Y', '_', 'D', 'I', 'S', 'C', 'H', 'A', 'R', 'G', 'E'],
   ['L', 'O', 'W', '_', 'V', 'O', 'L', 'T', 'A', 'G', 'E', '_', 'H', 'A', 'L', 'O', 'G', 'E', 'N'],
   ['I', 'N', 'C', 'A', 'N', 'D', 'E', 'S', 'C', 'E', 'N', 'T'],
   ['L', 'I', 'G', 'H', 'T', '_', 'E', 'M', 'I', 'T', 'T', 'I', 'N', 'G', '_', 'D', 'I', 'O', 'D', 'E'],
   ['O', 'R', 'G', 'A', 'N', 'I', 'C', '_', 'L', 'I', 'G', 'H', 'T', '_', 'E', 'M', 'I', 'T', 'T', 'I', 'N', 'G', '_', 'D', 'I', 'O', 'D', 'E'],
   ['O', 'T', 'H', 'E', 'R', '_', 'T', 'H', 'A', 'N', '_', 'L', 'I', 'S', 'T', 'E', 'D', '_', 'A', 'B', 'O', 'V', 'E'],
   ['N', 'O', '_', 'L', 'I', 'G', 'H', 'T', '_', 'S', 'O', 'U', 'R', 'C', 'E'],
   ['M', 'U', 'L', 'T', 'I', 'P', 'L', 'E', '_', 'L', 'I', 'G', 'H', 'T', '_', 'S', 'O', 'U', 'R', 'C', 'E', '_', 'T', 'Y', 'P', 'E', 'S']],
  [['P', 'R', 'E', 'V', 'I', 'O', 'U', 'S', '_', 'S', 'U', 'N', 'D', 'A', 'Y'],
   ['P', 'R', 'E', 'V', 'I', 'O', 'U', 'S', '_', 'S', 'A', 'T', 'U', 'R', 'D', 'A', 'Y'],
   ['P', 'R', 'E', 'V', 'I', 'O', 'U', 'S', '_', 'F', 'R', 'I', 'D', 'A', 'Y'],
   ['P', 'R', 'E', 'V', 'I', 'O', 'U', 'S', '_', 'T', 'H', 'U', 'R', 'S', 'D', 'A', 'Y'],
   ['P', 'R', 'E', 'V', 'I', 'O', 'U', 'S', '_', 'W', 'E', 'D', 'N', 'E', 'S', 'D', 'A', 'Y'],
   ['P', 'R', 'E', 'V', 'I', 'O', 'U', 'S', '_', 'T', 'U', 'E', 'S', 'D', 'A', 'Y'],
   ['P', 'R', 'E', 'V', 'I', 'O', 'U', 'S', '_', 'M', 'O', 'N', 'D', 'A', 'Y'],
   ['N', 'E', 'X', 'T', '_', 'M', 'O', 'N', 'D', 'A', 'Y'],
   ['N', 'E', 'X', 'T', '_', 'T', 'U', 'E', 'S', 'D', 'A', 'Y'],
   ['N', 'E', 'X', 'T', '_', 'W', 'E', 'D', 'N', 'E', 'S', 'D', 'A', 'Y'],
   ['N', 'E', 'X', 'T', '_', 'T', 'H', 'U', 'R', 'S', 'D', 'A', 'Y'],
   ['N', 'E', 'X', 'T', '_', 'F', 'R', 'I', 'D', 'A', 'Y'],
   ['N', 'E', 'X', 'T', '_', 'S', 'A', 'T', 'U', 'R', 'D', 'A', 'Y'],
   ['N', 'E', 'X', 'T', '_', 'S', 'U', 'N', 'D', 'A', 'Y']],
  [['S', 'E', 'C', 'O', 'N', 'D', 'L', 'Y'],
   ['M', 'I', 'N', 'U', 'T', 'E', 'L', 'Y'],
   ['H', 'O', 'U', 'R', 'L', 'Y'],
   ['D', 'A', 'I', 'L', 'Y'],
   ['W', 'E', 'E', 'K', 'L', 'Y'],
   ['M', 'O', 'N', 'T', 'H', 'L', 'Y'],
   ['Y', 'E', 'A', 'R', 'L', 'Y']],
  [['F', 'R', 'E', 'Q'],
   ['U', 'N', 'T', 'I', 'L'],
   ['C', 'O', 'U', 'N', 'T'],
   ['I', 'N', 'T', 'E', 'R', 'V', 'A', 'L'],
   ['B', 'Y', 'S', 'E', 'C', 'O', 'N', 'D'],
   ['B', 'Y', 'M', 'I', 'N', 'U', 'T', 'E'],
   ['B', 'Y', 'H', 'O', 'U', 'R'],
   ['B', 'Y', 'D', 'A', 'Y'],
   ['B', 'Y', 'M', 'O', 'N', 'T', 'H', 'D', 'A', 'Y'],
   ['B', 'Y', 'Y', 'E', 'A', 'R', 'D', 'A', 'Y'],
   ['B', 'Y', 'W', 'E', 'E', 'K', 'N', 'O'],
   ['B', 'Y', 'M', 'O', 'N', 'T', 'H'],
   ['B', 'Y', 'S', 'E', 'T', 'P', 'O', 'S'],
   ['D', 'T', 'S', 'T', 'A', 'R', 'T'],
   ['E', 'X', 'P', 'L', 'I', 'C', 'I', 'T', '_', 'R', 'D', 'A', 'T', 'E'],
   ['E', 'X', 'C', 'L', 'U', 'S', 'I', 'O', 'N', 'S', '_', 'R', 'D', 'A', 'T', 'E']],
  [['D', 'I', 'S', 'A', 'B', 'L', 'E', 'D'],
   ['E', 'N', 'A', 'B', 'L', 'E', 'D']],
  [['S', 'U', 'C', 'C', 'E', 'S', 'S'],
   ['I', 'N', 'V', 'A', 'L', 'I', 'D', '_', 'S', 'L', 'O', 'T'],
   ['I', 'N', 'V', 'A', 'L', 'I', 'D', '_', 'S', 'L', 'O', 'T', '_', 'P', 'A', 'R', 'A', 'M', 'E', 'T', 'E', 'R', 'S'],
   ['I', 'N', 'V', 'A', 'L', 'I', 'D', '_', 'R', 'U', 'L', 'E'],
   ['I', 'N', 'V', 'A', 'L', 'I', 'D', '_', 'R', 'U', 'L', 'E', '_', 'V', 'A', 'L', 'U', 'E'],
   ['R', 'E', 'G', 'I', 'S', 'T', 'E', 'R', '_', 'S', 'I', 'Z', 'E', '_', 'E', 'X', 'C', 'E', 'E', 'D', 'E', 'D'],
   ['S', 'T', 'O', 'R', 'A', 'G', 'E', '_', 'F', 'A', 'I', 'L', 'U', 'R', 'E']],
  [['T', 'R', 'A', 'N', 'S', 'I', 'T', 'I', 'O', 'N', '_', 'F', 'R', 'O', 'M', '_', 'I', 'N', 'H', 'I', 'B', 'I', 'T', '_', 'T', 'O', '_', 'N', 'O', 'R', 'M', 'A', 'L'],
   ['T', 'R', 'A', 'N', 'S', 'I', 'T', 'I', 'O', 'N', '_', 'F', 'R', 'O', 'M', '_', 'F', 'U', 'N', 'C', 'T', 'I', 'O', 'N', 'A', 'L', '_', 'T', 'E', 'S', 'T', '_', 'T', 'O', '_', 'N', 'O', 'R', 'M', 'A', 'L'],
   ['T', 'R', 'A', 'N', 'S', 'I', 'T', 'I', 'O', 'N', '_', 'F', 'R', 'O', 'M', '_', 'D', 'U', 'R', 'A', 'T', 'I', 'O', 'N', '_', 'T', 'E', 'S', 'T', '_', 'T', 'O', '_', 'N', 'O', 'R', 'M', 'A', 'L'],
   ['N', 'O', 'R', 'M', 'A', 'L'],
   ['T', 'R', 'A', 'N', 'S', 'I', 'T', 'I', 'O', 'N', '_', 'F', 'R', 'O', 'M', '_', 'R', 'E', 'S', 'T', '_', 'T', 'O', '_', 'E', 'M', 'E', 'R', 'G', 'E', 'N', 'C', 'Y'],
   ['E', 'M', 'E', 'R', 'G', 'E', 'N', 'C', 'Y'],
   ['E', 'X', 'T', 'E', 'N', 'D', 'E', 'D', '_', 'E', 'M', 'E', 'R', 'G', 'E', 'N', 'C', 'Y'],
   ['T', 'R', 'A', 'N', 'S', 'I', 'T', 'I', 'O', 'N', '_', 'F', 'R', 'O', 'M', '_', 'E', 'M', 'E', 'R', 'G', 'E', 'N', 'C', 'Y', '_', 'T', 'O', '_', 'R', 'E', 'S', 'T'],
   ['R', 'E', 'S', 'T'],
   ['T', 'R', 'A', 'N', 'S', 'I', 'T', 'I', 'O', 'N', '_', 'F', 'R', 'O', 'M', '_', 'N', 'O', 'R', 'M', 'A', 'L', '_', 'T', 'O', '_', 'I', 'N', 'H', 'I', 'B', 'I', 'T'],
   ['I', 'N', 'H', 'I', 'B', 'I', 'T'],
   ['T', 'R', 'A', 'N', 'S', 'I', 'T', 'I', 'O', 'N', '_', 'F', 'R', 'O', 'M', '_', 'N', 'O', 'R', 'M', 'A', 'L', '_', 'T', 'O', '_', 'D', 'U', 'R', 'A', 'T', 'I', 'O', 'N', '_', 'T', 'E', 'S', 'T'],
   ['D', 'U', 'R', 'A', 'T', 'I', 'O', 'N', '_', 'T', 'E', 'S', 'T', '_', 'I', 'N', '_', 'P', 'R', 'O', 'G', 'R', 'E', 'S', 'S'],
   ['T', 'R', 'A', 'N', 'S', 'I', 'T', 'I', 'O', 'N', '_', 'F', 'R', 'O', 'M', '_', 'N', 'O', 'R', 'M', 'A', 'L', '_', 'T', 'O', '_', 'F', 'U', 'N', 'C', 'T', 'I', 'O', 'N', 'A', 'L', '_', 'T', 'E', 'S', 'T'],
   ['F', 'U', 'N', 'C', 'T', 'I', 'O', 'N', 'A', 'L', '_', 'T', 'E', 'S', 'T', '_', 'I', 'N', '_', 'P', 'R', 'O', 'G', 'R', 'E', 'S', 'S'],
   ['B', 'A', 'T', 'T', 'E', 'R', 'Y', '_', 'D', 'I', 'S', 'C', 'H', 'A', 'R', 'G', 'E', 'D'],
   ['U', 'N', 'K', 'N', 'O', 'W', 'N']],
  [['F', 'I', 'N', 'I', 'S', 'H', 'E', 'D'],
   ['T', 'R', 'I', 'G', 'G', 'E', 'R', 'E', 'D'],
   ['I', 'N', '_', 'P', 'R', 'O', 'G', 'R', 'E', 'S', 'S'],
   ['P', 'O', 'S', 'T', 'P', 'O', 'N', 'E', 'D'],
   ['S', 'T', 'O', 'P', 'P', 'E', 'D'],
   ['D', 'R', 'O', 'P', 'P', 'E', 'D'],
   ['T', 'I', 'M', 'E', 'O', 'U', 'T'],
   ['U', 'N', 'K', 'N', 'O', 'W', 'N']],
  [['E', 'L', '_', 'L', 'I', 'G', 'H', 'T', 'N', 'E', 'S', 'S'],
   ['E', 'L', '_', 'L', 'I', 'G', 'H', 'T', 'N', 'E', 'S', 'S', '_', 'R', 'A', 'N', 'G', 'E', '_', 'M', 'I', 'N'],
   ['E', 'L', '_', 'L', 'I', 'G', 'H', 'T', 'N', 'E', 'S', 'S', '_', 'R', 'A', 'N', 'G', 'E', '_', 'M', 'A', 'X'],
   ['E', 'L', '_', 'P', 'R', 'O', 'L', 'O', 'N', 'G', '_', 'T', 'I', 'M', 'E']],
  [['E', 'L', 'T', '_', 'D', 'U', 'R', 'A', 'T', 'I', 'O', 'N', '_', 'T', 'E', 'S', 'T', '_', 'E', 'X', 'E', 'C', 'U', 'T', 'I', 'O', 'N', '_', 'T', 'I', 'M', 'E', 'O', 'U', 'T'],
   ['E', 'L', 'T', '_', 'F', 'U', 'N', 'C', 'T', 'I', 'O', 'N', 'A', 'L', '_', 'T', 'E', 'S', 'T', '_', 'E', 'X', 'E', 'C', 'U', 'T', 'I', 'O', 'N', '_', 'T', 'I', 'M', 'E', 'O', 'U', 'T'],
   ['E', 'L', 'T', '_', 'D', 'U', 'R', 'A', 'T', 'I', 'O', 'N', '_', 'T', 'E', 'S', 'T', '_', 'R', 'E', 'T', 'R', 'Y', '_', 'P', 'E', 'R', 'I', 'O', 'D'],
   ['E', 'L', 'T', '_', 'F', 'U', 'N', 'C', 'T', 'I', 'O', 'N', 'A', 'L', '_', 'T', 'E', 'S', 'T', '_', 'R', 'E', 'T', 'R', 'Y', '_', 'P', 'E', 'R', 'I', 'O', 'D'],
   ['E', 'L', 'T', '_', 'D', 'U', 'R', 'A', 'T', 'I', 'O', 'N', '_', 'T', 'E', 'S', 'T', '_', 'B', 'A', 'C', 'K', 'U', 'P', '_', 'A', 'U', 'T', 'O', 'M', 'A', 'T', 'I', 'C', '_', 'D', 'E', 'L', 'A', 'Y'],
   ['E', 'L', 'T', '_', 'F', 'U', 'N', 'C', 'T', 'I', 'O', 'N', 'A', 'L', '_', 'T', 'E', 'S', 'T', '_', 'B', 'A', 'C', 'K', 'U', 'P', '_', 'A', 'U', 'T', 'O', 'M', 'A', 'T', 'I', 'C', '_', 'D', 'E', 'L', 'A', 'Y'],
   ['E', 'L', 'T', '_', 'D', 'U', 'R', 'A', 'T', 'I', 'O', 'N', '_', 'T', 'E', 'S', 'T', '_', 'B', 'A', 'C', 'K', 'U', 'P', '_', 'A', 'U', 'T', 'O', 'M', 'A', 'T', 'I', 'C', '_', 'I', 'N', 'T', 'E', 'R', 'V', 'A', 'L'],
   ['E', 'L', 'T', '_', 'F', 'U', 'N', 'C', 'T', 'I', 'O', 'N', 'A', 'L', '_', 'T', 'E', 'S', 'T', '_', 'B', 'A', 'C', 'K', 'U', 'P', '_', 'A', 'U', 'T', 'O', 'M', 'A', 'T', 'I', 'C', '_', 'I', 'N', 'T', 'E', 'R', 'V', 'A', 'L']],
  [['A', 'U', 'T', 'O', '_', 'R', 'E', 'S', 'U', 'M', 'E', '_', 'M', 'O', 'D', 'E'],
   ['A', 'U', 'T', 'O', '_', 'R', 'E', 'S', 'U', 'M', 'E', '_', 'T', 'I', 'M', 'E', 'R']],
  [['E', 'T', 'H', 'E', 'R', 'N', 'E', 'T', '_', 'I', 'D', 'L', 'E'],
   ['E', 'T', 'H', 'E', 'R', 'N', 'E', 'T', '_', 'C', 'O', 'N', 'F', 'I', 'G', 'U', 'R', 'I', 'N', 'G'],
   ['E', 'T', 'H', 'E', 'R', 'N', 'E', 'T', '_', 'I', 'N', 'I', 'T', 'I', 'A', 'L', 'I', 'Z', 'I', 'N', 'G'],
   ['E', 'T', 'H', 'E', 'R', 'N', 'E', 'T', '_', 'C', 'O', 'N', 'N', 'E', 'C', 'T', 'I', 'N', 'G'],
   ['E', 'T', 'H', 'E', 'R', 'N', 'E', 'T', '_', 'H', 'A', 'N', 'D', 'S', 'H', 'A', 'K', 'E'],
   ['E', 'T', 'H', 'E', 'R', 'N', 'E', 'T', '_', 'C', 'O', 'N', 'N', 'E', 'C', 'T', 'E', 'D']],
  [['L', 'I', 'N', 'K', '_', 'D', 'O', 'W', 'N'],
   ['L', 'I', 'N', 'K', '_', 'U', 'P']],
  [['E', 'R', 'R', 'O', 'R', '_', 'N', 'O', '_', 'E', 'R', 'R', 'O', 'R'],
   ['E', 'R', 'R', 'O', 'R', '_', 'E', 'P', 'E', 'R', 'M'],
   ['E', 'R', 'R', 'O', 'R', '_', 'E', 'N', 'O', 'D', 'E', 'V'],
   ['E', 'R', 'R', 'O', 'R', '_', 'E', 'A', 'D', 'D', 'R', 'I', 'N', 'U', 'S', 'E'],
   ['E', 'R', 'R', 'O', 'R', '_', 'E', 'P', 'R', 'O', 'T', 'O'],
   ['E', 'R', 'R', 'O', 'R', '_', 'R', 'F', 'U', '1'],
   ['E', 'R', 'R', 'O', 'R', '_', 'R', 'F', 'U', '2'],
   ['E', 'R', 'R', 'O', 'R', '_', 'R', 'F', 'U', '3'],
   ['E', 'R', 'R', 'O', 'R', '_', 'R', 'F', 'U', '4'],
   ['E', 'R', 'R', 'O', 'R', '_', 'R', 'F', 'U', '5'],
   ['E', 'R', 'R', 'O', 'R', '_', 'R', 'F', 'U', '6'],
   ['E', 'R', 'R', 'O', 'R', '_', 'R', 'F', 'U', '7'],
   ['E', 'R', 'R', 'O', 'R', '_', 'R', 'F', 'U', '8'],
   ['E', 'R', 'R', 'O', 'R', '_', 'R', 'F', 'U', '9'],
   ['E', 'R', 'R', 'O', 'R', '_', 'R', 'F', 'U', '1', '0'],
   ['E', 'R', 'R', 'O', 'R', '_', 'U', 'N', 'K', 'N', 'O', 'W', 'N']],
  [['D', 'H', 'C', 'P', '_', 'D', 'I', 'S', 'A', 'B', 'L', 'E', 'D'],
   ['D', 'H', 'C', 'P', '_', 'E', 'N', 'A', 'B', 'L', 'E', 'D', '_', 'S', 'T', 'A', 'T', 'I', 'C', '_', 'D', 'N', 'S'],
   ['D', 'H', 'C', 'P', '_', 'E', 'N', 'A', 'B', 'L', 'E', 'D', '_', 'A', 'U', 'T', 'O', '_', 'D', 'N', 'S']],
  [['S', 'T', 'A', 'T', 'U', 'S', '_', 'S', 'U', 'C', 'C', 'E', 'S', 'S'],
   ['S', 'T', 'A', 'T', 'U', 'S', '_', 'I', 'N', 'V', 'A', 'L', 'I', 'D', '_', 'A', 'D', 'D', 'R', 'E', 'S', 'S'],
   ['S', 'T', 'A', 'T', 'U', 'S', '_', 'I', 'N', 'V', 'A', 'L', 'I', 'D', '_', 'M', 'O', 'D', 'E', 'L'],
   ['S', 'T', 'A', 'T', 'U', 'S', '_', 'I', 'N', 'V', 'A', 'L', 'I', 'D', '_', 'A', 'P', 'P', 'K', 'E', 'Y', '_', 'I', 'D', 'X'],
   ['S', 'T', 'A', 'T', 'U', 'S', '_', 'I', 'N', 'V', 'A', 'L', 'I', 'D', '_', 'N', 'E', 'T', 'K', 'E', 'Y', '_', 'I', 'D', 'X'],
   ['S', 'T', 'A', 'T', 'U', 'S', '_', 'I', 'N', 'S', 'U', 'F', 'F', '_', 'R', 'E', 'S', 'O', 'U', 'R', 'C', 'E', 'S'],
   ['S', 'T', 'A', 'T', 'U', 'S', '_', 'K', 'E', 'Y', '_', 'I', 'N', 'D', 'E', 'X', '_', 'A', 'L', 'R', 'E', 'A', 'D', 'Y', '_', 'S', 'T', 'O', 'R', 'E', 'D'],
   ['S', 'T', 'A', 'T', 'U', 'S', '_', 'I', 'N', 'V', 'A', 'L', 'I', 'D', '_', 'P', 'U', 'B', 'L', 'I', 'S', 'H', '_', 'P', 'A', 'R', 'A', 'M', 'S'],
   ['S', 'T', 'A', 'T', 'U', 'S', '_', 'N', 'O', 'T', '_', 'S', 'U', 'B', 'S', 'C', 'R', 'I', 'B', 'E', '_', 'M', 'O', 'D', 'E', 'L'],
   ['S', 'T', 'A', 'T', 'U', 'S', '_', 'S', 'T', 'O', 'R', 'A', 'G', 'E', '_', 'F', 'A', 'I', 'L', 'U', 'R', 'E'],
   ['S', 'T', 'A', 'T', 'U', 'S', '_', 'F', 'E', 'A', 'T', 'U', 'R', 'E', '_', 'N', 'O', 'T', '_', 'S', 'U', 'P', 'P', 'O', 'R', 'T', 'E', 'D'],
   ['S', 'T', 'A', 'T', 'U', 'S', '_', 'C', 'A', 'N', 'N', 'O', 'T', '_', 'U', 'P', 'D', 'A', 'T', 'E'],
   ['S', 'T', 'A', 'T', 'U', 'S', '_', 'C', 'A', 'N', 'N', 'O', 'T', '_', 'R', 'E', 'M', 'O', 'V', 'E'],
   ['S', 'T', 'A', 'T', 'U', 'S', '_', 'C', 'A', 'N', 'N', 'O', 'T', '_', 'B', 'I', 'N', 'D'],
   ['S', 'T', 'A', 'T', 'U', 'S', '_', 'T', 'E', 'M', 'P', '_', 'U', 'N', 'A', 'B', 'L', 'E', '_', 'T', 'O', '_', 'C', 'H', 'A', 'N', 'G', 'E', '_', 'S', 'T', 'A', 'T', 'E'],
   ['S', 'T', 'A', 'T', 'U', 'S', '_', 'C', 'A', 'N', 'N', 'O', 'T', '_', 'S', 'E', 'T'],
   ['S', 'T', 'A', 'T', 'U', 'S', '_', 'U', 'N', 'S', 'P', 'E', 'C', 'I', 'F', 'I', 'E', 'D', '_', 'E', 'R', 'R', 'O', 'R'],
   ['S', 'T', 'A', 'T', 'U', 'S', '_', 'I', 'N', 'V', 'A', 'L', 'I', 'D', '_', 'B', 'I', 'N', 'D', 'I', 'N', 'G']],
  [['G', 'E', 'T', 'A', 'B', 'L', 'E', '_', 'P', 'A', 'R', 'A', 'M', 'E', 'T', 'E', 'R', '_', 'L', 'I', 'S', 'T'],
   ['S', 'E', 'T', 'A', 'B', 'L', 'E', '_', 'P', 'A', 'R', 'A', 'M', 'E', 'T', 'E', 'R', '_', 'L', 'I', 'S', 'T'],
   ['S', 'E', 'T', 'T', 'A', 'B', 'L', 'E', '_', 'P', 'A', 'R', 'A', 'M', 'E', 'T', 'E', 'R', '_', 'T', 'Y', 'P', 'E', '_', 'L', 'I', 'S', 'T'],
   ['C', 'L', 'E', 'A', 'R', 'A', 'B', 'L', 'E', '_', 'P', 'A', 'R', 'A', 'M', 'E', 'T', 'E', 'R', '_', 'L', 'I', 'S', 'T'],
   ['R', 'S', 'S', 'I', '_', 'T', 'H', 'R', 'E', 'S', 'H', 'O', 'L', 'D'],
   ['U', 'P', 'T', 'I', 'M', 'E'],
   ['M', 'E', 'S', 'H', '_', 'R', 'P', 'L', '_', 'L', 'I', 'S', 'T', '_', 'C', 'O', 'N', 'T', 'E', 'N', 'T'],
   ['T', 'I', 'M', 'E', '_', 'S', 'Y', 'N', 'C', '_', 'M', 'S', 'G', '_', 'L', 'I', 'S', 'T'],
   ['F', 'I', 'R', 'S', 'T', '_', 'T', 'I', 'M', 'E', '_', 'S', 'Y', 'N', 'C', '_', 'T', 'I', 'M', 'E', 'S', 'T', 'A', 'M', 'P'],
   ['L', 'A', 'S', 'T', '_', 'T', 'I', 'M', 'E', '_', 'S', 'Y', 'N', 'C', '_', 'T', 'I', 'M', 'E'],
   ['L', 'A', 'S', 'T', '_', 'T', 'I', 'M', 'E', '_', 'R', 'E', 'C', 'O', 'V', 'E', 'R', 'Y', '_', 'T', 'I', 'M', 'E'],
   ['R', 'E', 'C', 'A', 'L', 'L', 'E', 'D', '_', 'E', 'V', 'E', 'N', 'T', 'S', '_', 'T', 'I', 'M', 'E'],
   ['R', 'E', 'S', 'E', 'T', '_', 'M', 'O', 'N', 'I', 'T', 'O', 'R', '_', 'C', 'O', 'U', 'N', 'T', 'E', 'R', 'S'],
   ['T', 'I', 'M', 'E', '_', 'R', 'E', 'C', 'O', 'V', 'E', 'R', 'Y', '_', 'C', 'O', 'U', 'N', 'T', 'E', 'R'],
   ['O', 'C', 'C', 'U', 'P', 'A', 'N', 'C', 'Y', '_', 'E', 'V', 'E', 'N', 'T', 'S', '_', 'C', 'O', 'U', 'N', 'T', 'E', 'R'],
   ['O', 'C', 'C', 'U', 'P', 'A', 'N', 'C', 'Y', '_', 'H', 'I', 'S', 'T', 'O', 'R', 'Y'],
   ['O', 'C', 'C', 'U', 'P', 'A', 'N', 'C', 'Y', '_', 'H', 'I', 'S', 'T', 'O', 'R', 'Y', '_', 'R', 'E', 'S', 'O', 'L', 'U', 'T', 'I', 'O', 'N'],
   ['R', 'A', 'D', 'I', 'O', '_', 'S', 'T', 'A', 'T', 'S', '_', 'P', 'E', 'R', '_', 'C', 'H', 'A', 'N', 'N', 'E', 'L'],
   ['Q', 'U', 'E', 'U', 'E', 'S', '_', 'M', 'O', 'N', 'I', 'T', 'O', 'R'],
   ['Q', 'U', 'E', 'U', 'E', 'S', '_', 'S', 'T', 'A', 'T', 'S'],
   ['U', 'A', 'R', 'T', '_', 'E', 'R', 'R', 'O', 'R', 'S'],
   ['U', 'A', 'R', 'T', '_', 'M', 'O', 'D', 'E', 'L', '_', 'I', 'N', 'S', 'T', 'A', 'N', 'C', 'E', 'S'],
   ['A', 'P', 'P', '_', 'T', 'H', 'R', 'E', 'A', 'D', '_', 'L', 'A', 'T', 'E', 'N', 'C', 'Y'],
   ['I', 'V', '_', 'I', 'N', 'D', 'E', 'X', '_', 'I', 'N', 'F', 'O'],
   ['M', 'E', 'S', 'H', '_', 'C', 'A', 'C', 'H', 'E', '_', 'I', 'N', 'F', 'O'],
   ['E', 'L', '_', 'E', 'L', 'T', '_', 'H', 'I', 'S', 'T', 'O', 'R', 'Y'],
   ['R', 'R', 'U', 'L', 'E', '_', 'S', 'C', 'H', 'E', 'D', 'U', 'L', 'E', '_', 'R', 'E', 'G', 'I', 'S', 'T', 'E', 'R', '_', 'S', 'I', 'Z', 'E'],
   ['R', 'R', 'U', 'L', 'E', '_', 'N', 'E', 'X', 'T', '_', 'E', 'V', 'E', 'N', 'T', '_', 'T', 'A', 'I'],
   ['R', 'R', 'U', 'L', 'E', '_', 'N', 'E', 'X', 'T', '_', 'E', 'V', 'E', 'N', 'T', '_', 'E', 'N', 'T', 'R', 'I', 'E', 'S', '_', 'A', 'R', 'R', 'A', 'Y'],
   ['L', 'A', 'S', 'T', '_', 'C', 'A', 'L', 'L', 'S', '_', 'O', 'F', '_', 'R', 'R', 'U', 'L', 'E', '_', 'E', 'N', 'T', 'R', 'I', 'E', 'S'],
   ['C', 'P', 'U', '_', 'U', 'S', 'A', 'G', 'E', '_', 'C', 'U', 'R', 'R', 'E', 'N', 'T', '_', 'S', 'T', 'A', 'T', 'S'],
   ['C', 'P', 'U', '_', 'U', 'S', 'A', 'G', 'E', '_', 'H', 'I', 'S', 'T', 'O', 'G', 'R', 'A', 'M'],
   ['C', 'P', 'U', '_', 'U', 'S', 'A', 'G', 'E', '_', 'H', 'I', 'S', 'T', 'O', 'R', 'Y'],
   ['C', 'P', 'U', '_', 'U', 'S', 'A', 'G', 'E', '_', 'H', 'I', 'S', 'T', 'O', 'R', 'Y', '_', 'S', 'E', 'T', 'U', 'P'],
   ['L', 'A', 'S', 'T', '_', 'M', 'E', 'A', 'S', 'U', 'R', 'E', 'D', '_', 'P', 'O', 'W', 'E', 'R', '_', 'O', 'F', 'F', '_', 'T', 'I', 'M', 'E', '_', 'M', 'S'],
   ['L', 'A', 'S', 'T', '_', 'M', 'E', 'A', 'S', 'U', 'R', 'E', 'D', '_', 'D', 'A', 'L', 'I', '_', 'B', 'U', 'S', '_', 'S', 'H', 'O', 'R', 'T', '_', 'T', 'O', '_', 'P', 'O', 'W', 'E', 'R', '_', 'O', 'F', 'F', '_', 'T', 'I', 'M', 'E', '_', 'M', 'S'],
   ['L', 'A', 'S', 'T', '_', 'R', 'E', 'S', 'E', 'T', '_', 'F', 'I', 'R', 'S', 'T', '_', 'F', 'A', 'U', 'L', 'T', '_', 'I', 'N', 'F', 'O'],
   ['L', 'C', '_', 'O', 'L', 'C', '_', 'A', 'M', 'B', 'I', 'E', 'N', 'T', '_', 'L', 'U', 'X', '_', 'L', 'E', 'V', 'E', 'L'],
   ['A', 'P', 'P', '_', 'T', 'H', 'R', 'E', 'A', 'D', '_', 'S', 'T', 'A', 'R', 'T', 'U', 'P', '_', 'L', 'A', 'T', 'E', 'N', 'C', 'Y'],
   ['A', 'P', 'P', '_', 'T', 'H', 'R', 'E', 'A', 'D', '_', 'R', 'U', 'N', 'T', 'I', 'M', 'E', '_', 'L', 'A', 'T', 'E', 'N', 'C', 'Y'],
   ['A', 'P', 'P', '_', 'T', 'H', 'R', 'E', 'A', 'D', '_', 'R', 'U', 'N', 'T', 'I', 'M', 'E', '_', 'E', 'X', 'C', 'L', 'U', 'D', 'I', 'N', 'G', '_', 'F', 'L', 'A', 'S', 'H', '_', 'O', 'P', 'E', 'R', 'A', 'T', 'I', 'O', 'N', 'S', '_', 'L', 'A', 'T', 'E', 'N', 'C', 'Y'],
   ['D', 'A', 'L', 'I', '_', 'C', 'O', 'N', 'N', 'E', 'C', 'T', 'E', 'D', '_', 'D', 'R', 'I', 'V', 'E', 'R', 'S'],
   ['N', 'O', 'T', '_', 'K', 'N', 'O', 'W', 'N', '_', 'P', 'A', 'R', 'A', 'M', 'E', 'T', 'E', 'R']],
  [['U', 'I', 'N', 'T', '8'],
   ['U', 'I', 'N', 'T', '1', '6'],
   ['U', 'I', 'N', 'T', '3', '2'],
   ['U', 'I', 'N', 'T', '6', '4'],
   ['I', 'N', 'T', '8'],
   ['I', 'N', 'T', '1', '6'],
   ['I', 'N', 'T', '3', '2'],
   ['I', 'N', 'T', '6', '4'],
   ['F', 'L', 'O', 'A', 'T'],
   ['D', 'O', 'U', 'B', 'L', 'E'],
   ['E', 'N', 'U', 'M'],
   ['S', 'T', 'R', 'I', 'N', 'G'],
   ['A', 'R', 'R', 'A', 'Y'],
   ['I', 'N', 'V', 'A', 'L', 'I', 'D']],
  [['A', 'V', 'E', 'R', 'A', 'G', 'E', '_', 'A', 'M', 'B', 'I', 'E', 'N', 'T', '_', 'T', 'E', 'M', 'P', 'E', 'R', 'A', 'T', 'U', 'R', 'E', '_', 'I', 'N', '_', 'A', '_', 'P', 'E', 'R', 'I', 'O', 'D', '_', 'O', 'F', '_', 'D', 'A', 'Y'],
   ['A', 'V', 'E', 'R', 'A', 'G', 'E', '_', 'I', 'N', 'P', 'U', 'T', '_', 'C', 'U', 'R', 'R', 'E', 'N', 'T'],
   ['A', 'V', 'E', 'R', 'A', 'G', 'E', '_', 'I', 'N', 'P', 'U', 'T', '_', 'V', 'O', 'L', 'T', 'A', 'G', 'E'],
   ['A', 'V', 'E', 'R', 'A', 'G', 'E', '_', 'O', 'U', 'T', 'P', 'U', 'T', '_', 'C', 'U', 'R', 'R', 'E', 'N', 'T'],
   ['A', 'V', 'E', 'R', 'A', 'G', 'E', '_', 'O', 'U', 'T', 'P', 'U', 'T', '_', 'V', 'O', 'L', 'T', 'A', 'G', 'E'],
   ['C', 'E', 'N', 'T', 'E', 'R', '_', 'B', 'E', 'A', 'M', '_', 'I', 'N', 'T', 'E', 'N', 'S', 'I', 'T', 'Y', '_', 'A', 'T', '_', 'F', 'U', 'L', 'L', '_', 'P', 'O', 'W', 'E', 'R'],
   ['C', 'H', 'R', 'O', 'M', 'A', 'T', 'I', 'C', 'I', 'T', 'Y', '_', 'T', 'O', 'L', 'E', 'R', 'A', 'N', 'C', 'E'],
   ['C', 'O', 'L', 'O', 'R', '_', 'R', 'E', 'N', 'D', 'E', 'R', 'I', 'N', 'G', '_', 'I', 'N', 'D', 'E', 'X', '_', 'R', '9'],
   ['C', 'O', 'L', 'O', 'R', '_', 'R', 'E', 'N', 'D', 'E', 'R', 'I', 'N', 'G', '_', 'I', 'N', 'D', 'E', 'X', '_', 'R', 'A'],
   ['D', 'E', 'V', 'I', 'C', 'E', '_', 'A', 'P', 'P', 'E', 'A', 'R', 'A', 'N', 'C', 'E'],
   ['D', 'E', 'V', 'I', 'C', 'E', '_', 'C', 'O', 'U', 'N', 'T', 'R', 'Y', '_', 'O', 'F', '_', 'O', 'R', 'I', 'G', 'I', 'N'],
   ['D', 'E', 'V', 'I', 'C', 'E', '_', 'D', 'A', 'T', 'E', '_', 'O', 'F', '_', 'M', 'A', 'N', 'U', 'F', 'A', 'C', 'T', 'U', 'R', 'E'],
   ['D', 'E', 'V', 'I', 'C', 'E', '_', 'E', 'N', 'E', 'R', 'G', 'Y', '_', 'U', 'S', 'E', '_', 'S', 'I', 'N', 'C', 'E', '_', 'T', 'U', 'R', 'N', '_', 'O', 'N'],
   ['D', 'E', 'V', 'I', 'C', 'E', '_', 'F', 'I', 'R', 'M', 'W', 'A', 'R', 'E', '_', 'R', 'E', 'V', 'I', 'S', 'I', 'O', 'N'],
   ['D', 'E', 'V', 'I', 'C', 'E', '_', 'G', 'L', 'O', 'B', 'A', 'L', '_', 'T', 'R', 'A', 'D', 'E', '_', 'I', 'T', 'E', 'M', '_', 'N', 'U', 'M', 'B', 'E', 'R'],
   ['D', 'E', 'V', 'I', 'C', 'E', '_', 'H', 'A', 'R', 'D', 'W', 'A', 'R', 'E', '_', 'R', 'E', 'V', 'I', 'S', 'I', 'O', 'N'],
   ['D', 'E', 'V', 'I', 'C', 'E', '_', 'M', 'A', 'N', 'U', 'F', 'A', 'C', 'T', 'U', 'R', 'E', 'R', '_', 'N', 'A', 'M', 'E'],
   ['D', 'E', 'V', 'I', 'C', 'E', '_', 'M', 'O', 'D', 'E', 'L', '_', 'N', 'U', 'M', 'B', 'E', 'R'],
   ['D', 'E', 'V', 'I', 'C', 'E', '_', 'O', 'P', 'E', 'R', 'A', 'T', 'I', 'N', 'G', '_', 'T', 'E', 'M', 'P', 'E', 'R', 'A', 'T', 'U', 'R', 'E', '_', 'R', 'A', 'N', 'G', 'E', '_', 'S', 'P', 'E', 'C', 'I', 'F', 'I', 'C', 'A', 'T', 'I', 'O', 'N'],
   ['D', 'E', 'V', 'I', 'C', 'E', '_', 'O', 'P', 'E', 'R', 'A', 'T', 'I', 'N', 'G', '_', 'T', 'E', 'M', 'P', 'E', 'R', 'A', 'T', 'U', 'R', 'E', '_', 'S', 'T', 'A', 'T', 'I', 'S', 'T', 'I', 'C', 'A', 'L', '_', 'V', 'A', 'L', 'U', 'E', 'S'],
   ['D', 'E', 'V', 'I', 'C', 'E', '_', 'O', 'V', 'E', 'R', '_', 'T', 'E', 'M', 'P', 'E', 'R', 'A', 'T', 'U', 'R', 'E', '_', 'E', 'V', 'E', 'N', 'T', '_', 'S', 'T', 'A', 'T', 'I', 'S', 'T', 'I', 'C', 'S'],
   ['D', 'E', 'V', 'I', 'C', 'E', '_', 'P', 'O', 'W', 'E', 'R', '_', 'R', 'A', 'N', 'G', 'E', '_', 'S', 'P', 'E', 'C', 'I', 'F', 'I', 'C', 'A', 'T', 'I', 'O', 'N'],
   ['D', 'E', 'V', 'I', 'C', 'E', '_', 'R', 'U', 'N', 'T', 'I', 'M', 'E', '_', 'S', 'I', 'N', 'C', 'E', '_', 'T', 'U', 'R', 'N', '_', 'O', 'N'],
   ['D', 'E', 'V', 'I', 'C', 'E', '_', 'R', 'U', 'N', 'T', 'I', 'M', 'E', '_', 'W', 'A', 'R', 'R', 'A', 'N', 'T', 'Y'],
   ['D', 'E', 'V', 'I', 'C', 'E', '_', 'S', 'E', 'R', 'I', 'A', 'L', '_', 'N', 'U', 'M', 'B', 'E', 'R'],
   ['D', 'E', 'V', 'I', 'C', 'E', '_', 'S', 'O', 'F', 'T', 'W', 'A', 'R', 'E', '_', 'R', 'E', 'V', 'I', 'S', 'I', 'O', 'N'],
   ['D', 'E', 'V', 'I', 'C', 'E', '_', 'U', 'N', 'D', 'E', 'R', '_', 'T', 'E', 'M', 'P', 'E', 'R', 'A', 'T', 'U', 'R', 'E', '_', 'E', 'V', 'E', 'N', 'T', '_', 'S', 'T', 'A', 'T', 'I', 'S', 'T', 'I', 'C', 'S'],
   ['I', 'N', 'D', 'O', 'O', 'R', '_', 'A', 'M', 'B', 'I', 'E', 'N', 'T', '_', 'T', 'E', 'M', 'P', 'E', 'R', 'A', 'T', 'U', 'R', 'E', '_', 'S', 'T', 'A', 'T', 'I', 'S', 'T', 'I', 'C', 'A', 'L', '_', 'V', 'A', 'L', 'U', 'E', 'S'],
   ['I', 'N', 'I', 'T', 'I', 'A', 'L', '_', 'C', 'I', 'E', '1', '9', '3', '1', '_', 'C', 'H', 'R', 'O', 'M', 'A', 'T', 'I', 'C', 'I', 'T', 'Y', '_', 'C', 'O', 'O', 'R', 'D', 'I', 'N', 'A', 'T', 'E', 'S'],
   ['I', 'N', 'I', 'T', 'I', 'A', 'L', '_', 'C', 'O', 'R', 'R', 'E', 'L', 'A', 'T', 'E', 'D', '_', 'C', 'O', 'L', 'O', 'R', '_', 'T', 'E', 'M', 'P', 'E', 'R', 'A', 'T', 'U', 'R', 'E'],
   ['I', 'N', 'I', 'T', 'I', 'A', 'L', '_', 'L', 'U', 'M', 'I', 'N', 'O', 'U', 'S', '_', 'F', 'L', 'U', 'X'],
   ['I', 'N', 'I', 'T', 'I', 'A', 'L', '_', 'P', 'L', 'A', 'N', 'C', 'K', 'I', 'A', 'N', '_', 'D', 'I', 'S', 'T', 'A', 'N', 'C', 'E'],
   ['I', 'N', 'P', 'U', 'T', '_', 'C', 'U', 'R', 'R', 'E', 'N', 'T', '_', 'R', 'A', 'N', 'G', 'E', '_', 'S', 'P', 'E', 'C', 'I', 'F', 'I', 'C', 'A', 'T', 'I', 'O', 'N'],
   ['I', 'N', 'P', 'U', 'T', '_', 'C', 'U', 'R', 'R', 'E', 'N', 'T', '_', 'S', 'T', 'A', 'T', 'I', 'S', 'T', 'I', 'C', 'S'],
   ['I', 'N', 'P', 'U', 'T', '_', 'O', 'V', 'E', 'R', '_', 'C', 'U', 'R', 'R', 'E', 'N', 'T', '_', 'E', 'V', 'E', 'N', 'T', '_', 'S', 'T', 'A', 'T', 'I', 'S', 'T', 'I', 'C', 'S'],
   ['I', 'N', 'P', 'U', 'T', '_', 'O', 'V', 'E', 'R', '_', 'R', 'I', 'P', 'P', 'L', 'E', '_', 'V', 'O', 'L', 'T', 'A', 'G', 'E', '_', 'E', 'V', 'E', 'N', 'T', '_', 'S', 'T', 'A', 'T', 'I', 'S', 'T', 'I', 'C', 'S'],
   ['I', 'N', 'P', 'U', 'T', '_', 'O', 'V', 'E', 'R', '_', 'V', 'O', 'L', 'T', 'A', 'G', 'E', '_', 'E', 'V', 'E', 'N', 'T', '_', 'S', 'T', 'A', 'T', 'I', 'S', 'T', 'I', 'C', 'S'],
   ['I', 'N', 'P', 'U', 'T', '_', 'U', 'N', 'D', 'E', 'R', '_', 'C', 'U', 'R', 'R', 'E', 'N', 'T', '_', 'E', 'V', 'E', 'N', 'T', '_', 'S', 'T', 'A', 'T', 'I', 'S', 'T', 'I', 'C', 'S'],
   ['I', 'N', 'P', 'U', 'T', '_', 'U', 'N', 'D', 'E', 'R', '_', 'V', 'O', 'L', 'T', 'A', 'G', 'E', '_', 'E', 'V', 'E', 'N', 'T', '_', 'S', 'T', 'A', 'T', 'I', 'S', 'T', 'I', 'C', 'S'],
   ['I', 'N', 'P', 'U', 'T', '_', 'V', 'O', 'L', 'T', 'A', 'G', 'E', '_', 'R', 'A', 'N', 'G', 'E', '_', 'S', 'P', 'E', 'C', 'I', 'F', 'I', 'C', 'A', 'T', 'I', 'O', 'N'],
   ['I', 'N', 'P', 'U', 'T', '_', 'V', 'O', 'L', 'T', 'A', 'G', 'E', '_', 'R', 'I', 'P', 'P', 'L', 'E', '_', 'S', 'P', 'E', 'C', 'I', 'F', 'I', 'C', 'A', 'T', 'I', 'O', 'N'],
   ['I', 'N', 'P', 'U', 'T', '_', 'V', 'O', 'L', 'T', 'A', 'G', 'E', '_', 'S', 'T', 'A', 'T', 'I', 'S', 'T', 'I', 'C', 'S'],
   ['L', 'I', 'G', 'H', 'T', '_', 'C', 'O', 'N', 'T', 'R', 'O', 'L', '_', 'A', 'M', 'B', 'I', 'E', 'N', 'T', '_', 'L', 'U', 'X', 'L', 'E', 'V', 'E', 'L', '_', 'O', 'N'],
   ['L', 'I', 'G', 'H', 'T', '_', 'C', 'O', 'N', 'T', 'R', 'O', 'L', '_', 'A', 'M', 'B', 'I', 'E', 'N', 'T', '_', 'L', 'U', 'X', 'L', 'E', 'V', 'E', 'L', '_', 'P', 'R', 'O', 'L', 'O', 'N', 'G'],
   ['L', 'I', 'G', 'H', 'T', '_', 'C', 'O', 'N', 'T', 'R', 'O', 'L', '_', 'A', 'M', 'B', 'I', 'E', 'N', 'T', '_', 'L', 'U', 'X', 'L', 'E', 'V', 'E', 'L', '_', 'S', 'T', 'A', 'N', 'D', 'B', 'Y'],
   ['L', 'I', 'G', 'H', 'T', '_', 'C', 'O', 'N', 'T', 'R', 'O', 'L', '_', 'L', 'I', 'G', 'H', 'T', 'N', 'E', 'S', 'S', '_', 'O', 'N'],
   ['L', 'I', 'G', 'H', 'T', '_', 'C', 'O', 'N', 'T', 'R', 'O', 'L', '_', 'L', 'I', 'G', 'H', 'T', 'N', 'E', 'S', 'S', '_', 'P', 'R', 'O', 'L', 'O', 'N', 'G'],
   ['L', 'I', 'G', 'H', 'T', '_', 'C', 'O', 'N', 'T', 'R', 'O', 'L', '_', 'L', 'I', 'G', 'H', 'T', 'N', 'E', 'S', 'S', '_', 'S', 'T', 'A', 'N', 'D', 'B', 'Y'],
   ['L', 'I', 'G', 'H', 'T', '_', 'C', 'O', 'N', 'T', 'R', 'O', 'L', '_', 'R', 'E', 'G', 'U', 'L', 'A', 'T', 'O', 'R', '_', 'A', 'C', 'C', 'U', 'R', 'A', 'C', 'Y'],
   ['L', 'I', 'G', 'H', 'T', '_', 'C', 'O', 'N', 'T', 'R', 'O', 'L', '_', 'R', 'E', 'G', 'U', 'L', 'A', 'T', 'O', 'R', '_', 'K', 'I', 'D'],
   ['L', 'I', 'G', 'H', 'T', '_', 'C', 'O', 'N', 'T', 'R', 'O', 'L', '_', 'R', 'E', 'G', 'U', 'L', 'A', 'T', 'O', 'R', '_', 'K', 'I', 'U'],
   ['L', 'I', 'G', 'H', 'T', '_', 'C', 'O', 'N', 'T', 'R', 'O', 'L', '_', 'R', 'E', 'G', 'U', 'L', 'A', 'T', 'O', 'R', '_', 'K', 'P', 'D'],
   ['L', 'I', 'G', 'H', 'T', '_', 'C', 'O', 'N', 'T', 'R', 'O', 'L', '_', 'R', 'E', 'G', 'U', 'L', 'A', 'T', 'O', 'R', '_', 'K', 'P', 'U'],
   ['L', 'I', 'G', 'H', 'T', '_', 'C', 'O', 'N', 'T', 'R', 'O', 'L', '_', 'T', 'I', 'M', 'E', '_', 'F', 'A', 'D', 'E'],
   ['L', 'I', 'G', 'H', 'T', '_', 'C', 'O', 'N', 'T', 'R', 'O', 'L', '_', 'T', 'I', 'M', 'E', '_', 'F', 'A', 'D', 'E', '_', 'O', 'N'],
   ['L', 'I', 'G', 'H', 'T', '_', 'C', 'O', 'N', 'T', 'R', 'O', 'L', '_', 'T', 'I', 'M', 'E', '_', 'F', 'A', 'D', 'E', '_', 'S', 'T', 'A', 'N', 'D', 'B', 'Y', '_', 'A', 'U', 'T', 'O'],
   ['L', 'I', 'G', 'H', 'T', '_', 'C', 'O', 'N', 'T', 'R', 'O', 'L', '_', 'T', 'I', 'M', 'E', '_', 'F', 'A', 'D', 'E', '_', 'S', 'T', 'A', 'N', 'D', 'B', 'Y', '_', 'M', 'A', 'N', 'U', 'A', 'L'],
   ['L', 'I', 'G', 'H', 'T', '_', 'C', 'O', 'N', 'T', 'R', 'O', 'L', '_', 'T', 'I', 'M', 'E', '_', 'O', 'C', 'C', 'U', 'P', 'A', 'N', 'C', 'Y', '_', 'D', 'E', 'L', 'A', 'Y'],
   ['L', 'I', 'G', 'H', 'T', '_', 'C', 'O', 'N', 'T', 'R', 'O', 'L', '_', 'T', 'I', 'M', 'E', '_', 'P', 'R', 'O', 'L', 'O', 'N', 'G'],
   ['L', 'I', 'G', 'H', 'T', '_', 'C', 'O', 'N', 'T', 'R', 'O', 'L', '_', 'T', 'I', 'M', 'E', '_', 'R', 'U', 'N', '_', 'O', 'N'],
   ['L', 'U', 'M', 'E', 'N', '_', 'M', 'A', 'I', 'N', 'T', 'E', 'N', 'A', 'N', 'C', 'E', '_', 'F', 'A', 'C', 'T', 'O', 'R'],
   ['L', 'U', 'M', 'I', 'N', 'O', 'U', 'S', '_', 'E', 'F', 'F', 'I', 'C', 'A', 'C', 'Y'],
   ['L', 'U', 'M', 'I', 'N', 'O', 'U', 'S', '_', 'E', 'N', 'E', 'R', 'G', 'Y', '_', 'S', 'I', 'N', 'C', 'E', '_', 'T', 'U', 'R', 'N', '_', 'O', 'N'],
   ['L', 'U', 'M', 'I', 'N', 'O', 'U', 'S', '_', 'E', 'X', 'P', 'O', 'S', 'U', 'R', 'E'],
   ['L', 'U', 'M', 'I', 'N', 'O', 'U', 'S', '_', 'F', 'L', 'U', 'X', '_', 'R', 'A', 'N', 'G', 'E'],
   ['M', 'O', 'T', 'I', 'O', 'N', '_', 'S', 'E', 'N', 'S', 'E', 'D'],
   ['M', 'O', 'T', 'I', 'O', 'N', '_', 'T', 'H', 'R', 'E', 'S', 'H', 'O', 'L', 'D'],
   ['O', 'P', 'E', 'N', '_', 'C', 'I', 'R', 'C', 'U', 'I', 'T', '_', 'E', 'V', 'E', 'N', 'T', '_', 'S', 'T', 'A', 'T', 'I', 'S', 'T', 'I', 'C', 'S'],
   ['O', 'U', 'T', 'D', 'O', 'O', 'R', '_', 'S', 'T', 'A', 'T', 'I', 'S', 'T', 'I', 'C', 'A', 'L', '_', 'V', 'A', 'L', 'U', 'E', 'S'],
   ['O', 'U', 'T', 'P', 'U', 'T', '_', 'C', 'U', 'R', 'R', 'E', 'N', 'T', '_', 'R', 'A', 'N', 'G', 'E'],
   ['O', 'U', 'T', 'P', 'U', 'T', '_', 'C', 'U', 'R', 'R', 'E', 'N', 'T', '_', 'S', 'T', 'A', 'T', 'I', 'S', 'T', 'I', 'C', 'S'],
   ['O', 'U', 'T', 'P', 'U', 'T', '_', 'R', 'I', 'P', 'P', 'L', 'E', '_', 'V', 'O', 'L', 'T', 'A', 'G', 'E', '_', 'S', 'P', 'E', 'C', 'I', 'F', 'I', 'C', 'A', 'T', 'I', 'O', 'N'],
   ['O', 'U', 'T', 'P', 'U', 'T', '_', 'V', 'O', 'L', 'T', 'A', 'G', 'E', '_', 'R', 'A', 'N', 'G', 'E'],
   ['O', 'U', 'T', 'P', 'U', 'T', '_', 'V', 'O', 'L', 'T', 'A', 'G', 'E', '_', 'S', 'T', 'A', 'T', 'I', 'S', 'T', 'I', 'C', 'S'],
   ['O', 'V', 'E', 'R', '_', 'O', 'U', 'T', 'P', 'U', 'T', '_', 'R', 'I', 'P', 'P', 'L', 'E', '_', 'V', 'O', 'L', 'T', 'A', 'G', 'E', '_', 'E', 'V', 'E', 'N', 'T', '_', 'S', 'T', 'A', 'T', 'I', 'S', 'T', 'I', 'C', 'S'],
   ['P', 'E', 'O', 'P', 'L', 'E', '_', 'C', 'O', 'U', 'N', 'T'],
   ['P', 'R', 'E', 'S', 'E', 'N', 'C', 'E', '_', 'D', 'E', 'T', 'E', 'C', 'T', 'E', 'D'],
   ['P', 'R', 'E', 'S', 'E', 'N', 'T', '_', 'A', 'M', 'B', 'I', 'E', 'N', 'T', '_', 'L', 'I', 'G', 'H', 'T', '_', 'L', 'E', 'V', 'E', 'L'],
   ['P', 'R', 'E', 'S', 'E', 'N', 'T', '_', 'A', 'M', 'B', 'I', 'E', 'N', 'T', '_', 'T', 'E', 'M', 'P', 'E', 'R', 'A', 'T', 'U', 'R', 'E'],
   ['P', 'R', 'E', 'S', 'E', 'N', 'T', '_', 'C', 'I', 'E', '1', '9', '3', '1', '_', 'C', 'H', 'R', 'O', 'M', 'A', 'T', 'I', 'C', 'I', 'T', 'Y', '_', 'C', 'O', 'O', 'R', 'D', 'I', 'N', 'A', 'T', 'E', 'S'],
   ['P', 'R', 'E', 'S', 'E', 'N', 'T', '_', 'C', 'O', 'R', 'R', 'E', 'L', 'A', 'T', 'E', 'D', '_', 'C', 'O', 'L', 'O', 'R', '_', 'T', 'E', 'M', 'P', 'E', 'R', 'A', 'T', 'U', 'R', 'E'],
   ['P', 'R', 'E', 'S', 'E', 'N', 'T', '_', 'D', 'E', 'V', 'I', 'C', 'E', '_', 'I', 'N', 'P', 'U', 'T', '_', 'P', 'O', 'W', 'E', 'R'],
   ['P', 'R', 'E', 'S', 'E', 'N', 'T', '_', 'D', 'E', 'V', 'I', 'C', 'E', '_', 'O', 'P', 'E', 'R', 'A', 'T', 'I', 'N', 'G', '_', 'E', 'F', 'F', 'I', 'C', 'I', 'E', 'N', 'C', 'Y'],
   ['P', 'R', 'E', 'S', 'E', 'N', 'T', '_', 'D', 'E', 'V', 'I', 'C', 'E', '_', 'O', 'P', 'E', 'R', 'A', 'T', 'I', 'N', 'G', '_', 'T', 'E', 'M', 'P', 'E', 'R', 'A', 'T', 'U', 'R', 'E'],
   ['P', 'R', 'E', 'S', 'E', 'N', 'T', '_', 'I', 'L', 'L', 'U', 'M', 'I', 'N', 'A', 'N', 'C', 'E'],
   ['P', 'R', 'E', 'S', 'E', 'N', 'T', '_', 'I', 'N', 'D', 'O', 'O', 'R', '_', 'A', 'M', 'B', 'I', 'E', 'N', 'T', '_', 'T', 'E', 'M', 'P', 'E', 'R', 'A', 'T', 'U', 'R', 'E'],
   ['P', 'R', 'E', 'S', 'E', 'N', 'T', '_', 'I', 'N', 'P', 'U', 'T', '_', 'C', 'U', 'R', 'R', 'E', 'N', 'T'],
   ['P', 'R', 'E', 'S', 'E', 'N', 'T', '_', 'I', 'N', 'P', 'U', 'T', '_', 'R', 'I', 'P', 'P', 'L', 'E', '_', 'V', 'O', 'L', 'T', 'A', 'G', 'E'],
   ['P', 'R', 'E', 'S', 'E', 'N', 'T', '_', 'I', 'N', 'P', 'U', 'T', '_', 'V', 'O', 'L', 'T', 'A', 'G', 'E'],
   ['P', 'R', 'E', 'S', 'E', 'N', 'T', '_', 'L', 'U', 'M', 'I', 'N', 'O', 'U', 'S', '_', 'F', 'L', 'U', 'X'],
   ['P', 'R', 'E', 'S', 'E', 'N', 'T', '_', 'O', 'U', 'T', 'D', 'O', 'O', 'R', '_', 'A', 'M', 'B', 'I', 'E', 'N', 'T', '_', 'T', 'E', 'M', 'P', 'E', 'R', 'A', 'T', 'U', 'R', 'E'],
   ['P', 'R', 'E', 'S', 'E', 'N', 'T', '_', 'O', 'U', 'T', 'P', 'U', 'T', '_', 'C', 'U', 'R', 'R', 'E', 'N', 'T'],
   ['P', 'R', 'E', 'S', 'E', 'N', 'T', '_', 'O', 'U', 'T', 'P', 'U', 'T', '_', 'V', 'O', 'L', 'T', 'A', 'G', 'E'],
   ['P', 'R', 'E', 'S', 'E', 'N', 'T', '_', 'P', 'L', 'A', 'N', 'C', 'K', 'I', 'A', 'N', '_', 'D', 'I', 'S', 'T', 'A', 'N', 'C', 'E'],
   ['P', 'R', 'E', 'S', 'E', 'N', 'T', '_', 'R', 'E', 'L', 'A', 'T', 'I', 'V', 'E', '_', 'O', 'U', 'T', 'P', 'U', 'T', '_', 'R', 'I', 'P', 'P', 'L', 'E', '_', 'V', 'O', 'L', 'T', 'A', 'G', 'E'],
   ['R', 'E', 'L', 'A', 'T', 'I', 'V', 'E', '_', 'D', 'E', 'V', 'I', 'C', 'E', '_', 'E', 'N', 'E', 'R', 'G', 'Y', '_', 'U', 'S', 'E', '_', 'I', 'N', '_', 'A', '_', 'P', 'E', 'R', 'I', 'O', 'D', '_', 'O', 'F', '_', 'D', 'A', 'Y'],
   ['R', 'E', 'L', 'A', 'T', 'I', 'V', 'E', '_', 'D', 'E', 'V', 'I', 'C', 'E', '_', 'R', 'U', 'N', 'T', 'I', 'M', 'E', '_', 'I', 'N', '_', 'A', '_', 'G', 'E', 'N', 'E', 'R', 'I', 'C', '_', 'L', 'E', 'V', 'E', 'L', '_', 'R', 'A', 'N', 'G', 'E'],
   ['R', 'E', 'L', 'A', 'T', 'I', 'V', 'E', '_', 'E', 'X', 'P', 'O', 'S', 'U', 'R', 'E', '_', 'T', 'I', 'M', 'E', '_', 'I', 'N', '_', 'A', 'N', '_', 'I', 'L', 'L', 'U', 'M', 'I', 'N', 'A', 'N', 'C', 'E', '_', 'R', 'A', 'N', 'G', 'E'],
   ['R', 'E', 'L', 'A', 'T', 'I', 'V', 'E', '_', 'R', 'U', 'N', 'T', 'I', 'M', 'E', '_', 'I', 'N', '_', 'A', '_', 'C', 'O', 'R', 'R', 'E', 'L', 'A', 'T', 'E', 'D', '_', 'C', 'O', 'L', 'O', 'R', '_', 'T', 'E', 'M', 'P', 'E', 'R', 'A', 'T', 'U', 'R', 'E', '_', 'R', 'A', 'N', 'G', 'E'],
   ['R', 'E', 'L', 'A', 'T', 'I', 'V', 'E', '_', 'R', 'U', 'N', 'T', 'I', 'M', 'E', '_', 'I', 'N', '_', 'A', '_', 'D', 'E', 'V', 'I', 'C', 'E', '_', 'O', 'P', 'E', 'R', 'A', 'T', 'I', 'N', 'G', '_', 'T', 'E', 'M', 'P', 'E', 'R', 'A', 'T', 'U', 'R', 'E', '_', 'R', 'A', 'N', 'G', 'E'],
   ['R', 'E', 'L', 'A', 'T', 'I', 'V', 'E', '_', 'R', 'U', 'N', 'T', 'I', 'M', 'E', '_', 'I', 'N', '_', 'A', 'N', '_', 'I', 'N', 'P', 'U', 'T', '_', 'C', 'U', 'R', 'R', 'E', 'N', 'T', '_', 'R', 'A', 'N', 'G', 'E'],
   ['R', 'E', 'L', 'A', 'T', 'I', 'V', 'E', '_', 'R', 'U', 'N', 'T', 'I', 'M', 'E', '_', 'I', 'N', '_', 'A', 'N', '_', 'I', 'N', 'P', 'U', 'T', '_', 'V', 'O', 'L', 'T', 'A', 'G', 'E', '_', 'R', 'A', 'N', 'G', 'E'],
   ['S', 'H', 'O', 'R', 'T', '_', 'C', 'I', 'R', 'C', 'U', 'I', 'T', '_', 'E', 'V', 'E', 'N', 'T', '_', 'S', 'T', 'A', 'T', 'I', 'S', 'T', 'I', 'C', 'S'],
   ['T', 'I', 'M', 'E', '_', 'S', 'I', 'N', 'C', 'E', '_', 'M', 'O', 'T', 'I', 'O', 'N', '_', 'S', 'E', 'N', 'S', 'E', 'D'],
   ['T', 'I', 'M', 'E', '_', 'S', 'I', 'N', 'C', 'E', '_', 'P', 'R', 'E', 'S', 'E', 'N', 'C', 'E', '_', 'D', 'E', 'T', 'E', 'C', 'T', 'E', 'D'],
   ['T', 'O', 'T', 'A', 'L', '_', 'D', 'E', 'V', 'I', 'C', 'E', '_', 'E', 'N', 'E', 'R', 'G', 'Y', '_', 'U', 'S', 'E'],
   ['T', 'O', 'T', 'A', 'L', '_', 'D', 'E', 'V', 'I', 'C', 'E', '_', 'O', 'F', 'F', '_', 'O', 'N', '_', 'C', 'Y', 'C', 'L', 'E', 'S'],
   ['T', 'O', 'T', 'A', 'L', '_', 'D', 'E', 'V', 'I', 'C', 'E', '_', 'P', 'O', 'W', 'E', 'R', '_', 'O', 'N', '_', 'C', 'Y', 'C', 'L', 'E', 'S'],
   ['T', 'O', 'T', 'A', 'L', '_', 'D', 'E', 'V', 'I', 'C', 'E', '_', 'P', 'O', 'W', 'E', 'R', '_', 'O', 'N', '_', 'T', 'I', 'M', 'E'],
   ['T', 'O', 'T', 'A', 'L', '_', 'D', 'E', 'V', 'I', 'C', 'E', '_', 'R', 'U', 'N', 'T', 'I', 'M', 'E'],
   ['T', 'O', 'T', 'A', 'L', '_', 'L', 'I', 'G', 'H', 'T', '_', 'E', 'X', 'P', 'O', 'S', 'U', 'R', 'E', '_', 'T', 'I', 'M', 'E'],
   ['T', 'O', 'T', 'A', 'L', '_', 'L', 'U', 'M', 'I', 'N', 'O', 'U', 'S', '_', 'E', 'N', 'E', 'R', 'G', 'Y'],
   ['P', 'R', 'E', 'C', 'I', 'S', 'E', '_', 'T', 'O', 'T', 'A', 'L', '_', 'D', 'E', 'V', 'I', 'C', 'E', '_', 'E', 'N', 'E', 'R', 'G', 'Y', '_', 'U', 'S', 'E'],
   ['P', 'O', 'W', 'E', 'R', '_', 'F', 'A', 'C', 'T', 'O', 'R'],
   ['A', 'C', 'T', 'I', 'V', 'E', '_', 'E', 'N', 'E', 'R', 'G', 'Y', '_', 'L', 'O', 'A', 'D', '_', 'S', 'I', 'D', 'E'],
   ['A', 'C', 'T', 'I', 'V', 'E', '_', 'P', 'O', 'W', 'E', 'R', '_', 'L', 'O', 'A', 'D', '_', 'S', 'I', 'D', 'E'],
   ['A', 'P', 'P', 'A', 'R', 'E', 'N', 'T', '_', 'P', 'O', 'W', 'E', 'R'],
   ['A', 'P', 'P', 'A', 'R', 'E', 'N', 'T', '_', 'E', 'N', 'E', 'R', 'G', 'Y'],
   ['E', 'X', 'T', 'E', 'R', 'N', 'A', 'L', '_', 'S', 'U', 'P', 'P', 'L', 'Y', '_', 'V', 'O', 'L', 'T', 'A', 'G', 'E'],
   ['E', 'X', 'T', 'E', 'R', 'N', 'A', 'L', '_', 'S', 'U', 'P', 'P', 'L', 'Y', '_', 'V', 'O', 'L', 'T', 'A', 'G', 'E', '_', 'F', 'R', 'E', 'Q', 'U', 'E', 'N', 'C', 'Y'],
   ['L', 'I', 'G', 'H', 'T', '_', 'D', 'I', 'S', 'T', 'R', 'I', 'B', 'U', 'T', 'I', 'O', 'N'],
   ['L', 'I', 'G', 'H', 'T', '_', 'S', 'O', 'U', 'R', 'C', 'E', '_', 'C', 'U', 'R', 'R', 'E', 'N', 'T'],
   ['L', 'I', 'G', 'H', 'T', '_', 'S', 'O', 'U', 'R', 'C', 'E', '_', 'O', 'N', '_', 'T', 'I', 'M', 'E', '_', 'N', 'O', 'T', '_', 'R', 'E', 'S', 'E', 'T', 'T', 'A', 'B', 'L', 'E'],
   ['L', 'I', 'G', 'H', 'T', '_', 'S', 'O', 'U', 'R', 'C', 'E', '_', 'O', 'N', '_', 'T', 'I', 'M', 'E', '_', 'R', 'E', 'S', 'E', 'T', 'T', 'A', 'B', 'L', 'E'],
   ['L', 'I', 'G', 'H', 'T', '_', 'S', 'O', 'U', 'R', 'C', 'E', '_', 'O', 'P', 'E', 'N', '_', 'C', 'I', 'R', 'C', 'U', 'I', 'T', '_', 'S', 'T', 'A', 'T', 'I', 'S', 'T', 'I', 'C', 'S'],
   ['L', 'I', 'G', 'H', 'T', '_', 'S', 'O', 'U', 'R', 'C', 'E', '_', 'O', 'V', 'E', 'R', 'A', 'L', 'L', '_', 'F', 'A', 'I', 'L', 'U', 'R', 'E', 'S', '_', 'S', 'T', 'A', 'T', 'I', 'S', 'T', 'I', 'C', 'S'],
   ['L', 'I', 'G', 'H', 'T', '_', 'S', 'O', 'U', 'R', 'C', 'E', '_', 'S', 'H', 'O', 'R', 'T', '_', 'C', 'I', 'R', 'C', 'U', 'I', 'T', '_', 'S', 'T', 'A', 'T', 'I', 'S', 'T', 'I', 'C', 'S'],
   ['L', 'I', 'G', 'H', 'T', '_', 'S', 'O', 'U', 'R', 'C', 'E', '_', 'S', 'T', 'A', 'R', 'T', '_', 'C', 'O', 'U', 'N', 'T', 'E', 'R', '_', 'R', 'E', 'S', 'E', 'T', 'T', 'A', 'B', 'L', 'E'],
   ['L', 'I', 'G', 'H', 'T', '_', 'S', 'O', 'U', 'R', 'C', 'E', '_', 'T', 'E', 'M', 'P', 'E', 'R', 'A', 'T', 'U', 'R', 'E'],
   ['L', 'I', 'G', 'H', 'T', '_', 'S', 'O', 'U', 'R', 'C', 'E', '_', 'T', 'H', 'E', 'R', 'M', 'A', 'L', '_', 'D', 'E', 'R', 'A', 'T', 'I', 'N', 'G', '_', 'S', 'T', 'A', 'T', 'I', 'S', 'T', 'I', 'C', 'S'],
   ['L', 'I', 'G', 'H', 'T', '_', 'S', 'O', 'U', 'R', 'C', 'E', '_', 'T', 'H', 'E', 'R', 'M', 'A', 'L', '_', 'S', 'H', 'U', 'T', 'D', 'O', 'W', 'N', '_', 'S', 'T', 'A', 'T', 'I', 'S', 'T', 'I', 'C', 'S'],
   ['L', 'I', 'G', 'H', 'T', '_', 'S', 'O', 'U', 'R', 'C', 'E', '_', 'T', 'O', 'T', 'A', 'L', '_', 'P', 'O', 'W', 'E', 'R', '_', 'O', 'N', '_', 'C', 'Y', 'C', 'L', 'E', 'S'],
   ['L', 'I', 'G', 'H', 'T', '_', 'S', 'O', 'U', 'R', 'C', 'E', '_', 'V', 'O', 'L', 'T', 'A', 'G', 'E'],
   ['L', 'U', 'M', 'I', 'N', 'A', 'I', 'R', 'E', '_', 'C', 'O', 'L', 'O', 'R'],
   ['L', 'U', 'M', 'I', 'N', 'A', 'I', 'R', 'E', '_', 'I', 'D', 'E', 'N', 'T', 'I', 'F', 'I', 'C', 'A', 'T', 'I', 'O', 'N', '_', 'N', 'U', 'M', 'B', 'E', 'R'],
   ['L', 'U', 'M', 'I', 'N', 'A', 'I', 'R', 'E', '_', 'M', 'A', 'N', 'U', 'F', 'A', 'C', 'T', 'U', 'R', 'E', 'R', '_', 'G', 'T', 'I', 'N'],
   ['L', 'U', 'M', 'I', 'N', 'A', 'I', 'R', 'E', '_', 'N', 'O', 'M', 'I', 'N', 'A', 'L', '_', 'I', 'N', 'P', 'U', 'T', '_', 'P', 'O', 'W', 'E', 'R'],
   ['L', 'U', 'M', 'I', 'N', 'A', 'I', 'R', 'E', '_', 'N', 'O', 'M', 'I', 'N', 'A', 'L', '_', 'M', 'A', 'X', 'I', 'M', 'U', 'M', '_', 'A', 'C', '_', 'M', 'A', 'I', 'N', 'S', '_', 'V', 'O', 'L', 'T', 'A', 'G', 'E'],
   ['L', 'U', 'M', 'I', 'N', 'A', 'I', 'R', 'E', '_', 'N', 'O', 'M', 'I', 'N', 'A', 'L', '_', 'M', 'I', 'N', 'I', 'M', 'U', 'M', '_', 'A', 'C', '_', 'M', 'A', 'I', 'N', 'S', '_', 'V', 'O', 'L', 'T', 'A', 'G', 'E'],
   ['L', 'U', 'M', 'I', 'N', 'A', 'I', 'R', 'E', '_', 'P', 'O', 'W', 'E', 'R', '_', 'A', 'T', '_', 'M', 'I', 'N', 'I', 'M', 'U', 'M', '_', 'D', 'I', 'M', '_', 'L', 'E', 'V', 'E', 'L'],
   ['L', 'U', 'M', 'I', 'N', 'A', 'I', 'R', 'E', '_', 'T', 'I', 'M', 'E', '_', 'O', 'F', '_', 'M', 'A', 'N', 'U', 'F', 'A', 'C', 'T', 'U', 'R', 'E'],
   ['N', 'O', 'M', 'I', 'N', 'A', 'L', '_', 'L', 'I', 'G', 'H', 'T', '_', 'O', 'U', 'T', 'P', 'U', 'T'],
   ['O', 'V', 'E', 'R', 'A', 'L', 'L', '_', 'F', 'A', 'I', 'L', 'U', 'R', 'E', '_', 'C', 'O', 'N', 'D', 'I', 'T', 'I', 'O', 'N'],
   ['R', 'A', 'T', 'E', 'D', '_', 'M', 'E', 'D', 'I', 'A', 'N', '_', 'U', 'S', 'E', 'F', 'U', 'L', '_', 'L', 'I', 'F', 'E', '_', 'O', 'F', '_', 'L', 'U', 'M', 'I', 'N', 'A', 'I', 'R', 'E'],
   ['R', 'A', 'T', 'E', 'D', '_', 'M', 'E', 'D', 'I', 'A', 'N', '_', 'U', 'S', 'E', 'F', 'U', 'L', '_', 'L', 'I', 'G', 'H', 'T', '_', 'S', 'O', 'U', 'R', 'C', 'E', '_', 'S', 'T', 'A', 'R', 'T', 'S'],
   ['R', 'E', 'F', 'E', 'R', 'E', 'N', 'C', 'E', '_', 'T', 'E', 'M', 'P', 'E', 'R', 'A', 'T', 'U', 'R', 'E'],
   ['T', 'O', 'T', 'A', 'L', '_', 'D', 'E', 'V', 'I', 'C', 'E', '_', 'S', 'T', 'A', 'R', 'T', 'S'],
   ['L', 'U', 'M', 'I', 'N', 'A', 'I', 'R', 'E', '_', 'I', 'D', 'E', 'N', 'T', 'I', 'F', 'I', 'C', 'A', 'T', 'I', 'O', 'N', '_', 'S', 'T', 'R', 'I', 'N', 'G'],
   ['O', 'U', 'T', 'P', 'U', 'T', '_', 'P', 'O', 'W', 'E', 'R', '_', 'L', 'I', 'M', 'I', 'T', 'A', 'T', 'I', 'O', 'N'],
   ['T', 'H', 'E', 'R', 'M', 'A', 'L', '_', 'D', 'E', 'R', 'A', 'T', 'I', 'N', 'G'],
   ['O', 'U', 'T', 'P', 'U', 'T', '_', 'C', 'U', 'R', 'R', 'E', 'N', 'T', '_', 'P', 'E', 'R', 'C', 'E', 'N', 'T'],
   ['L', 'I', 'G', 'H', 'T', '_', 'S', 'O', 'U', 'R', 'C', 'E', '_', 'T', 'Y', 'P', 'E'],
   ['S', 'E', 'N', 'S', 'O', 'R', '_', 'G', 'A', 'I', 'N'],
   ['P', 'R', 'E', 'C', 'I', 'S', 'E', '_', 'P', 'R', 'E', 'S', 'E', 'N', 'T', '_', 'A', 'M', 'B', 'I', 'E', 'N', 'T', '_', 'T', 'E', 'M', 'P', 'E', 'R', 'A', 'T', 'U', 'R', 'E'],
   ['D', 'E', 'S', 'I', 'R', 'E', 'D', '_', 'A', 'M', 'B', 'I', 'E', 'N', 'T', '_', 'T', 'E', 'M', 'P', 'E', 'R', 'A', 'T', 'U', 'R', 'E']],
  [['A', 'U', 'X', 'I', 'L', 'I', 'A', 'R', 'Y'],
   ['B', 'A', 'C', 'K'],
   ['B', 'A', 'C', 'K', 'U', 'P'],
   ['B', 'O', 'T', 'T', 'O', 'M'],
   ['E', 'I', 'G', 'H', 'T', 'E', 'E', 'N', 'T', 'H'],
   ['E', 'I', 'G', 'H', 'T', 'H'],
   ['E', 'I', 'G', 'H', 'T', 'I', 'E', 'T', 'H'],
   ['E', 'I', 'G', 'H', 'T', 'Y', '_', 'E', 'I', 'G', 'H', 'T', 'H'],
   ['E', 'I', 'G', 'H', 'T', 'Y', '_', 'F', 'I', 'F', 'T', 'H'],
   ['E', 'I', 'G', 'H', 'T', 'Y', '_', 'F', 'I', 'R', 'S', 'T'],
   ['E', 'I', 'G', 'H', 'T', 'Y', '_', 'F', 'O', 'U', 'R', 'T', 'H'],
   ['E', 'I', 'G', 'H', 'T', 'Y', '_', 'N', 'I', 'N', 'T', 'H'],
   ['E', 'I', 'G', 'H', 'T', 'Y', '_', 'S', 'E', 'C', 'O', 'N', 'D'],
   ['E', 'I', 'G', 'H', 'T', 'Y', '_', 'S', 'E', 'V', 'E', 'N', 'T', 'H'],
   ['E', 'I', 'G', 'H', 'T', 'Y', '_', 'S', 'I', 'X', 'T', 'H'],
   ['E', 'I', 'G', 'H', 'T', 'Y', '_', 'T', 'H', 'I', 'R', 'D'],
   ['E', 'L', 'E', 'V', 'E', 'N', 'T', 'H'],
   ['E', 'X', 'T', 'E', 'R', 'N', 'A', 'L'],
   ['F', 'I', 'F', 'T', 'E', 'E', 'N', 'T', 'H'],
   ['F', 'I', 'F', 'T', 'H'],
   ['F', 'I', 'F', 'T', 'I', 'E', 'T', 'H'],
   ['F', 'I', 'F', 'T', 'Y', '_', 'E', 'I', 'G', 'H', 'T', 'H'],
   ['F', 'I', 'F', 'T', 'Y', '_', 'F', 'I', 'F', 'T', 'H'],
   ['F', 'I', 'F', 'T', 'Y', '_', 'F', 'I', 'R', 'S', 'T'],
   ['F', 'I', 'F', 'T', 'Y', '_', 'F', 'O', 'U', 'R', 'T', 'H'],
   ['F', 'I', 'F', 'T', 'Y', '_', 'N', 'I', 'N', 'T', 'H'],
   ['F', 'I', 'F', 'T', 'Y', '_', 'S', 'E', 'C', 'O', 'N', 'D'],
   ['F', 'I', 'F', 'T', 'Y', '_', 'S', 'E', 'V', 'E', 'N', 'T', 'H'],
   ['F', 'I', 'F', 'T', 'Y', '_', 'S', 'I', 'X', 'T', 'H'],
   ['F', 'I', 'F', 'T', 'Y', '_', 'T', 'H', 'I', 'R', 'D'],
   ['F', 'I', 'R', 'S', 'T'],
   ['F', 'L', 'A', 'S', 'H'],
   ['F', 'O', 'R', 'T', 'I', 'E', 'T', 'H'],
   ['F', 'O', 'U', 'R', 'T', 'E', 'E', 'N', 'T', 'H'],
   ['F', 'O', 'U', 'R', 'T', 'H'],
   ['F', 'O', 'R', 'T', 'Y', '_', 'E', 'I', 'G', 'H', 'T', 'H'],
   ['F', 'O', 'R', 'T', 'Y', '_', 'F', 'I', 'F', 'T', 'H'],
   ['F', 'O', 'R', 'T', 'Y', '_', 'F', 'I', 'R', 'S', 'T'],
   ['F', 'O', 'R', 'T', 'Y', '_', 'F', 'O', 'U', 'R', 'T', 'H'],
   ['F', 'O', 'R', 'T', 'Y', '_', 'N', 'I', 'N', 'T', 'H'],
   ['F', 'O', 'R', 'T', 'Y', '_', 'S', 'E', 'C', 'O', 'N', 'D'],
   ['F', 'O', 'R', 'T', 'Y', '_', 'S', 'E', 'V', 'E', 'N', 'T', 'H'],
   ['F', 'O', 'R', 'T', 'Y', '_', 'S', 'I', 'X', 'T', 'H'],
   ['F', 'O', 'R', 'T', 'Y', '_', 'T', 'H', 'I', 'R', 'D'],
   ['F', 'R', 'O', 'N', 'T'],
   ['I', 'N', 'S', 'I', 'D', 'E'],
   ['I', 'N', 'T', 'E', 'R', 'N', 'A', 'L'],
   ['L', 'E', 'F', 'T'],
   ['L', 'O', 'W', 'E', 'R'],
   ['M', 'A', 'I', 'N'],
   ['N', 'I', 'N', 'E', 'T', 'E', 'E', 'N', 'T', 'H'],
   ['N', 'I', 'N', 'T', 'H'],
   ['N', 'I', 'N', 'E', 'T', 'I', 'E', 'T', 'H'],
   ['N', 'I', 'N', 'E', 'T', 'Y', '_', 'E', 'I', 'G', 'H', 'T', 'H'],
   ['N', 'I', 'N', 'E', 'T', 'Y', '_', 'F', 'I', 'F', 'T', 'H'],
   ['N', 'I', 'N', 'E', 'T', 'Y', '_', 'F', 'I', 'R', 'S', 'T'],
   ['N', 'I', 'N', 'E', 'T', 'Y', '_', 'F', 'O', 'U', 'R', 'T', 'H'],
   ['N', 'I', 'N', 'E', 'T', 'Y', '_', 'N', 'I', 'N', 'T', 'H'],
   ['N', 'I', 'N', 'E', 'T', 'Y', '_', 'S', 'E', 'C', 'O', 'N', 'D'],
   ['N', 'I', 'N', 'E', 'T', 'Y', '_', 'S', 'E', 'V', 'E', 'N', 'T', 'H'],
   ['N', 'I', 'N', 'E', 'T', 'Y', '_', 'S', 'I', 'X', 'T', 'H'],
   ['N', 'I', 'N', 'E', 'T', 'Y', '_', 'T', 'H', 'I', 'R', 'D'],
   ['O', 'N', 'E', '_', 'H', 'U', 'N', 'D', 'R', 'E', 'D', '_', 'A', 'N', 'D', '_', 'E', 'I', 'G', 'H', 'T', 'E', 'E', 'N', 'T', 'H'],
   ['O', 'N', 'E', '_', 'H', 'U', 'N', 'D', 'R', 'E', 'D', '_', 'A', 'N', 'D', '_', 'E', 'I', 'G', 'H', 'T', 'H'],
   ['O', 'N', 'E', '_', 'H', 'U', 'N', 'D', 'R', 'E', 'D', '_', 'A', 'N', 'D', '_', 'E', 'I', 'G', 'H', 'T', 'Y', '_', 'E', 'I', 'G', 'H', 'T', 'H'],
   ['O', 'N', 'E', '_', 'H', 'U', 'N', 'D', 'R', 'E', 'D', '_', 'A', 'N', 'D', '_', 'E', 'I', 'G', 'H', 'T', 'Y', '_', 'F', 'I', 'F', 'T', 'H'],
   ['O', 'N', 'E', '_', 'H', 'U', 'N', 'D', 'R', 'E', 'D', '_', 'A', 'N', 'D', '_', 'E', 'I', 'G', 'H', 'T', 'Y', '_', 'F', 'I', 'R', 'S', 'T'],
   ['O', 'N', 'E', '_', 'H', 'U', 'N', 'D', 'R', 'E', 'D', '_', 'A', 'N', 'D', '_', 'E', 'I', 'G', 'H', 'T', 'Y', '_', 'F', 'O', 'U', 'R', 'T', 'H'],
   ['O', 'N', 'E', '_', 'H', 'U', 'N', 'D', 'R', 'E', 'D', '_', 'A', 'N', 'D', '_', 'E', 'I', 'G', 'H', 'T', 'Y', '_', 'N', 'I', 'N', 'T', 'H'],
   ['O', 'N', 'E', '_', 'H', 'U', 'N', 'D', 'R', 'E', 'D', '_', 'A', 'N', 'D', '_', 'E', 'I', 'G', 'H', 'T', 'Y', '_', 'S', 'E', 'C', 'O', 'N', 'D'],
   ['O', 'N', 'E', '_', 'H', 'U', 'N', 'D', 'R', 'E', 'D', '_', 'A', 'N', 'D', '_', 'E', 'I', 'G', 'H', 'T', 'Y', '_', 'S', 'E', 'V', 'E', 'N', 'T', 'H'],
   ['O', 'N', 'E', '_', 'H', 'U', 'N', 'D', 'R', 'E', 'D', '_', 'A', 'N', 'D', '_', 'E', 'I', 'G', 'H', 'T', 'Y', '_', 'S', 'I', 'X', 'T', 'H'],
   ['O', 'N', 'E', '_', 'H', 'U', 'N', 'D', 'R', 'E', 'D', '_', 'A', 'N', 'D', '_', 'E', 'I', 'G', 'H', 'T', 'Y', '_', 'T', 'H', 'I', 'R', 'D'],
   ['O', 'N', 'E', '_', 'H', 'U', 'N', 'D', 'R', 'E', 'D', '_', 'A', 'N', 'D', '_', 'E', 'L', 'E', 'V', 'E', 'N', 'T', 'H'],
   ['O', 'N', 'E', '_', 'H', 'U', 'N', 'D', 'R', 'E', 'D', '_', 'A', 'N', 'D', '_', 'F', 'I', 'F', 'T', 'E', 'E', 'N', 'T', 'H'],
   ['O', 'N', 'E', '_', 'H', 'U', 'N', 'D', 'R', 'E', 'D', '_', 'A', 'N', 'D', '_', 'F', 'I', 'F', 'T', 'H'],
   ['O', 'N', 'E', '_', 'H', 'U', 'N', 'D', 'R', 'E', 'D', '_', 'A', 'N', 'D', '_', 'F', 'I', 'F', 'T', 'Y', '_', 'E', 'I', 'G', 'H', 'T', 'H'],
   ['O', 'N', 'E', '_', 'H', 'U', 'N', 'D', 'R', 'E', 'D', '_', 'A', 'N', 'D', '_', 'F', 'I', 'F', 'T', 'Y', '_', 'F', 'I', 'F', 'T', 'H'],
   ['O', 'N', 'E', '_', 'H', 'U', 'N', 'D', 'R', 'E', 'D', '_', 'A', 'N', 'D', '_', 'F', 'I', 'F', 'T', 'Y', '_', 'F', 'I', 'R', 'S', 'T'],
   ['O', 'N', 'E', '_', 'H', 'U', 'N', 'D', 'R', 'E', 'D', '_', 'A', 'N', 'D', '_', 'F', 'I', 'F', 'T', 'Y', '_', 'F', 'O', 'U', 'R', 'T', 'H'],
   ['O', 'N', 'E', '_', 'H', 'U', 'N', 'D', 'R', 'E', 'D', '_', 'A', 'N', 'D', '_', 'F', 'I', 'F', 'T', 'Y', '_', 'N', 'I', 'N', 'T', 'H'],
   ['O', 'N', 'E', '_', 'H', 'U', 'N', 'D', 'R', 'E', 'D', '_', 'A', 'N', 'D', '_', 'F', 'I', 'F', 'T', 'Y', '_', 'S', 'E', 'C', 'O', 'N', 'D'],
   ['O', 'N', 'E', '_', 'H', 'U', 'N', 'D', 'R', 'E', 'D', '_', 'A', 'N', 'D', '_', 'F', 'I', 'F', 'T', 'Y', '_', 'S', 'E', 'V', 'E', 'N', 'T', 'H'],
   ['O', 'N', 'E', '_', 'H', 'U', 'N', 'D', 'R', 'E', 'D', '_', 'A', 'N', 'D', '_', 'F', 'I', 'F', 'T', 'Y', '_', 'S', 'I', 'X', 'T', 'H'],
   ['O', 'N', 'E', '_', 'H', 'U', 'N', 'D', 'R', 'E', 'D', '_', 'A', 'N', 'D', '_', 'F', 'I', 'F', 'T', 'Y', '_', 'T', 'H', 'I', 'R', 'D'],
   ['O', 'N', 'E', '_', 'H', 'U', 'N', 'D', 'R', 'E', 'D', '_', 'A', 'N', 'D', '_', 'F', 'I', 'R', 'S', 'T'],
   ['O', 'N', 'E', '_', 'H', 'U', 'N', 'D', 'R', 'E', 'D', '_', 'A', 'N', 'D', '_', 'F', 'O', 'U', 'R', 'T', 'E', 'E', 'N', 'T', 'H'],
   ['O', 'N', 'E', '_', 'H', 'U', 'N', 'D', 'R', 'E', 'D', '_', 'A', 'N', 'D', '_', 'F', 'O', 'U', 'R', 'T', 'H'],
   ['O', 'N', 'E', '_', 'H', 'U', 'N', 'D', 'R', 'E', 'D', '_', 'A', 'N', 'D', '_', 'F', 'O', 'R', 'T', 'Y', '_', 'E', 'I', 'G', 'H', 'T', 'H'],
   ['O', 'N', 'E', '_', 'H', 'U', 'N', 'D', 'R', 'E', 'D', '_', 'A', 'N', 'D', '_', 'F', 'O', 'R', 'T', 'Y', '_', 'F', 'I', 'F', 'T', 'H'],
   ['O', 'N', 'E', '_', 'H', 'U', 'N', 'D', 'R', 'E', 'D', '_', 'A', 'N', 'D', '_', 'F', 'O', 'R', 'T', 'Y', '_', 'F', 'I', 'R', 'S', 'T'],
   ['O', 'N', 'E', '_', 'H', 'U', 'N', 'D', 'R', 'E', 'D', '_', 'A', 'N', 'D', '_', 'F', 'O', 'R', 'T', 'Y', '_', 'F', 'O', 'U', 'R', 'T', 'H'],
   ['O', 'N', 'E', '_', 'H', 'U', 'N', 'D', 'R', 'E', 'D', '_', 'A', 'N', 'D', '_', 'F', 'O', 'R', 'T', 'Y', '_', 'N', 'I', 'N', 'T', 'H'],
   ['O', 'N', 'E', '_', 'H', 'U', 'N', 'D', 'R', 'E', 'D', '_', 'A', 'N', 'D', '_', 'F', 'O', 'R', 'T', 'Y', '_', 'S', 'E', 'C', 'O', 'N', 'D'],
   ['O', 'N', 'E', '_', 'H', 'U', 'N', 'D', 'R', 'E', 'D', '_', 'A', 'N', 'D', '_', 'F', 'O', 'R', 'T', 'Y', '_', 'S', 'E', 'V', 'E', 'N', 'T', 'H'],
   ['O', 'N', 'E', '_', 'H', 'U', 'N', 'D', 'R', 'E', 'D', '_', 'A', 'N', 'D', '_', 'F', 'O', 'R', 'T', 'Y', '_', 'S', 'I', 'X', 'T', 'H'],
   ['O', 'N', 'E', '_', 'H', 'U', 'N', 'D', 'R', 'E', 'D', '_', 'A', 'N', 'D', '_', 'F', 'O', 'R', 'T', 'Y', '_', 'T', 'H', 'I', 'R', 'D'],
   ['O', 'N', 'E', '_', 'H', 'U', 'N', 'D', 'R', 'E', 'D', '_', 'A', 'N', 'D', '_', 'N', 'I', 'N', 'E', 'T', 'E', 'E', 'N', 'T', 'H'],
   ['O', 'N', 'E', '_', 'H', 'U', 'N', 'D', 'R', 'E', 'D', '_', 'A', 'N', 'D', '_', 'N', 'I', 'N', 'T', 'H'],
   ['O', 'N', 'E', '_', 'H', 'U', 'N', 'D', 'R', 'E', 'D', '_', 'A', 'N', 'D', '_', 'N', 'I', 'N', 'E', 'T', 'Y', '_', 'E', 'I', 'G', 'H', 'T', 'H'],
   ['O', 'N', 'E', '_', 'H', 'U', 'N', 'D', 'R', 'E', 'D', '_', 'A', 'N', 'D', '_', 'N', 'I', 'N', 'E', 'T', 'Y', '_', 'F', 'I', 'F', 'T', 'H'],
   ['O', 'N', 'E', '_', 'H', 'U', 'N', 'D', 'R', 'E', 'D', '_', 'A', 'N', 'D', '_', 'N', 'I', 'N', 'E', 'T', 'Y', '_', 'F', 'I', 'R', 'S', 'T'],
   ['O', 'N', 'E', '_', 'H', 'U', 'N', 'D', 'R', 'E', 'D', '_', 'A', 'N', 'D', '_', 'N', 'I', 'N', 'E', 'T', 'Y', '_', 'F', 'O', 'U', 'R', 'T', 'H'],
   ['O', 'N', 'E', '_', 'H', 'U', 'N', 'D', 'R', 'E', 'D', '_', 'A', 'N', 'D', '_', 'N', 'I', 'N', 'E', 'T', 'Y', '_', 'N', 'I', 'N', 'T', 'H'],
   ['O', 'N', 'E', '_', 'H', 'U', 'N', 'D', 'R', 'E', 'D', '_', 'A', 'N', 'D', '_', 'N', 'I', 'N', 'E', 'T', 'Y', '_', 'S', 'E', 'C', 'O', 'N', 'D'],
   ['O', 'N', 'E', '_', 'H', 'U', 'N', 'D', 'R', 'E', 'D', '_', 'A', 'N', 'D', '_', 'N', 'I', 'N', 'E', 'T', 'Y', '_', 'S', 'E', 'V', 'E', 'N', 'T', 'H'],
   ['O', 'N', 'E', '_', 'H', 'U', 'N', 'D', 'R', 'E', 'D', '_', 'A', 'N', 'D', '_', 'N', 'I', 'N', 'E', 'T', 'Y', '_', 'S', 'I', 'X', 'T', 'H'],
   ['O', 'N', 'E', '_', 'H', 'U', 'N', 'D', 'R', 'E', 'D', '_', 'A', 'N', 'D', '_', 'N', 'I', 'N', 'E', 'T', 'Y', '_', 'T', 'H', 'I', 'R', 'D'],
   ['O', 'N', 'E', '_', 'H', 'U', 'N', 'D', 'R', 'E', 'D', '_', 'A', 'N', 'D', '_', 'S', 'E', 'C', 'O', 'N', 'D'],
   ['O', 'N', 'E', '_', 'H', 'U', 'N', 'D', 'R', 'E', 'D', '_', 'A', 'N', 'D', '_', 'S', 'E', 'V', 'E', 'N', 'T', 'E', 'E', 'N', 'T', 'H'],
   ['O', 'N', 'E', '_', 'H', 'U', 'N', 'D', 'R', 'E', 'D', '_', 'A', 'N', 'D', '_', 'S', 'E', 'V', 'E', 'N', 'T', 'H'],
   ['O', 'N', 'E', '_', 'H', 'U', 'N', 'D', 'R', 'E', 'D', '_', 'A', 'N', 'D', '_', 'S', 'E', 'V', 'E', 'N', 'T', 'Y', '_', 'E', 'I', 'G', 'H', 'T', 'H'],
   ['O', 'N', 'E', '_', 'H', 'U', 'N', 'D', 'R', 'E', 'D', '_', 'A', 'N', 'D', '_', 'S', 'E', 'V', 'E', 'N', 'T', 'Y', '_', 'F', 'I', 'F', 'T', 'H'],
   ['O', 'N', 'E', '_', 'H', 'U', 'N', 'D', 'R', 'E', 'D', '_', 'A', 'N', 'D', '_', 'S', 'E', 'V', 'E', 'N', 'T', 'Y', '_', 'F', 'I', 'R', 'S', 'T'],
   ['O', 'N', 'E', '_', 'H', 'U', 'N', 'D', 'R', 'E', 'D', '_', 'A', 'N', 'D', '_', 'S', 'E', 'V', 'E', 'N', 'T', 'Y', '_', 'F', 'O', 'U', 'R', 'T', 'H'],
   ['O', 'N', 'E', '_', 'H', 'U', 'N', 'D', 'R', 'E', 'D', '_', 'A', 'N', 'D', '_', 'S', 'E', 'V', 'E', 'N', 'T', 'Y', '_', 'N', 'I', 'N', 'T', 'H'],
   ['O', 'N', 'E', '_', 'H', 'U', 'N', 'D', 'R', 'E', 'D', '_', 'A', 'N', 'D', '_', 'S', 'E', 'V', 'E', 'N', 'T', 'Y', '_', 'S', 'E', 'C', 'O', 'N', 'D'],
   ['O', 'N', 'E', '_', 'H', 'U', 'N', 'D', 'R', 'E', 'D', '_', 'A', 'N', 'D', '_', 'S', 'E', 'V', 'E', 'N', 'T', 'Y', '_', 'S', 'E', 'V', 'E', 'N', 'T', 'H'],
   ['O', 'N', 'E', '_', 'H', 'U', 'N', 'D', 'R', 'E', 'D', '_', 'A', 'N', 'D', '_', 'S', 'E', 'V', 'E', 'N', 'T', 'Y', '_', 'S', 'I', 'X', 'T', 'H'],
   ['O', 'N', 'E', '_', 'H', 'U', 'N', 'D', 'R', 'E', 'D', '_', 'A', 'N', 'D', '_', 'S', 'E', 'V', 'E', 'N', 'T', 'Y', '_', 'T', 'H', 'I', 'R', 'D'],
   ['O', 'N', 'E', '_', 'H', 'U', 'N', 'D', 'R', 'E', 'D', '_', 'A', 'N', 'D', '_', 'S', 'I', 'X', 'T', 'E', 'E', 'N', 'T', 'H'],
   ['O', 'N', 'E', '_', 'H', 'U', 'N', 'D', 'R', 'E', 'D', '_', 'A', 'N', 'D', '_', 'S', 'I', 'X', 'T', 'H'],
   ['O', 'N', 'E', '_', 'H', 'U', 'N', 'D', 'R', 'E', 'D', '_', 'A', 'N', 'D', '_', 'S', 'I', 'X', 'T', 'Y', '_', 'E', 'I', 'G', 'H', 'T', 'H'],
   ['O', 'N', 'E', '_', 'H', 'U', 'N', 'D', 'R', 'E', 'D', '_', 'A', 'N', 'D', '_', 'S', 'I', 'X', 'T', 'Y', '_', 'F', 'I', 'F', 'T', 'H'],
   ['O', 'N', 'E', '_', 'H', 'U', 'N', 'D', 'R', 'E', 'D', '_', 'A', 'N', 'D', '_', 'S', 'I', 'X', 'T', 'Y', '_', 'F', 'I', 'R', 'S', 'T'],
   ['O', 'N', 'E', '_', 'H', 'U', 'N', 'D', 'R', 'E', 'D', '_', 'A', 'N', 'D', '_', 'S', 'I', 'X', 'T', 'Y', '_', 'F', 'O', 'U', 'R', 'T', 'H'],
   ['O', 'N', 'E', '_', 'H', 'U', 'N', 'D', 'R', 'E', 'D', '_', 'A', 'N', 'D', '_', 'S', 'I', 'X', 'T', 'Y', '_', 'N', 'I', 'N', 'T', 'H'],
   ['O', 'N', 'E', '_', 'H', 'U', 'N', 'D', 'R', 'E', 'D', '_', 'A', 'N', 'D', '_', 'S', 'I', 'X', 'T', 'Y', '_', 'S', 'E', 'C', 'O', 'N', 'D'],
   ['O', 'N', 'E', '_', 'H', 'U', 'N', 'D', 'R', 'E', 'D', '_', 'A', 'N', 'D', '_', 'S', 'I', 'X', 'T', 'Y', '_', 'S', 'E', 'V', 'E', 'N', 'T', 'H'],
   ['O', 'N', 'E', '_', 'H', 'U', 'N', 'D', 'R', 'E', 'D', '_', 'A', 'N', 'D', '_', 'S', 'I', 'X', 'T', 'Y', '_', 'S', 'I', 'X', 'T', 'H'],
   ['O', 'N', 'E', '_', 'H', 'U', 'N', 'D', 'R', 'E', 'D', '_', 'A', 'N', 'D', '_', 'S', 'I', 'X', 'T', 'Y', '_', 'T', 'H', 'I', 'R', 'D'],
   ['O', 'N', 'E', '_', 'H', 'U', 'N', 'D', 'R', 'E', 'D', '_', 'A', 'N', 'D', '_', 'T', 'E', 'N', 'T', 'H'],
   ['O', 'N', 'E', '_', 'H', 'U', 'N', 'D', 'R', 'E', 'D', '_', 'A', 'N', 'D', '_', 'T', 'H', 'I', 'R', 'D'],
   ['O', 'N', 'E', '_', 'H', 'U', 'N', 'D', 'R', 'E', 'D', '_', 'A', 'N', 'D', '_', 'T', 'H', 'I', 'R', 'T', 'E', 'E', 'N', 'T', 'H'],
   ['O', 'N', 'E', '_', 'H', 'U', 'N', 'D', 'R', 'E', 'D', '_', 'A', 'N', 'D', '_', 'T', 'H', 'I', 'R', 'T', 'Y', '_', 'E', 'I', 'G', 'H', 'T', 'H'],
   ['O', 'N', 'E', '_', 'H', 'U', 'N', 'D', 'R', 'E', 'D', '_', 'A', 'N', 'D', '_', 'T', 'H', 'I', 'R', 'T', 'Y', '_', 'F', 'I', 'F', 'T', 'H'],
   ['O', 'N', 'E', '_', 'H', 'U', 'N', 'D', 'R', 'E', 'D', '_', 'A', 'N', 'D', '_', 'T', 'H', 'I', 'R', 'T', 'Y', '_', 'F', 'I', 'R', 'S', 'T'],
   ['O', 'N', 'E', '_', 'H', 'U', 'N', 'D', 'R', 'E', 'D', '_', 'A', 'N', 'D', '_', 'T', 'H', 'I', 'R', 'T', 'Y', '_', 'F', 'O', 'U', 'R', 'T', 'H'],
   ['O', 'N', 'E', '_', 'H', 'U', 'N', 'D', 'R', 'E', 'D', '_', 'A', 'N', 'D', '_', 'T', 'H', 'I', 'R', 'T', 'Y', '_', 'N', 'I', 'N', 'T', 'H'],
   ['O', 'N', 'E', '_', 'H', 'U', 'N', 'D', 'R', 'E', 'D', '_', 'A', 'N', 'D', '_', 'T', 'H', 'I', 'R', 'T', 'Y', '_', 'S', 'E', 'C', 'O', 'N', 'D'],
   ['O', 'N', 'E', '_', 'H', 'U', 'N', 'D', 'R', 'E', 'D', '_', 'A', 'N', 'D', '_', 'T', 'H', 'I', 'R', 'T', 'Y', '_', 'S', 'E', 'V', 'E', 'N', 'T', 'H'],
   ['O', 'N', 'E', '_', 'H', 'U', 'N', 'D', 'R', 'E', 'D', '_', 'A', 'N', 'D', '_', 'T', 'H', 'I', 'R', 'T', 'Y', '_', 'S', 'I', 'X', 'T', 'H'],
   ['O', 'N', 'E', '_', 'H', 'U', 'N', 'D', 'R', 'E', 'D', '_', 'A', 'N', 'D', '_', 'T', 'H', 'I', 'R', 'T', 'Y', '_', 'T', 'H', 'I', 'R', 'D'],
   ['O', 'N', 'E', '_', 'H', 'U', 'N', 'D', 'R', 'E', 'D', '_', 'A', 'N', 'D', '_', 'T', 'W', 'E', 'L', 'V', 'E', 'T', 'H'],
   ['O', 'N', 'E', '_', 'H', 'U', 'N', 'D', 'R', 'E', 'D', '_', 'A', 'N', 'D', '_', 'T', 'W', 'E', 'N', 'T', 'Y', '_', 'E', 'I', 'G', 'H', 'T', 'H'],
   ['O', 'N', 'E', '_', 'H', 'U', 'N', 'D', 'R', 'E', 'D', '_', 'A', 'N', 'D', '_', 'T', 'W', 'E', 'N', 'T', 'Y', '_', 'F', 'I', 'F', 'T', 'H'],
   ['O', 'N', 'E', '_', 'H', 'U', 'N', 'D', 'R', 'E', 'D', '_', 'A', 'N', 'D', '_', 'T', 'W', 'E', 'N', 'T', 'Y', '_', 'F', 'I', 'R', 'S', 'T'],
   ['O', 'N', 'E', '_', 'H', 'U', 'N', 'D', 'R', 'E', 'D', '_', 'A', 'N', 'D', '_', 'T', 'W', 'E', 'N', 'T', 'Y', '_', 'F', 'O', 'U', 'R', 'T', 'H'],
   ['O', 'N', 'E', '_', 'H', 'U', 'N', 'D', 'R', 'E', 'D', '_', 'A', 'N', 'D', '_', 'T', 'W', 'E', 'N', 'T', 'Y', '_', 'N', 'I', 'N', 'T', 'H'],
   ['O', 'N', 'E', '_', 'H', 'U', 'N', 'D', 'R', 'E', 'D', '_', 'A', 'N', 'D', '_', 'T', 'W', 'E', 'N', 'T', 'Y', '_', 'S', 'E', 'C', 'O', 'N', 'D'],
   ['O', 'N', 'E', '_', 'H', 'U', 'N', 'D', 'R', 'E', 'D', '_', 'A', 'N', 'D', '_', 'T', 'W', 'E', 'N', 'T', 'Y', '_', 'S', 'E', 'V', 'E', 'N', 'T', 'H'],
   ['O', 'N', 'E', '_', 'H', 'U', 'N', 'D', 'R', 'E', 'D', '_', 'A', 'N', 'D', '_', 'T', 'W', 'E', 'N', 'T', 'Y', '_', 'S', 'I', 'X', 'T', 'H'],
   ['O', 'N', 'E', '_', 'H', 'U', 'N', 'D', 'R', 'E', 'D', '_', 'A', 'N', 'D', '_', 'T', 'W', 'E', 'N', 'T', 'Y', '_', 'T', 'H', 'I', 'R', 'D'],
   ['O', 'N', 'E', '_', 'H', 'U', 'N', 'D', 'R', 'E', 'D', '_', 'E', 'I', 'G', 'H', 'T', 'I', 'E', 'T', 'H'],
   ['O', 'N', 'E', '_', 'H', 'U', 'N', 'D', 'R', 'E', 'D', '_', 'F', 'I', 'F', 'T', 'I', 'E', 'T', 'H'],
   ['O', 'N', 'E', '_', 'H', 'U', 'N', 'D', 'R', 'E', 'D', '_', 'F', 'O', 'R', 'T', 'I', 'E', 'T', 'H'],
   ['O', 'N', 'E', '_', 'H', 'U', 'N', 'D', 'R', 'E', 'D', '_', 'N', 'I', 'N', 'E', 'T', 'I', 'E', 'T', 'H'],
   ['O', 'N', 'E', '_', 'H', 'U', 'N', 'D', 'R', 'E', 'D', '_', 'S', 'E', 'V', 'E', 'N', 'T', 'I', 'E', 'T', 'H'],
   ['O', 'N', 'E', '_', 'H', 'U', 'N', 'D', 'R', 'E', 'D', '_', 'S', 'I', 'X', 'T', 'I', 'E', 'T', 'H'],
   ['O', 'N', 'E', '_', 'H', 'U', 'N', 'D', 'R', 'E', 'D', '_', 'T', 'H', 'I', 'R', 'T', 'I', 'E', 'T', 'H'],
   ['O', 'N', 'E', '_', 'H', 'U', 'N', 'D', 'R', 'E', 'D', '_', 'T', 'W', 'E', 'N', 'T', 'I', 'E', 'T', 'H'],
   ['O', 'N', 'E', '_', 'H', 'U', 'N', 'D', 'R', 'E', 'D', 'T', 'H'],
   ['O', 'U', 'T', 'S', 'I', 'D', 'E'],
   ['R', 'I', 'G', 'H', 'T'],
   ['S', 'E', 'C', 'O', 'N', 'D'],
   ['S', 'E', 'V', 'E', 'N', 'T', 'E', 'E', 'N', 'T', 'H'],
   ['S', 'E', 'V', 'E', 'N', 'T', 'H'],
   ['S', 'E', 'V', 'E', 'N', 'T', 'I', 'E', 'T', 'H'],
   ['S', 'E', 'V', 'E', 'N', 'T', 'Y', '_', 'E', 'I', 'G', 'H', 'T', 'H'],
   ['S', 'E', 'V', 'E', 'N', 'T', 'Y', '_', 'F', 'I', 'F', 'T', 'H'],
   ['S', 'E', 'V', 'E', 'N', 'T', 'Y', '_', 'F', 'I', 'R', 'S', 'T'],
   ['S', 'E', 'V', 'E', 'N', 'T', 'Y', '_', 'F', 'O', 'U', 'R', 'T', 'H'],
   ['S', 'E', 'V', 'E', 'N', 'T', 'Y', '_', 'N', 'I', 'N', 'T', 'H'],
   ['S', 'E', 'V', 'E', 'N', 'T', 'Y', '_', 'S', 'E', 'C', 'O', 'N', 'D'],
   ['S', 'E', 'V', 'E', 'N', 'T', 'Y', '_', 'S', 'E', 'V', 'E', 'N', 'T', 'H'],
   ['S', 'E', 'V', 'E', 'N', 'T', 'Y', '_', 'S', 'I', 'X', 'T', 'H'],
   ['S', 'E', 'V', 'E', 'N', 'T', 'Y', '_', 'T', 'H', 'I', 'R', 'D'],
   ['S', 'I', 'X', 'T', 'E', 'E', 'N', 'T', 'H'],
   ['S', 'I', 'X', 'T', 'H'],
   ['S', 'I', 'X', 'T', 'I', 'E', 'T', 'H'],
   ['S', 'I', 'X', 'T', 'Y', '_', 'E', 'I', 'G', 'H', 'T', 'H'],
   ['S', 'I', 'X', 'T', 'Y', '_', 'F', 'I', 'F', 'T', 'H'],
   ['S', 'I', 'X', 'T', 'Y', '_', 'F', 'I', 'R', 'S', 'T'],
   ['S', 'I', 'X', 'T', 'Y', '_', 'F', 'O', 'U', 'R', 'T', 'H'],
   ['S', 'I', 'X', 'T', 'Y', '_', 'N', 'I', 'N', 'T', 'H'],
   ['S', 'I', 'X', 'T', 'Y', '_', 'S', 'E', 'C', 'O', 'N', 'D'],
   ['S', 'I', 'X', 'T', 'Y', '_', 'S', 'E', 'V', 'E', 'N', 'T', 'H'],
   ['S', 'I', 'X', 'T', 'Y', '_', 'S', 'I', 'X', 'T', 'H'],
   ['S', 'I', 'X', 'T', 'Y', '_', 'T', 'H', 'I', 'R', 'D'],
   ['S', 'U', 'P', 'P', 'L', 'E', 'M', 'E', 'N', 'T', 'A', 'R', 'Y'],
   ['T', 'E', 'N', 'T', 'H'],
   ['T', 'H', 'I', 'R', 'D'],
   ['T', 'H', 'I', 'R', 'T', 'E', 'E', 'N', 'T', 'H'],
   ['T', 'H', 'I', 'R', 'T', 'I', 'E', 'T', 'H'],
   ['T', 'H', 'I', 'R', 'T', 'Y', '_', 'E', 'I', 'G', 'H', 'T', 'H'],
   ['T', 'H', 'I', 'R', 'T', 'Y', '_', 'F', 'I', 'F', 'T', 'H'],
   ['T', 'H', 'I', 'R', 'T', 'Y', '_', 'F', 'I', 'R', 'S', 'T'],
   ['T', 'H', 'I', 'R', 'T', 'Y', '_', 'F', 'O', 'U', 'R', 'T', 'H'],
   ['T', 'H', 'I', 'R', 'T', 'Y', '_', 'N', 'I', 'N', 'T', 'H'],
   ['T', 'H', 'I', 'R', 'T', 'Y', '_', 'S', 'E', 'C', 'O', 'N', 'D'],
   ['T', 'H', 'I', 'R', 'T', 'Y', '_', 'S', 'E', 'V', 'E', 'N', 'T', 'H'],
   ['T', 'H', 'I', 'R', 'T', 'Y', '_', 'S', 'I', 'X', 'T', 'H'],
   ['T', 'H', 'I', 'R', 'T', 'Y', '_', 'T', 'H', 'I', 'R', 'D'],
   ['T', 'O', 'P'],
   ['T', 'W', 'E', 'L', 'V', 'E', 'T', 'H'],
   ['T', 'W', 'E', 'N', 'T', 'I', 'E', 'T', 'H'],
   ['T', 'W', 'E', 'N', 'T', 'Y', '_', 'E', 'I', 'G', 'H', 'T', 'H'],
   ['T', 'W', 'E', 'N', 'T', 'Y', '_', 'F', 'I', 'F', 'T', 'H'],
   ['T', 'W', 'E', 'N', 'T', 'Y', '_', 'F', 'I', 'R', 'S', 'T'],
   ['T', 'W', 'E', 'N', 'T', 'Y', '_', 'F', 'O', 'U', 'R', 'T', 'H'],
   ['T', 'W', 'E', 'N', 'T', 'Y', '_', 'N', 'I', 'N', 'T', 'H'],
   ['T', 'W', 'E', 'N', 'T', 'Y', '_', 'S', 'E', 'C', 'O', 'N', 'D'],
   ['T', 'W', 'E', 'N', 'T', 'Y', '_', 'S', 'E', 'V', 'E', 'N', 'T', 'H'],
   ['T', 'W', 'E', 'N', 'T', 'Y', '_', 'S', 'I', 'X', 'T', 'H'],
   ['T', 'W', 'E', 'N', 'T', 'Y', '_', 'T', 'H', 'I', 'R', 'D'],
   ['T', 'W', 'O', '_', 'H', 'U', 'N', 'D', 'R', 'E', 'D', '_', 'A', 'N', 'D', '_', 'E', 'I', 'G', 'H', 'T', 'E', 'E', 'N', 'T', 'H'],
   ['T', 'W', 'O', '_', 'H', 'U', 'N', 'D', 'R', 'E', 'D', '_', 'A', 'N', 'D', '_', 'E', 'I', 'G', 'H', 'T', 'H'],
   ['T', 'W', 'O', '_', 'H', 'U', 'N', 'D', 'R', 'E', 'D', '_', 'A', 'N', 'D', '_', 'E', 'L', 'E', 'V', 'E', 'N', 'T', 'H'],
   ['T', 'W', 'O', '_', 'H', 'U', 'N', 'D', 'R', 'E', 'D', '_', 'A', 'N', 'D', '_', 'F', 'I', 'F', 'T', 'E', 'E', 'N', 'T', 'H'],
   ['T', 'W', 'O', '_', 'H', 'U', 'N', 'D', 'R', 'E', 'D', '_', 'A', 'N', 'D', '_', 'F', 'I', 'F', 'T', 'H'],
   ['T', 'W', 'O', '_', 'H', 'U', 'N', 'D', 'R', 'E', 'D', '_', 'A', 'N', 'D', '_', 'F', 'I', 'F', 'T', 'Y', '_', 'F', 'I', 'F', 'T', 'H'],
   ['T', 'W', 'O', '_', 'H', 'U', 'N', 'D', 'R', 'E', 'D', '_', 'A', 'N', 'D', '_', 'F', 'I', 'F', 'T', 'Y', '_', 'F', 'I', 'R', 'S', 'T'],
   ['T', 'W', 'O', '_', 'H', 'U', 'N', 'D', 'R', 'E', 'D', '_', 'A', 'N', 'D', '_', 'F', 'I', 'F', 'T', 'Y', '_', 'F', 'O', 'U', 'R', 'T', 'H'],
   ['T', 'W', 'O', '_', 'H', 'U', 'N', 'D', 'R', 'E', 'D', '_', 'A', 'N', 'D', '_', 'F', 'I', 'F', 'T', 'Y', '_', 'S', 'E', 'C', 'O', 'N', 'D'],
   ['T', 'W', 'O', '_', 'H', 'U', 'N', 'D', 'R', 'E', 'D', '_', 'A', 'N', 'D', '_', 'F', 'I', 'F', 'T', 'Y', '_', 'T', 'H', 'I', 'R', 'D'],
   ['T', 'W', 'O', '_', 'H', 'U', 'N', 'D', 'R', 'E', 'D', '_', 'A', 'N', 'D', '_', 'F', 'I', 'R', 'S', 'T'],
   ['T', 'W', 'O', '_', 'H', 'U', 'N', 'D', 'R', 'E', 'D', '_', 'A', 'N', 'D', '_', 'F', 'O', 'U', 'R', 'T', 'E', 'E', 'N', 'T', 'H'],
   ['T', 'W', 'O', '_', 'H', 'U', 'N', 'D', 'R', 'E', 'D', '_', 'A', 'N', 'D', '_', 'F', 'O', 'U', 'R', 'T', 'H'],
   ['T', 'W', 'O', '_', 'H', 'U', 'N', 'D', 'R', 'E', 'D', '_', 'A', 'N', 'D', '_', 'F', 'O', 'R', 'T', 'Y', '_', 'E', 'I', 'G', 'H', 'T', 'H'],
   ['T', 'W', 'O', '_', 'H', 'U', 'N', 'D', 'R', 'E', 'D', '_', 'A', 'N', 'D', '_', 'F', 'O', 'R', 'T', 'Y', '_', 'F', 'I', 'F', 'T', 'H'],
   ['T', 'W', 'O', '_', 'H', 'U', 'N', 'D', 'R', 'E', 'D', '_', 'A', 'N', 'D', '_', 'F', 'O', 'R', 'T', 'Y', '_', 'F', 'I', 'R', 'S', 'T'],
   ['T', 'W', 'O', '_', 'H', 'U', 'N', 'D', 'R', 'E', 'D', '_', 'A', 'N', 'D', '_', 'F', 'O', 'R', 'T', 'Y', '_', 'F', 'O', 'U', 'R', 'T', 'H'],
   ['T', 'W', 'O', '_', 'H', 'U', 'N', 'D', 'R', 'E', 'D', '_', 'A', 'N', 'D', '_', 'F', 'O', 'R', 'T', 'Y', '_', 'N', 'I', 'N', 'T', 'H'],
   ['T', 'W', 'O', '_', 'H', 'U', 'N', 'D', 'R', 'E', 'D', '_', 'A', 'N', 'D', '_', 'F', 'O', 'R', 'T', 'Y', '_', 'S', 'E', 'C', 'O', 'N', 'D'],
   ['T', 'W', 'O', '_', 'H', 'U', 'N', 'D', 'R', 'E', 'D', '_', 'A', 'N', 'D', '_', 'F', 'O', 'R', 'T', 'Y', '_', 'S', 'E', 'V', 'E', 'N', 'T', 'H'],
   ['T', 'W', 'O', '_', 'H', 'U', 'N', 'D', 'R', 'E', 'D', '_', 'A', 'N', 'D', '_', 'F', 'O', 'R', 'T', 'Y', '_', 'S', 'I', 'X', 'T', 'H'],
   ['T', 'W', 'O', '_', 'H', 'U', 'N', 'D', 'R', 'E', 'D', '_', 'A', 'N', 'D', '_', 'F', 'O', 'R', 'T', 'Y', '_', 'T', 'H', 'I', 'R', 'D'],
   ['T', 'W', 'O', '_', 'H', 'U', 'N', 'D', 'R', 'E', 'D', '_', 'A', 'N', 'D', '_', 'N', 'I', 'N', 'E', 'T', 'E', 'E', 'N', 'T', 'H'],
   ['T', 'W', 'O', '_', 'H', 'U', 'N', 'D', 'R', 'E', 'D', '_', 'A', 'N', 'D', '_', 'N', 'I', 'N', 'T', 'H'],
   ['T', 'W', 'O', '_', 'H', 'U', 'N', 'D', 'R', 'E', 'D', '_', 'A', 'N', 'D', '_', 'S', 'E', 'C', 'O', 'N', 'D'],
   ['T', 'W', 'O', '_', 'H', 'U', 'N', 'D', 'R', 'E', 'D', '_', 'A', 'N', 'D', '_', 'S', 'E', 'V', 'E', 'N', 'T', 'E', 'E', 'N', 'T', 'H'],
   ['T', 'W', 'O', '_', 'H', 'U', 'N', 'D', 'R', 'E', 'D', '_', 'A', 'N', 'D', '_', 'S', 'E', 'V', 'E', 'N', 'T', 'H'],
   ['T', 'W', 'O', '_', 'H', 'U', 'N', 'D', 'R', 'E', 'D', '_', 'A', 'N', 'D', '_', 'S', 'I', 'X', 'T', 'E', 'E', 'N', 'T', 'H'],
   ['T', 'W', 'O', '_', 'H', 'U', 'N', 'D', 'R', 'E', 'D', '_', 'A', 'N', 'D', '_', 'S', 'I', 'X', 'T', 'H'],
   ['T', 'W', 'O', '_', 'H', 'U', 'N', 'D', 'R', 'E', 'D', '_', 'A', 'N', 'D', '_', 'T', 'E', 'N', 'T', 'H'],
   ['T', 'W', 'O', '_', 'H', 'U', 'N', 'D', 'R', 'E', 'D', '_', 'A', 'N', 'D', '_', 'T', 'H', 'I', 'R', 'D'],
   ['T', 'W', 'O', '_', 'H', 'U', 'N', 'D', 'R', 'E', 'D', '_', 'A', 'N', 'D', '_', 'T', 'H', 'I', 'R', 'T', 'E', 'E', 'N', 'T', 'H'],
   ['T', 'W', 'O', '_', 'H', 'U', 'N', 'D', 'R', 'E', 'D', '_', 'A', 'N', 'D', '_', 'T', 'H', 'I', 'R', 'T', 'Y', '_', 'E', 'I', 'G', 'H', 'T', 'H'],
   ['T', 'W', 'O', '_', 'H', 'U', 'N', 'D', 'R', 'E', 'D', '_', 'A', 'N', 'D', '_', 'T', 'H', 'I', 'R', 'T', 'Y', '_', 'F', 'I', 'F', 'T', 'H'],
   ['T', 'W', 'O', '_', 'H', 'U', 'N', 'D', 'R', 'E', 'D', '_', 'A', 'N', 'D', '_', 'T', 'H', 'I', 'R', 'T', 'Y', '_', 'F', 'I', 'R', 'S', 'T'],
   ['T', 'W', 'O', '_', 'H', 'U', 'N', 'D', 'R', 'E', 'D', '_', 'A', 'N', 'D', '_', 'T', 'H', 'I', 'R', 'T', 'Y', '_', 'F', 'O', 'U', 'R', 'T', 'H'],
   ['T', 'W', 'O', '_', 'H', 'U', 'N', 'D', 'R', 'E', 'D', '_', 'A', 'N', 'D', '_', 'T', 'H', 'I', 'R', 'T', 'Y', '_', 'N', 'I', 'N', 'T', 'H'],
   ['T', 'W', 'O', '_', 'H', 'U', 'N', 'D', 'R', 'E', 'D', '_', 'A', 'N', 'D', '_', 'T', 'H', 'I', 'R', 'T', 'Y', '_', 'S', 'E', 'C', 'O', 'N', 'D'],
   ['T', 'W', 'O', '_', 'H', 'U', 'N', 'D', 'R', 'E', 'D', '_', 'A', 'N', 'D', '_', 'T', 'H', 'I', 'R', 'T', 'Y', '_', 'S', 'E', 'V', 'E', 'N', 'T', 'H'],
   ['T', 'W', 'O', '_', 'H', 'U', 'N', 'D', 'R', 'E', 'D', '_', 'A', 'N', 'D', '_', 'T', 'H', 'I', 'R', 'T', 'Y', '_', 'S', 'I', 'X', 'T', 'H'],
   ['T', 'W', 'O', '_', 'H', 'U', 'N', 'D', 'R', 'E', 'D', '_', 'A', 'N', 'D', '_', 'T', 'H', 'I', 'R', 'T', 'Y', '_', 'T', 'H', 'I', 'R', 'D'],
   ['T', 'W', 'O', '_', 'H', 'U', 'N', 'D', 'R', 'E', 'D', '_', 'A', 'N', 'D', '_', 'T', 'W', 'E', 'L', 'V', 'E', 'T', 'H'],
   ['T', 'W', 'O', '_', 'H', 'U', 'N', 'D', 'R', 'E', 'D', '_', 'A', 'N', 'D', '_', 'T', 'W', 'E', 'N', 'T', 'Y', '_', 'E', 'I', 'G', 'H', 'T', 'H'],
   ['T', 'W', 'O', '_', 'H', 'U', 'N', 'D', 'R', 'E', 'D', '_', 'A', 'N', 'D', '_', 'T', 'W', 'E', 'N', 'T', 'Y', '_', 'F', 'I', 'F', 'T', 'H'],
   ['T', 'W', 'O', '_', 'H', 'U', 'N', 'D', 'R', 'E', 'D', '_', 'A', 'N', 'D', '_', 'T', 'W', 'E', 'N', 'T', 'Y', '_', 'F', 'I', 'R', 'S', 'T'],
   ['T', 'W', 'O', '_', 'H', 'U', 'N', 'D', 'R', 'E', 'D', '_', 'A', 'N', 'D', '_', 'T', 'W', 'E', 'N', 'T', 'Y', '_', 'F', 'O', 'U', 'R', 'T', 'H'],
   ['T', 'W', 'O', '_', 'H', 'U', 'N', 'D', 'R', 'E', 'D', '_', 'A', 'N', 'D', '_', 'T', 'W', 'E', 'N', 'T', 'Y', '_', 'N', 'I', 'N', 'T', 'H'],
   ['T', 'W', 'O', '_', 'H', 'U', 'N', 'D', 'R', 'E', 'D', '_', 'A', 'N', 'D', '_', 'T', 'W', 'E', 'N', 'T', 'Y', '_', 'S', 'E', 'C', 'O', 'N', 'D'],
   ['T', 'W', 'O', '_', 'H', 'U', 'N', 'D', 'R', 'E', 'D', '_', 'A', 'N', 'D', '_', 'T', 'W', 'E', 'N', 'T', 'Y', '_', 'S', 'E', 'V', 'E', 'N', 'T', 'H'],
   ['T', 'W', 'O', '_', 'H', 'U', 'N', 'D', 'R', 'E', 'D', '_', 'A', 'N', 'D', '_', 'T', 'W', 'E', 'N', 'T', 'Y', '_', 'S', 'I', 'X', 'T', 'H'],
   ['T', 'W', 'O', '_', 'H', 'U', 'N', 'D', 'R', 'E', 'D', '_', 'A', 'N', 'D', '_', 'T', 'W', 'E', 'N', 'T', 'Y', '_', 'T', 'H', 'I', 'R', 'D'],
   ['T', 'W', 'O', '_', 'H', 'U', 'N', 'D', 'R', 'E', 'D', '_', 'F', 'I', 'F', 'T', 'I', 'E', 'T', 'H'],
   ['T', 'W', 'O', '_', 'H', 'U', 'N', 'D', 'R', 'E', 'D', '_', 'F', 'O', 'R', 'T', 'I', 'E', 'T', 'H'],
   ['T', 'W', 'O', '_', 'H', 'U', 'N', 'D', 'R', 'E', 'D', '_', 'T', 'H', 'I', 'R', 'T', 'I', 'E', 'T', 'H'],
   ['T', 'W', 'O', '_', 'H', 'U', 'N', 'D', 'R', 'E', 'D', '_', 'T', 'W', 'E', 'N', 'T', 'I', 'E', 'T', 'H'],
   ['T', 'W', 'O', '_', 'H', 'U', 'N', 'D', 'R', 'E', 'D', 'T', 'H'],
   ['U', 'N', 'K', 'N', 'O', 'W', 'N'],
   ['U', 'P', 'P', 'E', 'R']]]

/-- Where each location of the package's enumeration stands in the ascending table. -/
def locationOrder : List Nat := [
  264, 257, 263, 259, 18, 8, 80, 88, 85, 81, 84, 89, 82, 87, 86, 83, 11, 272, 15, 5, 50, 58, 55, 51, 54, 59, 52, 57,
  56, 53, 1, 266, 40, 14, 4, 48, 45, 41, 44, 49, 42, 47, 46, 43, 256, 267, 271, 269, 261, 262, 19, 9, 90, 98, 95, 91,
  94, 99, 92, 97, 96, 93, 118, 108, 188, 185, 181, 184, 189, 182, 187, 186, 183, 111, 115, 105, 158, 155, 151, 154,
  159, 152, 157, 156, 153, 101, 114, 104, 148, 145, 141, 144, 149, 142, 147, 146, 143, 119, 109, 198, 195, 191, 194,
  199, 192, 197, 196, 193, 102, 117, 107, 178, 175, 171, 174, 179, 172, 177, 176, 173, 116, 106, 168, 165, 161, 164,
  169, 162, 167, 166, 163, 110, 103, 113, 138, 135, 131, 134, 139, 132, 137, 136, 133, 112, 128, 125, 121, 124, 129,
  122, 127, 126, 123, 180, 150, 140, 190, 170, 160, 130, 120, 100, 268, 270, 2, 17, 7, 70, 78, 75, 71, 74, 79, 72,
  77, 76, 73, 16, 6, 60, 68, 65, 61, 64, 69, 62, 67, 66, 63, 265, 10, 3, 13, 30, 38, 35, 31, 34, 39, 32, 37, 36, 33,
  258, 12, 20, 28, 25, 21, 24, 29, 22, 27, 26, 23, 218, 208, 211, 215, 205, 255, 251, 254, 252, 253, 201, 214, 204,
  248, 245, 241, 244, 249, 242, 247, 246, 243, 219, 209, 202, 217, 207, 216, 206, 210, 203, 213, 238, 235, 231, 234,
  239, 232, 237, 236, 233, 212, 228, 225, 221, 224, 229, 222, 227, 226, 223, 250, 240, 230, 220, 200, 0, 260]

/-- Where each property of the package's enumeration stands in the ascending table. -/
def propertyOrder : List Nat := [
  0, 1, 2, 3, 4, 5, 6, 7, 8, 9, 10, 11, 12, 13, 14, 15, 16, 17, 18, 19, 20, 21, 22, 23, 24, 25, 26, 27, 28, 29, 30,
  31, 32, 33, 34, 35, 36, 37, 38, 39, 40, 41, 42, 43, 44, 45, 46, 47, 48, 49, 50, 51, 52, 53, 54, 55, 56, 57, 58, 59,
  60, 61, 62, 63, 64, 65, 66, 67, 68, 69, 70, 71, 72, 73, 74, 75, 76, 77, 78, 79, 80, 81, 82, 83, 84, 85, 86, 87, 88,
  89, 90, 91, 92, 93, 94, 95, 96, 97, 98, 99, 100, 101, 102, 103, 104, 105, 106, 107, 108, 109, 110, 111, 113, 114,
  117, 118, 120, 119, 121, 122, 123, 124, 125, 126, 127, 128, 129, 130, 131, 132, 133, 134, 135, 136, 137, 138, 139,
  140, 141, 142, 143, 144, 145, 146, 147, 148, 149, 151, 152, 153, 154, 150, 115, 116, 112]

end BM
