import Verif.Tables
/-!
# The opcode names, letter by letter

Generated by `tools/gen_names.py`; only used to spare the kernel the decoding of strings.
-/
namespace BM

def nameChars : List (List Char) := [
  ['C', 'O', 'N', 'F', 'I', 'G', '_', 'A', 'P', 'P', 'K', 'E', 'Y', '_', 'A', 'D', 'D'],
  ['C', 'O', 'N', 'F', 'I', 'G', '_', 'A', 'P', 'P', 'K', 'E', 'Y', '_', 'D', 'E', 'L', 'E', 'T', 'E'],
  ['C', 'O', 'N', 'F', 'I', 'G', '_', 'A', 'P', 'P', 'K', 'E', 'Y', '_', 'G', 'E', 'T'],
  ['C', 'O', 'N', 'F', 'I', 'G', '_', 'A', 'P', 'P', 'K', 'E', 'Y', '_', 'L', 'I', 'S', 'T'],
  ['C', 'O', 'N', 'F', 'I', 'G', '_', 'A', 'P', 'P', 'K', 'E', 'Y', '_', 'S', 'T', 'A', 'T', 'U', 'S'],
  ['C', 'O', 'N', 'F', 'I', 'G', '_', 'A', 'P', 'P', 'K', 'E', 'Y', '_', 'U', 'P', 'D', 'A', 'T', 'E'],
  ['C', 'O', 'N', 'F', 'I', 'G', '_', 'B', 'E', 'A', 'C', 'O', 'N', '_', 'G', 'E', 'T'],
  ['C', 'O', 'N', 'F', 'I', 'G', '_', 'B', 'E', 'A', 'C', 'O', 'N', '_', 'S', 'E', 'T'],
  ['C', 'O', 'N', 'F', 'I', 'G', '_', 'B', 'E', 'A', 'C', 'O', 'N', '_', 'S', 'T', 'A', 'T', 'U', 'S'],
  ['C', 'O', 'N', 'F', 'I', 'G', '_', 'C', 'O', 'M', 'P', 'O', 'S', 'I', 'T', 'I', 'O', 'N', '_', 'D', 'A', 'T', 'A', '_', 'G', 'E', 'T'],
  ['C', 'O', 'N', 'F', 'I', 'G', '_', 'C', 'O', 'M', 'P', 'O', 'S', 'I', 'T', 'I', 'O', 'N', '_', 'D', 'A', 'T', 'A', '_', 'S', 'T', 'A', 'T', 'U', 'S'],
  ['C', 'O', 'N', 'F', 'I', 'G', '_', 'D', 'E', 'F', 'A', 'U', 'L', 'T', '_', 'T', 'T', 'L', '_', 'G', 'E', 'T'],
  ['C', 'O', 'N', 'F', 'I', 'G', '_', 'D', 'E', 'F', 'A', 'U', 'L', 'T', '_', 'T', 'T', 'L', '_', 'S', 'E', 'T'],
  ['C', 'O', 'N', 'F', 'I', 'G', '_', 'D', 'E', 'F', 'A', 'U', 'L', 'T', '_', 'T', 'T', 'L', '_', 'S', 'T', 'A', 'T', 'U', 'S'],
  ['C', 'O', 'N', 'F', 'I', 'G', '_', 'F', 'R', 'I', 'E', 'N', 'D', '_', 'G', 'E', 'T'],
  ['C', 'O', 'N', 'F', 'I', 'G', '_', 'F', 'R', 'I', 'E', 'N', 'D', '_', 'S', 'E', 'T'],
  ['C', 'O', 'N', 'F', 'I', 'G', '_', 'F', 'R', 'I', 'E', 'N', 'D', '_', 'S', 'T', 'A', 'T', 'U', 'S'],
  ['C', 'O', 'N', 'F', 'I', 'G', '_', 'G', 'A', 'T', 'T', '_', 'P', 'R', 'O', 'X', 'Y', '_', 'G', 'E', 'T'],
  ['C', 'O', 'N', 'F', 'I', 'G', '_', 'G', 'A', 'T', 'T', '_', 'P', 'R', 'O', 'X', 'Y', '_', 'S', 'E', 'T'],
  ['C', 'O', 'N', 'F', 'I', 'G', '_', 'G', 'A', 'T', 'T', '_', 'P', 'R', 'O', 'X', 'Y', '_', 'S', 'T', 'A', 'T', 'U', 'S'],
  ['C', 'O', 'N', 'F', 'I', 'G', '_', 'H', 'E', 'A', 'R', 'B', 'E', 'A', 'T', '_', 'P', 'U', 'B', 'L', 'I', 'C', 'A', 'T', 'I', 'O', 'N', '_', 'G', 'E', 'T'],
  ['C', 'O', 'N', 'F', 'I', 'G', '_', 'H', 'E', 'A', 'R', 'B', 'E', 'A', 'T', '_', 'P', 'U', 'B', 'L', 'I', 'C', 'A', 'T', 'I', 'O', 'N', '_', 'S', 'E', 'T'],
  ['C', 'O', 'N', 'F', 'I', 'G', '_', 'H', 'E', 'A', 'R', 'B', 'E', 'A', 'T', '_', 'P', 'U', 'B', 'L', 'I', 'C', 'A', 'T', 'I', 'O', 'N', '_', 'S', 'T', 'A', 'T', 'U', 'S'],
  ['C', 'O', 'N', 'F', 'I', 'G', '_', 'H', 'E', 'A', 'R', 'B', 'E', 'A', 'T', '_', 'S', 'U', 'B', 'S', 'C', 'R', 'I', 'P', 'T', 'I', 'O', 'N', '_', 'G', 'E', 'T'],
  ['C', 'O', 'N', 'F', 'I', 'G', '_', 'H', 'E', 'A', 'R', 'B', 'E', 'A', 'T', '_', 'S', 'U', 'B', 'S', 'C', 'R', 'I', 'P', 'T', 'I', 'O', 'N', '_', 'S', 'E', 'T'],
  ['C', 'O', 'N', 'F', 'I', 'G', '_', 'H', 'E', 'A', 'R', 'B', 'E', 'A', 'T', '_', 'S', 'U', 'B', 'S', 'C', 'R', 'I', 'P', 'T', 'I', 'O', 'N', '_', 'S', 'T', 'A', 'T', 'U', 'S'],
  ['C', 'O', 'N', 'F', 'I', 'G', '_', 'K', 'E', 'Y', '_', 'R', 'E', 'F', 'R', 'E', 'S', 'H', '_', 'P', 'H', 'A', 'S', 'E', '_', 'G', 'E', 'T'],
  ['C', 'O', 'N', 'F', 'I', 'G', '_', 'K', 'E', 'Y', '_', 'R', 'E', 'F', 'R', 'E', 'S', 'H', '_', 'P', 'H', 'A', 'S', 'E', '_', 'S', 'E', 'T'],
  ['C', 'O', 'N', 'F', 'I', 'G', '_', 'K', 'E', 'Y', '_', 'R', 'E', 'F', 'R', 'E', 'S', 'H', '_', 'P', 'H', 'A', 'S', 'E', '_', 'S', 'T', 'A', 'T', 'U', 'S'],
  ['C', 'O', 'N', 'F', 'I', 'G', '_', 'L', 'O', 'W', '_', 'P', 'O', 'W', 'E', 'R', '_', 'N', 'O', 'D', 'E', '_', 'P', 'O', 'L', 'L', '_', 'T', 'I', 'M', 'E', 'O', 'U', 'T', '_', 'G', 'E', 'T'],
  ['C', 'O', 'N', 'F', 'I', 'G', '_', 'L', 'O', 'W', '_', 'P', 'O', 'W', 'E', 'R', '_', 'N', 'O', 'D', 'E', '_', 'P', 'O', 'L', 'L', '_', 'T', 'I', 'M', 'E', 'O', 'U', 'T', '_', 'S', 'T', 'A', 'T', 'U', 'S'],
  ['C', 'O', 'N', 'F', 'I', 'G', '_', 'M', 'O', 'D', 'E', 'L', '_', 'A', 'P', 'P', '_', 'B', 'I', 'N', 'D'],
  ['C', 'O', 'N', 'F', 'I', 'G', '_', 'M', 'O', 'D', 'E', 'L', '_', 'A', 'P', 'P', '_', 'S', 'T', 'A', 'T', 'U', 'S'],
  ['C', 'O', 'N', 'F', 'I', 'G', '_', 'M', 'O', 'D', 'E', 'L', '_', 'A', 'P', 'P', '_', 'U', 'N', 'B', 'I', 'N', 'D'],
  ['C', 'O', 'N', 'F', 'I', 'G', '_', 'M', 'O', 'D', 'E', 'L', '_', 'P', 'U', 'B', 'L', 'I', 'C', 'A', 'T', 'I', 'O', 'N', '_', 'G', 'E', 'T'],
  ['C', 'O', 'N', 'F', 'I', 'G', '_', 'M', 'O', 'D', 'E', 'L', '_', 'P', 'U', 'B', 'L', 'I', 'C', 'A', 'T', 'I', 'O', 'N', '_', 'S', 'E', 'T'],
  ['C', 'O', 'N', 'F', 'I', 'G', '_', 'M', 'O', 'D', 'E', 'L', '_', 'P', 'U', 'B', 'L', 'I', 'C', 'A', 'T', 'I', 'O', 'N', '_', 'S', 'T', 'A', 'T', 'U', 'S'],
  ['C', 'O', 'N', 'F', 'I', 'G', '_', 'M', 'O', 'D', 'E', 'L', '_', 'P', 'U', 'B', 'L', 'I', 'C', 'A', 'T', 'I', 'O', 'N', '_', 'V', 'I', 'R', 'T', 'U', 'A', 'L', '_', 'A', 'D', 'D', 'R', 'E', 'S', 'S', '_', 'S', 'E', 'T'],
  ['C', 'O', 'N', 'F', 'I', 'G', '_', 'M', 'O', 'D', 'E', 'L', '_', 'S', 'U', 'B', 'S', 'C', 'R', 'I', 'P', 'T', 'I', 'O', 'N', '_', 'A', 'D', 'D'],
  ['C', 'O', 'N', 'F', 'I', 'G', '_', 'M', 'O', 'D', 'E', 'L', '_', 'S', 'U', 'B', 'S', 'C', 'R', 'I', 'P', 'T', 'I', 'O', 'N', '_', 'D', 'E', 'L', 'E', 'T', 'E'],
  ['C', 'O', 'N', 'F', 'I', 'G', '_', 'M', 'O', 'D', 'E', 'L', '_', 'S', 'U', 'B', 'S', 'C', 'R', 'I', 'P', 'T', 'I', 'O', 'N', '_', 'D', 'E', 'L', 'E', 'T', 'E', '_', 'A', 'L', 'L'],
  ['C', 'O', 'N', 'F', 'I', 'G', '_', 'M', 'O', 'D', 'E', 'L', '_', 'S', 'U', 'B', 'S', 'C', 'R', 'I', 'P', 'T', 'I', 'O', 'N', '_', 'O', 'V', 'E', 'R', 'W', 'R', 'I', 'T', 'E'],
  ['C', 'O', 'N', 'F', 'I', 'G', '_', 'M', 'O', 'D', 'E', 'L', '_', 'S', 'U', 'B', 'S', 'C', 'R', 'I', 'P', 'T', 'I', 'O', 'N', '_', 'S', 'T', 'A', 'T', 'U', 'S'],
  ['C', 'O', 'N', 'F', 'I', 'G', '_', 'M', 'O', 'D', 'E', 'L', '_', 'S', 'U', 'B', 'S', 'C', 'R', 'I', 'P', 'T', 'I', 'O', 'N', '_', 'V', 'I', 'R', 'T', 'U', 'A', 'L', '_', 'A', 'D', 'D', 'R', 'E', 'S', 'S', '_', 'A', 'D', 'D'],
  ['C', 'O', 'N', 'F', 'I', 'G', '_', 'M', 'O', 'D', 'E', 'L', '_', 'S', 'U', 'B', 'S', 'C', 'R', 'I', 'P', 'T', 'I', 'O', 'N', '_', 'V', 'I', 'R', 'T', 'U', 'A', 'L', '_', 'A', 'D', 'D', 'R', 'E', 'S', 'S', '_', 'D', 'E', 'L', 'E', 'T', 'E'],
  ['C', 'O', 'N', 'F', 'I', 'G', '_', 'M', 'O', 'D', 'E', 'L', '_', 'S', 'U', 'B', 'S', 'C', 'R', 'I', 'P', 'T', 'I', 'O', 'N', '_', 'V', 'I', 'R', 'T', 'U', 'A', 'L', '_', 'A', 'D', 'D', 'R', 'E', 'S', 'S', '_', 'O', 'V', 'E', 'R', 'W', 'R', 'I', 'T', 'E'],
  ['C', 'O', 'N', 'F', 'I', 'G', '_', 'N', 'E', 'T', 'K', 'E', 'Y', '_', 'A', 'D', 'D'],
  ['C', 'O', 'N', 'F', 'I', 'G', '_', 'N', 'E', 'T', 'K', 'E', 'Y', '_', 'D', 'E', 'L', 'E', 'T', 'E'],
  ['C', 'O', 'N', 'F', 'I', 'G', '_', 'N', 'E', 'T', 'K', 'E', 'Y', '_', 'G', 'E', 'T'],
  ['C', 'O', 'N', 'F', 'I', 'G', '_', 'N', 'E', 'T', 'K', 'E', 'Y', '_', 'L', 'I', 'S', 'T'],
  ['C', 'O', 'N', 'F', 'I', 'G', '_', 'N', 'E', 'T', 'K', 'E', 'Y', '_', 'S', 'T', 'A', 'T', 'U', 'S'],
  ['C', 'O', 'N', 'F', 'I', 'G', '_', 'N', 'E', 'T', 'K', 'E', 'Y', '_', 'U', 'P', 'D', 'A', 'T', 'E'],
  ['C', 'O', 'N', 'F', 'I', 'G', '_', 'N', 'E', 'T', 'W', 'O', 'R', 'K', '_', 'T', 'R', 'A', 'N', 'S', 'M', 'I', 'T', '_', 'G', 'E', 'T'],
  ['C', 'O', 'N', 'F', 'I', 'G', '_', 'N', 'E', 'T', 'W', 'O', 'R', 'K', '_', 'T', 'R', 'A', 'N', 'S', 'M', 'I', 'T', '_', 'S', 'E', 'T'],
  ['C', 'O', 'N', 'F', 'I', 'G', '_', 'N', 'E', 'T', 'W', 'O', 'R', 'K', '_', 'T', 'R', 'A', 'N', 'S', 'M', 'I', 'T', '_', 'S', 'T', 'A', 'T', 'U', 'S'],
  ['C', 'O', 'N', 'F', 'I', 'G', '_', 'N', 'O', 'D', 'E', '_', 'I', 'D', 'E', 'N', 'T', 'I', 'T', 'Y', '_', 'G', 'E', 'T'],
  ['C', 'O', 'N', 'F', 'I', 'G', '_', 'N', 'O', 'D', 'E', '_', 'I', 'D', 'E', 'N', 'T', 'I', 'T', 'Y', '_', 'S', 'E', 'T'],
  ['C', 'O', 'N', 'F', 'I', 'G', '_', 'N', 'O', 'D', 'E', '_', 'I', 'D', 'E', 'N', 'T', 'I', 'T', 'Y', '_', 'S', 'T', 'A', 'T', 'U', 'S'],
  ['C', 'O', 'N', 'F', 'I', 'G', '_', 'N', 'O', 'D', 'E', '_', 'R', 'E', 'S', 'E', 'T'],
  ['C', 'O', 'N', 'F', 'I', 'G', '_', 'N', 'O', 'D', 'E', '_', 'R', 'E', 'S', 'E', 'T', '_', 'S', 'T', 'A', 'T', 'U', 'S'],
  ['C', 'O', 'N', 'F', 'I', 'G', '_', 'R', 'E', 'L', 'A', 'Y', '_', 'G', 'E', 'T'],
  ['C', 'O', 'N', 'F', 'I', 'G', '_', 'R', 'E', 'L', 'A', 'Y', '_', 'S', 'E', 'T'],
  ['C', 'O', 'N', 'F', 'I', 'G', '_', 'R', 'E', 'L', 'A', 'Y', '_', 'S', 'T', 'A', 'T', 'U', 'S'],
  ['C', 'O', 'N', 'F', 'I', 'G', '_', 'S', 'I', 'G', '_', 'M', 'O', 'D', 'E', 'L', '_', 'A', 'P', 'P', '_', 'G', 'E', 'T'],
  ['C', 'O', 'N', 'F', 'I', 'G', '_', 'S', 'I', 'G', '_', 'M', 'O', 'D', 'E', 'L', '_', 'A', 'P', 'P', '_', 'L', 'I', 'S', 'T'],
  ['C', 'O', 'N', 'F', 'I', 'G', '_', 'S', 'I', 'G', '_', 'M', 'O', 'D', 'E', 'L', '_', 'S', 'U', 'B', 'S', 'C', 'R', 'I', 'P', 'T', 'I', 'O', 'N', '_', 'G', 'E', 'T'],
  ['C', 'O', 'N', 'F', 'I', 'G', '_', 'S', 'I', 'G', '_', 'M', 'O', 'D', 'E', 'L', '_', 'S', 'U', 'B', 'S', 'C', 'R', 'I', 'P', 'T', 'I', 'O', 'N', '_', 'L', 'I', 'S', 'T'],
  ['C', 'O', 'N', 'F', 'I', 'G', '_', 'V', 'E', 'N', 'D', 'O', 'R', '_', 'M', 'O', 'D', 'E', 'L', '_', 'A', 'P', 'P', '_', 'G', 'E', 'T'],
  ['C', 'O', 'N', 'F', 'I', 'G', '_', 'V', 'E', 'N', 'D', 'O', 'R', '_', 'M', 'O', 'D', 'E', 'L', '_', 'A', 'P', 'P', '_', 'L', 'I', 'S', 'T'],
  ['C', 'O', 'N', 'F', 'I', 'G', '_', 'V', 'E', 'N', 'D', 'O', 'R', '_', 'M', 'O', 'D', 'E', 'L', '_', 'S', 'U', 'B', 'S', 'C', 'R', 'I', 'P', 'T', 'I', 'O', 'N', '_', 'G', 'E', 'T'],
  ['C', 'O', 'N', 'F', 'I', 'G', '_', 'V', 'E', 'N', 'D', 'O', 'R', '_', 'M', 'O', 'D', 'E', 'L', '_', 'S', 'U', 'B', 'S', 'C', 'R', 'I', 'P', 'T', 'I', 'O', 'N', '_', 'L', 'I', 'S', 'T'],
  ['S', 'I', 'L', 'V', 'A', 'I', 'R', '_', 'D', 'E', 'B', 'U', 'G'],
  ['S', 'I', 'L', 'V', 'A', 'I', 'R', '_', 'G', 'A', 'T', 'E', 'W', 'A', 'Y'],
  ['G', 'E', 'N', 'E', 'R', 'I', 'C', '_', 'O', 'N', 'O', 'F', 'F', '_', 'G', 'E', 'T'],
  ['G', 'E', 'N', 'E', 'R', 'I', 'C', '_', 'O', 'N', 'O', 'F', 'F', '_', 'S', 'E', 'T'],
  ['G', 'E', 'N', 'E', 'R', 'I', 'C', '_', 'O', 'N', 'O', 'F', 'F', '_', 'S', 'E', 'T', '_', 'U', 'N', 'A', 'C', 'K', 'N', 'O', 'W', 'L', 'E', 'D', 'G', 'E', 'D'],
  ['G', 'E', 'N', 'E', 'R', 'I', 'C', '_', 'O', 'N', 'O', 'F', 'F', '_', 'S', 'T', 'A', 'T', 'U', 'S'],
  ['G', 'E', 'N', 'E', 'R', 'I', 'C', '_', 'B', 'A', 'T', 'T', 'E', 'R', 'Y', '_', 'G', 'E', 'T'],
  ['G', 'E', 'N', 'E', 'R', 'I', 'C', '_', 'B', 'A', 'T', 'T', 'E', 'R', 'Y', '_', 'S', 'T', 'A', 'T', 'U', 'S'],
  ['G', 'E', 'N', 'E', 'R', 'I', 'C', '_', 'L', 'E', 'V', 'E', 'L', '_', 'G', 'E', 'T'],
  ['G', 'E', 'N', 'E', 'R', 'I', 'C', '_', 'L', 'E', 'V', 'E', 'L', '_', 'S', 'E', 'T'],
  ['G', 'E', 'N', 'E', 'R', 'I', 'C', '_', 'L', 'E', 'V', 'E', 'L', '_', 'S', 'E', 'T', '_', 'U', 'N', 'A', 'C', 'K', 'N', 'O', 'W', 'L', 'E', 'D', 'G', 'E', 'D'],
  ['G', 'E', 'N', 'E', 'R', 'I', 'C', '_', 'L', 'E', 'V', 'E', 'L', '_', 'S', 'T', 'A', 'T', 'U', 'S'],
  ['G', 'E', 'N', 'E', 'R', 'I', 'C', '_', 'D', 'E', 'L', 'T', 'A', '_', 'S', 'E', 'T'],
  ['G', 'E', 'N', 'E', 'R', 'I', 'C', '_', 'D', 'E', 'L', 'T', 'A', '_', 'S', 'E', 'T', '_', 'U', 'N', 'A', 'C', 'K', 'N', 'O', 'W', 'L', 'E', 'D', 'G', 'E', 'D'],
  ['G', 'E', 'N', 'E', 'R', 'I', 'C', '_', 'M', 'O', 'V', 'E', '_', 'S', 'E', 'T'],
  ['G', 'E', 'N', 'E', 'R', 'I', 'C', '_', 'M', 'O', 'V', 'E', '_', 'S', 'E', 'T', '_', 'U', 'N', 'A', 'C', 'K', 'N', 'O', 'W', 'L', 'E', 'D', 'G', 'E', 'D'],
  ['L', 'I', 'G', 'H', 'T', '_', 'L', 'I', 'G', 'H', 'T', 'N', 'E', 'S', 'S', '_', 'G', 'E', 'T'],
  ['L', 'I', 'G', 'H', 'T', '_', 'L', 'I', 'G', 'H', 'T', 'N', 'E', 'S', 'S', '_', 'S', 'E', 'T'],
  ['L', 'I', 'G', 'H', 'T', '_', 'L', 'I', 'G', 'H', 'T', 'N', 'E', 'S', 'S', '_', 'S', 'E', 'T', '_', 'U', 'N', 'A', 'C', 'K', 'N', 'O', 'W', 'L', 'E', 'D', 'G', 'E', 'D'],
  ['L', 'I', 'G', 'H', 'T', '_', 'L', 'I', 'G', 'H', 'T', 'N', 'E', 'S', 'S', '_', 'S', 'T', 'A', 'T', 'U', 'S'],
  ['L', 'I', 'G', 'H', 'T', '_', 'L', 'I', 'G', 'H', 'T', 'N', 'E', 'S', 'S', '_', 'L', 'I', 'N', 'E', 'A', 'R', '_', 'G', 'E', 'T'],
  ['L', 'I', 'G', 'H', 'T', '_', 'L', 'I', 'G', 'H', 'T', 'N', 'E', 'S', 'S', '_', 'L', 'I', 'N', 'E', 'A', 'R', '_', 'S', 'E', 'T'],
  ['L', 'I', 'G', 'H', 'T', '_', 'L', 'I', 'G', 'H', 'T', 'N', 'E', 'S', 'S', '_', 'L', 'I', 'N', 'E', 'A', 'R', '_', 'S', 'E', 'T', '_', 'U', 'N', 'A', 'C', 'K', 'N', 'O', 'W', 'L', 'E', 'D', 'G', 'E', 'D'],
  ['L', 'I', 'G', 'H', 'T', '_', 'L', 'I', 'G', 'H', 'T', 'N', 'E', 'S', 'S', '_', 'L', 'I', 'N', 'E', 'A', 'R', '_', 'S', 'T', 'A', 'T', 'U', 'S'],
  ['L', 'I', 'G', 'H', 'T', '_', 'L', 'I', 'G', 'H', 'T', 'N', 'E', 'S', 'S', '_', 'L', 'A', 'S', 'T', '_', 'G', 'E', 'T'],
  ['L', 'I', 'G', 'H', 'T', '_', 'L', 'I', 'G', 'H', 'T', 'N', 'E', 'S', 'S', '_', 'L', 'A', 'S', 'T', '_', 'S', 'T', 'A', 'T', 'U', 'S'],
  ['L', 'I', 'G', 'H', 'T', '_', 'L', 'I', 'G', 'H', 'T', 'N', 'E', 'S', 'S', '_', 'D', 'E', 'F', 'A', 'U', 'L', 'T', '_', 'G', 'E', 'T'],
  ['L', 'I', 'G', 'H', 'T', '_', 'L', 'I', 'G', 'H', 'T', 'N', 'E', 'S', 'S', '_', 'D', 'E', 'F', 'A', 'U', 'L', 'T', '_', 'S', 'T', 'A', 'T', 'U', 'S'],
  ['L', 'I', 'G', 'H', 'T', '_', 'L', 'I', 'G', 'H', 'T', 'N', 'E', 'S', 'S', '_', 'R', 'A', 'N', 'G', 'E', '_', 'G', 'E', 'T'],
  ['L', 'I', 'G', 'H', 'T', '_', 'L', 'I', 'G', 'H', 'T', 'N', 'E', 'S', 'S', '_', 'R', 'A', 'N', 'G', 'E', '_', 'S', 'T', 'A', 'T', 'U', 'S'],
  ['L', 'I', 'G', 'H', 'T', '_', 'L', 'I', 'G', 'H', 'T', 'N', 'E', 'S', 'S', '_', 'S', 'E', 'T', 'U', 'P', '_', 'D', 'E', 'F', 'A', 'U', 'L', 'T', '_', 'S', 'E', 'T'],
  ['L', 'I', 'G', 'H', 'T', '_', 'L', 'I', 'G', 'H', 'T', 'N', 'E', 'S', 'S', '_', 'S', 'E', 'T', 'U', 'P', '_', 'D', 'E', 'F', 'A', 'U', 'L', 'T', '_', 'S', 'E', 'T', '_', 'U', 'N', 'A', 'C', 'K', 'N', 'O', 'W', 'L', 'E', 'D', 'G', 'E', 'D'],
  ['L', 'I', 'G', 'H', 'T', '_', 'L', 'I', 'G', 'H', 'T', 'N', 'E', 'S', 'S', '_', 'S', 'E', 'T', 'U', 'P', '_', 'R', 'A', 'N', 'G', 'E', '_', 'S', 'E', 'T'],
  ['L', 'I', 'G', 'H', 'T', '_', 'L', 'I', 'G', 'H', 'T', 'N', 'E', 'S', 'S', '_', 'S', 'E', 'T', 'U', 'P', '_', 'R', 'A', 'N', 'G', 'E', '_', 'S', 'E', 'T', '_', 'U', 'N', 'A', 'C', 'K', 'N', 'O', 'W', 'L', 'E', 'D', 'G', 'E', 'D'],
  ['L', 'I', 'G', 'H', 'T', '_', 'C', 'T', 'L', '_', 'G', 'E', 'T'],
  ['L', 'I', 'G', 'H', 'T', '_', 'C', 'T', 'L', '_', 'S', 'E', 'T'],
  ['L', 'I', 'G', 'H', 'T', '_', 'C', 'T', 'L', '_', 'S', 'E', 'T', '_', 'U', 'N', 'A', 'C', 'K', 'N', 'O', 'W', 'L', 'E', 'D', 'G', 'E', 'D'],
  ['L', 'I', 'G', 'H', 'T', '_', 'C', 'T', 'L', '_', 'S', 'T', 'A', 'T', 'U', 'S'],
  ['L', 'I', 'G', 'H', 'T', '_', 'C', 'T', 'L', '_', 'T', 'E', 'M', 'P', 'E', 'R', 'A', 'T', 'U', 'R', 'E', '_', 'G', 'E', 'T'],
  ['L', 'I', 'G', 'H', 'T', '_', 'C', 'T', 'L', '_', 'T', 'E', 'M', 'P', 'E', 'R', 'A', 'T', 'U', 'R', 'E', '_', 'R', 'A', 'N', 'G', 'E', '_', 'G', 'E', 'T'],
  ['L', 'I', 'G', 'H', 'T', '_', 'C', 'T', 'L', '_', 'T', 'E', 'M', 'P', 'E', 'R', 'A', 'T', 'U', 'R', 'E', '_', 'R', 'A', 'N', 'G', 'E', '_', 'S', 'T', 'A', 'T', 'U', 'S'],
  ['L', 'I', 'G', 'H', 'T', '_', 'C', 'T', 'L', '_', 'T', 'E', 'M', 'P', 'E', 'R', 'A', 'T', 'U', 'R', 'E', '_', 'S', 'E', 'T'],
  ['L', 'I', 'G', 'H', 'T', '_', 'C', 'T', 'L', '_', 'T', 'E', 'M', 'P', 'E', 'R', 'A', 'T', 'U', 'R', 'E', '_', 'S', 'E', 'T', '_', 'U', 'N', 'A', 'C', 'K', 'N', 'O', 'W', 'L', 'E', 'D', 'G', 'E', 'D'],
  ['L', 'I', 'G', 'H', 'T', '_', 'C', 'T', 'L', '_', 'T', 'E', 'M', 'P', 'E', 'R', 'A', 'T', 'U', 'R', 'E', '_', 'S', 'T', 'A', 'T', 'U', 'S'],
  ['L', 'I', 'G', 'H', 'T', '_', 'C', 'T', 'L', '_', 'T', 'E', 'M', 'P', 'E', 'R', 'A', 'T', 'U', 'R', 'E', '_', 'D', 'E', 'F', 'A', 'U', 'L', 'T', '_', 'G', 'E', 'T'],
  ['L', 'I', 'G', 'H', 'T', '_', 'C', 'T', 'L', '_', 'T', 'E', 'M', 'P', 'E', 'R', 'A', 'T', 'U', 'R', 'E', '_', 'D', 'E', 'F', 'A', 'U', 'L', 'T', '_', 'S', 'T', 'A', 'T', 'U', 'S'],
  ['L', 'I', 'G', 'H', 'T', '_', 'C', 'T', 'L', '_', 'S', 'E', 'T', 'U', 'P', '_', 'T', 'E', 'M', 'P', 'E', 'R', 'A', 'T', 'U', 'R', 'E', '_', 'D', 'E', 'F', 'A', 'U', 'L', 'T', '_', 'S', 'E', 'T'],
  ['L', 'I', 'G', 'H', 'T', '_', 'C', 'T', 'L', '_', 'S', 'E', 'T', 'U', 'P', '_', 'T', 'E', 'M', 'P', 'E', 'R', 'A', 'T', 'U', 'R', 'E', '_', 'D', 'E', 'F', 'A', 'U', 'L', 'T', '_', 'S', 'E', 'T', '_', 'U', 'N', 'A', 'C', 'K', 'N', 'O', 'W', 'L', 'E', 'D', 'G', 'E', 'D'],
  ['L', 'I', 'G', 'H', 'T', '_', 'C', 'T', 'L', '_', 'S', 'E', 'T', 'U', 'P', '_', 'T', 'E', 'M', 'P', 'E', 'R', 'A', 'T', 'U', 'R', 'E', '_', 'R', 'A', 'N', 'G', 'E', '_', 'S', 'E', 'T'],
  ['L', 'I', 'G', 'H', 'T', '_', 'C', 'T', 'L', '_', 'S', 'E', 'T', 'U', 'P', '_', 'T', 'E', 'M', 'P', 'E', 'R', 'A', 'T', 'U', 'R', 'E', '_', 'R', 'A', 'N', 'G', 'E', '_', 'S', 'E', 'T', '_', 'U', 'N', 'A', 'C', 'K', 'N', 'O', 'W', 'L', 'E', 'D', 'G', 'E', 'D'],
  ['H', 'E', 'A', 'L', 'T', 'H', '_', 'A', 'T', 'T', 'E', 'N', 'T', 'I', 'O', 'N', '_', 'G', 'E', 'T'],
  ['H', 'E', 'A', 'L', 'T', 'H', '_', 'A', 'T', 'T', 'E', 'N', 'T', 'I', 'O', 'N', '_', 'S', 'E', 'T'],
  ['H', 'E', 'A', 'L', 'T', 'H', '_', 'A', 'T', 'T', 'E', 'N', 'T', 'I', 'O', 'N', '_', 'S', 'E', 'T', '_', 'U', 'N', 'A', 'C', 'K', 'N', 'O', 'W', 'L', 'E', 'D', 'G', 'E', 'D'],
  ['H', 'E', 'A', 'L', 'T', 'H', '_', 'A', 'T', 'T', 'E', 'N', 'T', 'I', 'O', 'N', '_', 'S', 'T', 'A', 'T', 'U', 'S'],
  ['H', 'E', 'A', 'L', 'T', 'H', '_', 'C', 'U', 'R', 'R', 'E', 'N', 'T', '_', 'S', 'T', 'A', 'T', 'U', 'S'],
  ['H', 'E', 'A', 'L', 'T', 'H', '_', 'F', 'A', 'U', 'L', 'T', '_', 'C', 'L', 'E', 'A', 'R'],
  ['H', 'E', 'A', 'L', 'T', 'H', '_', 'F', 'A', 'U', 'L', 'T', '_', 'C', 'L', 'E', 'A', 'R', '_', 'U', 'N', 'A', 'C', 'K', 'N', 'O', 'W', 'L', 'E', 'D', 'G', 'E', 'D'],
  ['H', 'E', 'A', 'L', 'T', 'H', '_', 'F', 'A', 'U', 'L', 'T', '_', 'G', 'E', 'T'],
  ['H', 'E', 'A', 'L', 'T', 'H', '_', 'F', 'A', 'U', 'L', 'T', '_', 'S', 'T', 'A', 'T', 'U', 'S'],
  ['H', 'E', 'A', 'L', 'T', 'H', '_', 'F', 'A', 'U', 'L', 'T', '_', 'T', 'E', 'S', 'T'],
  ['H', 'E', 'A', 'L', 'T', 'H', '_', 'F', 'A', 'U', 'L', 'T', '_', 'T', 'E', 'S', 'T', '_', 'U', 'N', 'A', 'C', 'K', 'N', 'O', 'W', 'L', 'E', 'D', 'G', 'E', 'D'],
  ['H', 'E', 'A', 'L', 'T', 'H', '_', 'P', 'E', 'R', 'I', 'O', 'D', '_', 'G', 'E', 'T'],
  ['H', 'E', 'A', 'L', 'T', 'H', '_', 'P', 'E', 'R', 'I', 'O', 'D', '_', 'S', 'E', 'T'],
  ['H', 'E', 'A', 'L', 'T', 'H', '_', 'P', 'E', 'R', 'I', 'O', 'D', '_', 'S', 'E', 'T', '_', 'U', 'N', 'A', 'C', 'K', 'N', 'O', 'W', 'L', 'E', 'D', 'G', 'E', 'D'],
  ['H', 'E', 'A', 'L', 'T', 'H', '_', 'P', 'E', 'R', 'I', 'O', 'D', '_', 'S', 'T', 'A', 'T', 'U', 'S'],
  ['S', 'I', 'L', 'V', 'A', 'I', 'R', '_', 'N', 'D', 'S'],
  ['S', 'I', 'L', 'V', 'A', 'I', 'R', '_', 'N', 'D', 'S', '_', 'S', 'E', 'T', 'U', 'P'],
  ['S', 'C', 'E', 'N', 'E', '_', 'G', 'E', 'T'],
  ['S', 'C', 'E', 'N', 'E', '_', 'R', 'E', 'C', 'A', 'L', 'L'],
  ['S', 'C', 'E', 'N', 'E', '_', 'R', 'E', 'C', 'A', 'L', 'L', '_', 'U', 'N', 'A', 'C', 'K', 'N', 'O', 'W', 'L', 'E', 'D', 'G', 'E', 'D'],
  ['S', 'C', 'E', 'N', 'E', '_', 'S', 'T', 'A', 'T', 'U', 'S'],
  ['S', 'C', 'E', 'N', 'E', '_', 'R', 'E', 'G', 'I', 'S', 'T', 'E', 'R', '_', 'G', 'E', 'T'],
  ['S', 'C', 'E', 'N', 'E', '_', 'R', 'E', 'G', 'I', 'S', 'T', 'E', 'R', '_', 'S', 'T', 'A', 'T', 'U', 'S'],
  ['S', 'C', 'E', 'N', 'E', '_', 'S', 'T', 'O', 'R', 'E'],
  ['S', 'C', 'E', 'N', 'E', '_', 'S', 'T', 'O', 'R', 'E', '_', 'U', 'N', 'A', 'C', 'K', 'N', 'O', 'W', 'L', 'E', 'D', 'G', 'E', 'D'],
  ['S', 'C', 'E', 'N', 'E', '_', 'D', 'E', 'L', 'E', 'T', 'E'],
  ['S', 'C', 'E', 'N', 'E', '_', 'D', 'E', 'L', 'E', 'T', 'E', '_', 'U', 'N', 'A', 'C', 'K', 'N', 'O', 'W', 'L', 'E', 'D', 'G', 'E', 'D'],
  ['S', 'E', 'N', 'S', 'O', 'R', '_', 'D', 'E', 'S', 'C', 'R', 'I', 'P', 'T', 'O', 'R', '_', 'G', 'E', 'T'],
  ['S', 'E', 'N', 'S', 'O', 'R', '_', 'D', 'E', 'S', 'C', 'R', 'I', 'P', 'T', 'O', 'R', '_', 'S', 'T', 'A', 'T', 'U', 'S'],
  ['S', 'E', 'N', 'S', 'O', 'R', '_', 'G', 'E', 'T'],
  ['S', 'E', 'N', 'S', 'O', 'R', '_', 'S', 'T', 'A', 'T', 'U', 'S'],
  ['S', 'E', 'N', 'S', 'O', 'R', '_', 'C', 'O', 'L', 'U', 'M', 'N', '_', 'G', 'E', 'T'],
  ['S', 'E', 'N', 'S', 'O', 'R', '_', 'C', 'O', 'L', 'U', 'M', 'N', '_', 'S', 'T', 'A', 'T', 'U', 'S'],
  ['S', 'E', 'N', 'S', 'O', 'R', '_', 'S', 'E', 'R', 'I', 'E', 'S', '_', 'G', 'E', 'T'],
  ['S', 'E', 'N', 'S', 'O', 'R', '_', 'S', 'E', 'R', 'I', 'E', 'S', '_', 'S', 'T', 'A', 'T', 'U', 'S'],
  ['S', 'E', 'N', 'S', 'O', 'R', '_', 'C', 'A', 'D', 'E', 'N', 'C', 'E', '_', 'G', 'E', 'T'],
  ['S', 'E', 'N', 'S', 'O', 'R', '_', 'C', 'A', 'D', 'E', 'N', 'C', 'E', '_', 'S', 'E', 'T'],
  ['S', 'E', 'N', 'S', 'O', 'R', '_', 'C', 'A', 'D', 'E', 'N', 'C', 'E', '_', 'S', 'E', 'T', '_', 'U', 'N', 'A', 'C', 'K', 'N', 'O', 'W', 'L', 'E', 'D', 'G', 'E', 'D'],
  ['S', 'E', 'N', 'S', 'O', 'R', '_', 'C', 'A', 'D', 'E', 'N', 'C', 'E', '_', 'S', 'T', 'A', 'T', 'U', 'S'],
  ['S', 'E', 'N', 'S', 'O', 'R', '_', 'S', 'E', 'T', 'T', 'I', 'N', 'G', 'S', '_', 'G', 'E', 'T'],
  ['S', 'E', 'N', 'S', 'O', 'R', '_', 'S', 'E', 'T', 'T', 'I', 'N', 'G', 'S', '_', 'S', 'T', 'A', 'T', 'U', 'S'],
  ['S', 'E', 'N', 'S', 'O', 'R', '_', 'S', 'E', 'T', 'T', 'I', 'N', 'G', '_', 'G', 'E', 'T'],
  ['S', 'E', 'N', 'S', 'O', 'R', '_', 'S', 'E', 'T', 'T', 'I', 'N', 'G', '_', 'S', 'E', 'T'],
  ['S', 'E', 'N', 'S', 'O', 'R', '_', 'S', 'E', 'T', 'T', 'I', 'N', 'G', '_', 'S', 'E', 'T', '_', 'U', 'N', 'A', 'C', 'K', 'N', 'O', 'W', 'L', 'E', 'D', 'G', 'E', 'D'],
  ['S', 'E', 'N', 'S', 'O', 'R', '_', 'S', 'E', 'T', 'T', 'I', 'N', 'G', '_', 'S', 'T', 'A', 'T', 'U', 'S'],
  ['S', 'I', 'L', 'V', 'A', 'I', 'R', '_', 'L', 'E', 'C'],
  ['T', 'I', 'M', 'E', '_', 'G', 'E', 'T'],
  ['T', 'I', 'M', 'E', '_', 'S', 'E', 'T'],
  ['T', 'I', 'M', 'E', '_', 'S', 'T', 'A', 'T', 'U', 'S'],
  ['T', 'I', 'M', 'E', '_', 'R', 'O', 'L', 'E', '_', 'G', 'E', 'T'],
  ['T', 'I', 'M', 'E', '_', 'R', 'O', 'L', 'E', '_', 'S', 'E', 'T'],
  ['T', 'I', 'M', 'E', '_', 'R', 'O', 'L', 'E', '_', 'S', 'T', 'A', 'T', 'U', 'S'],
  ['T', 'I', 'M', 'E', '_', 'Z', 'O', 'N', 'E', '_', 'G', 'E', 'T'],
  ['T', 'I', 'M', 'E', '_', 'Z', 'O', 'N', 'E', '_', 'S', 'E', 'T'],
  ['T', 'I', 'M', 'E', '_', 'Z', 'O', 'N', 'E', '_', 'S', 'T', 'A', 'T', 'U', 'S'],
  ['T', 'A', 'I', '_', 'U', 'T', 'C', '_', 'D', 'E', 'L', 'T', 'A', '_', 'G', 'E', 'T'],
  ['T', 'A', 'I', '_', 'U', 'T', 'C', '_', 'D', 'E', 'L', 'T', 'A', '_', 'S', 'E', 'T'],
  ['T', 'A', 'I', '_', 'U', 'T', 'C', '_', 'D', 'E', 'L', 'T', 'A', '_', 'S', 'T', 'A', 'T', 'U', 'S'],
  ['S', 'I', 'L', 'V', 'A', 'I', 'R', '_', 'D', 'E', 'B', 'U', 'G', '_', 'V', '2'],
  ['S', 'I', 'L', 'V', 'A', 'I', 'R', '_', 'R', 'R', 'U', 'L', 'E', '_', 'S', 'C', 'H', 'E', 'D', 'U', 'L', 'E', 'R'],
  ['G', 'E', 'N', 'E', 'R', 'I', 'C', '_', 'U', 'S', 'E', 'R', '_', 'P', 'R', 'O', 'P', 'E', 'R', 'T', 'I', 'E', 'S', '_', 'G', 'E', 'T'],
  ['G', 'E', 'N', 'E', 'R', 'I', 'C', '_', 'U', 'S', 'E', 'R', '_', 'P', 'R', 'O', 'P', 'E', 'R', 'T', 'I', 'E', 'S', '_', 'S', 'T', 'A', 'T', 'U', 'S'],
  ['G', 'E', 'N', 'E', 'R', 'I', 'C', '_', 'U', 'S', 'E', 'R', '_', 'P', 'R', 'O', 'P', 'E', 'R', 'T', 'Y', '_', 'G', 'E', 'T'],
  ['G', 'E', 'N', 'E', 'R', 'I', 'C', '_', 'U', 'S', 'E', 'R', '_', 'P', 'R', 'O', 'P', 'E', 'R', 'T', 'Y', '_', 'S', 'E', 'T'],
  ['G', 'E', 'N', 'E', 'R', 'I', 'C', '_', 'U', 'S', 'E', 'R', '_', 'P', 'R', 'O', 'P', 'E', 'R', 'T', 'Y', '_', 'S', 'E', 'T', '_', 'U', 'N', 'A', 'C', 'K', 'N', 'O', 'W', 'L', 'E', 'D', 'G', 'E', 'D'],
  ['G', 'E', 'N', 'E', 'R', 'I', 'C', '_', 'U', 'S', 'E', 'R', '_', 'P', 'R', 'O', 'P', 'E', 'R', 'T', 'Y', '_', 'S', 'T', 'A', 'T', 'U', 'S'],
  ['G', 'E', 'N', 'E', 'R', 'I', 'C', '_', 'A', 'D', 'M', 'I', 'N', '_', 'P', 'R', 'O', 'P', 'E', 'R', 'T', 'I', 'E', 'S', '_', 'G', 'E', 'T'],
  ['G', 'E', 'N', 'E', 'R', 'I', 'C', '_', 'A', 'D', 'M', 'I', 'N', '_', 'P', 'R', 'O', 'P', 'E', 'R', 'T', 'I', 'E', 'S', '_', 'S', 'T', 'A', 'T', 'U', 'S'],
  ['G', 'E', 'N', 'E', 'R', 'I', 'C', '_', 'A', 'D', 'M', 'I', 'N', '_', 'P', 'R', 'O', 'P', 'E', 'R', 'T', 'Y', '_', 'G', 'E', 'T'],
  ['G', 'E', 'N', 'E', 'R', 'I', 'C', '_', 'A', 'D', 'M', 'I', 'N', '_', 'P', 'R', 'O', 'P', 'E', 'R', 'T', 'Y', '_', 'S', 'E', 'T'],
  ['G', 'E', 'N', 'E', 'R', 'I', 'C', '_', 'A', 'D', 'M', 'I', 'N', '_', 'P', 'R', 'O', 'P', 'E', 'R', 'T', 'Y', '_', 'S', 'E', 'T', '_', 'U', 'N', 'A', 'C', 'K', 'N', 'O', 'W', 'L', 'E', 'D', 'G', 'E', 'D'],
  ['G', 'E', 'N', 'E', 'R', 'I', 'C', '_', 'A', 'D', 'M', 'I', 'N', '_', 'P', 'R', 'O', 'P', 'E', 'R', 'T', 'Y', '_', 'S', 'T', 'A', 'T', 'U', 'S'],
  ['G', 'E', 'N', 'E', 'R', 'I', 'C', '_', 'M', 'A', 'N', 'U', 'F', 'A', 'C', 'T', 'U', 'R', 'E', 'R', '_', 'P', 'R', 'O', 'P', 'E', 'R', 'T', 'I', 'E', 'S', '_', 'G', 'E', 'T'],
  ['G', 'E', 'N', 'E', 'R', 'I', 'C', '_', 'M', 'A', 'N', 'U', 'F', 'A', 'C', 'T', 'U', 'R', 'E', 'R', '_', 'P', 'R', 'O', 'P', 'E', 'R', 'T', 'I', 'E', 'S', '_', 'S', 'T', 'A', 'T', 'U', 'S'],
  ['G', 'E', 'N', 'E', 'R', 'I', 'C', '_', 'M', 'A', 'N', 'U', 'F', 'A', 'C', 'T', 'U', 'R', 'E', 'R', '_', 'P', 'R', 'O', 'P', 'E', 'R', 'T', 'Y', '_', 'G', 'E', 'T'],
  ['G', 'E', 'N', 'E', 'R', 'I', 'C', '_', 'M', 'A', 'N', 'U', 'F', 'A', 'C', 'T', 'U', 'R', 'E', 'R', '_', 'P', 'R', 'O', 'P', 'E', 'R', 'T', 'Y', '_', 'S', 'E', 'T'],
  ['G', 'E', 'N', 'E', 'R', 'I', 'C', '_', 'M', 'A', 'N', 'U', 'F', 'A', 'C', 'T', 'U', 'R', 'E', 'R', '_', 'P', 'R', 'O', 'P', 'E', 'R', 'T', 'Y', '_', 'S', 'E', 'T', '_', 'U', 'N', 'A', 'C', 'K', 'N', 'O', 'W', 'L', 'E', 'D', 'G', 'E', 'D'],
  ['G', 'E', 'N', 'E', 'R', 'I', 'C', '_', 'M', 'A', 'N', 'U', 'F', 'A', 'C', 'T', 'U', 'R', 'E', 'R', '_', 'P', 'R', 'O', 'P', 'E', 'R', 'T', 'Y', '_', 'S', 'T', 'A', 'T', 'U', 'S'],
  ['G', 'E', 'N', 'E', 'R', 'I', 'C', '_', 'C', 'L', 'I', 'E', 'N', 'T', '_', 'P', 'R', 'O', 'P', 'E', 'R', 'T', 'I', 'E', 'S', '_', 'G', 'E', 'T'],
  ['G', 'E', 'N', 'E', 'R', 'I', 'C', '_', 'C', 'L', 'I', 'E', 'N', 'T', '_', 'P', 'R', 'O', 'P', 'E', 'R', 'T', 'I', 'E', 'S', '_', 'S', 'T', 'A', 'T', 'U', 'S'],
  ['S', 'I', 'L', 'V', 'A', 'I', 'R', '_', 'E', 'L'],
  ['S', 'I', 'L', 'V', 'A', 'I', 'R', '_', 'E', 'L', 'T']]

set_option maxRecDepth 100000 in
theorem nameChars_eq : Tables.opcodeEnums.flatMap (fun E => E.members.map Prod.fst) = nameChars.map String.ofList := by
  with_unfolding_all exact (Eq.refl (nameChars.map String.ofList))

end BM
