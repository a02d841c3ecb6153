/-!
# The names of the properties, letter by letter
-/
namespace BM

/-- The names of the properties. -/
def propChars : List (List Char) := [
  ['d', 'e', 'v', 'i', 'c', 'e', '_', 'd', 'a', 't', 'e', '_', 'o', 'f', '_', 'm', 'a', 'n', 'u', 'f', 'a', 'c', 't', 'u', 'r', 'e'],
  ['l', 'u', 'm', 'i', 'n', 'a', 'i', 'r', 'e', '_', 't', 'i', 'm', 'e', '_', 'o', 'f', '_', 'm', 'a', 'n', 'u', 'f', 'a', 'c', 't', 'u', 'r', 'e'],
  ['a', 'v', 'e', 'r', 'a', 'g', 'e', '_', 'a', 'm', 'b', 'i', 'e', 'n', 't', '_', 't', 'e', 'm', 'p', 'e', 'r', 'a', 't', 'u', 'r', 'e', '_', 'i', 'n', '_', 'a', '_', 'p', 'e', 'r', 'i', 'o', 'd', '_', 'o', 'f', '_', 'd', 'a', 'y'],
  ['a', 'v', 'e', 'r', 'a', 'g', 'e', '_', 'i', 'n', 'p', 'u', 't', '_', 'c', 'u', 'r', 'r', 'e', 'n', 't'],
  ['a', 'v', 'e', 'r', 'a', 'g', 'e', '_', 'i', 'n', 'p', 'u', 't', '_', 'v', 'o', 'l', 't', 'a', 'g', 'e'],
  ['a', 'v', 'e', 'r', 'a', 'g', 'e', '_', 'o', 'u', 't', 'p', 'u', 't', '_', 'c', 'u', 'r', 'r', 'e', 'n', 't'],
  ['a', 'v', 'e', 'r', 'a', 'g', 'e', '_', 'o', 'u', 't', 'p', 'u', 't', '_', 'v', 'o', 'l', 't', 'a', 'g', 'e'],
  ['c', 'e', 'n', 't', 'e', 'r', '_', 'b', 'e', 'a', 'm', '_', 'i', 'n', 't', 'e', 'n', 's', 'i', 't', 'y', '_', 'a', 't', '_', 'f', 'u', 'l', 'l', '_', 'p', 'o', 'w', 'e', 'r'],
  ['c', 'h', 'r', 'o', 'm', 'a', 't', 'i', 'c', 'i', 't', 'y', '_', 't', 'o', 'l', 'e', 'r', 'a', 'n', 'c', 'e'],
  ['c', 'o', 'l', 'o', 'r', '_', 'r', 'e', 'n', 'd', 'e', 'r', 'i', 'n', 'g', '_', 'i', 'n', 'd', 'e', 'x', '_', 'r', '9'],
  ['c', 'o', 'l', 'o', 'r', '_', 'r', 'e', 'n', 'd', 'e', 'r', 'i', 'n', 'g', '_', 'i', 'n', 'd', 'e', 'x', '_', 'r', 'a'],
  ['d', 'e', 'v', 'i', 'c', 'e', '_', 'a', 'p', 'p', 'e', 'a', 'r', 'a', 'n', 'c', 'e'],
  ['d', 'e', 'v', 'i', 'c', 'e', '_', 'c', 'o', 'u', 'n', 't', 'r', 'y', '_', 'o', 'f', '_', 'o', 'r', 'i', 'g', 'i', 'n'],
  ['d', 'e', 'v', 'i', 'c', 'e', '_', 'e', 'n', 'e', 'r', 'g', 'y', '_', 'u', 's', 'e', '_', 's', 'i', 'n', 'c', 'e', '_', 't', 'u', 'r', 'n', '_', 'o', 'n'],
  ['d', 'e', 'v', 'i', 'c', 'e', '_', 'f', 'i', 'r', 'm', 'w', 'a', 'r', 'e', '_', 'r', 'e', 'v', 'i', 's', 'i', 'o', 'n'],
  ['d', 'e', 'v', 'i', 'c', 'e', '_', 'g', 'l', 'o', 'b', 'a', 'l', '_', 't', 'r', 'a', 'd', 'e', '_', 'i', 't', 'e', 'm', '_', 'n', 'u', 'm', 'b', 'e', 'r'],
  ['d', 'e', 'v', 'i', 'c', 'e', '_', 'h', 'a', 'r', 'd', 'w', 'a', 'r', 'e', '_', 'r', 'e', 'v', 'i', 's', 'i', 'o', 'n'],
  ['d', 'e', 'v', 'i', 'c', 'e', '_', 'm', 'a', 'n', 'u', 'f', 'a', 'c', 't', 'u', 'r', 'e', 'r', '_', 'n', 'a', 'm', 'e'],
  ['d', 'e', 'v', 'i', 'c', 'e', '_', 'm', 'o', 'd', 'e', 'l', '_', 'n', 'u', 'm', 'b', 'e', 'r'],
  ['d', 'e', 'v', 'i', 'c', 'e', '_', 'o', 'p', 'e', 'r', 'a', 't', 'i', 'n', 'g', '_', 't', 'e', 'm', 'p', 'e', 'r', 'a', 't', 'u', 'r', 'e', '_', 'r', 'a', 'n', 'g', 'e', '_', 's', 'p', 'e', 'c', 'i', 'f', 'i', 'c', 'a', 't', 'i', 'o', 'n'],
  ['d', 'e', 'v', 'i', 'c', 'e', '_', 'o', 'p', 'e', 'r', 'a', 't', 'i', 'n', 'g', '_', 't', 'e', 'm', 'p', 'e', 'r', 'a', 't', 'u', 'r', 'e', '_', 's', 't', 'a', 't', 'i', 's', 't', 'i', 'c', 'a', 'l', '_', 'v', 'a', 'l', 'u', 'e', 's'],
  ['d', 'e', 'v', 'i', 'c', 'e', '_', 'o', 'v', 'e', 'r', '_', 't', 'e', 'm', 'p', 'e', 'r', 'a', 't', 'u', 'r', 'e', '_', 'e', 'v', 'e', 'n', 't', '_', 's', 't', 'a', 't', 'i', 's', 't', 'i', 'c', 's'],
  ['d', 'e', 'v', 'i', 'c', 'e', '_', 'p', 'o', 'w', 'e', 'r', '_', 'r', 'a', 'n', 'g', 'e', '_', 's', 'p', 'e', 'c', 'i', 'f', 'i', 'c', 'a', 't', 'i', 'o', 'n'],
  ['d', 'e', 'v', 'i', 'c', 'e', '_', 'r', 'u', 'n', 't', 'i', 'm', 'e', '_', 's', 'i', 'n', 'c', 'e', '_', 't', 'u', 'r', 'n', '_', 'o', 'n'],
  ['d', 'e', 'v', 'i', 'c', 'e', '_', 'r', 'u', 'n', 't', 'i', 'm', 'e', '_', 'w', 'a', 'r', 'r', 'a', 'n', 't', 'y'],
  ['d', 'e', 'v', 'i', 'c', 'e', '_', 's', 'e', 'r', 'i', 'a', 'l', '_', 'n', 'u', 'm', 'b', 'e', 'r'],
  ['d', 'e', 'v', 'i', 'c', 'e', '_', 's', 'o', 'f', 't', 'w', 'a', 'r', 'e', '_', 'r', 'e', 'v', 'i', 's', 'i', 'o', 'n'],
  ['d', 'e', 'v', 'i', 'c', 'e', '_', 'u', 'n', 'd', 'e', 'r', '_', 't', 'e', 'm', 'p', 'e', 'r', 'a', 't', 'u', 'r', 'e', '_', 'e', 'v', 'e', 'n', 't', '_', 's', 't', 'a', 't', 'i', 's', 't', 'i', 'c', 's'],
  ['i', 'n', 'd', 'o', 'o', 'r', '_', 'a', 'm', 'b', 'i', 'e', 'n', 't', '_', 't', 'e', 'm', 'p', 'e', 'r', 'a', 't', 'u', 'r', 'e', '_', 's', 't', 'a', 't', 'i', 's', 't', 'i', 'c', 'a', 'l', '_', 'v', 'a', 'l', 'u', 'e', 's'],
  ['i', 'n', 'i', 't', 'i', 'a', 'l', '_', 'c', 'i', 'e', '1', '9', '3', '1', '_', 'c', 'h', 'r', 'o', 'm', 'a', 't', 'i', 'c', 'i', 't', 'y', '_', 'c', 'o', 'o', 'r', 'd', 'i', 'n', 'a', 't', 'e', 's'],
  ['i', 'n', 'i', 't', 'i', 'a', 'l', '_', 'c', 'o', 'r', 'r', 'e', 'l', 'a', 't', 'e', 'd', '_', 'c', 'o', 'l', 'o', 'r', '_', 't', 'e', 'm', 'p', 'e', 'r', 'a', 't', 'u', 'r', 'e'],
  ['i', 'n', 'i', 't', 'i', 'a', 'l', '_', 'l', 'u', 'm', 'i', 'n', 'o', 'u', 's', '_', 'f', 'l', 'u', 'x'],
  ['i', 'n', 'i', 't', 'i', 'a', 'l', '_', 'p', 'l', 'a', 'n', 'c', 'k', 'i', 'a', 'n', '_', 'd', 'i', 's', 't', 'a', 'n', 'c', 'e'],
  ['i', 'n', 'p', 'u', 't', '_', 'c', 'u', 'r', 'r', 'e', 'n', 't', '_', 'r', 'a', 'n', 'g', 'e', '_', 's', 'p', 'e', 'c', 'i', 'f', 'i', 'c', 'a', 't', 'i', 'o', 'n'],
  ['i', 'n', 'p', 'u', 't', '_', 'c', 'u', 'r', 'r', 'e', 'n', 't', '_', 's', 't', 'a', 't', 'i', 's', 't', 'i', 'c', 's'],
  ['i', 'n', 'p', 'u', 't', '_', 'o', 'v', 'e', 'r', '_', 'c', 'u', 'r', 'r', 'e', 'n', 't', '_', 'e', 'v', 'e', 'n', 't', '_', 's', 't', 'a', 't', 'i', 's', 't', 'i', 'c', 's'],
  ['i', 'n', 'p', 'u', 't', '_', 'o', 'v', 'e', 'r', '_', 'r', 'i', 'p', 'p', 'l', 'e', '_', 'v', 'o', 'l', 't', 'a', 'g', 'e', '_', 'e', 'v', 'e', 'n', 't', '_', 's', 't', 'a', 't', 'i', 's', 't', 'i', 'c', 's'],
  ['i', 'n', 'p', 'u', 't', '_', 'o', 'v', 'e', 'r', '_', 'v', 'o', 'l', 't', 'a', 'g', 'e', '_', 'e', 'v', 'e', 'n', 't', '_', 's', 't', 'a', 't', 'i', 's', 't', 'i', 'c', 's'],
  ['i', 'n', 'p', 'u', 't', '_', 'u', 'n', 'd', 'e', 'r', '_', 'c', 'u', 'r', 'r', 'e', 'n', 't', '_', 'e', 'v', 'e', 'n', 't', '_', 's', 't', 'a', 't', 'i', 's', 't', 'i', 'c', 's'],
  ['i', 'n', 'p', 'u', 't', '_', 'u', 'n', 'd', 'e', 'r', '_', 'v', 'o', 'l', 't', 'a', 'g', 'e', '_', 'e', 'v', 'e', 'n', 't', '_', 's', 't', 'a', 't', 'i', 's', 't', 'i', 'c', 's'],
  ['i', 'n', 'p', 'u', 't', '_', 'v', 'o', 'l', 't', 'a', 'g', 'e', '_', 'r', 'a', 'n', 'g', 'e', '_', 's', 'p', 'e', 'c', 'i', 'f', 'i', 'c', 'a', 't', 'i', 'o', 'n'],
  ['i', 'n', 'p', 'u', 't', '_', 'v', 'o', 'l', 't', 'a', 'g', 'e', '_', 'r', 'i', 'p', 'p', 'l', 'e', '_', 's', 'p', 'e', 'c', 'i', 'f', 'i', 'c', 'a', 't', 'i', 'o', 'n'],
  ['i', 'n', 'p', 'u', 't', '_', 'v', 'o', 'l', 't', 'a', 'g', 'e', '_', 's', 't', 'a', 't', 'i', 's', 't', 'i', 'c', 's'],
  ['l', 'i', 'g', 'h', 't', '_', 'c', 'o', 'n', 't', 'r', 'o', 'l', '_', 'a', 'm', 'b', 'i', 'e', 'n', 't', '_', 'l', 'u', 'x', 'l', 'e', 'v', 'e', 'l', '_', 'o', 'n'],
  ['l', 'i', 'g', 'h', 't', '_', 'c', 'o', 'n', 't', 'r', 'o', 'l', '_', 'a', 'm', 'b', 'i', 'e', 'n', 't', '_', 'l', 'u', 'x', 'l', 'e', 'v', 'e', 'l', '_', 'p', 'r', 'o', 'l', 'o', 'n', 'g'],
  ['l', 'i', 'g', 'h', 't', '_', 'c', 'o', 'n', 't', 'r', 'o', 'l', '_', 'a', 'm', 'b', 'i', 'e', 'n', 't', '_', 'l', 'u', 'x', 'l', 'e', 'v', 'e', 'l', '_', 's', 't', 'a', 'n', 'd', 'b', 'y'],
  ['l', 'i', 'g', 'h', 't', '_', 'c', 'o', 'n', 't', 'r', 'o', 'l', '_', 'l', 'i', 'g', 'h', 't', 'n', 'e', 's', 's', '_', 'o', 'n'],
  ['l', 'i', 'g', 'h', 't', '_', 'c', 'o', 'n', 't', 'r', 'o', 'l', '_', 'l', 'i', 'g', 'h', 't', 'n', 'e', 's', 's', '_', 'p', 'r', 'o', 'l', 'o', 'n', 'g'],
  ['l', 'i', 'g', 'h', 't', '_', 'c', 'o', 'n', 't', 'r', 'o', 'l', '_', 'l', 'i', 'g', 'h', 't', 'n', 'e', 's', 's', '_', 's', 't', 'a', 'n', 'd', 'b', 'y'],
  ['l', 'i', 'g', 'h', 't', '_', 'c', 'o', 'n', 't', 'r', 'o', 'l', '_', 'r', 'e', 'g', 'u', 'l', 'a', 't', 'o', 'r', '_', 'a', 'c', 'c', 'u', 'r', 'a', 'c', 'y'],
  ['l', 'i', 'g', 'h', 't', '_', 'c', 'o', 'n', 't', 'r', 'o', 'l', '_', 'r', 'e', 'g', 'u', 'l', 'a', 't', 'o', 'r', '_', 'k', 'i', 'd'],
  ['l', 'i', 'g', 'h', 't', '_', 'c', 'o', 'n', 't', 'r', 'o', 'l', '_', 'r', 'e', 'g', 'u', 'l', 'a', 't', 'o', 'r', '_', 'k', 'i', 'u'],
  ['l', 'i', 'g', 'h', 't', '_', 'c', 'o', 'n', 't', 'r', 'o', 'l', '_', 'r', 'e', 'g', 'u', 'l', 'a', 't', 'o', 'r', '_', 'k', 'p', 'd'],
  ['l', 'i', 'g', 'h', 't', '_', 'c', 'o', 'n', 't', 'r', 'o', 'l', '_', 'r', 'e', 'g', 'u', 'l', 'a', 't', 'o', 'r', '_', 'k', 'p', 'u'],
  ['l', 'i', 'g', 'h', 't', '_', 'c', 'o', 'n', 't', 'r', 'o', 'l', '_', 't', 'i', 'm', 'e', '_', 'f', 'a', 'd', 'e'],
  ['l', 'i', 'g', 'h', 't', '_', 'c', 'o', 'n', 't', 'r', 'o', 'l', '_', 't', 'i', 'm', 'e', '_', 'f', 'a', 'd', 'e', '_', 'o', 'n'],
  ['l', 'i', 'g', 'h', 't', '_', 'c', 'o', 'n', 't', 'r', 'o', 'l', '_', 't', 'i', 'm', 'e', '_', 'f', 'a', 'd', 'e', '_', 's', 't', 'a', 'n', 'd', 'b', 'y', '_', 'a', 'u', 't', 'o'],
  ['l', 'i', 'g', 'h', 't', '_', 'c', 'o', 'n', 't', 'r', 'o', 'l', '_', 't', 'i', 'm', 'e', '_', 'f', 'a', 'd', 'e', '_', 's', 't', 'a', 'n', 'd', 'b', 'y', '_', 'm', 'a', 'n', 'u', 'a', 'l'],
  ['l', 'i', 'g', 'h', 't', '_', 'c', 'o', 'n', 't', 'r', 'o', 'l', '_', 't', 'i', 'm', 'e', '_', 'o', 'c', 'c', 'u', 'p', 'a', 'n', 'c', 'y', '_', 'd', 'e', 'l', 'a', 'y'],
  ['l', 'i', 'g', 'h', 't', '_', 'c', 'o', 'n', 't', 'r', 'o', 'l', '_', 't', 'i', 'm', 'e', '_', 'p', 'r', 'o', 'l', 'o', 'n', 'g'],
  ['l', 'i', 'g', 'h', 't', '_', 'c', 'o', 'n', 't', 'r', 'o', 'l', '_', 't', 'i', 'm', 'e', '_', 'r', 'u', 'n', '_', 'o', 'n'],
  ['l', 'u', 'm', 'e', 'n', '_', 'm', 'a', 'i', 'n', 't', 'e', 'n', 'a', 'n', 'c', 'e', '_', 'f', 'a', 'c', 't', 'o', 'r'],
  ['l', 'u', 'm', 'i', 'n', 'o', 'u', 's', '_', 'e', 'f', 'f', 'i', 'c', 'a', 'c', 'y'],
  ['l', 'u', 'm', 'i', 'n', 'o', 'u', 's', '_', 'e', 'n', 'e', 'r', 'g', 'y', '_', 's', 'i', 'n', 'c', 'e', '_', 't', 'u', 'r', 'n', '_', 'o', 'n'],
  ['l', 'u', 'm', 'i', 'n', 'o', 'u', 's', '_', 'e', 'x', 'p', 'o', 's', 'u', 'r', 'e'],
  ['l', 'u', 'm', 'i', 'n', 'o', 'u', 's', '_', 'f', 'l', 'u', 'x', '_', 'r', 'a', 'n', 'g', 'e'],
  ['m', 'o', 't', 'i', 'o', 'n', '_', 's', 'e', 'n', 's', 'e', 'd'],
  ['m', 'o', 't', 'i', 'o', 'n', '_', 't', 'h', 'r', 'e', 's', 'h', 'o', 'l', 'd'],
  ['o', 'p', 'e', 'n', '_', 'c', 'i', 'r', 'c', 'u', 'i', 't', '_', 'e', 'v', 'e', 'n', 't', '_', 's', 't', 'a', 't', 'i', 's', 't', 'i', 'c', 's'],
  ['o', 'u', 't', 'd', 'o', 'o', 'r', '_', 's', 't', 'a', 't', 'i', 's', 't', 'i', 'c', 'a', 'l', '_', 'v', 'a', 'l', 'u', 'e', 's'],
  ['o', 'u', 't', 'p', 'u', 't', '_', 'c', 'u', 'r', 'r', 'e', 'n', 't', '_', 'r', 'a', 'n', 'g', 'e'],
  ['o', 'u', 't', 'p', 'u', 't', '_', 'c', 'u', 'r', 'r', 'e', 'n', 't', '_', 's', 't', 'a', 't', 'i', 's', 't', 'i', 'c', 's'],
  ['o', 'u', 't', 'p', 'u', 't', '_', 'r', 'i', 'p', 'p', 'l', 'e', '_', 'v', 'o', 'l', 't', 'a', 'g', 'e', '_', 's', 'p', 'e', 'c', 'i', 'f', 'i', 'c', 'a', 't', 'i', 'o', 'n'],
  ['o', 'u', 't', 'p', 'u', 't', '_', 'v', 'o', 'l', 't', 'a', 'g', 'e', '_', 'r', 'a', 'n', 'g', 'e'],
  ['o', 'u', 't', 'p', 'u', 't', '_', 'v', 'o', 'l', 't', 'a', 'g', 'e', '_', 's', 't', 'a', 't', 'i', 's', 't', 'i', 'c', 's'],
  ['o', 'v', 'e', 'r', '_', 'o', 'u', 't', 'p', 'u', 't', '_', 'r', 'i', 'p', 'p', 'l', 'e', '_', 'v', 'o', 'l', 't', 'a', 'g', 'e', '_', 'e', 'v', 'e', 'n', 't', '_', 's', 't', 'a', 't', 'i', 's', 't', 'i', 'c', 's'],
  ['p', 'e', 'o', 'p', 'l', 'e', '_', 'c', 'o', 'u', 'n', 't'],
  ['p', 'r', 'e', 's', 'e', 'n', 't', '_', 'a', 'm', 'b', 'i', 'e', 'n', 't', '_', 'l', 'i', 'g', 'h', 't', '_', 'l', 'e', 'v', 'e', 'l'],
  ['p', 'r', 'e', 's', 'e', 'n', 't', '_', 'a', 'm', 'b', 'i', 'e', 'n', 't', '_', 't', 'e', 'm', 'p', 'e', 'r', 'a', 't', 'u', 'r', 'e'],
  ['p', 'r', 'e', 's', 'e', 'n', 't', '_', 'c', 'i', 'e', '1', '9', '3', '1', '_', 'c', 'h', 'r', 'o', 'm', 'a', 't', 'i', 'c', 'i', 't', 'y', '_', 'c', 'o', 'o', 'r', 'd', 'i', 'n', 'a', 't', 'e', 's'],
  ['p', 'r', 'e', 's', 'e', 'n', 't', '_', 'c', 'o', 'r', 'r', 'e', 'l', 'a', 't', 'e', 'd', '_', 'c', 'o', 'l', 'o', 'r', '_', 't', 'e', 'm', 'p', 'e', 'r', 'a', 't', 'u', 'r', 'e'],
  ['p', 'r', 'e', 's', 'e', 'n', 't', '_', 'd', 'e', 'v', 'i', 'c', 'e', '_', 'i', 'n', 'p', 'u', 't', '_', 'p', 'o', 'w', 'e', 'r'],
  ['p', 'r', 'e', 's', 'e', 'n', 't', '_', 'd', 'e', 'v', 'i', 'c', 'e', '_', 'o', 'p', 'e', 'r', 'a', 't', 'i', 'n', 'g', '_', 'e', 'f', 'f', 'i', 'c', 'i', 'e', 'n', 'c', 'y'],
  ['p', 'r', 'e', 's', 'e', 'n', 't', '_', 'd', 'e', 'v', 'i', 'c', 'e', '_', 'o', 'p', 'e', 'r', 'a', 't', 'i', 'n', 'g', '_', 't', 'e', 'm', 'p', 'e', 'r', 'a', 't', 'u', 'r', 'e'],
  ['p', 'r', 'e', 's', 'e', 'n', 't', '_', 'i', 'l', 'l', 'u', 'm', 'i', 'n', 'a', 'n', 'c', 'e'],
  ['p', 'r', 'e', 's', 'e', 'n', 't', '_', 'i', 'n', 'd', 'o', 'o', 'r', '_', 'a', 'm', 'b', 'i', 'e', 'n', 't', '_', 't', 'e', 'm', 'p', 'e', 'r', 'a', 't', 'u', 'r', 'e'],
  ['p', 'r', 'e', 's', 'e', 'n', 't', '_', 'i', 'n', 'p', 'u', 't', '_', 'c', 'u', 'r', 'r', 'e', 'n', 't'],
  ['p', 'r', 'e', 's', 'e', 'n', 't', '_', 'i', 'n', 'p', 'u', 't', '_', 'r', 'i', 'p', 'p', 'l', 'e', '_', 'v', 'o', 'l', 't', 'a', 'g', 'e'],
  ['p', 'r', 'e', 's', 'e', 'n', 't', '_', 'i', 'n', 'p', 'u', 't', '_', 'v', 'o', 'l', 't', 'a', 'g', 'e'],
  ['p', 'r', 'e', 's', 'e', 'n', 't', '_', 'l', 'u', 'm', 'i', 'n', 'o', 'u', 's', '_', 'f', 'l', 'u', 'x'],
  ['p', 'r', 'e', 's', 'e', 'n', 't', '_', 'o', 'u', 't', 'd', 'o', 'o', 'r', '_', 'a', 'm', 'b', 'i', 'e', 'n', 't', '_', 't', 'e', 'm', 'p', 'e', 'r', 'a', 't', 'u', 'r', 'e'],
  ['p', 'r', 'e', 's', 'e', 'n', 't', '_', 'o', 'u', 't', 'p', 'u', 't', '_', 'c', 'u', 'r', 'r', 'e', 'n', 't'],
  ['p', 'r', 'e', 's', 'e', 'n', 't', '_', 'o', 'u', 't', 'p', 'u', 't', '_', 'v', 'o', 'l', 't', 'a', 'g', 'e'],
  ['p', 'r', 'e', 's', 'e', 'n', 't', '_', 'p', 'l', 'a', 'n', 'c', 'k', 'i', 'a', 'n', '_', 'd', 'i', 's', 't', 'a', 'n', 'c', 'e'],
  ['p', 'r', 'e', 's', 'e', 'n', 't', '_', 'r', 'e', 'l', 'a', 't', 'i', 'v', 'e', '_', 'o', 'u', 't', 'p', 'u', 't', '_', 'r', 'i', 'p', 'p', 'l', 'e', '_', 'v', 'o', 'l', 't', 'a', 'g', 'e'],
  ['r', 'e', 'l', 'a', 't', 'i', 'v', 'e', '_', 'd', 'e', 'v', 'i', 'c', 'e', '_', 'e', 'n', 'e', 'r', 'g', 'y', '_', 'u', 's', 'e', '_', 'i', 'n', '_', 'a', '_', 'p', 'e', 'r', 'i', 'o', 'd', '_', 'o', 'f', '_', 'd', 'a', 'y'],
  ['r', 'e', 'l', 'a', 't', 'i', 'v', 'e', '_', 'd', 'e', 'v', 'i', 'c', 'e', '_', 'r', 'u', 'n', 't', 'i', 'm', 'e', '_', 'i', 'n', '_', 'a', '_', 'g', 'e', 'n', 'e', 'r', 'i', 'c', '_', 'l', 'e', 'v', 'e', 'l', '_', 'r', 'a', 'n', 'g', 'e'],
  ['r', 'e', 'l', 'a', 't', 'i', 'v', 'e', '_', 'e', 'x', 'p', 'o', 's', 'u', 'r', 'e', '_', 't', 'i', 'm', 'e', '_', 'i', 'n', '_', 'a', 'n', '_', 'i', 'l', 'l', 'u', 'm', 'i', 'n', 'a', 'n', 'c', 'e', '_', 'r', 'a', 'n', 'g', 'e'],
  ['r', 'e', 'l', 'a', 't', 'i', 'v', 'e', '_', 'r', 'u', 'n', 't', 'i', 'm', 'e', '_', 'i', 'n', '_', 'a', '_', 'c', 'o', 'r', 'r', 'e', 'l', 'a', 't', 'e', 'd', '_', 'c', 'o', 'l', 'o', 'r', '_', 't', 'e', 'm', 'p', 'e', 'r', 'a', 't', 'u', 'r', 'e', '_', 'r', 'a', 'n', 'g', 'e'],
  ['r', 'e', 'l', 'a', 't', 'i', 'v', 'e', '_', 'r', 'u', 'n', 't', 'i', 'm', 'e', '_', 'i', 'n', '_', 'a', '_', 'd', 'e', 'v', 'i', 'c', 'e', '_', 'o', 'p', 'e', 'r', 'a', 't', 'i', 'n', 'g', '_', 't', 'e', 'm', 'p', 'e', 'r', 'a', 't', 'u', 'r', 'e', '_', 'r', 'a', 'n', 'g', 'e'],
  ['r', 'e', 'l', 'a', 't', 'i', 'v', 'e', '_', 'r', 'u', 'n', 't', 'i', 'm', 'e', '_', 'i', 'n', '_', 'a', 'n', '_', 'i', 'n', 'p', 'u', 't', '_', 'c', 'u', 'r', 'r', 'e', 'n', 't', '_', 'r', 'a', 'n', 'g', 'e'],
  ['r', 'e', 'l', 'a', 't', 'i', 'v', 'e', '_', 'r', 'u', 'n', 't', 'i', 'm', 'e', '_', 'i', 'n', '_', 'a', 'n', '_', 'i', 'n', 'p', 'u', 't', '_', 'v', 'o', 'l', 't', 'a', 'g', 'e', '_', 'r', 'a', 'n', 'g', 'e'],
  ['s', 'h', 'o', 'r', 't', '_', 'c', 'i', 'r', 'c', 'u', 'i', 't', '_', 'e', 'v', 'e', 'n', 't', '_', 's', 't', 'a', 't', 'i', 's', 't', 'i', 'c', 's'],
  ['t', 'i', 'm', 'e', '_', 's', 'i', 'n', 'c', 'e', '_', 'm', 'o', 't', 'i', 'o', 'n', '_', 's', 'e', 'n', 's', 'e', 'd'],
  ['t', 'i', 'm', 'e', '_', 's', 'i', 'n', 'c', 'e', '_', 'p', 'r', 'e', 's', 'e', 'n', 'c', 'e', '_', 'd', 'e', 't', 'e', 'c', 't', 'e', 'd'],
  ['t', 'o', 't', 'a', 'l', '_', 'd', 'e', 'v', 'i', 'c', 'e', '_', 'e', 'n', 'e', 'r', 'g', 'y', '_', 'u', 's', 'e'],
  ['t', 'o', 't', 'a', 'l', '_', 'd', 'e', 'v', 'i', 'c', 'e', '_', 'o', 'f', 'f', '_', 'o', 'n', '_', 'c', 'y', 'c', 'l', 'e', 's'],
  ['t', 'o', 't', 'a', 'l', '_', 'd', 'e', 'v', 'i', 'c', 'e', '_', 'p', 'o', 'w', 'e', 'r', '_', 'o', 'n', '_', 'c', 'y', 'c', 'l', 'e', 's'],
  ['t', 'o', 't', 'a', 'l', '_', 'd', 'e', 'v', 'i', 'c', 'e', '_', 'p', 'o', 'w', 'e', 'r', '_', 'o', 'n', '_', 't', 'i', 'm', 'e'],
  ['t', 'o', 't', 'a', 'l', '_', 'd', 'e', 'v', 'i', 'c', 'e', '_', 'r', 'u', 'n', 't', 'i', 'm', 'e'],
  ['t', 'o', 't', 'a', 'l', '_', 'l', 'i', 'g', 'h', 't', '_', 'e', 'x', 'p', 'o', 's', 'u', 'r', 'e', '_', 't', 'i', 'm', 'e'],
  ['t', 'o', 't', 'a', 'l', '_', 'l', 'u', 'm', 'i', 'n', 'o', 'u', 's', '_', 'e', 'n', 'e', 'r', 'g', 'y'],
  ['d', 'e', 's', 'i', 'r', 'e', 'd', '_', 'a', 'm', 'b', 'i', 'e', 'n', 't', '_', 't', 'e', 'm', 'p', 'e', 'r', 'a', 't', 'u', 'r', 'e'],
  ['p', 'r', 'e', 'c', 'i', 's', 'e', '_', 't', 'o', 't', 'a', 'l', '_', 'd', 'e', 'v', 'i', 'c', 'e', '_', 'e', 'n', 'e', 'r', 'g', 'y', '_', 'u', 's', 'e'],
  ['p', 'o', 'w', 'e', 'r', '_', 'f', 'a', 'c', 't', 'o', 'r'],
  ['s', 'e', 'n', 's', 'o', 'r', '_', 'g', 'a', 'i', 'n'],
  ['p', 'r', 'e', 'c', 'i', 's', 'e', '_', 'p', 'r', 'e', 's', 'e', 'n', 't', '_', 'a', 'm', 'b', 'i', 'e', 'n', 't', '_', 't', 'e', 'm', 'p', 'e', 'r', 'a', 't', 'u', 'r', 'e'],
  ['a', 'c', 't', 'i', 'v', 'e', '_', 'e', 'n', 'e', 'r', 'g', 'y', '_', 'l', 'o', 'a', 'd', '_', 's', 'i', 'd', 'e'],
  ['a', 'c', 't', 'i', 'v', 'e', '_', 'p', 'o', 'w', 'e', 'r', '_', 'l', 'o', 'a', 'd', '_', 's', 'i', 'd', 'e'],
  ['a', 'p', 'p', 'a', 'r', 'e', 'n', 't', '_', 'e', 'n', 'e', 'r', 'g', 'y'],
  ['a', 'p', 'p', 'a', 'r', 'e', 'n', 't', '_', 'p', 'o', 'w', 'e', 'r'],
  ['e', 'x', 't', 'e', 'r', 'n', 'a', 'l', '_', 's', 'u', 'p', 'p', 'l', 'y', '_', 'v', 'o', 'l', 't', 'a', 'g', 'e'],
  ['e', 'x', 't', 'e', 'r', 'n', 'a', 'l', '_', 's', 'u', 'p', 'p', 'l', 'y', '_', 'v', 'o', 'l', 't', 'a', 'g', 'e', '_', 'f', 'r', 'e', 'q', 'u', 'e', 'n', 'c', 'y'],
  ['l', 'i', 'g', 'h', 't', '_', 'd', 'i', 's', 't', 'r', 'i', 'b', 'u', 't', 'i', 'o', 'n'],
  ['l', 'i', 'g', 'h', 't', '_', 's', 'o', 'u', 'r', 'c', 'e', '_', 'c', 'u', 'r', 'r', 'e', 'n', 't'],
  ['l', 'i', 'g', 'h', 't', '_', 's', 'o', 'u', 'r', 'c', 'e', '_', 'o', 'n', '_', 't', 'i', 'm', 'e', '_', 'n', 'o', 't', '_', 'r', 'e', 's', 'e', 't', 't', 'a', 'b', 'l', 'e'],
  ['l', 'i', 'g', 'h', 't', '_', 's', 'o', 'u', 'r', 'c', 'e', '_', 'o', 'n', '_', 't', 'i', 'm', 'e', '_', 'r', 'e', 's', 'e', 't', 't', 'a', 'b', 'l', 'e'],
  ['l', 'i', 'g', 'h', 't', '_', 's', 'o', 'u', 'r', 'c', 'e', '_', 'o', 'p', 'e', 'n', '_', 'c', 'i', 'r', 'c', 'u', 'i', 't', '_', 's', 't', 'a', 't', 'i', 's', 't', 'i', 'c', 's'],
  ['l', 'i', 'g', 'h', 't', '_', 's', 'o', 'u', 'r', 'c', 'e', '_', 'o', 'v', 'e', 'r', 'a', 'l', 'l', '_', 'f', 'a', 'i', 'l', 'u', 'r', 'e', 's', '_', 's', 't', 'a', 't', 'i', 's', 't', 'i', 'c', 's'],
  ['l', 'i', 'g', 'h', 't', '_', 's', 'o', 'u', 'r', 'c', 'e', '_', 's', 'h', 'o', 'r', 't', '_', 'c', 'i', 'r', 'c', 'u', 'i', 't', '_', 's', 't', 'a', 't', 'i', 's', 't', 'i', 'c', 's'],
  ['l', 'i', 'g', 'h', 't', '_', 's', 'o', 'u', 'r', 'c', 'e', '_', 's', 't', 'a', 'r', 't', '_', 'c', 'o', 'u', 'n', 't', 'e', 'r', '_', 'r', 'e', 's', 'e', 't', 't', 'a', 'b', 'l', 'e'],
  ['l', 'i', 'g', 'h', 't', '_', 's', 'o', 'u', 'r', 'c', 'e', '_', 't', 'e', 'm', 'p', 'e', 'r', 'a', 't', 'u', 'r', 'e'],
  ['l', 'i', 'g', 'h', 't', '_', 's', 'o', 'u', 'r', 'c', 'e', '_', 't', 'h', 'e', 'r', 'm', 'a', 'l', '_', 'd', 'e', 'r', 'a', 't', 'i', 'n', 'g', '_', 's', 't', 'a', 't', 'i', 's', 't', 'i', 'c', 's'],
  ['l', 'i', 'g', 'h', 't', '_', 's', 'o', 'u', 'r', 'c', 'e', '_', 't', 'h', 'e', 'r', 'm', 'a', 'l', '_', 's', 'h', 'u', 't', 'd', 'o', 'w', 'n', '_', 's', 't', 'a', 't', 'i', 's', 't', 'i', 'c', 's'],
  ['l', 'i', 'g', 'h', 't', '_', 's', 'o', 'u', 'r', 'c', 'e', '_', 't', 'o', 't', 'a', 'l', '_', 'p', 'o', 'w', 'e', 'r', '_', 'o', 'n', '_', 'c', 'y', 'c', 'l', 'e', 's'],
  ['l', 'i', 'g', 'h', 't', '_', 's', 'o', 'u', 'r', 'c', 'e', '_', 'v', 'o', 'l', 't', 'a', 'g', 'e'],
  ['l', 'u', 'm', 'i', 'n', 'a', 'i', 'r', 'e', '_', 'c', 'o', 'l', 'o', 'r'],
  ['l', 'u', 'm', 'i', 'n', 'a', 'i', 'r', 'e', '_', 'i', 'd', 'e', 'n', 't', 'i', 'f', 'i', 'c', 'a', 't', 'i', 'o', 'n', '_', 'n', 'u', 'm', 'b', 'e', 'r'],
  ['l', 'u', 'm', 'i', 'n', 'a', 'i', 'r', 'e', '_', 'm', 'a', 'n', 'u', 'f', 'a', 'c', 't', 'u', 'r', 'e', 'r', '_', 'g', 't', 'i', 'n'],
  ['l', 'u', 'm', 'i', 'n', 'a', 'i', 'r', 'e', '_', 'n', 'o', 'm', 'i', 'n', 'a', 'l', '_', 'i', 'n', 'p', 'u', 't', '_', 'p', 'o', 'w', 'e', 'r'],
  ['l', 'u', 'm', 'i', 'n', 'a', 'i', 'r', 'e', '_', 'n', 'o', 'm', 'i', 'n', 'a', 'l', '_', 'm', 'a', 'x', 'i', 'm', 'u', 'm', '_', 'a', 'c', '_', 'm', 'a', 'i', 'n', 's', '_', 'v', 'o', 'l', 't', 'a', 'g', 'e'],
  ['l', 'u', 'm', 'i', 'n', 'a', 'i', 'r', 'e', '_', 'n', 'o', 'm', 'i', 'n', 'a', 'l', '_', 'm', 'i', 'n', 'i', 'm', 'u', 'm', '_', 'a', 'c', '_', 'm', 'a', 'i', 'n', 's', '_', 'v', 'o', 'l', 't', 'a', 'g', 'e'],
  ['l', 'u', 'm', 'i', 'n', 'a', 'i', 'r', 'e', '_', 'p', 'o', 'w', 'e', 'r', '_', 'a', 't', '_', 'm', 'i', 'n', 'i', 'm', 'u', 'm', '_', 'd', 'i', 'm', '_', 'l', 'e', 'v', 'e', 'l'],
  ['n', 'o', 'm', 'i', 'n', 'a', 'l', '_', 'l', 'i', 'g', 'h', 't', '_', 'o', 'u', 't', 'p', 'u', 't'],
  ['o', 'v', 'e', 'r', 'a', 'l', 'l', '_', 'f', 'a', 'i', 'l', 'u', 'r', 'e', '_', 'c', 'o', 'n', 'd', 'i', 't', 'i', 'o', 'n'],
  ['r', 'a', 't', 'e', 'd', '_', 'm', 'e', 'd', 'i', 'a', 'n', '_', 'u', 's', 'e', 'f', 'u', 'l', '_', 'l', 'i', 'f', 'e', '_', 'o', 'f', '_', 'l', 'u', 'm', 'i', 'n', 'a', 'i', 'r', 'e'],
  ['r', 'a', 't', 'e', 'd', '_', 'm', 'e', 'd', 'i', 'a', 'n', '_', 'u', 's', 'e', 'f', 'u', 'l', '_', 'l', 'i', 'g', 'h', 't', '_', 's', 'o', 'u', 'r', 'c', 'e', '_', 's', 't', 'a', 'r', 't', 's'],
  ['r', 'e', 'f', 'e', 'r', 'e', 'n', 'c', 'e', '_', 't', 'e', 'm', 'p', 'e', 'r', 'a', 't', 'u', 'r', 'e'],
  ['t', 'o', 't', 'a', 'l', '_', 'd', 'e', 'v', 'i', 'c', 'e', '_', 's', 't', 'a', 'r', 't', 's'],
  ['l', 'i', 'g', 'h', 't', '_', 's', 'o', 'u', 'r', 'c', 'e', '_', 't', 'y', 'p', 'e'],
  ['l', 'u', 'm', 'i', 'n', 'a', 'i', 'r', 'e', '_', 'i', 'd', 'e', 'n', 't', 'i', 'f', 'i', 'c', 'a', 't', 'i', 'o', 'n', '_', 's', 't', 'r', 'i', 'n', 'g'],
  ['o', 'u', 't', 'p', 'u', 't', '_', 'p', 'o', 'w', 'e', 'r', '_', 'l', 'i', 'm', 'i', 't', 'a', 't', 'i', 'o', 'n'],
  ['t', 'h', 'e', 'r', 'm', 'a', 'l', '_', 'd', 'e', 'r', 'a', 't', 'i', 'n', 'g'],
  ['o', 'u', 't', 'p', 'u', 't', '_', 'c', 'u', 'r', 'r', 'e', 'n', 't', '_', 'p', 'e', 'r', 'c', 'e', 'n', 't'],
  ['p', 'r', 'e', 's', 'e', 'n', 'c', 'e', '_', 'd', 'e', 't', 'e', 'c', 't', 'e', 'd']]

end BM
