import Verif.Model.Instantiate

/-!
# The characters of the template files

The same lines as in `Verif.Model.Template`, as lists of characters: the kernel computes with these much faster than with string literals.  That
they are the same lines is proved.
-/

namespace Thunder.Text

set_option maxRecDepth 100000

/-- The characters of `headerLines`. -/
def headerChars : List (List Char) := [
  ['#', 'i', 'f', 'n', 'd', 'e', 'f', ' ', 'T', 'H', 'U', 'N', 'D', 'E', 'R', 'R', 'O', 'B', 'O', 'T', '_', 'H'],
  ['#', 'd', 'e', 'f', 'i', 'n', 'e', ' ', 'T', 'H', 'U', 'N', 'D', 'E', 'R', 'R', 'O', 'B', 'O', 'T', '_', 'H'],
  [],
  ['#', 'i', 'n', 'c', 'l', 'u', 'd', 'e', ' ', '<', 'i', 'o', 's', 't', 'r', 'e', 'a', 'm', '>'],
  ['#', 'i', 'n', 'c', 'l', 'u', 'd', 'e', ' ', '<', 's', 't', 'r', 'i', 'n', 'g', '>'],
  ['#', 'i', 'n', 'c', 'l', 'u', 'd', 'e', ' ', '<', 'c', 'm', 'a', 't', 'h', '>'],
  ['#', 'i', 'n', 'c', 'l', 'u', 'd', 'e', ' ', '<', 'e', 'i', 'g', 'e', 'n', '3', '/', 'E', 'i', 'g', 'e', 'n', '/', 'D', 'e', 'n', 's', 'e', '>'],
  ['#', 'i', 'n', 'c', 'l', 'u', 'd', 'e', ' ', '<', 'y', 'a', 'm', 'l', '-', 'c', 'p', 'p', '/', 'y', 'a', 'm', 'l', '.', 'h', '>'],
  ['#', 'i', 'n', 'c', 'l', 'u', 'd', 'e', ' ', '<', 'f', 's', 't', 'r', 'e', 'a', 'm', '>'],
  [],
  [],
  ['/', '*', ' ', 'C', 'l', 'a', 's', 's', ' ', 't', 'h', 'u', 'n', 'd', 'e', 'r', '_', 'r', 'o', 'b', 'o', 't', ' '],
  ['U', 's', 'e', 'f', 'u', 'l', ' ', 'f', 'u', 'n', 'c', 't', 'i', 'o', 'n', 's', ' ', 'f', 'o', 'r', ' ', 'a', 'd', 'a', 'p', 't', 'i', 'v', 'e', ' ', 'c', 'o', 'n', 't', 'r', 'o', 'l', ' ', 'w', 'i', 't', 'h', ' ', 'S', 'l', 'o', 't', 'i', 'n', 'e', '-', 'L', 'i', ' ', 'r', 'e', 'g', 'r', 'e', 's', 's', 'o', 'r'],
  ['U', 's', 'a', 'b', 'l', 'e', ' ', 'o', 'n', 'l', 'y', ' ', 'f', 'o', 'r', ' ', 'g', 'e', 'n', 'e', 'r', 'a', 't', 'e', 'd', ' ', 'c', 'o', 'd', 'e', ' ', 'f', 'r', 'o', 'm', ' ', 'c', 'a', 's', 'a', 'd', 'i', ' ', 'l', 'i', 'b', 'r', 'a', 'r', 'y', '!', ' ', '*', '/'],
  ['c', 'l', 'a', 's', 's', ' ', 't', 'h', 'u', 'n', 'd', 'e', 'r', '_', 'r', 'o', 'b', 'o', 't', '{'],
  [],
  ['\t', 'p', 'r', 'i', 'v', 'a', 't', 'e', ':'],
  ['\t', '\t', '/', '/', ' ', 's', 't', 'a', 'n', 'd', 'a', 'r', 'd', ' ', 'n', 'u', 'm', 'b', 'e', 'r', ' ', 'o', 'f', ' ', 'p', 'a', 'r', 'a', 'm', 'e', 't', 'e', 'r', 's'],
  ['\t', '\t', 'c', 'o', 'n', 's', 't', ' ', 'i', 'n', 't', ' ', 'S', 'T', 'D', '_', 'P', 'A', 'R', '_', 'L', 'I', 'N', 'K', ' ', '=', ' ', '1', '0', ';'],
  ['\t', '\t', '/', '*', ' ', 'J', 'o', 'i', 'n', 't', 's', '\'', ' ', 'v', 'a', 'r', 'i', 'a', 'b', 'l', 'e', 's', ' ', '*', '/'],
  ['\t', '\t', 'E', 'i', 'g', 'e', 'n', ':', ':', 'V', 'e', 'c', 't', 'o', 'r', 'X', 'd', ' ', 'q', ',', ' ', 'd', 'q', ',', ' ', 'd', 'd', 'q', ',', ' ', 'd', '3', 'q', ',', ' ', 'd', '4', 'q', ',', ' ', 'd', 'q', 'r', ',', ' ', 'd', 'd', 'q', 'r', ',', ' ', 'p', 'a', 'r', '_', 'D', 'Y', 'N', ',', ' ', 'p', 'a', 'r', '_', 'R', 'E', 'G', ',', ' ', 'p', 'a', 'r', '_', 'D', 'l', ';'],
  ['\t', '\t', 'E', 'i', 'g', 'e', 'n', ':', ':', 'V', 'e', 'c', 't', 'o', 'r', 'X', 'd', ' ', 'x', ',', ' ', 'd', 'x', ',', ' ', 'd', 'd', 'x', ',', ' ', 'd', 'd', 'x', 'r', ',', ' ', 'p', 'a', 'r', '_', 'K', ',', ' ', 'p', 'a', 'r', '_', 'D', ',', ' ', 'p', 'a', 'r', '_', 'D', 'm', ',', ' ', 'p', 'a', 'r', '_', 'M', 'm', ';'],
  ['\t', '\t', 'E', 'i', 'g', 'e', 'n', ':', ':', 'V', 'e', 'c', 't', 'o', 'r', 'X', 'd', ' ', 'w', ';'],
  ['\t', '\t', 'E', 'i', 'g', 'e', 'n', ':', ':', 'V', 'e', 'c', 't', 'o', 'r', 'X', 'd', ' ', 'p', 'a', 'r', '_', 'D', 'H', 't', 'a', 'b', 'l', 'e', ',', ' ', 'p', 'a', 'r', '_', 'g', 'r', 'a', 'v', 'i', 't', 'y', ',', ' ', 'p', 'a', 'r', '_', 'w', 'o', 'r', 'l', 'd', '2', 'L', '0', ',', ' ', 'p', 'a', 'r', '_', 'L', 'n', '2', 'E', 'E', ';'],
  ['\t', '\t', 's', 't', 'd', ':', ':', 'v', 'e', 'c', 't', 'o', 'r', '<', 'i', 'n', 't', '>', ' ', 'D', 'H', 't', 'a', 'b', 'l', 'e', '_', 's', 'y', 'm', 'b', ',', ' ', 'g', 'r', 'a', 'v', 'i', 't', 'y', '_', 's', 'y', 'm', 'b', ',', ' ', 'w', 'o', 'r', 'l', 'd', '2', 'L', '0', '_', 's', 'y', 'm', 'b', ',', ' ', 'L', 'n', '2', 'E', 'E', '_', 's', 'y', 'm', 'b', ';'],
  [],
  ['\t', '\t', 'v', 'o', 'i', 'd', ' ', 'u', 'p', 'd', 'a', 't', 'e', '_', 'i', 'n', 'e', 'r', 't', 'i', 'a', 'l', '_', 'D', 'Y', 'N', '(', ')', ';'],
  ['\t', '\t', 'v', 'o', 'i', 'd', ' ', 'u', 'p', 'd', 'a', 't', 'e', '_', 'i', 'n', 'e', 'r', 't', 'i', 'a', 'l', '_', 'R', 'E', 'G', '(', ')', ';'],
  [],
  ['\t', '\t', 's', 't', 'r', 'u', 'c', 't', ' ', 'L', 'i', 'n', 'k', 'P', 'r', 'o', 'p', ' ', '{'],
  ['\t', '\t', '\t', 'd', 'o', 'u', 'b', 'l', 'e', ' ', 'm', 'a', 's', 's', ';'],
  ['\t', '\t', '\t', 's', 't', 'd', ':', ':', 'v', 'e', 'c', 't', 'o', 'r', '<', 'd', 'o', 'u', 'b', 'l', 'e', '>', ' ', 'p', 'a', 'r', 'I', ' ', '=', ' ', 's', 't', 'd', ':', ':', 'v', 'e', 'c', 't', 'o', 'r', '<', 'd', 'o', 'u', 'b', 'l', 'e', '>', '(', '6', ')', ';', ' ', '/', '/', ' ', 'I', 'n', 'e', 'r', 't', 'i', 'a', ' ', 'i', 'n', ' ', 't', 'h', 'e', ' ', 'o', 'r', 'd', 'e', 'r', ' ', 'x', 'x', ',', ' ', 'x', 'y', ',', ' ', 'x', 'z', ',', ' ', 'y', 'y', ',', ' ', 'y', 'z', ',', ' ', 'z', 'z'],
  ['\t', '\t', '\t', 's', 't', 'd', ':', ':', 'v', 'e', 'c', 't', 'o', 'r', '<', 'd', 'o', 'u', 'b', 'l', 'e', '>', ' ', 'x', 'y', 'z', ' ', '=', ' ', 's', 't', 'd', ':', ':', 'v', 'e', 'c', 't', 'o', 'r', '<', 'd', 'o', 'u', 'b', 'l', 'e', '>', '(', '3', ')', ';', ' ', '/', '/', ' ', 'O', 'r', 'i', 'g', 'i', 'n', ' ', 'x', 'y', 'z', ' ', 'a', 's', ' ', 's', 't', 'd', ':', ':', 'v', 'e', 'c', 't', 'o', 'r'],
  ['\t', '\t', '\t', 's', 't', 'd', ':', ':', 'v', 'e', 'c', 't', 'o', 'r', '<', 'd', 'o', 'u', 'b', 'l', 'e', '>', ' ', 'r', 'p', 'y', ' ', '=', ' ', 's', 't', 'd', ':', ':', 'v', 'e', 'c', 't', 'o', 'r', '<', 'd', 'o', 'u', 'b', 'l', 'e', '>', '(', '3', ')', ';'],
  ['\t', '\t', '\t', 's', 't', 'd', ':', ':', 'v', 'e', 'c', 't', 'o', 'r', '<', 'd', 'o', 'u', 'b', 'l', 'e', '>', ' ', 'D', 'l', ' ', '=', ' ', 's', 't', 'd', ':', ':', 'v', 'e', 'c', 't', 'o', 'r', '<', 'd', 'o', 'u', 'b', 'l', 'e', '>', '(', '1', ')', ';'],
  ['\t', '\t', '\t', 's', 't', 'd', ':', ':', 's', 't', 'r', 'i', 'n', 'g', ' ', 'n', 'a', 'm', 'e', ';'],
  ['\t', '\t', '}', ';'],
  [],
  ['\t', '\t', 's', 't', 'r', 'u', 'c', 't', ' ', 'u', 'r', 'd', 'f', '2', 'd', 'h', '_', 'T', '{'],
  ['\t', '\t', '\t', 's', 't', 'd', ':', ':', 'v', 'e', 'c', 't', 'o', 'r', '<', 'd', 'o', 'u', 'b', 'l', 'e', '>', ' ', 'x', 'y', 'z', ';'],
  ['\t', '\t', '\t', 's', 't', 'd', ':', ':', 'v', 'e', 'c', 't', 'o', 'r', '<', 'd', 'o', 'u', 'b', 'l', 'e', '>', ' ', 'r', 'p', 'y', ';'],
  ['\t', '\t', '}', ';'],
  [],
  ['\t', '\t', 'v', 'o', 'i', 'd', ' ', 'f', 'i', 'l', 'l', 'I', 'n', 'e', 'r', 't', 'i', 'a', 'l', 'Y', 'a', 'm', 'l', '(', 'i', 'n', 't', ' ', 'n', 'u', 'm', '_', 'j', 'o', 'i', 'n', 't', 's', ',', ' ', 'Y', 'A', 'M', 'L', ':', ':', 'E', 'm', 'i', 't', 't', 'e', 'r', ' ', '&', 'e', 'm', 'i', 't', 't', 'e', 'r', '_', ',', ' ', 's', 't', 'd', ':', ':', 'v', 'e', 'c', 't', 'o', 'r', '<', 'L', 'i', 'n', 'k', 'P', 'r', 'o', 'p', '>', ' ', '&', 'l', 'i', 'n', 'k', 's', '_', 'p', 'r', 'o', 'p', '_', ',', ' ', 's', 't', 'd', ':', ':', 'v', 'e', 'c', 't', 'o', 'r', '<', 's', 't', 'd', ':', ':', 's', 't', 'r', 'i', 'n', 'g', '>', ' ', 'k', 'e', 'y', 's', '_', ')', ';'],
  ['\t', '\t', '/', '/', ' ', 'v', 'o', 'i', 'd', ' ', 't', 'r', 'a', 'n', 's', 'f', 'o', 'r', 'm', 'B', 'o', 'd', 'y', 'I', 'n', 'e', 'r', 't', 'i', 'a', 'l', '(', 's', 't', 'd', ':', ':', 'v', 'e', 'c', 't', 'o', 'r', '<', 'd', 'o', 'u', 'b', 'l', 'e', '>', ' ', 'd', '_', 'i', ',', ' ', 's', 't', 'd', ':', ':', 'v', 'e', 'c', 't', 'o', 'r', '<', 'd', 'o', 'u', 'b', 'l', 'e', '>', ' ', 'r', 'p', 'y', '_', 'i', ',', ' ', 'c', 'o', 'n', 's', 't', ' ', 'L', 'i', 'n', 'k', 'P', 'r', 'o', 'p', ' ', 'b', 'o', 'd', 'y', '_', 'u', 'r', 'd', 'f', ',', ' ', 'L', 'i', 'n', 'k', 'P', 'r', 'o', 'p', ' ', '&', 'b', 'o', 'd', 'y', ')', ';'],
  ['\t', '\t', '/', '/', ' ', 'v', 'o', 'i', 'd', ' ', 'm', 'e', 'r', 'g', 'e', 'B', 'o', 'd', 'y', 'I', 'n', 'e', 'r', 't', 'i', 'a', 'l', '(', 'c', 'o', 'n', 's', 't', ' ', 'L', 'i', 'n', 'k', 'P', 'r', 'o', 'p', ' ', 'b', 'o', 'd', 'y', '1', ',', ' ', 'c', 'o', 'n', 's', 't', ' ', 'L', 'i', 'n', 'k', 'P', 'r', 'o', 'p', ' ', 'b', 'o', 'd', 'y', '2', ',', ' ', 'L', 'i', 'n', 'k', 'P', 'r', 'o', 'p', ' ', '&', 'n', 'e', 'w', 'B', 'o', 'd', 'y', ')', ';'],
  [],
  ['\t', '\t', 'E', 'i', 'g', 'e', 'n', ':', ':', 'M', 'a', 't', 'r', 'i', 'x', '3', 'd', ' ', 'r', 'p', 'y', 'R', 'o', 't', '(', 'c', 'o', 'n', 's', 't', ' ', 's', 't', 'd', ':', ':', 'v', 'e', 'c', 't', 'o', 'r', '<', 'd', 'o', 'u', 'b', 'l', 'e', '>', ' ', 'r', 'p', 'y', ')', ';'],
  ['\t', '\t', 'E', 'i', 'g', 'e', 'n', ':', ':', 'M', 'a', 't', 'r', 'i', 'x', '3', 'd', ' ', 'c', 'r', 'e', 'a', 't', 'e', 'I', '(', 'c', 'o', 'n', 's', 't', ' ', 's', 't', 'd', ':', ':', 'v', 'e', 'c', 't', 'o', 'r', '<', 'd', 'o', 'u', 'b', 'l', 'e', '>', ' ', 'p', 'a', 'r', 'I', ')', ';'],
  ['\t', '\t', 'E', 'i', 'g', 'e', 'n', ':', ':', 'M', 'a', 't', 'r', 'i', 'x', '3', 'd', ' ', 'h', 'a', 't', '(', 'c', 'o', 'n', 's', 't', ' ', 'E', 'i', 'g', 'e', 'n', ':', ':', 'V', 'e', 'c', 't', 'o', 'r', '3', 'd', ' ', 'v', ')', ';'],
  ['\t', '\t'],
  ['\t', 'p', 'u', 'b', 'l', 'i', 'c', ':'],
  ['\t', '\t', 'c', 'o', 'n', 's', 't', ' ', 's', 't', 'd', ':', ':', 's', 't', 'r', 'i', 'n', 'g', ' ', 'r', 'o', 'b', 'o', 't', 'N', 'a', 'm', 'e', ' ', '=', ' ', '"', '/', '*', '#', '-', 'R', 'O', 'B', 'O', 'T', '_', 'N', 'A', 'M', 'E', '-', '#', '*', '/', '"', ';'],
  ['\t', '\t', 'c', 'o', 'n', 's', 't', ' ', 'i', 'n', 't', ' ', 'n', '_', 'j', 'o', 'i', 'n', 't', 's', ' ', '=', ' ', '/', '*', '#', '-', 'n', '_', 'j', 'o', 'i', 'n', 't', 's', '-', '#', '*', '/', ';'],
  ['\t', '\t', 'c', 'o', 'n', 's', 't', ' ', 'b', 'o', 'o', 'l', ' ', 'E', 'L', 'A', 'S', 'T', 'I', 'C', ' ', '=', ' ', '/', '*', '#', '-', 'E', 'L', 'A', 'S', 'T', 'I', 'C', '-', '#', '*', '/', ';'],
  ['\t', '\t', 'c', 'o', 'n', 's', 't', ' ', 'i', 'n', 't', ' ', 'n', 'u', 'm', 'E', 'l', 'a', 's', 't', 'i', 'c', 'J', 'o', 'i', 'n', 't', 's', ' ', '=', ' ', '/', '*', '#', '-', 'n', 'u', 'm', 'E', 'l', 'a', 's', 't', 'i', 'c', 'J', 'o', 'i', 'n', 't', 's', '-', '#', '*', '/', ';'],
  ['\t', '\t', 'c', 'o', 'n', 's', 't', ' ', 'i', 'n', 't', ' ', 'K', '_', 'o', 'r', 'd', 'e', 'r', ' ', '=', ' ', '/', '*', '#', '-', 'K', '_', 'o', 'r', 'd', 'e', 'r', '-', '#', '*', '/', ';'],
  ['\t', '\t', 'c', 'o', 'n', 's', 't', ' ', 'i', 'n', 't', ' ', 'D', '_', 'o', 'r', 'd', 'e', 'r', ' ', '=', ' ', '/', '*', '#', '-', 'D', '_', 'o', 'r', 'd', 'e', 'r', '-', '#', '*', '/', ';'],
  ['\t', '\t', 'c', 'o', 'n', 's', 't', ' ', 'i', 'n', 't', ' ', 'D', 'l', '_', 'o', 'r', 'd', 'e', 'r', ' ', '=', ' ', '/', '*', '#', '-', 'D', 'l', '_', 'o', 'r', 'd', 'e', 'r', '-', '#', '*', '/', ';'],
  ['\t', '\t', 'c', 'o', 'n', 's', 't', ' ', 'i', 'n', 't', ' ', 'D', 'm', '_', 'o', 'r', 'd', 'e', 'r', ' ', '=', ' ', '/', '*', '#', '-', 'D', 'm', '_', 'o', 'r', 'd', 'e', 'r', '-', '#', '*', '/', ';'],
  ['\t', '\t', 'c', 'o', 'n', 's', 't', ' ', 'i', 'n', 't', ' ', 'n', 'u', 'm', 'P', 'a', 'r', 'D', 'Y', 'N', ' ', '=', ' ', 'S', 'T', 'D', '_', 'P', 'A', 'R', '_', 'L', 'I', 'N', 'K', '*', 'n', '_', 'j', 'o', 'i', 'n', 't', 's', ';'],
  ['\t', '\t', 'c', 'o', 'n', 's', 't', ' ', 'i', 'n', 't', ' ', 'n', 'u', 'm', 'P', 'a', 'r', 'R', 'E', 'G', ' ', '=', ' ', 'S', 'T', 'D', '_', 'P', 'A', 'R', '_', 'L', 'I', 'N', 'K', '*', 'n', '_', 'j', 'o', 'i', 'n', 't', 's', ';'],
  ['\t', '\t', '/', '/', ' ', 'c', 'o', 'n', 's', 't', ' ', 'i', 'n', 't', ' ', 'n', 'u', 'm', 'P', 'a', 'r', 'E', 'L', 'A', ' ', '=', ' ', '/', '*', '#', '-', 'n', 'u', 'm', 'P', 'a', 'r', 'E', 'L', 'A', '-', '#', '*', '/', ';'],
  ['\t', '\t', 'c', 'o', 'n', 's', 't', ' ', 'i', 'n', 't', ' ', 'i', 's', 'E', 'l', 'a', 's', 't', 'i', 'c', 'J', 'o', 'i', 'n', 't', '[', '/', '*', '#', '-', 'n', '_', 'j', 'o', 'i', 'n', 't', 's', '-', '#', '*', '/', ']', ' ', '=', ' ', '/', '*', '#', '-', 'i', 's', 'E', 'l', 'a', 's', 't', 'i', 'c', 'J', 'o', 'i', 'n', 't', '-', '#', '*', '/', ';'],
  [],
  ['\t', '\t', '/', '*', ' ', 'E', 'm', 'p', 't', 'y', ' ', 'c', 'o', 'n', 's', 't', 'r', 'u', 'c', 't', 'o', 'r', ',', ' ', 'i', 'n', 'i', 't', 'i', 'a', 'l', 'i', 'z', 'a', 't', 'i', 'o', 'n', ' ', 'i', 'n', 's', 'i', 'd', 'e', ' ', '*', '/'],
  ['\t', '\t', 't', 'h', 'u', 'n', 'd', 'e', 'r', '_', 'r', 'o', 'b', 'o', 't', '(', ')', ';'],
  ['\t', '\t', '/', '*', ' ', 'C', 'o', 'n', 's', 't', 'r', 'u', 'c', 't', 'o', 'r', ' ', 't', 'o', ' ', 'i', 'n', 'i', 't', ' ', 'v', 'a', 'r', 'i', 'a', 'b', 'l', 'e', 's', '*', '/'],
  ['\t', '\t', '/', '/', ' ', 't', 'h', 'u', 'n', 'd', 'e', 'r', '_', 'r', 'o', 'b', 'o', 't', '(', 'c', 'o', 'n', 's', 't', ' ', 'i', 'n', 't', ')', ';'],
  ['\t', '\t', '/', '*', ' ', 'D', 'e', 's', 't', 'r', 'u', 'c', 't', 'o', 'r', '*', '/'],
  ['\t', '\t', '~', 't', 'h', 'u', 'n', 'd', 'e', 'r', '_', 'r', 'o', 'b', 'o', 't', '(', ')', ' ', '=', ' ', 'd', 'e', 'f', 'a', 'u', 'l', 't', ';'],
  ['\t', '\t'],
  ['\t', '\t', '/', '*', ' ', 'R', 'e', 's', 'i', 'z', 'e', ' ', 'v', 'a', 'r', 'i', 'a', 'b', 'l', 'e', 's', ' ', '*', '/'],
  ['\t', '\t', 'v', 'o', 'i', 'd', ' ', 'r', 'e', 's', 'i', 'z', 'e', 'V', 'a', 'r', 'i', 'a', 'b', 'l', 'e', 's', '(', ')', ';'],
  ['\t', '\t', '/', '*', ' ', 'I', 'n', 'i', 't', ' ', 'v', 'a', 'r', 'i', 'a', 'b', 'l', 'e', 's', ' ', 'f', 'r', 'o', 'm', ' ', 'n', 'u', 'm', 'b', 'e', 'r', ' ', 'o', 'f', ' ', 'j', 'o', 'i', 'n', 't', 's', '*', '/'],
  ['\t', '\t', '/', '/', ' ', 'v', 'o', 'i', 'd', ' ', 'i', 'n', 'i', 't', '(', 'c', 'o', 'n', 's', 't', ' ', 'i', 'n', 't', ')', ';'],
  ['\t', '\t', '/', '*', ' ', 'S', 'e', 't', ' ', 'q', ',', ' ', 'd', 'q', ',', ' ', 'd', 'q', 'r', ',', ' ', 'd', 'd', 'q', 'r', ',', ' ', 't', 'o', ' ', 'c', 'o', 'm', 'p', 'u', 't', 'e', ' ', 'R', 'e', 'g', 'r', 'e', 's', 's', 'o', 'r', ' ', 'a', 'n', 'd', ' ', 'u', 'p', 'd', 'a', 't', 'e', ' ', 's', 't', 'a', 't', 'e', '*', '/'],
  ['\t', '\t', 'v', 'o', 'i', 'd', ' ', 's', 'e', 't', 'A', 'r', 'g', 'u', 'm', 'e', 'n', 't', 's', '(', 'c', 'o', 'n', 's', 't', ' ', 'E', 'i', 'g', 'e', 'n', ':', ':', 'V', 'e', 'c', 't', 'o', 'r', 'X', 'd', '&', ' ', 'q', '_', ',', ' ', 'c', 'o', 'n', 's', 't', ' ', 'E', 'i', 'g', 'e', 'n', ':', ':', 'V', 'e', 'c', 't', 'o', 'r', 'X', 'd', '&', ' ', 'd', 'q', '_', ',', ' ', 'c', 'o', 'n', 's', 't', ' ', 'E', 'i', 'g', 'e', 'n', ':', ':', 'V', 'e', 'c', 't', 'o', 'r', 'X', 'd', '&', ' ', 'd', 'q', 'r', '_', ',', ' ', 'c', 'o', 'n', 's', 't', ' ', 'E', 'i', 'g', 'e', 'n', ':', ':', 'V', 'e', 'c', 't', 'o', 'r', 'X', 'd', '&', ' ', 'd', 'd', 'q', 'r', '_', ')', ';'],
  ['\t', '\t', 'v', 'o', 'i', 'd', ' ', 's', 'e', 't', '_', 'q', '(', 'c', 'o', 'n', 's', 't', ' ', 'E', 'i', 'g', 'e', 'n', ':', ':', 'V', 'e', 'c', 't', 'o', 'r', 'X', 'd', '&', ' ', 'q', '_', ')', ';'],
  ['\t', '\t', 'v', 'o', 'i', 'd', ' ', 's', 'e', 't', '_', 'd', 'q', '(', 'c', 'o', 'n', 's', 't', ' ', 'E', 'i', 'g', 'e', 'n', ':', ':', 'V', 'e', 'c', 't', 'o', 'r', 'X', 'd', '&', ' ', 'd', 'q', '_', ')', ';'],
  ['\t', '\t', 'v', 'o', 'i', 'd', ' ', 's', 'e', 't', '_', 'd', 'd', 'q', '(', 'c', 'o', 'n', 's', 't', ' ', 'E', 'i', 'g', 'e', 'n', ':', ':', 'V', 'e', 'c', 't', 'o', 'r', 'X', 'd', '&', ' ', 'd', 'd', 'q', '_', ')', ';'],
  ['\t', '\t', 'v', 'o', 'i', 'd', ' ', 's', 'e', 't', '_', 'd', '3', 'q', '(', 'c', 'o', 'n', 's', 't', ' ', 'E', 'i', 'g', 'e', 'n', ':', ':', 'V', 'e', 'c', 't', 'o', 'r', 'X', 'd', '&', ' ', 'd', '3', 'q', '_', ')', ';'],
  ['\t', '\t', 'v', 'o', 'i', 'd', ' ', 's', 'e', 't', '_', 'd', '4', 'q', '(', 'c', 'o', 'n', 's', 't', ' ', 'E', 'i', 'g', 'e', 'n', ':', ':', 'V', 'e', 'c', 't', 'o', 'r', 'X', 'd', '&', ' ', 'd', '4', 'q', '_', ')', ';'],
  ['\t', '\t', 'v', 'o', 'i', 'd', ' ', 's', 'e', 't', '_', 'd', 'q', 'r', '(', 'c', 'o', 'n', 's', 't', ' ', 'E', 'i', 'g', 'e', 'n', ':', ':', 'V', 'e', 'c', 't', 'o', 'r', 'X', 'd', '&', ' ', 'd', 'q', 'r', '_', ')', ';'],
  ['\t', '\t', 'v', 'o', 'i', 'd', ' ', 's', 'e', 't', '_', 'd', 'd', 'q', 'r', '(', 'c', 'o', 'n', 's', 't', ' ', 'E', 'i', 'g', 'e', 'n', ':', ':', 'V', 'e', 'c', 't', 'o', 'r', 'X', 'd', '&', ' ', 'd', 'd', 'q', 'r', '_', ')', ';'],
  ['\t', '\t', 'v', 'o', 'i', 'd', ' ', 's', 'e', 't', '_', 'x', '(', 'c', 'o', 'n', 's', 't', ' ', 'E', 'i', 'g', 'e', 'n', ':', ':', 'V', 'e', 'c', 't', 'o', 'r', 'X', 'd', '&', ' ', 'x', '_', ')', ';'],
  ['\t', '\t', 'v', 'o', 'i', 'd', ' ', 's', 'e', 't', '_', 'd', 'x', '(', 'c', 'o', 'n', 's', 't', ' ', 'E', 'i', 'g', 'e', 'n', ':', ':', 'V', 'e', 'c', 't', 'o', 'r', 'X', 'd', '&', ' ', 'd', 'x', '_', ')', ';'],
  ['\t', '\t', 'v', 'o', 'i', 'd', ' ', 's', 'e', 't', '_', 'd', 'd', 'x', '(', 'c', 'o', 'n', 's', 't', ' ', 'E', 'i', 'g', 'e', 'n', ':', ':', 'V', 'e', 'c', 't', 'o', 'r', 'X', 'd', '&', ' ', 'd', 'd', 'x', '_', ')', ';'],
  ['\t', '\t', 'v', 'o', 'i', 'd', ' ', 's', 'e', 't', '_', 'd', 'd', 'x', 'r', '(', 'c', 'o', 'n', 's', 't', ' ', 'E', 'i', 'g', 'e', 'n', ':', ':', 'V', 'e', 'c', 't', 'o', 'r', 'X', 'd', '&', ' ', 'd', 'd', 'x', 'r', '_', ')', ';'],
  ['\t', '\t', 'v', 'o', 'i', 'd', ' ', 's', 'e', 't', '_', 'w', '(', 'c', 'o', 'n', 's', 't', ' ', 'E', 'i', 'g', 'e', 'n', ':', ':', 'V', 'e', 'c', 't', 'o', 'r', 'X', 'd', '&', ' ', 'w', '_', ')', ';'],
  ['\t', '\t', 'v', 'o', 'i', 'd', ' ', 's', 'e', 't', '_', 'p', 'a', 'r', '_', 'R', 'E', 'G', '(', 'c', 'o', 'n', 's', 't', ' ', 'E', 'i', 'g', 'e', 'n', ':', ':', 'V', 'e', 'c', 't', 'o', 'r', 'X', 'd', '&', ' ', 'p', 'a', 'r', '_', ',', ' ', 'b', 'o', 'o', 'l', ' ', 'u', 'p', 'd', 'a', 't', 'e', '_', 'D', 'Y', 'N', ' ', '=', ' ', 't', 'r', 'u', 'e', ')', ';'],
  ['\t', '\t', 'v', 'o', 'i', 'd', ' ', 's', 'e', 't', '_', 'p', 'a', 'r', '_', 'D', 'Y', 'N', '(', 'c', 'o', 'n', 's', 't', ' ', 'E', 'i', 'g', 'e', 'n', ':', ':', 'V', 'e', 'c', 't', 'o', 'r', 'X', 'd', '&', ' ', 'p', 'a', 'r', '_', ',', ' ', 'b', 'o', 'o', 'l', ' ', 'u', 'p', 'd', 'a', 't', 'e', '_', 'R', 'E', 'G', ' ', '=', ' ', 't', 'r', 'u', 'e', ')', ';'],
  ['\t', '\t', 'v', 'o', 'i', 'd', ' ', 's', 'e', 't', '_', 'p', 'a', 'r', '_', 'K', '(', 'c', 'o', 'n', 's', 't', ' ', 'E', 'i', 'g', 'e', 'n', ':', ':', 'V', 'e', 'c', 't', 'o', 'r', 'X', 'd', '&', ' ', 'p', 'a', 'r', '_', ')', ';'],
  ['\t', '\t', 'v', 'o', 'i', 'd', ' ', 's', 'e', 't', '_', 'p', 'a', 'r', '_', 'D', '(', 'c', 'o', 'n', 's', 't', ' ', 'E', 'i', 'g', 'e', 'n', ':', ':', 'V', 'e', 'c', 't', 'o', 'r', 'X', 'd', '&', ' ', 'p', 'a', 'r', '_', ')', ';'],
  ['\t', '\t', 'v', 'o', 'i', 'd', ' ', 's', 'e', 't', '_', 'p', 'a', 'r', '_', 'D', 'm', '(', 'c', 'o', 'n', 's', 't', ' ', 'E', 'i', 'g', 'e', 'n', ':', ':', 'V', 'e', 'c', 't', 'o', 'r', 'X', 'd', '&', ' ', 'p', 'a', 'r', '_', ')', ';'],
  ['\t', '\t', 'v', 'o', 'i', 'd', ' ', 's', 'e', 't', '_', 'p', 'a', 'r', '_', 'M', 'm', '(', 'c', 'o', 'n', 's', 't', ' ', 'E', 'i', 'g', 'e', 'n', ':', ':', 'V', 'e', 'c', 't', 'o', 'r', 'X', 'd', '&', ' ', 'p', 'a', 'r', '_', ')', ';'],
  ['\t', '\t', 'v', 'o', 'i', 'd', ' ', 's', 'e', 't', '_', 'p', 'a', 'r', '_', 'D', 'l', '(', 'c', 'o', 'n', 's', 't', ' ', 'E', 'i', 'g', 'e', 'n', ':', ':', 'V', 'e', 'c', 't', 'o', 'r', 'X', 'd', '&', ' ', 'p', 'a', 'r', '_', ')', ';'],
  ['\t', '\t', 'v', 'o', 'i', 'd', ' ', 's', 'e', 't', '_', 'p', 'a', 'r', '_', 'D', 'H', 't', 'a', 'b', 'l', 'e', '(', 'c', 'o', 'n', 's', 't', ' ', 'E', 'i', 'g', 'e', 'n', ':', ':', 'M', 'a', 't', 'r', 'i', 'x', 'X', 'd', '&', ' ', 'p', 'a', 'r', '_', ')', ';'],
  ['\t', '\t', 'v', 'o', 'i', 'd', ' ', 's', 'e', 't', '_', 'p', 'a', 'r', '_', 'g', 'r', 'a', 'v', 'i', 't', 'y', '(', 'c', 'o', 'n', 's', 't', ' ', 'E', 'i', 'g', 'e', 'n', ':', ':', 'V', 'e', 'c', 't', 'o', 'r', 'X', 'd', '&', ' ', 'p', 'a', 'r', '_', ')', ';'],
  ['\t', '\t', 'v', 'o', 'i', 'd', ' ', 's', 'e', 't', '_', 'p', 'a', 'r', '_', 'w', 'o', 'r', 'l', 'd', '2', 'L', '0', '(', 'c', 'o', 'n', 's', 't', ' ', 'E', 'i', 'g', 'e', 'n', ':', ':', 'V', 'e', 'c', 't', 'o', 'r', 'X', 'd', '&', ' ', 'p', 'a', 'r', '_', ')', ';'],
  ['\t', '\t', 'v', 'o', 'i', 'd', ' ', 's', 'e', 't', '_', 'p', 'a', 'r', '_', 'L', 'n', '2', 'E', 'E', '(', 'c', 'o', 'n', 's', 't', ' ', 'E', 'i', 'g', 'e', 'n', ':', ':', 'V', 'e', 'c', 't', 'o', 'r', 'X', 'd', '&', ' ', 'p', 'a', 'r', '_', ')', ';'],
  ['\t', '\t', '/', '/', ' ', 'v', 'o', 'i', 'd', ' ', 's', 'e', 't', '_', 'p', 'a', 'r', '_', 'E', 'L', 'A', '(', 'c', 'o', 'n', 's', 't', ' ', 'E', 'i', 'g', 'e', 'n', ':', ':', 'V', 'e', 'c', 't', 'o', 'r', 'X', 'd', '&', ' ', 'p', 'a', 'r', '_', ')', ';'],
  ['\t', '\t', 'E', 'i', 'g', 'e', 'n', ':', ':', 'V', 'e', 'c', 't', 'o', 'r', 'X', 'd', ' ', 'g', 'e', 't', '_', 'p', 'a', 'r', '_', 'R', 'E', 'G', '(', ')', ';'],
  ['\t', '\t', 'E', 'i', 'g', 'e', 'n', ':', ':', 'V', 'e', 'c', 't', 'o', 'r', 'X', 'd', ' ', 'g', 'e', 't', '_', 'p', 'a', 'r', '_', 'D', 'Y', 'N', '(', ')', ';'],
  ['\t', '\t', 'E', 'i', 'g', 'e', 'n', ':', ':', 'V', 'e', 'c', 't', 'o', 'r', 'X', 'd', ' ', 'g', 'e', 't', '_', 'p', 'a', 'r', '_', 'K', '(', ')', ';'],
  ['\t', '\t', 'E', 'i', 'g', 'e', 'n', ':', ':', 'V', 'e', 'c', 't', 'o', 'r', 'X', 'd', ' ', 'g', 'e', 't', '_', 'p', 'a', 'r', '_', 'D', '(', ')', ';'],
  ['\t', '\t', 'E', 'i', 'g', 'e', 'n', ':', ':', 'V', 'e', 'c', 't', 'o', 'r', 'X', 'd', ' ', 'g', 'e', 't', '_', 'p', 'a', 'r', '_', 'D', 'm', '(', ')', ';'],
  ['\t', '\t', 'E', 'i', 'g', 'e', 'n', ':', ':', 'V', 'e', 'c', 't', 'o', 'r', 'X', 'd', ' ', 'g', 'e', 't', '_', 'p', 'a', 'r', '_', 'M', 'm', '(', ')', ';'],
  ['\t', '\t', 'E', 'i', 'g', 'e', 'n', ':', ':', 'V', 'e', 'c', 't', 'o', 'r', 'X', 'd', ' ', 'g', 'e', 't', '_', 'p', 'a', 'r', '_', 'D', 'l', '(', ')', ';'],
  ['\t', '\t', 'E', 'i', 'g', 'e', 'n', ':', ':', 'M', 'a', 't', 'r', 'i', 'x', 'X', 'd', ' ', 'g', 'e', 't', '_', 'p', 'a', 'r', '_', 'D', 'H', 't', 'a', 'b', 'l', 'e', '(', ')', ';'],
  ['\t', '\t', 'E', 'i', 'g', 'e', 'n', ':', ':', 'V', 'e', 'c', 't', 'o', 'r', 'X', 'd', ' ', 'g', 'e', 't', '_', 'p', 'a', 'r', '_', 'g', 'r', 'a', 'v', 'i', 't', 'y', '(', ')', ';'],
  ['\t', '\t', 'E', 'i', 'g', 'e', 'n', ':', ':', 'V', 'e', 'c', 't', 'o', 'r', 'X', 'd', ' ', 'g', 'e', 't', '_', 'p', 'a', 'r', '_', 'w', 'o', 'r', 'l', 'd', '2', 'L', '0', '(', ')', ';'],
  ['\t', '\t', 'E', 'i', 'g', 'e', 'n', ':', ':', 'V', 'e', 'c', 't', 'o', 'r', 'X', 'd', ' ', 'g', 'e', 't', '_', 'p', 'a', 'r', '_', 'L', 'n', '2', 'E', 'E', '(', ')', ';'],
  ['\t', '\t', '/', '/', ' ', 'E', 'i', 'g', 'e', 'n', ':', ':', 'V', 'e', 'c', 't', 'o', 'r', 'X', 'd', ' ', 'g', 'e', 't', '_', 'p', 'a', 'r', '_', 'E', 'L', 'A', '(', ')', ';'],
  [],
  ['\t', '\t', 'E', 'i', 'g', 'e', 'n', ':', ':', 'V', 'e', 'c', 't', 'o', 'r', 'X', 'd', ' ', 'l', 'o', 'a', 'd', '_', 'p', 'a', 'r', '_', 'R', 'E', 'G', '(', 's', 't', 'd', ':', ':', 's', 't', 'r', 'i', 'n', 'g', ',', ' ', 'b', 'o', 'o', 'l', ' ', 'u', 'p', 'd', 'a', 't', 'e', '_', 'D', 'Y', 'N', ' ', '=', ' ', 't', 'r', 'u', 'e', ')', ';'],
  ['\t', '\t', 'v', 'o', 'i', 'd', ' ', 's', 'a', 'v', 'e', '_', 'p', 'a', 'r', '_', 'R', 'E', 'G', '(', 's', 't', 'd', ':', ':', 's', 't', 'r', 'i', 'n', 'g', ')', ';'],
  ['\t', '\t', 'v', 'o', 'i', 'd', ' ', 'l', 'o', 'a', 'd', '_', 'c', 'o', 'n', 'f', '(', 's', 't', 'd', ':', ':', 's', 't', 'r', 'i', 'n', 'g', ',', ' ', 'b', 'o', 'o', 'l', ' ', 'u', 'p', 'd', 'a', 't', 'e', '_', 'R', 'E', 'G', ' ', '=', ' ', 't', 'r', 'u', 'e', ')', ';'],
  ['\t', '\t', 'v', 'o', 'i', 'd', ' ', 's', 'a', 'v', 'e', '_', 'p', 'a', 'r', '_', 'D', 'Y', 'N', '(', 's', 't', 'd', ':', ':', 's', 't', 'r', 'i', 'n', 'g', ')', ';'],
  ['\t', '\t', 'i', 'n', 't', ' ', 's', 'a', 'v', 'e', '_', 'p', 'a', 'r', '(', 's', 't', 'd', ':', ':', 's', 't', 'r', 'i', 'n', 'g', ' ', 'p', 'a', 'r', '_', 'f', 'i', 'l', 'e', ')', ';'],
  ['\t', '\t', '/', '/', ' ', 'v', 'o', 'i', 'd', ' ', 'l', 'o', 'a', 'd', '_', 'p', 'a', 'r', '_', 'D', 'Y', 'N', '(', 's', 't', 'd', ':', ':', 's', 't', 'r', 'i', 'n', 'g', ')', ';'],
  ['\t', '\t', '/', '/', ' ', 'v', 'o', 'i', 'd', ' ', 's', 'a', 'v', 'e', '_', 'p', 'a', 'r', '_', 'D', 'Y', 'N', '(', 's', 't', 'd', ':', ':', 's', 't', 'r', 'i', 'n', 'g', ')', ';'],
  ['\t', '\t', '/', '/', ' ', 'v', 'o', 'i', 'd', ' ', 'l', 'o', 'a', 'd', '_', 'p', 'a', 'r', '_', 'e', 'l', 'a', 's', 't', 'i', 'c', '(', 's', 't', 'd', ':', ':', 's', 't', 'r', 'i', 'n', 'g', ')', ';'],
  ['\t', '\t', '/', '/', ' ', 'v', 'o', 'i', 'd', ' ', 'l', 'o', 'a', 'd', '_', 'p', 'a', 'r', '_', 'E', 'L', 'A', '(', 's', 't', 'd', ':', ':', 's', 't', 'r', 'i', 'n', 'g', ')', ';'],
  ['\t', '\t', '/', '/', ' ', 'v', 'o', 'i', 'd', ' ', 's', 'a', 'v', 'e', '_', 'p', 'a', 'r', '_', 'E', 'L', 'A', '(', 's', 't', 'd', ':', ':', 's', 't', 'r', 'i', 'n', 'g', ')', ';'],
  [],
  ['\t', '\t', 'i', 'n', 't', ' ', 'g', 'e', 't', '_', 'n', 'u', 'm', 'J', 'o', 'i', 'n', 't', 's', '(', ')', ';'],
  ['\t', '\t', '/', '/', ' ', 'i', 'n', 't', ' ', 'g', 'e', 't', '_', 'n', 'u', 'm', 'P', 'a', 'r', 'L', 'i', 'n', 'k', '(', ')', ';'],
  ['\t', '\t', 'i', 'n', 't', ' ', 'g', 'e', 't', '_', 'n', 'u', 'm', 'P', 'a', 'r', 'D', 'Y', 'N', '(', ')', ';'],
  ['\t', '\t', 'i', 'n', 't', ' ', 'g', 'e', 't', '_', 'n', 'u', 'm', 'P', 'a', 'r', 'R', 'E', 'G', '(', ')', ';'],
  ['\t', '\t', '/', '/', ' ', 'i', 'n', 't', ' ', 'g', 'e', 't', '_', 'n', 'u', 'm', 'P', 'a', 'r', 'E', 'L', 'A', '(', ')', ';'],
  [],
  ['\t', '\t', '/', '/', ' ', '-', '-', '-', '-', '-', ' ', 'g', 'e', 'n', 'e', 'r', 'a', 't', 'e', 'd', ' ', 'f', 'u', 'n', 'c', 't', 'i', 'o', 'n', 's', ' ', '-', '-', '-', '-', '-', ' ', '/', '/'],
  ['\t', '\t', '/', '*', '#', '-', 'F', 'U', 'N', 'C', 'T', 'I', 'O', 'N', 'S', '_', 'H', '-', '#', '*', '/'],
  ['}', ';'],
  [],
  ['#', 'e', 'n', 'd', 'i', 'f']]

theorem headerLines_eq : headerLines.map ch = headerChars := by
  have h : headerLines = headerChars.map String.ofList := rfl
  rw [h, List.map_map]
  exact (List.map_congr_left fun l _ => String.toList_ofList).trans (List.map_id _)

/-- The characters of `sourceLines`. -/
def sourceChars : List (List Char) := [
  ['#', 'i', 'n', 'c', 'l', 'u', 'd', 'e', ' ', '"', 't', 'h', 'u', 'n', 'd', 'e', 'r', '_', 'r', 'o', 'b', 'o', 't', '.', 'h', '"'],
  ['#', 'i', 'n', 'c', 'l', 'u', 'd', 'e', ' ', '"', 'r', 'o', 'b', 'o', 't', '_', 'g', 'e', 'n', '.', 'h', '"'],
  [],
  [],
  ['/', '*', 'O', 'P', 'T', 'I', 'O', 'N', 'A', 'L', ' ', 'P', 'Y', 'B', 'I', 'N', 'D', '1', '1', ' ', 'I', 'N', 'C', 'L', 'U', 'D', 'E', ' ', 'P', 'O', 'I', 'N', 'T', '*', '/'],
  [],
  [],
  ['t', 'h', 'u', 'n', 'd', 'e', 'r', '_', 'r', 'o', 'b', 'o', 't', ':', ':', 't', 'h', 'u', 'n', 'd', 'e', 'r', '_', 'r', 'o', 'b', 'o', 't', '(', ')', '{'],
  ['\t', 'r', 'e', 's', 'i', 'z', 'e', 'V', 'a', 'r', 'i', 'a', 'b', 'l', 'e', 's', '(', ')', ';'],
  ['}'],
  [],
  ['v', 'o', 'i', 'd', ' ', 't', 'h', 'u', 'n', 'd', 'e', 'r', '_', 'r', 'o', 'b', 'o', 't', ':', ':', 'r', 'e', 's', 'i', 'z', 'e', 'V', 'a', 'r', 'i', 'a', 'b', 'l', 'e', 's', '(', ')', '{'],
  ['\t', 'q', ' ', '=', ' ', 'E', 'i', 'g', 'e', 'n', ':', ':', 'V', 'e', 'c', 't', 'o', 'r', 'X', 'd', ':', ':', 'Z', 'e', 'r', 'o', '(', 'n', '_', 'j', 'o', 'i', 'n', 't', 's', ')', ';'],
  ['\t', 'd', 'q', ' ', '=', ' ', 'E', 'i', 'g', 'e', 'n', ':', ':', 'V', 'e', 'c', 't', 'o', 'r', 'X', 'd', ':', ':', 'Z', 'e', 'r', 'o', '(', 'n', '_', 'j', 'o', 'i', 'n', 't', 's', ')', ';'],
  ['\t', 'd', 'd', 'q', ' ', '=', ' ', 'E', 'i', 'g', 'e', 'n', ':', ':', 'V', 'e', 'c', 't', 'o', 'r', 'X', 'd', ':', ':', 'Z', 'e', 'r', 'o', '(', 'n', '_', 'j', 'o', 'i', 'n', 't', 's', ')', ';'],
  ['\t', 'd', '3', 'q', ' ', '=', ' ', 'E', 'i', 'g', 'e', 'n', ':', ':', 'V', 'e', 'c', 't', 'o', 'r', 'X', 'd', ':', ':', 'Z', 'e', 'r', 'o', '(', 'n', '_', 'j', 'o', 'i', 'n', 't', 's', ')', ';'],
  ['\t', 'd', '4', 'q', ' ', '=', ' ', 'E', 'i', 'g', 'e', 'n', ':', ':', 'V', 'e', 'c', 't', 'o', 'r', 'X', 'd', ':', ':', 'Z', 'e', 'r', 'o', '(', 'n', '_', 'j', 'o', 'i', 'n', 't', 's', ')', ';'],
  ['\t', 'd', 'q', 'r', ' ', '=', ' ', 'E', 'i', 'g', 'e', 'n', ':', ':', 'V', 'e', 'c', 't', 'o', 'r', 'X', 'd', ':', ':', 'Z', 'e', 'r', 'o', '(', 'n', '_', 'j', 'o', 'i', 'n', 't', 's', ')', ';'],
  ['\t', 'd', 'd', 'q', 'r', ' ', '=', ' ', 'E', 'i', 'g', 'e', 'n', ':', ':', 'V', 'e', 'c', 't', 'o', 'r', 'X', 'd', ':', ':', 'Z', 'e', 'r', 'o', '(', 'n', '_', 'j', 'o', 'i', 'n', 't', 's', ')', ';'],
  ['\t', 'x', ' ', '=', ' ', 'E', 'i', 'g', 'e', 'n', ':', ':', 'V', 'e', 'c', 't', 'o', 'r', 'X', 'd', ':', ':', 'Z', 'e', 'r', 'o', '(', 'n', 'u', 'm', 'E', 'l', 'a', 's', 't', 'i', 'c', 'J', 'o', 'i', 'n', 't', 's', ')', ';'],
  ['\t', 'd', 'x', ' ', '=', ' ', 'E', 'i', 'g', 'e', 'n', ':', ':', 'V', 'e', 'c', 't', 'o', 'r', 'X', 'd', ':', ':', 'Z', 'e', 'r', 'o', '(', 'n', 'u', 'm', 'E', 'l', 'a', 's', 't', 'i', 'c', 'J', 'o', 'i', 'n', 't', 's', ')', ';'],
  ['\t', 'd', 'd', 'x', ' ', '=', ' ', 'E', 'i', 'g', 'e', 'n', ':', ':', 'V', 'e', 'c', 't', 'o', 'r', 'X', 'd', ':', ':', 'Z', 'e', 'r', 'o', '(', 'n', 'u', 'm', 'E', 'l', 'a', 's', 't', 'i', 'c', 'J', 'o', 'i', 'n', 't', 's', ')', ';'],
  ['\t', 'd', 'd', 'x', 'r', ' ', '=', ' ', 'E', 'i', 'g', 'e', 'n', ':', ':', 'V', 'e', 'c', 't', 'o', 'r', 'X', 'd', ':', ':', 'Z', 'e', 'r', 'o', '(', 'n', 'u', 'm', 'E', 'l', 'a', 's', 't', 'i', 'c', 'J', 'o', 'i', 'n', 't', 's', ')', ';'],
  ['\t', 'w', ' ', '=', ' ', 'E', 'i', 'g', 'e', 'n', ':', ':', 'V', 'e', 'c', 't', 'o', 'r', 'X', 'd', ':', ':', 'Z', 'e', 'r', 'o', '(', '6', ')', ';'],
  ['\t', 'p', 'a', 'r', '_', 'R', 'E', 'G', ' ', '=', ' ', 'E', 'i', 'g', 'e', 'n', ':', ':', 'V', 'e', 'c', 't', 'o', 'r', 'X', 'd', ':', ':', 'Z', 'e', 'r', 'o', '(', 'S', 'T', 'D', '_', 'P', 'A', 'R', '_', 'L', 'I', 'N', 'K', '*', 'n', '_', 'j', 'o', 'i', 'n', 't', 's', ')', ';'],
  ['\t', 'p', 'a', 'r', '_', 'D', 'Y', 'N', ' ', '=', ' ', 'E', 'i', 'g', 'e', 'n', ':', ':', 'V', 'e', 'c', 't', 'o', 'r', 'X', 'd', ':', ':', 'Z', 'e', 'r', 'o', '(', 'S', 'T', 'D', '_', 'P', 'A', 'R', '_', 'L', 'I', 'N', 'K', '*', 'n', '_', 'j', 'o', 'i', 'n', 't', 's', ')', ';'],
  ['\t', 'p', 'a', 'r', '_', 'D', 'l', ' ', '=', ' ', 'E', 'i', 'g', 'e', 'n', ':', ':', 'V', 'e', 'c', 't', 'o', 'r', 'X', 'd', ':', ':', 'Z', 'e', 'r', 'o', '(', 'D', 'l', '_', 'o', 'r', 'd', 'e', 'r', '*', 'n', '_', 'j', 'o', 'i', 'n', 't', 's', ')', ';'],
  ['\t', 'p', 'a', 'r', '_', 'K', ' ', '=', ' ', 'E', 'i', 'g', 'e', 'n', ':', ':', 'V', 'e', 'c', 't', 'o', 'r', 'X', 'd', ':', ':', 'Z', 'e', 'r', 'o', '(', 'K', '_', 'o', 'r', 'd', 'e', 'r', '*', 'n', 'u', 'm', 'E', 'l', 'a', 's', 't', 'i', 'c', 'J', 'o', 'i', 'n', 't', 's', ')', ';'],
  ['\t', 'p', 'a', 'r', '_', 'D', ' ', '=', ' ', 'E', 'i', 'g', 'e', 'n', ':', ':', 'V', 'e', 'c', 't', 'o', 'r', 'X', 'd', ':', ':', 'Z', 'e', 'r', 'o', '(', 'D', '_', 'o', 'r', 'd', 'e', 'r', '*', 'n', 'u', 'm', 'E', 'l', 'a', 's', 't', 'i', 'c', 'J', 'o', 'i', 'n', 't', 's', ')', ';'],
  ['\t', 'p', 'a', 'r', '_', 'D', 'm', ' ', '=', ' ', 'E', 'i', 'g', 'e', 'n', ':', ':', 'V', 'e', 'c', 't', 'o', 'r', 'X', 'd', ':', ':', 'Z', 'e', 'r', 'o', '(', 'D', 'm', '_', 'o', 'r', 'd', 'e', 'r', '*', 'n', 'u', 'm', 'E', 'l', 'a', 's', 't', 'i', 'c', 'J', 'o', 'i', 'n', 't', 's', ')', ';'],
  ['\t', 'p', 'a', 'r', '_', 'M', 'm', ' ', '=', ' ', 'E', 'i', 'g', 'e', 'n', ':', ':', 'V', 'e', 'c', 't', 'o', 'r', 'X', 'd', ':', ':', 'Z', 'e', 'r', 'o', '(', 'n', 'u', 'm', 'E', 'l', 'a', 's', 't', 'i', 'c', 'J', 'o', 'i', 'n', 't', 's', ')', ';'],
  ['\t', 'p', 'a', 'r', '_', 'D', 'H', 't', 'a', 'b', 'l', 'e', ' ', '=', ' ', 'E', 'i', 'g', 'e', 'n', ':', ':', 'V', 'e', 'c', 't', 'o', 'r', 'X', 'd', ':', ':', 'Z', 'e', 'r', 'o', '(', 'n', '_', 'j', 'o', 'i', 'n', 't', 's', '*', '4', ')', ';'],
  ['\t', 'p', 'a', 'r', '_', 'w', 'o', 'r', 'l', 'd', '2', 'L', '0', ' ', '=', ' ', 'E', 'i', 'g', 'e', 'n', ':', ':', 'V', 'e', 'c', 't', 'o', 'r', 'X', 'd', ':', ':', 'Z', 'e', 'r', 'o', '(', '6', ')', ';'],
  ['\t', 'p', 'a', 'r', '_', 'L', 'n', '2', 'E', 'E', ' ', '=', ' ', 'E', 'i', 'g', 'e', 'n', ':', ':', 'V', 'e', 'c', 't', 'o', 'r', 'X', 'd', ':', ':', 'Z', 'e', 'r', 'o', '(', '6', ')', ';'],
  ['\t', 'p', 'a', 'r', '_', 'g', 'r', 'a', 'v', 'i', 't', 'y', ' ', '=', ' ', 'E', 'i', 'g', 'e', 'n', ':', ':', 'V', 'e', 'c', 't', 'o', 'r', 'X', 'd', ':', ':', 'Z', 'e', 'r', 'o', '(', '3', ')', ';'],
  ['\t', 'D', 'H', 't', 'a', 'b', 'l', 'e', '_', 's', 'y', 'm', 'b', '.', 'r', 'e', 's', 'i', 'z', 'e', '(', 'n', '_', 'j', 'o', 'i', 'n', 't', 's', '*', '4', ')', ';'],
  ['\t', 'f', 'o', 'r', ' ', '(', 'i', 'n', 't', ' ', 'i', '=', '0', ';', ' ', 'i', '<', 'n', '_', 'j', 'o', 'i', 'n', 't', 's', '*', '4', ';', ' ', 'i', '+', '+', ')', ' ', 'D', 'H', 't', 'a', 'b', 'l', 'e', '_', 's', 'y', 'm', 'b', '[', 'i', ']', ' ', '=', ' ', '0', ';'],
  ['\t', 'g', 'r', 'a', 'v', 'i', 't', 'y', '_', 's', 'y', 'm', 'b', '.', 'r', 'e', 's', 'i', 'z', 'e', '(', '3', ')', ';'],
  ['\t', 'f', 'o', 'r', ' ', '(', 'i', 'n', 't', ' ', 'i', '=', '0', ';', ' ', 'i', '<', '3', ';', ' ', 'i', '+', '+', ')', ' ', 'g', 'r', 'a', 'v', 'i', 't', 'y', '_', 's', 'y', 'm', 'b', '[', 'i', ']', ' ', '=', ' ', '0', ';'],
  ['\t', 'w', 'o', 'r', 'l', 'd', '2', 'L', '0', '_', 's', 'y', 'm', 'b', '.', 'r', 'e', 's', 'i', 'z', 'e', '(', '6', ')', ';'],
  ['\t', 'L', 'n', '2', 'E', 'E', '_', 's', 'y', 'm', 'b', '.', 'r', 'e', 's', 'i', 'z', 'e', '(', '6', ')', ';'],
  ['\t', 'f', 'o', 'r', ' ', '(', 'i', 'n', 't', ' ', 'i', '=', '0', ';', ' ', 'i', '<', '6', ';', ' ', 'i', '+', '+', ')', '{'],
  ['\t', '\t', 'w', 'o', 'r', 'l', 'd', '2', 'L', '0', '_', 's', 'y', 'm', 'b', '[', 'i', ']', ' ', '=', ' ', '0', ';'],
  ['\t', '\t', 'L', 'n', '2', 'E', 'E', '_', 's', 'y', 'm', 'b', '[', 'i', ']', ' ', '=', ' ', '0', ';'],
  ['\t', '}'],
  ['}'],
  [],
  ['i', 'n', 't', ' ', 't', 'h', 'u', 'n', 'd', 'e', 'r', '_', 'r', 'o', 'b', 'o', 't', ':', ':', 'g', 'e', 't', '_', 'n', 'u', 'm', 'J', 'o', 'i', 'n', 't', 's', '(', ')', ' ', '{', 'r', 'e', 't', 'u', 'r', 'n', ' ', 'n', '_', 'j', 'o', 'i', 'n', 't', 's', ';', '}', ';'],
  ['/', '/', ' ', 'i', 'n', 't', ' ', 't', 'h', 'u', 'n', 'd', 'e', 'r', '_', 'r', 'o', 'b', 'o', 't', ':', ':', 'g', 'e', 't', '_', 'n', 'u', 'm', 'P', 'a', 'r', 'L', 'i', 'n', 'k', '(', ')', ' ', '{', 'r', 'e', 't', 'u', 'r', 'n', ' ', 'n', '_', 'j', 'o', 'i', 'n', 't', 's', ';', '}', ';'],
  ['i', 'n', 't', ' ', 't', 'h', 'u', 'n', 'd', 'e', 'r', '_', 'r', 'o', 'b', 'o', 't', ':', ':', 'g', 'e', 't', '_', 'n', 'u', 'm', 'P', 'a', 'r', 'D', 'Y', 'N', '(', ')', ' ', '{', 'r', 'e', 't', 'u', 'r', 'n', ' ', 'S', 'T', 'D', '_', 'P', 'A', 'R', '_', 'L', 'I', 'N', 'K', '*', 'n', '_', 'j', 'o', 'i', 'n', 't', 's', ';', '}', ';'],
  ['i', 'n', 't', ' ', 't', 'h', 'u', 'n', 'd', 'e', 'r', '_', 'r', 'o', 'b', 'o', 't', ':', ':', 'g', 'e', 't', '_', 'n', 'u', 'm', 'P', 'a', 'r', 'R', 'E', 'G', '(', ')', ' ', '{', 'r', 'e', 't', 'u', 'r', 'n', ' ', 'S', 'T', 'D', '_', 'P', 'A', 'R', '_', 'L', 'I', 'N', 'K', '*', 'n', '_', 'j', 'o', 'i', 'n', 't', 's', ';', '}', ';'],
  ['/', '/', ' ', 'i', 'n', 't', ' ', 't', 'h', 'u', 'n', 'd', 'e', 'r', '_', 'r', 'o', 'b', 'o', 't', ':', ':', 'g', 'e', 't', '_', 'n', 'u', 'm', 'P', 'a', 'r', 'E', 'L', 'A', '(', ')', ' ', '{', 'r', 'e', 't', 'u', 'r', 'n', ' ', 'n', 'u', 'm', 'P', 'a', 'r', 'E', 'L', 'A', ';', '}', ';'],
  [],
  ['v', 'o', 'i', 'd', ' ', 't', 'h', 'u', 'n', 'd', 'e', 'r', '_', 'r', 'o', 'b', 'o', 't', ':', ':', 's', 'e', 't', 'A', 'r', 'g', 'u', 'm', 'e', 'n', 't', 's', '(', 'c', 'o', 'n', 's', 't', ' ', 'E', 'i', 'g', 'e', 'n', ':', ':', 'V', 'e', 'c', 't', 'o', 'r', 'X', 'd', '&', ' ', 'q', '_', ',', ' ', 'c', 'o', 'n', 's', 't', ' ', 'E', 'i', 'g', 'e', 'n', ':', ':', 'V', 'e', 'c', 't', 'o', 'r', 'X', 'd', '&', ' ', 'd', 'q', '_', ',', ' ', 'c', 'o', 'n', 's', 't', ' ', 'E', 'i', 'g', 'e', 'n', ':', ':', 'V', 'e', 'c', 't', 'o', 'r', 'X', 'd', '&', ' ', 'd', 'q', 'r', '_', ',', ' ', 'c', 'o', 'n', 's', 't', ' ', 'E', 'i', 'g', 'e', 'n', ':', ':', 'V', 'e', 'c', 't', 'o', 'r', 'X', 'd', '&', ' ', 'd', 'd', 'q', 'r', '_', ')', '{'],
  ['\t', 'i', 'f', '(', 'q', '_', '.', 's', 'i', 'z', 'e', '(', ')', ' ', '=', '=', ' ', 'n', '_', 'j', 'o', 'i', 'n', 't', 's', ' ', '&', '&', ' ', 'd', 'q', '_', '.', 's', 'i', 'z', 'e', '(', ')', '=', '=', ' ', 'n', '_', 'j', 'o', 'i', 'n', 't', 's', ' ', '&', '&', ' ', 'd', 'q', 'r', '_', '.', 's', 'i', 'z', 'e', '(', ')', '=', '=', 'n', '_', 'j', 'o', 'i', 'n', 't', 's', ' ', '&', '&', ' ', 'd', 'd', 'q', 'r', '_', '.', 's', 'i', 'z', 'e', '(', ')', '=', '=', 'n', '_', 'j', 'o', 'i', 'n', 't', 's', ')', '{'],
  ['\t', '\t', 'q', ' ', '=', ' ', 'q', '_', ';'],
  ['\t', '\t', 'd', 'q', ' ', '=', ' ', 'd', 'q', '_', ';'],
  ['\t', '\t', 'd', 'q', 'r', ' ', '=', ' ', 'd', 'q', 'r', '_', ';'],
  ['\t', '\t', 'd', 'd', 'q', 'r', ' ', '=', ' ', 'd', 'd', 'q', 'r', '_', ';'],
  ['\t', '}', ' ', 'e', 'l', 's', 'e', '{'],
  ['\t', '\t', 's', 't', 'd', ':', ':', 'c', 'o', 'u', 't', '<', '<', '"', 'i', 'n', ' ', 's', 'e', 't', 'A', 'r', 'g', 'u', 'm', 'e', 'n', 't', 's', ':', ' ', 'i', 'n', 'v', 'a', 'l', 'i', 'd', ' ', 'd', 'i', 'm', 'e', 'n', 's', 'i', 'o', 'n', 's', ' ', 'o', 'f', ' ', 'a', 'r', 'g', 'u', 'm', 'e', 'n', 't', 's', '\\', 'n', '"', ';'],
  ['\t', '}'],
  ['}'],
  [],
  ['v', 'o', 'i', 'd', ' ', 't', 'h', 'u', 'n', 'd', 'e', 'r', '_', 'r', 'o', 'b', 'o', 't', ':', ':', 's', 'e', 't', '_', 'q', '(', 'c', 'o', 'n', 's', 't', ' ', 'E', 'i', 'g', 'e', 'n', ':', ':', 'V', 'e', 'c', 't', 'o', 'r', 'X', 'd', '&', ' ', 'q', '_', ')', '{'],
  ['\t', 'i', 'f', '(', 'q', '_', '.', 's', 'i', 'z', 'e', '(', ')', ' ', '=', '=', ' ', 'n', '_', 'j', 'o', 'i', 'n', 't', 's', ')', '{'],
  ['\t', '\t', 'q', ' ', '=', ' ', 'q', '_', ';'],
  ['\t', '}', ' ', 'e', 'l', 's', 'e', '{'],
  ['\t', '\t', 's', 't', 'd', ':', ':', 'c', 'o', 'u', 't', '<', '<', '"', 'i', 'n', ' ', 's', 'e', 't', '_', 'q', ':', ' ', 'i', 'n', 'v', 'a', 'l', 'i', 'd', ' ', 'd', 'i', 'm', 'e', 'n', 's', 'i', 'o', 'n', 's', ' ', 'o', 'f', ' ', 'a', 'r', 'g', 'u', 'm', 'e', 'n', 't', 's', '\\', 'n', '"', ';'],
  ['\t', '}'],
  ['}'],
  [],
  ['v', 'o', 'i', 'd', ' ', 't', 'h', 'u', 'n', 'd', 'e', 'r', '_', 'r', 'o', 'b', 'o', 't', ':', ':', 's', 'e', 't', '_', 'd', 'q', '(', 'c', 'o', 'n', 's', 't', ' ', 'E', 'i', 'g', 'e', 'n', ':', ':', 'V', 'e', 'c', 't', 'o', 'r', 'X', 'd', '&', ' ', 'd', 'q', '_', ')', '{'],
  ['\t', 'i', 'f', '(', 'd', 'q', '_', '.', 's', 'i', 'z', 'e', '(', ')', ' ', '=', '=', ' ', 'n', '_', 'j', 'o', 'i', 'n', 't', 's', ')', '{'],
  ['\t', '\t', 'd', 'q', ' ', '=', ' ', 'd', 'q', '_', ';'],
  ['\t', '}', ' ', 'e', 'l', 's', 'e', '{'],
  ['\t', '\t', 's', 't', 'd', ':', ':', 'c', 'o', 'u', 't', '<', '<', '"', 'i', 'n', ' ', 's', 'e', 't', '_', 'd', 'q', ':', ' ', 'i', 'n', 'v', 'a', 'l', 'i', 'd', ' ', 'd', 'i', 'm', 'e', 'n', 's', 'i', 'o', 'n', 's', ' ', 'o', 'f', ' ', 'a', 'r', 'g', 'u', 'm', 'e', 'n', 't', 's', '\\', 'n', '"', ';'],
  ['\t', '}'],
  ['}'],
  [],
  ['v', 'o', 'i', 'd', ' ', 't', 'h', 'u', 'n', 'd', 'e', 'r', '_', 'r', 'o', 'b', 'o', 't', ':', ':', 's', 'e', 't', '_', 'd', 'd', 'q', '(', 'c', 'o', 'n', 's', 't', ' ', 'E', 'i', 'g', 'e', 'n', ':', ':', 'V', 'e', 'c', 't', 'o', 'r', 'X', 'd', '&', ' ', 'd', 'd', 'q', '_', ')', '{'],
  ['\t', 'i', 'f', '(', 'd', 'd', 'q', '_', '.', 's', 'i', 'z', 'e', '(', ')', ' ', '=', '=', ' ', 'n', '_', 'j', 'o', 'i', 'n', 't', 's', ')', '{'],
  ['\t', '\t', 'd', 'd', 'q', ' ', '=', ' ', 'd', 'd', 'q', '_', ';'],
  ['\t', '}', ' ', 'e', 'l', 's', 'e', '{'],
  ['\t', '\t', 's', 't', 'd', ':', ':', 'c', 'o', 'u', 't', '<', '<', '"', 'i', 'n', ' ', 's', 'e', 't', '_', 'd', 'd', 'q', ':', ' ', 'i', 'n', 'v', 'a', 'l', 'i', 'd', ' ', 'd', 'i', 'm', 'e', 'n', 's', 'i', 'o', 'n', 's', ' ', 'o', 'f', ' ', 'a', 'r', 'g', 'u', 'm', 'e', 'n', 't', 's', '\\', 'n', '"', ';'],
  ['\t', '}'],
  ['}'],
  [],
  ['v', 'o', 'i', 'd', ' ', 't', 'h', 'u', 'n', 'd', 'e', 'r', '_', 'r', 'o', 'b', 'o', 't', ':', ':', 's', 'e', 't', '_', 'd', '3', 'q', '(', 'c', 'o', 'n', 's', 't', ' ', 'E', 'i', 'g', 'e', 'n', ':', ':', 'V', 'e', 'c', 't', 'o', 'r', 'X', 'd', '&', ' ', 'd', '3', 'q', '_', ')', '{'],
  ['\t', 'i', 'f', '(', 'd', '3', 'q', '_', '.', 's', 'i', 'z', 'e', '(', ')', ' ', '=', '=', ' ', 'n', '_', 'j', 'o', 'i', 'n', 't', 's', ')', '{'],
  ['\t', '\t', 'd', '3', 'q', ' ', '=', ' ', 'd', '3', 'q', '_', ';'],
  ['\t', '}', ' ', 'e', 'l', 's', 'e', '{'],
  ['\t', '\t', 's', 't', 'd', ':', ':', 'c', 'o', 'u', 't', '<', '<', '"', 'i', 'n', ' ', 's', 'e', 't', '_', 'd', '3', 'q', ':', ' ', 'i', 'n', 'v', 'a', 'l', 'i', 'd', ' ', 'd', 'i', 'm', 'e', 'n', 's', 'i', 'o', 'n', 's', ' ', 'o', 'f', ' ', 'a', 'r', 'g', 'u', 'm', 'e', 'n', 't', 's', '\\', 'n', '"', ';'],
  ['\t', '}'],
  ['}'],
  [],
  ['v', 'o', 'i', 'd', ' ', 't', 'h', 'u', 'n', 'd', 'e', 'r', '_', 'r', 'o', 'b', 'o', 't', ':', ':', 's', 'e', 't', '_', 'd', '4', 'q', '(', 'c', 'o', 'n', 's', 't', ' ', 'E', 'i', 'g', 'e', 'n', ':', ':', 'V', 'e', 'c', 't', 'o', 'r', 'X', 'd', '&', ' ', 'd', '4', 'q', '_', ')', '{'],
  ['\t', 'i', 'f', '(', 'd', '4', 'q', '_', '.', 's', 'i', 'z', 'e', '(', ')', ' ', '=', '=', ' ', 'n', '_', 'j', 'o', 'i', 'n', 't', 's', ')', '{'],
  ['\t', '\t', 'd', '4', 'q', ' ', '=', ' ', 'd', '4', 'q', '_', ';'],
  ['\t', '}', ' ', 'e', 'l', 's', 'e', '{'],
  ['\t', '\t', 's', 't', 'd', ':', ':', 'c', 'o', 'u', 't', '<', '<', '"', 'i', 'n', ' ', 's', 'e', 't', '_', 'd', '4', 'q', ':', ' ', 'i', 'n', 'v', 'a', 'l', 'i', 'd', ' ', 'd', 'i', 'm', 'e', 'n', 's', 'i', 'o', 'n', 's', ' ', 'o', 'f', ' ', 'a', 'r', 'g', 'u', 'm', 'e', 'n', 't', 's', '\\', 'n', '"', ';'],
  ['\t', '}'],
  ['}'],
  [],
  ['v', 'o', 'i', 'd', ' ', 't', 'h', 'u', 'n', 'd', 'e', 'r', '_', 'r', 'o', 'b', 'o', 't', ':', ':', 's', 'e', 't', '_', 'd', 'q', 'r', '(', 'c', 'o', 'n', 's', 't', ' ', 'E', 'i', 'g', 'e', 'n', ':', ':', 'V', 'e', 'c', 't', 'o', 'r', 'X', 'd', '&', ' ', 'd', 'q', 'r', '_', ')', '{'],
  ['\t', 'i', 'f', '(', 'd', 'q', 'r', '_', '.', 's', 'i', 'z', 'e', '(', ')', ' ', '=', '=', ' ', 'n', '_', 'j', 'o', 'i', 'n', 't', 's', ')', '{'],
  ['\t', '\t', 'd', 'q', 'r', ' ', '=', ' ', 'd', 'q', 'r', '_', ';'],
  ['\t', '}', ' ', 'e', 'l', 's', 'e', '{'],
  ['\t', '\t', 's', 't', 'd', ':', ':', 'c', 'o', 'u', 't', '<', '<', '"', 'i', 'n', ' ', 's', 'e', 't', '_', 'd', 'q', 'r', ':', ' ', 'i', 'n', 'v', 'a', 'l', 'i', 'd', ' ', 'd', 'i', 'm', 'e', 'n', 's', 'i', 'o', 'n', 's', ' ', 'o', 'f', ' ', 'a', 'r', 'g', 'u', 'm', 'e', 'n', 't', 's', '\\', 'n', '"', ';'],
  ['\t', '}'],
  ['}'],
  [],
  ['v', 'o', 'i', 'd', ' ', 't', 'h', 'u', 'n', 'd', 'e', 'r', '_', 'r', 'o', 'b', 'o', 't', ':', ':', 's', 'e', 't', '_', 'd', 'd', 'q', 'r', '(', 'c', 'o', 'n', 's', 't', ' ', 'E', 'i', 'g', 'e', 'n', ':', ':', 'V', 'e', 'c', 't', 'o', 'r', 'X', 'd', '&', ' ', 'd', 'd', 'q', 'r', '_', ')', '{'],
  ['\t', 'i', 'f', '(', 'd', 'd', 'q', 'r', '_', '.', 's', 'i', 'z', 'e', '(', ')', ' ', '=', '=', ' ', 'n', '_', 'j', 'o', 'i', 'n', 't', 's', ')', '{'],
  ['\t', '\t', 'd', 'd', 'q', 'r', ' ', '=', ' ', 'd', 'd', 'q', 'r', '_', ';'],
  ['\t', '}', ' ', 'e', 'l', 's', 'e', '{'],
  ['\t', '\t', 's', 't', 'd', ':', ':', 'c', 'o', 'u', 't', '<', '<', '"', 'i', 'n', ' ', 's', 'e', 't', '_', 'd', 'd', 'q', 'r', ':', ' ', 'i', 'n', 'v', 'a', 'l', 'i', 'd', ' ', 'd', 'i', 'm', 'e', 'n', 's', 'i', 'o', 'n', 's', ' ', 'o', 'f', ' ', 'a', 'r', 'g', 'u', 'm', 'e', 'n', 't', 's', '\\', 'n', '"', ';'],
  ['\t', '}'],
  ['}'],
  [],
  ['v', 'o', 'i', 'd', ' ', 't', 'h', 'u', 'n', 'd', 'e', 'r', '_', 'r', 'o', 'b', 'o', 't', ':', ':', 's', 'e', 't', '_', 'x', '(', 'c', 'o', 'n', 's', 't', ' ', 'E', 'i', 'g', 'e', 'n', ':', ':', 'V', 'e', 'c', 't', 'o', 'r', 'X', 'd', '&', ' ', 'x', '_', ')', '{'],
  ['\t', 'i', 'f', '(', 'x', '_', '.', 's', 'i', 'z', 'e', '(', ')', ' ', '=', '=', ' ', 'n', 'u', 'm', 'E', 'l', 'a', 's', 't', 'i', 'c', 'J', 'o', 'i', 'n', 't', 's', ')', '{'],
  ['\t', '\t', 'x', ' ', '=', ' ', 'x', '_', ';'],
  ['\t', '}', ' ', 'e', 'l', 's', 'e', '{'],
  ['\t', '\t', 's', 't', 'd', ':', ':', 'c', 'o', 'u', 't', '<', '<', '"', 'i', 'n', ' ', 's', 'e', 't', '_', 'x', ':', ' ', 'i', 'n', 'v', 'a', 'l', 'i', 'd', ' ', 'd', 'i', 'm', 'e', 'n', 's', 'i', 'o', 'n', 's', ' ', 'o', 'f', ' ', 'a', 'r', 'g', 'u', 'm', 'e', 'n', 't', 's', '\\', 'n', '"', ';'],
  ['\t', '}'],
  ['}'],
  [],
  ['v', 'o', 'i', 'd', ' ', 't', 'h', 'u', 'n', 'd', 'e', 'r', '_', 'r', 'o', 'b', 'o', 't', ':', ':', 's', 'e', 't', '_', 'd', 'x', '(', 'c', 'o', 'n', 's', 't', ' ', 'E', 'i', 'g', 'e', 'n', ':', ':', 'V', 'e', 'c', 't', 'o', 'r', 'X', 'd', '&', ' ', 'd', 'x', '_', ')', '{'],
  ['\t', 'i', 'f', '(', 'd', 'x', '_', '.', 's', 'i', 'z', 'e', '(', ')', ' ', '=', '=', ' ', 'n', 'u', 'm', 'E', 'l', 'a', 's', 't', 'i', 'c', 'J', 'o', 'i', 'n', 't', 's', ')', '{'],
  ['\t', '\t', 'd', 'x', ' ', '=', ' ', 'd', 'x', '_', ';'],
  ['\t', '}', ' ', 'e', 'l', 's', 'e', '{'],
  ['\t', '\t', 's', 't', 'd', ':', ':', 'c', 'o', 'u', 't', '<', '<', '"', 'i', 'n', ' ', 's', 'e', 't', '_', 'd', 'x', ':', ' ', 'i', 'n', 'v', 'a', 'l', 'i', 'd', ' ', 'd', 'i', 'm', 'e', 'n', 's', 'i', 'o', 'n', 's', ' ', 'o', 'f', ' ', 'a', 'r', 'g', 'u', 'm', 'e', 'n', 't', 's', '\\', 'n', '"', ';'],
  ['\t', '}'],
  ['}'],
  [],
  ['v', 'o', 'i', 'd', ' ', 't', 'h', 'u', 'n', 'd', 'e', 'r', '_', 'r', 'o', 'b', 'o', 't', ':', ':', 's', 'e', 't', '_', 'd', 'd', 'x', '(', 'c', 'o', 'n', 's', 't', ' ', 'E', 'i', 'g', 'e', 'n', ':', ':', 'V', 'e', 'c', 't', 'o', 'r', 'X', 'd', '&', ' ', 'd', 'd', 'x', '_', ')', '{'],
  ['\t', 'i', 'f', '(', 'd', 'd', 'x', '_', '.', 's', 'i', 'z', 'e', '(', ')', ' ', '=', '=', ' ', 'n', 'u', 'm', 'E', 'l', 'a', 's', 't', 'i', 'c', 'J', 'o', 'i', 'n', 't', 's', ')', '{'],
  ['\t', '\t', 'd', 'd', 'x', ' ', '=', ' ', 'd', 'd', 'x', '_', ';'],
  ['\t', '}', ' ', 'e', 'l', 's', 'e', '{'],
  ['\t', '\t', 's', 't', 'd', ':', ':', 'c', 'o', 'u', 't', '<', '<', '"', 'i', 'n', ' ', 's', 'e', 't', '_', 'd', 'x', ':', ' ', 'i', 'n', 'v', 'a', 'l', 'i', 'd', ' ', 'd', 'i', 'm', 'e', 'n', 's', 'i', 'o', 'n', 's', ' ', 'o', 'f', ' ', 'a', 'r', 'g', 'u', 'm', 'e', 'n', 't', 's', '\\', 'n', '"', ';'],
  ['\t', '}'],
  ['}'],
  [],
  ['v', 'o', 'i', 'd', ' ', 't', 'h', 'u', 'n', 'd', 'e', 'r', '_', 'r', 'o', 'b', 'o', 't', ':', ':', 's', 'e', 't', '_', 'd', 'd', 'x', 'r', '(', 'c', 'o', 'n', 's', 't', ' ', 'E', 'i', 'g', 'e', 'n', ':', ':', 'V', 'e', 'c', 't', 'o', 'r', 'X', 'd', '&', ' ', 'd', 'd', 'x', 'r', '_', ')', '{'],
  ['\t', 'i', 'f', '(', 'd', 'd', 'x', 'r', '_', '.', 's', 'i', 'z', 'e', '(', ')', ' ', '=', '=', ' ', 'n', 'u', 'm', 'E', 'l', 'a', 's', 't', 'i', 'c', 'J', 'o', 'i', 'n', 't', 's', ')', '{'],
  ['\t', '\t', 'd', 'd', 'x', 'r', ' ', '=', ' ', 'd', 'd', 'x', 'r', '_', ';'],
  ['\t', '}', ' ', 'e', 'l', 's', 'e', '{'],
  ['\t', '\t', 's', 't', 'd', ':', ':', 'c', 'o', 'u', 't', '<', '<', '"', 'i', 'n', ' ', 's', 'e', 't', '_', 'd', 'd', 'x', 'r', ':', ' ', 'i', 'n', 'v', 'a', 'l', 'i', 'd', ' ', 'd', 'i', 'm', 'e', 'n', 's', 'i', 'o', 'n', 's', ' ', 'o', 'f', ' ', 'a', 'r', 'g', 'u', 'm', 'e', 'n', 't', 's', '\\', 'n', '"', ';'],
  ['\t', '}'],
  ['}'],
  [],
  ['v', 'o', 'i', 'd', ' ', 't', 'h', 'u', 'n', 'd', 'e', 'r', '_', 'r', 'o', 'b', 'o', 't', ':', ':', 's', 'e', 't', '_', 'w', '(', 'c', 'o', 'n', 's', 't', ' ', 'E', 'i', 'g', 'e', 'n', ':', ':', 'V', 'e', 'c', 't', 'o', 'r', 'X', 'd', '&', ' ', 'w', '_', ')', '{'],
  ['\t', 'i', 'f', '(', 'w', '_', '.', 's', 'i', 'z', 'e', '(', ')', ' ', '=', '=', ' ', '6', ')', '{'],
  ['\t', '\t', 'w', ' ', '=', ' ', 'w', '_', ';'],
  ['\t', '}', ' ', 'e', 'l', 's', 'e', '{'],
  ['\t', '\t', 's', 't', 'd', ':', ':', 'c', 'o', 'u', 't', '<', '<', '"', 'i', 'n', ' ', 's', 'e', 't', '_', 'w', ':', ' ', 'i', 'n', 'v', 'a', 'l', 'i', 'd', ' ', 'd', 'i', 'm', 'e', 'n', 's', 'i', 'o', 'n', 's', ' ', 'o', 'f', ' ', 'a', 'r', 'g', 'u', 'm', 'e', 'n', 't', 's', '\\', 'n', '"', ';'],
  ['\t', '}'],
  ['}'],
  [],
  ['v', 'o', 'i', 'd', ' ', 't', 'h', 'u', 'n', 'd', 'e', 'r', '_', 'r', 'o', 'b', 'o', 't', ':', ':', 'u', 'p', 'd', 'a', 't', 'e', '_', 'i', 'n', 'e', 'r', 't', 'i', 'a', 'l', '_', 'D', 'Y', 'N', '(', ')', '{'],
  ['\t', 'f', 'o', 'r', ' ', '(', 'i', 'n', 't', ' ', 'i', '=', '0', ';', ' ', 'i', '<', 'n', '_', 'j', 'o', 'i', 'n', 't', 's', ';', ' ', 'i', '+', '+', ')', '{'],
  ['\t', '\t', 'E', 'i', 'g', 'e', 'n', ':', ':', 'V', 'e', 'c', 't', 'o', 'r', 'X', 'd', ' ', 'p', '_', 'r', 'e', 'g', ' ', '=', ' ', 'p', 'a', 'r', '_', 'R', 'E', 'G', '.', 's', 'e', 'g', 'm', 'e', 'n', 't', '(', 'S', 'T', 'D', '_', 'P', 'A', 'R', '_', 'L', 'I', 'N', 'K', '*', 'i', ',', ' ', 'S', 'T', 'D', '_', 'P', 'A', 'R', '_', 'L', 'I', 'N', 'K', ')', ';'],
  ['\t', '\t', 'd', 'o', 'u', 'b', 'l', 'e', ' ', 'm', 'a', 's', 's', ' ', '=', ' ', 'p', '_', 'r', 'e', 'g', '(', '0', ')', ';'],
  ['\t', '\t', 'E', 'i', 'g', 'e', 'n', ':', ':', 'V', 'e', 'c', 't', 'o', 'r', '3', 'd', ' ', 'C', 'o', 'M', ' ', '=', ' ', '{', 'p', '_', 'r', 'e', 'g', '(', '1', ')', '/', 'm', 'a', 's', 's', ',', ' ', 'p', '_', 'r', 'e', 'g', '(', '2', ')', '/', 'm', 'a', 's', 's', ',', ' ', 'p', '_', 'r', 'e', 'g', '(', '3', ')', '/', 'm', 'a', 's', 's', '}', ';'],
  ['\t', '\t', 'E', 'i', 'g', 'e', 'n', ':', ':', 'M', 'a', 't', 'r', 'i', 'x', '3', 'd', ' ', 'I', '_', 't', 'm', 'p', ' ', '=', ' ', 'm', 'a', 's', 's', ' ', '*', ' ', 'h', 'a', 't', '(', 'C', 'o', 'M', ')', ' ', '*', ' ', 'h', 'a', 't', '(', 'C', 'o', 'M', ')', '.', 't', 'r', 'a', 'n', 's', 'p', 'o', 's', 'e', '(', ')', ';'],
  ['\t', '\t', 'E', 'i', 'g', 'e', 'n', ':', ':', 'M', 'a', 't', 'r', 'i', 'x', '<', 'd', 'o', 'u', 'b', 'l', 'e', ',', ' ', '6', ',', ' ', '1', '>', ' ', 'I', '_', 't', 'm', 'p', '_', 'v', ';'],
  ['\t', '\t', 'I', '_', 't', 'm', 'p', '_', 'v', ' ', '<', '<', ' ', 'I', '_', 't', 'm', 'p', '(', '0', ',', '0', ')', ',', ' ', 'I', '_', 't', 'm', 'p', '(', '0', ',', '1', ')', ',', ' ', 'I', '_', 't', 'm', 'p', '(', '0', ',', '2', ')', ',', ' ', 'I', '_', 't', 'm', 'p', '(', '1', ',', '1', ')', ',', ' ', 'I', '_', 't', 'm', 'p', '(', '1', ',', '2', ')', ',', ' ', 'I', '_', 't', 'm', 'p', '(', '2', ',', '2', ')', ';'],
  ['\t', '\t', 'E', 'i', 'g', 'e', 'n', ':', ':', 'M', 'a', 't', 'r', 'i', 'x', '<', 'd', 'o', 'u', 'b', 'l', 'e', ',', ' ', '6', ',', ' ', '1', '>', ' ', 'I', ';'],
  ['\t', '\t', 'I', ' ', '<', '<', ' ', 'p', '_', 'r', 'e', 'g', '(', '4', ')', ',', ' ', 'p', '_', 'r', 'e', 'g', '(', '5', ')', ',', ' ', 'p', '_', 'r', 'e', 'g', '(', '6', ')', ',', ' ', 'p', '_', 'r', 'e', 'g', '(', '7', ')', ',', ' ', 'p', '_', 'r', 'e', 'g', '(', '8', ')', ',', ' ', 'p', '_', 'r', 'e', 'g', '(', '9', ')', ';'],
  ['\t', '\t', 'p', 'a', 'r', '_', 'D', 'Y', 'N', '.', 's', 'e', 'g', 'm', 'e', 'n', 't', '(', 'S', 'T', 'D', '_', 'P', 'A', 'R', '_', 'L', 'I', 'N', 'K', '*', 'i', ',', ' ', 'S', 'T', 'D', '_', 'P', 'A', 'R', '_', 'L', 'I', 'N', 'K', ')', ' ', '<', '<', ' ', 'm', 'a', 's', 's', ',', ' ', 'C', 'o', 'M', ',', ' ', 'I', '-', 'I', '_', 't', 'm', 'p', '_', 'v', ';'],
  ['\t', '}'],
  ['}'],
  [],
  ['v', 'o', 'i', 'd', ' ', 't', 'h', 'u', 'n', 'd', 'e', 'r', '_', 'r', 'o', 'b', 'o', 't', ':', ':', 'u', 'p', 'd', 'a', 't', 'e', '_', 'i', 'n', 'e', 'r', 't', 'i', 'a', 'l', '_', 'R', 'E', 'G', '(', ')', '{'],
  ['\t', 'f', 'o', 'r', ' ', '(', 'i', 'n', 't', ' ', 'i', '=', '0', ';', ' ', 'i', '<', 'n', '_', 'j', 'o', 'i', 'n', 't', 's', ';', ' ', 'i', '+', '+', ')', '{'],
  ['\t', '\t', 'E', 'i', 'g', 'e', 'n', ':', ':', 'V', 'e', 'c', 't', 'o', 'r', 'X', 'd', ' ', 'p', '_', 'd', 'y', 'n', ' ', '=', ' ', 'p', 'a', 'r', '_', 'D', 'Y', 'N', '.', 's', 'e', 'g', 'm', 'e', 'n', 't', '(', 'S', 'T', 'D', '_', 'P', 'A', 'R', '_', 'L', 'I', 'N', 'K', '*', 'i', ',', ' ', 'S', 'T', 'D', '_', 'P', 'A', 'R', '_', 'L', 'I', 'N', 'K', ')', ';'],
  ['\t', '\t', 'd', 'o', 'u', 'b', 'l', 'e', ' ', 'm', 'a', 's', 's', ' ', '=', ' ', 'p', '_', 'd', 'y', 'n', '(', '0', ')', ';'],
  ['\t', '\t', 'E', 'i', 'g', 'e', 'n', ':', ':', 'V', 'e', 'c', 't', 'o', 'r', '3', 'd', ' ', 'C', 'o', 'M', ' ', '=', ' ', '{', 'p', '_', 'd', 'y', 'n', '(', '1', ')', ',', ' ', 'p', '_', 'd', 'y', 'n', '(', '2', ')', ',', ' ', 'p', '_', 'd', 'y', 'n', '(', '3', ')', '}', ';'],
  ['\t', '\t', 'E', 'i', 'g', 'e', 'n', ':', ':', 'V', 'e', 'c', 't', 'o', 'r', '3', 'd', ' ', 'm', '_', 'C', 'o', 'M', ' ', '=', ' ', 'm', 'a', 's', 's', ' ', '*', ' ', 'C', 'o', 'M', ';'],
  ['\t', '\t', 'E', 'i', 'g', 'e', 'n', ':', ':', 'M', 'a', 't', 'r', 'i', 'x', '3', 'd', ' ', 'I', '_', 't', 'm', 'p', ' ', '=', ' ', 'm', 'a', 's', 's', ' ', '*', ' ', 'h', 'a', 't', '(', 'C', 'o', 'M', ')', ' ', '*', ' ', 'h', 'a', 't', '(', 'C', 'o', 'M', ')', '.', 't', 'r', 'a', 'n', 's', 'p', 'o', 's', 'e', '(', ')', ';'],
  ['\t', '\t', 'E', 'i', 'g', 'e', 'n', ':', ':', 'M', 'a', 't', 'r', 'i', 'x', '<', 'd', 'o', 'u', 'b', 'l', 'e', ',', ' ', '6', ',', ' ', '1', '>', ' ', 'I', '_', 't', 'm', 'p', '_', 'v', ';'],
  ['\t', '\t', 'I', '_', 't', 'm', 'p', '_', 'v', ' ', '<', '<', ' ', 'I', '_', 't', 'm', 'p', '(', '0', ',', '0', ')', ',', ' ', 'I', '_', 't', 'm', 'p', '(', '0', ',', '1', ')', ',', ' ', 'I', '_', 't', 'm', 'p', '(', '0', ',', '2', ')', ',', ' ', 'I', '_', 't', 'm', 'p', '(', '1', ',', '1', ')', ',', ' ', 'I', '_', 't', 'm', 'p', '(', '1', ',', '2', ')', ',', ' ', 'I', '_', 't', 'm', 'p', '(', '2', ',', '2', ')', ';'],
  ['\t', '\t', 'E', 'i', 'g', 'e', 'n', ':', ':', 'M', 'a', 't', 'r', 'i', 'x', '<', 'd', 'o', 'u', 'b', 'l', 'e', ',', ' ', '6', ',', ' ', '1', '>', ' ', 'I', ';'],
  ['\t', '\t', 'I', ' ', '<', '<', ' ', 'p', '_', 'd', 'y', 'n', '(', '4', ')', ',', ' ', 'p', '_', 'd', 'y', 'n', '(', '5', ')', ',', ' ', 'p', '_', 'd', 'y', 'n', '(', '6', ')', ',', ' ', 'p', '_', 'd', 'y', 'n', '(', '7', ')', ',', ' ', 'p', '_', 'd', 'y', 'n', '(', '8', ')', ',', ' ', 'p', '_', 'd', 'y', 'n', '(', '9', ')', ';'],
  ['\t', '\t', 'p', 'a', 'r', '_', 'R', 'E', 'G', '.', 's', 'e', 'g', 'm', 'e', 'n', 't', '(', 'S', 'T', 'D', '_', 'P', 'A', 'R', '_', 'L', 'I', 'N', 'K', '*', 'i', ',', ' ', 'S', 'T', 'D', '_', 'P', 'A', 'R', '_', 'L', 'I', 'N', 'K', ')', ' ', '<', '<', ' ', 'm', 'a', 's', 's', ',', ' ', 'm', '_', 'C', 'o', 'M', ',', ' ', 'I', '+', 'I', '_', 't', 'm', 'p', '_', 'v', ';'],
  ['\t', '}'],
  ['}'],
  [],
  ['v', 'o', 'i', 'd', ' ', 't', 'h', 'u', 'n', 'd', 'e', 'r', '_', 'r', 'o', 'b', 'o', 't', ':', ':', 's', 'e', 't', '_', 'p', 'a', 'r', '_', 'D', 'Y', 'N', '(', 'c', 'o', 'n', 's', 't', ' ', 'E', 'i', 'g', 'e', 'n', ':', ':', 'V', 'e', 'c', 't', 'o', 'r', 'X', 'd', '&', ' ', 'p', 'a', 'r', '_', ',', ' ', 'b', 'o', 'o', 'l', ' ', 'u', 'p', 'd', 'a', 't', 'e', '_', 'R', 'E', 'G', ')', '{'],
  ['\t', 'i', 'f', '(', 'p', 'a', 'r', '_', '.', 's', 'i', 'z', 'e', '(', ')', ' ', '=', '=', ' ', 'p', 'a', 'r', '_', 'D', 'Y', 'N', '.', 's', 'i', 'z', 'e', '(', ')', ')', '{'],
  ['\t', '\t', 'p', 'a', 'r', '_', 'D', 'Y', 'N', ' ', '=', ' ', 'p', 'a', 'r', '_', ';'],
  ['\t', '}', ' ', 'e', 'l', 's', 'e', '{'],
  ['\t', '\t', 's', 't', 'd', ':', ':', 'c', 'o', 'u', 't', '<', '<', '"', 'i', 'n', ' ', 's', 'e', 't', 'A', 'r', 'g', 'u', 'm', 'e', 'n', 't', 's', ':', ' ', 'i', 'n', 'v', 'a', 'l', 'i', 'd', ' ', 'd', 'i', 'm', 'e', 'n', 's', 'i', 'o', 'n', 's', ' ', 'o', 'f', ' ', 'a', 'r', 'g', 'u', 'm', 'e', 'n', 't', 's', '\\', 'n', '"', ';'],
  ['\t', '}'],
  ['\t', '/', '/', ' ', 'c', 'o', 'n', 'v', 'e', 'r', 's', 'i', 'o', 'n', ' ', 'f', 'r', 'o', 'm', ' ', 'R', 'E', 'G', ' ', 't', 'o', ' ', 'D', 'Y', 'N'],
  ['\t', 'i', 'f', ' ', '(', 'u', 'p', 'd', 'a', 't', 'e', '_', 'R', 'E', 'G', ')', '\t', 'u', 'p', 'd', 'a', 't', 'e', '_', 'i', 'n', 'e', 'r', 't', 'i', 'a', 'l', '_', 'R', 'E', 'G', '(', ')', ';'],
  ['}'],
  [],
  ['v', 'o', 'i', 'd', ' ', 't', 'h', 'u', 'n', 'd', 'e', 'r', '_', 'r', 'o', 'b', 'o', 't', ':', ':', 's', 'e', 't', '_', 'p', 'a', 'r', '_', 'R', 'E', 'G', '(', 'c', 'o', 'n', 's', 't', ' ', 'E', 'i', 'g', 'e', 'n', ':', ':', 'V', 'e', 'c', 't', 'o', 'r', 'X', 'd', '&', ' ', 'p', 'a', 'r', '_', ',', ' ', 'b', 'o', 'o', 'l', ' ', 'u', 'p', 'd', 'a', 't', 'e', '_', 'D', 'Y', 'N', ')', '{'],
  ['\t', 'i', 'f', '(', 'p', 'a', 'r', '_', '.', 's', 'i', 'z', 'e', '(', ')', ' ', '=', '=', ' ', 'p', 'a', 'r', '_', 'R', 'E', 'G', '.', 's', 'i', 'z', 'e', '(', ')', ')', '{'],
  ['\t', '\t', 'p', 'a', 'r', '_', 'R', 'E', 'G', ' ', '=', ' ', 'p', 'a', 'r', '_', ';'],
  ['\t', '}', ' ', 'e', 'l', 's', 'e', '{'],
  ['\t', '\t', 's', 't', 'd', ':', ':', 'c', 'o', 'u', 't', '<', '<', '"', 'i', 'n', ' ', 's', 'e', 't', 'A', 'r', 'g', 'u', 'm', 'e', 'n', 't', 's', ':', ' ', 'i', 'n', 'v', 'a', 'l', 'i', 'd', ' ', 'd', 'i', 'm', 'e', 'n', 's', 'i', 'o', 'n', 's', ' ', 'o', 'f', ' ', 'a', 'r', 'g', 'u', 'm', 'e', 'n', 't', 's', '\\', 'n', '"', ';'],
  ['\t', '}'],
  ['\t', '/', '/', ' ', 'c', 'o', 'n', 'v', 'e', 'r', 's', 'i', 'o', 'n', ' ', 'f', 'r', 'o', 'm', ' ', 'R', 'E', 'G', ' ', 't', 'o', ' ', 'D', 'Y', 'N'],
  ['\t', 'i', 'f', ' ', '(', 'u', 'p', 'd', 'a', 't', 'e', '_', 'D', 'Y', 'N', ')', '\t', 'u', 'p', 'd', 'a', 't', 'e', '_', 'i', 'n', 'e', 'r', 't', 'i', 'a', 'l', '_', 'D', 'Y', 'N', '(', ')', ';'],
  ['}'],
  [],
  ['v', 'o', 'i', 'd', ' ', 't', 'h', 'u', 'n', 'd', 'e', 'r', '_', 'r', 'o', 'b', 'o', 't', ':', ':', 's', 'e', 't', '_', 'p', 'a', 'r', '_', 'K', '(', 'c', 'o', 'n', 's', 't', ' ', 'E', 'i', 'g', 'e', 'n', ':', ':', 'V', 'e', 'c', 't', 'o', 'r', 'X', 'd', '&', ' ', 'p', 'a', 'r', '_', ')', '{'],
  ['\t', 'i', 'f', '(', 'p', 'a', 'r', '_', '.', 's', 'i', 'z', 'e', '(', ')', ' ', '=', '=', ' ', 'p', 'a', 'r', '_', 'K', '.', 's', 'i', 'z', 'e', '(', ')', ')', '{'],
  ['\t', '\t', 'p', 'a', 'r', '_', 'K', ' ', '=', ' ', 'p', 'a', 'r', '_', ';'],
  ['\t', '}', ' ', 'e', 'l', 's', 'e', '{'],
  ['\t', '\t', 's', 't', 'd', ':', ':', 'c', 'o', 'u', 't', '<', '<', '"', 'i', 'n', ' ', 's', 'e', 't', 'A', 'r', 'g', 'u', 'm', 'e', 'n', 't', 's', ':', ' ', 'i', 'n', 'v', 'a', 'l', 'i', 'd', ' ', 'd', 'i', 'm', 'e', 'n', 's', 'i', 'o', 'n', 's', ' ', 'o', 'f', ' ', 'a', 'r', 'g', 'u', 'm', 'e', 'n', 't', 's', '\\', 'n', '"', ';'],
  ['\t', '}'],
  ['}'],
  [],
  ['v', 'o', 'i', 'd', ' ', 't', 'h', 'u', 'n', 'd', 'e', 'r', '_', 'r', 'o', 'b', 'o', 't', ':', ':', 's', 'e', 't', '_', 'p', 'a', 'r', '_', 'D', '(', 'c', 'o', 'n', 's', 't', ' ', 'E', 'i', 'g', 'e', 'n', ':', ':', 'V', 'e', 'c', 't', 'o', 'r', 'X', 'd', '&', ' ', 'p', 'a', 'r', '_', ')', '{'],
  ['\t', 'i', 'f', '(', 'p', 'a', 'r', '_', '.', 's', 'i', 'z', 'e', '(', ')', ' ', '=', '=', ' ', 'p', 'a', 'r', '_', 'D', '.', 's', 'i', 'z', 'e', '(', ')', ')', '{'],
  ['\t', '\t', 'p', 'a', 'r', '_', 'D', ' ', '=', ' ', 'p', 'a', 'r', '_', ';'],
  ['\t', '}', ' ', 'e', 'l', 's', 'e', '{'],
  ['\t', '\t', 's', 't', 'd', ':', ':', 'c', 'o', 'u', 't', '<', '<', '"', 'i', 'n', ' ', 's', 'e', 't', 'A', 'r', 'g', 'u', 'm', 'e', 'n', 't', 's', ':', ' ', 'i', 'n', 'v', 'a', 'l', 'i', 'd', ' ', 'd', 'i', 'm', 'e', 'n', 's', 'i', 'o', 'n', 's', ' ', 'o', 'f', ' ', 'a', 'r', 'g', 'u', 'm', 'e', 'n', 't', 's', '\\', 'n', '"', ';'],
  ['\t', '}'],
  ['}'],
  [],
  ['v', 'o', 'i', 'd', ' ', 't', 'h', 'u', 'n', 'd', 'e', 'r', '_', 'r', 'o', 'b', 'o', 't', ':', ':', 's', 'e', 't', '_', 'p', 'a', 'r', '_', 'D', 'm', '(', 'c', 'o', 'n', 's', 't', ' ', 'E', 'i', 'g', 'e', 'n', ':', ':', 'V', 'e', 'c', 't', 'o', 'r', 'X', 'd', '&', ' ', 'p', 'a', 'r', '_', ')', '{'],
  ['\t', 'i', 'f', '(', 'p', 'a', 'r', '_', '.', 's', 'i', 'z', 'e', '(', ')', ' ', '=', '=', ' ', 'p', 'a', 'r', '_', 'D', 'm', '.', 's', 'i', 'z', 'e', '(', ')', ')', '{'],
  ['\t', '\t', 'p', 'a', 'r', '_', 'D', 'm', ' ', '=', ' ', 'p', 'a', 'r', '_', ';'],
  ['\t', '}', ' ', 'e', 'l', 's', 'e', '{'],
  ['\t', '\t', 's', 't', 'd', ':', ':', 'c', 'o', 'u', 't', '<', '<', '"', 'i', 'n', ' ', 's', 'e', 't', 'A', 'r', 'g', 'u', 'm', 'e', 'n', 't', 's', ':', ' ', 'i', 'n', 'v', 'a', 'l', 'i', 'd', ' ', 'd', 'i', 'm', 'e', 'n', 's', 'i', 'o', 'n', 's', ' ', 'o', 'f', ' ', 'a', 'r', 'g', 'u', 'm', 'e', 'n', 't', 's', '\\', 'n', '"', ';'],
  ['\t', '}'],
  ['}'],
  [],
  ['v', 'o', 'i', 'd', ' ', 't', 'h', 'u', 'n', 'd', 'e', 'r', '_', 'r', 'o', 'b', 'o', 't', ':', ':', 's', 'e', 't', '_', 'p', 'a', 'r', '_', 'M', 'm', '(', 'c', 'o', 'n', 's', 't', ' ', 'E', 'i', 'g', 'e', 'n', ':', ':', 'V', 'e', 'c', 't', 'o', 'r', 'X', 'd', '&', ' ', 'p', 'a', 'r', '_', ')', '{'],
  ['\t', 'i', 'f', '(', 'p', 'a', 'r', '_', '.', 's', 'i', 'z', 'e', '(', ')', ' ', '=', '=', ' ', 'p', 'a', 'r', '_', 'M', 'm', '.', 's', 'i', 'z', 'e', '(', ')', ')', '{'],
  ['\t', '\t', 'p', 'a', 'r', '_', 'M', 'm', ' ', '=', ' ', 'p', 'a', 'r', '_', ';'],
  ['\t', '}', ' ', 'e', 'l', 's', 'e', '{'],
  ['\t', '\t', 's', 't', 'd', ':', ':', 'c', 'o', 'u', 't', '<', '<', '"', 'i', 'n', ' ', 's', 'e', 't', 'A', 'r', 'g', 'u', 'm', 'e', 'n', 't', 's', ':', ' ', 'i', 'n', 'v', 'a', 'l', 'i', 'd', ' ', 'd', 'i', 'm', 'e', 'n', 's', 'i', 'o', 'n', 's', ' ', 'o', 'f', ' ', 'a', 'r', 'g', 'u', 'm', 'e', 'n', 't', 's', '\\', 'n', '"', ';'],
  ['\t', '}'],
  ['}'],
  [],
  ['v', 'o', 'i', 'd', ' ', 't', 'h', 'u', 'n', 'd', 'e', 'r', '_', 'r', 'o', 'b', 'o', 't', ':', ':', 's', 'e', 't', '_', 'p', 'a', 'r', '_', 'D', 'l', '(', 'c', 'o', 'n', 's', 't', ' ', 'E', 'i', 'g', 'e', 'n', ':', ':', 'V', 'e', 'c', 't', 'o', 'r', 'X', 'd', '&', ' ', 'p', 'a', 'r', '_', ')', '{'],
  ['\t', 'i', 'f', '(', 'p', 'a', 'r', '_', '.', 's', 'i', 'z', 'e', '(', ')', ' ', '=', '=', ' ', 'p', 'a', 'r', '_', 'D', 'l', '.', 's', 'i', 'z', 'e', '(', ')', ')', '{'],
  ['\t', '\t', 'p', 'a', 'r', '_', 'D', 'l', ' ', '=', ' ', 'p', 'a', 'r', '_', ';'],
  ['\t', '}', ' ', 'e', 'l', 's', 'e', '{'],
  ['\t', '\t', 's', 't', 'd', ':', ':', 'c', 'o', 'u', 't', '<', '<', '"', 'i', 'n', ' ', 's', 'e', 't', 'A', 'r', 'g', 'u', 'm', 'e', 'n', 't', 's', ':', ' ', 'i', 'n', 'v', 'a', 'l', 'i', 'd', ' ', 'd', 'i', 'm', 'e', 'n', 's', 'i', 'o', 'n', 's', ' ', 'o', 'f', ' ', 'a', 'r', 'g', 'u', 'm', 'e', 'n', 't', 's', '\\', 'n', '"', ';'],
  ['\t', '}'],
  ['}'],
  [],
  ['v', 'o', 'i', 'd', ' ', 't', 'h', 'u', 'n', 'd', 'e', 'r', '_', 'r', 'o', 'b', 'o', 't', ':', ':', 's', 'e', 't', '_', 'p', 'a', 'r', '_', 'D', 'H', 't', 'a', 'b', 'l', 'e', '(', 'c', 'o', 'n', 's', 't', ' ', 'E', 'i', 'g', 'e', 'n', ':', ':', 'M', 'a', 't', 'r', 'i', 'x', 'X', 'd', '&', ' ', 'p', 'a', 'r', '_', ')', '{'],
  ['\t', 'i', 'f', '(', 'p', 'a', 'r', '_', '.', 's', 'i', 'z', 'e', '(', ')', ' ', '=', '=', ' ', 'p', 'a', 'r', '_', 'D', 'H', 't', 'a', 'b', 'l', 'e', '.', 's', 'i', 'z', 'e', '(', ')', ')', '{'],
  ['\t', '\t', 'p', 'a', 'r', '_', 'D', 'H', 't', 'a', 'b', 'l', 'e', ' ', '=', ' ', 'p', 'a', 'r', '_', ';'],
  ['\t', '}', ' ', 'e', 'l', 's', 'e', '{'],
  ['\t', '\t', 's', 't', 'd', ':', ':', 'c', 'o', 'u', 't', '<', '<', '"', 'i', 'n', ' ', 's', 'e', 't', 'A', 'r', 'g', 'u', 'm', 'e', 'n', 't', 's', ':', ' ', 'i', 'n', 'v', 'a', 'l', 'i', 'd', ' ', 'd', 'i', 'm', 'e', 'n', 's', 'i', 'o', 'n', 's', ' ', 'o', 'f', ' ', 'a', 'r', 'g', 'u', 'm', 'e', 'n', 't', 's', '\\', 'n', '"', ';'],
  ['\t', '}'],
  ['}'],
  [],
  ['v', 'o', 'i', 'd', ' ', 't', 'h', 'u', 'n', 'd', 'e', 'r', '_', 'r', 'o', 'b', 'o', 't', ':', ':', 's', 'e', 't', '_', 'p', 'a', 'r', '_', 'g', 'r', 'a', 'v', 'i', 't', 'y', '(', 'c', 'o', 'n', 's', 't', ' ', 'E', 'i', 'g', 'e', 'n', ':', ':', 'V', 'e', 'c', 't', 'o', 'r', 'X', 'd', '&', ' ', 'p', 'a', 'r', '_', ')', '{'],
  ['\t', 'i', 'f', '(', 'p', 'a', 'r', '_', '.', 's', 'i', 'z', 'e', '(', ')', ' ', '=', '=', ' ', 'p', 'a', 'r', '_', 'g', 'r', 'a', 'v', 'i', 't', 'y', '.', 's', 'i', 'z', 'e', '(', ')', ')', '{'],
  ['\t', '\t', 'p', 'a', 'r', '_', 'g', 'r', 'a', 'v', 'i', 't', 'y', ' ', '=', ' ', 'p', 'a', 'r', '_', ';'],
  ['\t', '}', ' ', 'e', 'l', 's', 'e', '{'],
  ['\t', '\t', 's', 't', 'd', ':', ':', 'c', 'o', 'u', 't', '<', '<', '"', 'i', 'n', ' ', 's', 'e', 't', 'A', 'r', 'g', 'u', 'm', 'e', 'n', 't', 's', ':', ' ', 'i', 'n', 'v', 'a', 'l', 'i', 'd', ' ', 'd', 'i', 'm', 'e', 'n', 's', 'i', 'o', 'n', 's', ' ', 'o', 'f', ' ', 'a', 'r', 'g', 'u', 'm', 'e', 'n', 't', 's', '\\', 'n', '"', ';'],
  ['\t', '}'],
  ['}'],
  [],
  ['v', 'o', 'i', 'd', ' ', 't', 'h', 'u', 'n', 'd', 'e', 'r', '_', 'r', 'o', 'b', 'o', 't', ':', ':', 's', 'e', 't', '_', 'p', 'a', 'r', '_', 'w', 'o', 'r', 'l', 'd', '2', 'L', '0', '(', 'c', 'o', 'n', 's', 't', ' ', 'E', 'i', 'g', 'e', 'n', ':', ':', 'V', 'e', 'c', 't', 'o', 'r', 'X', 'd', '&', ' ', 'p', 'a', 'r', '_', ')', '{'],
  ['\t', 'i', 'f', '(', 'p', 'a', 'r', '_', '.', 's', 'i', 'z', 'e', '(', ')', ' ', '=', '=', ' ', 'p', 'a', 'r', '_', 'w', 'o', 'r', 'l', 'd', '2', 'L', '0', '.', 's', 'i', 'z', 'e', '(', ')', ')', '{'],
  ['\t', '\t', 'p', 'a', 'r', '_', 'w', 'o', 'r', 'l', 'd', '2', 'L', '0', ' ', '=', ' ', 'p', 'a', 'r', '_', ';'],
  ['\t', '}', ' ', 'e', 'l', 's', 'e', '{'],
  ['\t', '\t', 's', 't', 'd', ':', ':', 'c', 'o', 'u', 't', '<', '<', '"', 'i', 'n', ' ', 's', 'e', 't', 'A', 'r', 'g', 'u', 'm', 'e', 'n', 't', 's', ':', ' ', 'i', 'n', 'v', 'a', 'l', 'i', 'd', ' ', 'd', 'i', 'm', 'e', 'n', 's', 'i', 'o', 'n', 's', ' ', 'o', 'f', ' ', 'a', 'r', 'g', 'u', 'm', 'e', 'n', 't', 's', '\\', 'n', '"', ';'],
  ['\t', '}'],
  ['}'],
  [],
  ['v', 'o', 'i', 'd', ' ', 't', 'h', 'u', 'n', 'd', 'e', 'r', '_', 'r', 'o', 'b', 'o', 't', ':', ':', 's', 'e', 't', '_', 'p', 'a', 'r', '_', 'L', 'n', '2', 'E', 'E', '(', 'c', 'o', 'n', 's', 't', ' ', 'E', 'i', 'g', 'e', 'n', ':', ':', 'V', 'e', 'c', 't', 'o', 'r', 'X', 'd', '&', ' ', 'p', 'a', 'r', '_', ')', '{'],
  ['\t', 'i', 'f', '(', 'p', 'a', 'r', '_', '.', 's', 'i', 'z', 'e', '(', ')', ' ', '=', '=', ' ', 'p', 'a', 'r', '_', 'L', 'n', '2', 'E', 'E', '.', 's', 'i', 'z', 'e', '(', ')', ')', '{'],
  ['\t', '\t', 'p', 'a', 'r', '_', 'L', 'n', '2', 'E', 'E', ' ', '=', ' ', 'p', 'a', 'r', '_', ';'],
  ['\t', '}', ' ', 'e', 'l', 's', 'e', '{'],
  ['\t', '\t', 's', 't', 'd', ':', ':', 'c', 'o', 'u', 't', '<', '<', '"', 'i', 'n', ' ', 's', 'e', 't', 'A', 'r', 'g', 'u', 'm', 'e', 'n', 't', 's', ':', ' ', 'i', 'n', 'v', 'a', 'l', 'i', 'd', ' ', 'd', 'i', 'm', 'e', 'n', 's', 'i', 'o', 'n', 's', ' ', 'o', 'f', ' ', 'a', 'r', 'g', 'u', 'm', 'e', 'n', 't', 's', '\\', 'n', '"', ';'],
  ['\t', '}'],
  ['}'],
  [],
  ['E', 'i', 'g', 'e', 'n', ':', ':', 'V', 'e', 'c', 't', 'o', 'r', 'X', 'd', ' ', 't', 'h', 'u', 'n', 'd', 'e', 'r', '_', 'r', 'o', 'b', 'o', 't', ':', ':', 'g', 'e', 't', '_', 'p', 'a', 'r', '_', 'D', 'Y', 'N', '(', ')', '{'],
  ['\t', 'r', 'e', 't', 'u', 'r', 'n', ' ', 'p', 'a', 'r', '_', 'D', 'Y', 'N', ';'],
  ['}'],
  [],
  ['E', 'i', 'g', 'e', 'n', ':', ':', 'V', 'e', 'c', 't', 'o', 'r', 'X', 'd', ' ', 't', 'h', 'u', 'n', 'd', 'e', 'r', '_', 'r', 'o', 'b', 'o', 't', ':', ':', 'g', 'e', 't', '_', 'p', 'a', 'r', '_', 'R', 'E', 'G', '(', ')', '{'],
  ['\t', 'r', 'e', 't', 'u', 'r', 'n', ' ', 'p', 'a', 'r', '_', 'R', 'E', 'G', ';'],
  ['}'],
  [],
  ['E', 'i', 'g', 'e', 'n', ':', ':', 'V', 'e', 'c', 't', 'o', 'r', 'X', 'd', ' ', 't', 'h', 'u', 'n', 'd', 'e', 'r', '_', 'r', 'o', 'b', 'o', 't', ':', ':', 'g', 'e', 't', '_', 'p', 'a', 'r', '_', 'K', '(', ')', '{'],
  ['\t', 'r', 'e', 't', 'u', 'r', 'n', ' ', 'p', 'a', 'r', '_', 'K', ';'],
  ['}'],
  [],
  ['E', 'i', 'g', 'e', 'n', ':', ':', 'V', 'e', 'c', 't', 'o', 'r', 'X', 'd', ' ', 't', 'h', 'u', 'n', 'd', 'e', 'r', '_', 'r', 'o', 'b', 'o', 't', ':', ':', 'g', 'e', 't', '_', 'p', 'a', 'r', '_', 'D', '(', ')', '{'],
  ['\t', 'r', 'e', 't', 'u', 'r', 'n', ' ', 'p', 'a', 'r', '_', 'D', ';'],
  ['}'],
  [],
  ['E', 'i', 'g', 'e', 'n', ':', ':', 'V', 'e', 'c', 't', 'o', 'r', 'X', 'd', ' ', 't', 'h', 'u', 'n', 'd', 'e', 'r', '_', 'r', 'o', 'b', 'o', 't', ':', ':', 'g', 'e', 't', '_', 'p', 'a', 'r', '_', 'D', 'm', '(', ')', '{'],
  ['\t', 'r', 'e', 't', 'u', 'r', 'n', ' ', 'p', 'a', 'r', '_', 'D', 'm', ';'],
  ['}'],
  [],
  ['E', 'i', 'g', 'e', 'n', ':', ':', 'V', 'e', 'c', 't', 'o', 'r', 'X', 'd', ' ', 't', 'h', 'u', 'n', 'd', 'e', 'r', '_', 'r', 'o', 'b', 'o', 't', ':', ':', 'g', 'e', 't', '_', 'p', 'a', 'r', '_', 'M', 'm', '(', ')', '{'],
  ['\t', 'r', 'e', 't', 'u', 'r', 'n', ' ', 'p', 'a', 'r', '_', 'M', 'm', ';'],
  ['}'],
  [],
  ['E', 'i', 'g', 'e', 'n', ':', ':', 'V', 'e', 'c', 't', 'o', 'r', 'X', 'd', ' ', 't', 'h', 'u', 'n', 'd', 'e', 'r', '_', 'r', 'o', 'b', 'o', 't', ':', ':', 'g', 'e', 't', '_', 'p', 'a', 'r', '_', 'D', 'l', '(', ')', '{'],
  ['\t', 'r', 'e', 't', 'u', 'r', 'n', ' ', 'p', 'a', 'r', '_', 'D', 'l', ';'],
  ['}'],
  [],
  ['E', 'i', 'g', 'e', 'n', ':', ':', 'M', 'a', 't', 'r', 'i', 'x', 'X', 'd', ' ', 't', 'h', 'u', 'n', 'd', 'e', 'r', '_', 'r', 'o', 'b', 'o', 't', ':', ':', 'g', 'e', 't', '_', 'p', 'a', 'r', '_', 'D', 'H', 't', 'a', 'b', 'l', 'e', '(', ')', '{'],
  ['\t', 'r', 'e', 't', 'u', 'r', 'n', ' ', 'p', 'a', 'r', '_', 'D', 'H', 't', 'a', 'b', 'l', 'e', ';'],
  ['}'],
  [],
  ['E', 'i', 'g', 'e', 'n', ':', ':', 'V', 'e', 'c', 't', 'o', 'r', 'X', 'd', ' ', 't', 'h', 'u', 'n', 'd', 'e', 'r', '_', 'r', 'o', 'b', 'o', 't', ':', ':', 'g', 'e', 't', '_', 'p', 'a', 'r', '_', 'g', 'r', 'a', 'v', 'i', 't', 'y', '(', ')', '{'],
  ['\t', 'r', 'e', 't', 'u', 'r', 'n', ' ', 'p', 'a', 'r', '_', 'g', 'r', 'a', 'v', 'i', 't', 'y', ';'],
  ['}'],
  [],
  ['E', 'i', 'g', 'e', 'n', ':', ':', 'V', 'e', 'c', 't', 'o', 'r', 'X', 'd', ' ', 't', 'h', 'u', 'n', 'd', 'e', 'r', '_', 'r', 'o', 'b', 'o', 't', ':', ':', 'g', 'e', 't', '_', 'p', 'a', 'r', '_', 'w', 'o', 'r', 'l', 'd', '2', 'L', '0', '(', ')', '{'],
  ['\t', 'r', 'e', 't', 'u', 'r', 'n', ' ', 'p', 'a', 'r', '_', 'w', 'o', 'r', 'l', 'd', '2', 'L', '0', ';'],
  ['}'],
  [],
  ['E', 'i', 'g', 'e', 'n', ':', ':', 'V', 'e', 'c', 't', 'o', 'r', 'X', 'd', ' ', 't', 'h', 'u', 'n', 'd', 'e', 'r', '_', 'r', 'o', 'b', 'o', 't', ':', ':', 'g', 'e', 't', '_', 'p', 'a', 'r', '_', 'L', 'n', '2', 'E', 'E', '(', ')', '{'],
  ['\t', 'r', 'e', 't', 'u', 'r', 'n', ' ', 'p', 'a', 'r', '_', 'L', 'n', '2', 'E', 'E', ';'],
  ['}'],
  [],
  ['E', 'i', 'g', 'e', 'n', ':', ':', 'V', 'e', 'c', 't', 'o', 'r', 'X', 'd', ' ', 't', 'h', 'u', 'n', 'd', 'e', 'r', '_', 'r', 'o', 'b', 'o', 't', ':', ':', 'l', 'o', 'a', 'd', '_', 'p', 'a', 'r', '_', 'R', 'E', 'G', '(', 's', 't', 'd', ':', ':', 's', 't', 'r', 'i', 'n', 'g', ' ', 'f', 'i', 'l', 'e', '_', 'p', 'a', 't', 'h', ',', ' ', 'b', 'o', 'o', 'l', ' ', 'u', 'p', 'd', 'a', 't', 'e', '_', 'D', 'Y', 'N', ')', '{'],
  ['\t', 't', 'r', 'y', ' ', '{'],
  ['\t', '\t', 'Y', 'A', 'M', 'L', ':', ':', 'N', 'o', 'd', 'e', ' ', 'c', 'o', 'n', 'f', 'i', 'g', ' ', '=', ' ', 'Y', 'A', 'M', 'L', ':', ':', 'L', 'o', 'a', 'd', 'F', 'i', 'l', 'e', '(', 'f', 'i', 'l', 'e', '_', 'p', 'a', 't', 'h', ')', ';'],
  ['\t', '\t', 'i', 'n', 't', ' ', 'i', ';'],
  ['\t', '\t', '/', '/', ' ', '-', '-', '-', ' ', 'P', 'a', 'r', 's', 'e', ' ', 'd', 'y', 'n', 'a', 'm', 'i', 'c', 's', ' ', 'R', 'E', 'G', ' ', '-', '-', '-', ' ', '/', '/'],
  ['\t', '\t', 'i', 'f', ' ', '(', 'c', 'o', 'n', 'f', 'i', 'g', '[', '"', 'd', 'y', 'n', 'a', 'm', 'i', 'c', 's', '"', ']', ')', '{'],
  ['\t', '\t', '\t', 'Y', 'A', 'M', 'L', ':', ':', 'N', 'o', 'd', 'e', ' ', 'd', 'y', 'n', 'a', 'm', 'i', 'c', 's', ' ', '=', ' ', 'c', 'o', 'n', 'f', 'i', 'g', '[', '"', 'd', 'y', 'n', 'a', 'm', 'i', 'c', 's', '"', ']', ';'],
  ['\t', '\t', '\t', 'd', 'o', 'u', 'b', 'l', 'e', ' ', 'm', 'a', 's', 's', ',', ' ', 'm', '_', 'c', 'm', 'x', ',', ' ', 'm', '_', 'c', 'm', 'y', ',', ' ', 'm', '_', 'c', 'm', 'z', ',', ' ', 'x', 'x', ',', ' ', 'x', 'y', ',', ' ', 'x', 'z', ',', ' ', 'y', 'y', ',', ' ', 'y', 'z', ',', ' ', 'z', 'z', ';'],
  ['\t', '\t', '\t', 'i', ' ', '=', ' ', '0', ';'],
  ['\t', '\t', '\t', 'f', 'o', 'r', ' ', '(', 'c', 'o', 'n', 's', 't', ' ', 'a', 'u', 't', 'o', '&', ' ', 'n', 'o', 'd', 'e', ' ', ':', ' ', 'd', 'y', 'n', 'a', 'm', 'i', 'c', 's', ')', ' ', '{'],
  ['\t', '\t', '\t', '\t', 'i', 'f', ' ', '(', 'i', '=', '=', 'n', '_', 'j', 'o', 'i', 'n', 't', 's', ')', ' ', 'b', 'r', 'e', 'a', 'k', ';'],
  ['\t', '\t', '\t', '\t', 'Y', 'A', 'M', 'L', ':', ':', 'N', 'o', 'd', 'e', ' ', 'i', 'n', 'e', 'r', 't', 'i', 'a', 'l', ' ', '=', ' ', 'n', 'o', 'd', 'e', '.', 's', 'e', 'c', 'o', 'n', 'd', '[', '"', 'i', 'n', 'e', 'r', 't', 'i', 'a', 'l', '"', ']', ';'],
  ['\t', '\t', '\t', '\t', 's', 't', 'd', ':', ':', 's', 't', 'r', 'i', 'n', 'g', ' ', 'l', 'i', 'n', 'k', 'N', 'a', 'm', 'e', ' ', '=', ' ', 'n', 'o', 'd', 'e', '.', 'f', 'i', 'r', 's', 't', '.', 'a', 's', '<', 's', 't', 'd', ':', ':', 's', 't', 'r', 'i', 'n', 'g', '>', '(', ')', ';'],
  ['\t', '\t', '\t', '\t', 'm', 'a', 's', 's', ' ', '=', ' ', 'i', 'n', 'e', 'r', 't', 'i', 'a', 'l', '[', '"', 'm', 'a', 's', 's', '"', ']', '.', 'a', 's', '<', 'd', 'o', 'u', 'b', 'l', 'e', '>', '(', ')', ';'],
  ['\t', '\t', '\t', '\t', 'm', '_', 'c', 'm', 'x', ' ', '=', ' ', 'i', 'n', 'e', 'r', 't', 'i', 'a', 'l', '[', '"', 'm', '_', 'C', 'o', 'M', '_', 'x', '"', ']', '.', 'a', 's', '<', 'd', 'o', 'u', 'b', 'l', 'e', '>', '(', ')', ';'],
  ['\t', '\t', '\t', '\t', 'm', '_', 'c', 'm', 'y', ' ', '=', ' ', 'i', 'n', 'e', 'r', 't', 'i', 'a', 'l', '[', '"', 'm', '_', 'C', 'o', 'M', '_', 'y', '"', ']', '.', 'a', 's', '<', 'd', 'o', 'u', 'b', 'l', 'e', '>', '(', ')', ';'],
  ['\t', '\t', '\t', '\t', 'm', '_', 'c', 'm', 'z', ' ', '=', ' ', 'i', 'n', 'e', 'r', 't', 'i', 'a', 'l', '[', '"', 'm', '_', 'C', 'o', 'M', '_', 'z', '"', ']', '.', 'a', 's', '<', 'd', 'o', 'u', 'b', 'l', 'e', '>', '(', ')', ';'],
  ['\t', '\t', '\t', '\t', 'x', 'x', ' ', '=', ' ', 'i', 'n', 'e', 'r', 't', 'i', 'a', 'l', '[', '"', 'I', 'x', 'x', '"', ']', '.', 'a', 's', '<', 'd', 'o', 'u', 'b', 'l', 'e', '>', '(', ')', ';'],
  ['\t', '\t', '\t', '\t', 'x', 'y', ' ', '=', ' ', 'i', 'n', 'e', 'r', 't', 'i', 'a', 'l', '[', '"', 'I', 'x', 'y', '"', ']', '.', 'a', 's', '<', 'd', 'o', 'u', 'b', 'l', 'e', '>', '(', ')', ';'],
  ['\t', '\t', '\t', '\t', 'x', 'z', ' ', '=', ' ', 'i', 'n', 'e', 'r', 't', 'i', 'a', 'l', '[', '"', 'I', 'x', 'z', '"', ']', '.', 'a', 's', '<', 'd', 'o', 'u', 'b', 'l', 'e', '>', '(', ')', ';'],
  ['\t', '\t', '\t', '\t', 'y', 'y', ' ', '=', ' ', 'i', 'n', 'e', 'r', 't', 'i', 'a', 'l', '[', '"', 'I', 'y', 'y', '"', ']', '.', 'a', 's', '<', 'd', 'o', 'u', 'b', 'l', 'e', '>', '(', ')', ';'],
  ['\t', '\t', '\t', '\t', 'y', 'z', ' ', '=', ' ', 'i', 'n', 'e', 'r', 't', 'i', 'a', 'l', '[', '"', 'I', 'y', 'z', '"', ']', '.', 'a', 's', '<', 'd', 'o', 'u', 'b', 'l', 'e', '>', '(', ')', ';'],
  ['\t', '\t', '\t', '\t', 'z', 'z', ' ', '=', ' ', 'i', 'n', 'e', 'r', 't', 'i', 'a', 'l', '[', '"', 'I', 'z', 'z', '"', ']', '.', 'a', 's', '<', 'd', 'o', 'u', 'b', 'l', 'e', '>', '(', ')', ';'],
  [],
  ['\t', '\t', '\t', '\t', 'p', 'a', 'r', '_', 'R', 'E', 'G', '.', 's', 'e', 'g', 'm', 'e', 'n', 't', '(', 'S', 'T', 'D', '_', 'P', 'A', 'R', '_', 'L', 'I', 'N', 'K', '*', 'i', ',', ' ', 'S', 'T', 'D', '_', 'P', 'A', 'R', '_', 'L', 'I', 'N', 'K', ')', ' ', '<', '<', ' ', 'm', 'a', 's', 's', ',', 'm', '_', 'c', 'm', 'x', ',', 'm', '_', 'c', 'm', 'y', ',', 'm', '_', 'c', 'm', 'z', ',', 'x', 'x', ',', 'x', 'y', ',', 'x', 'z', ',', 'y', 'y', ',', 'y', 'z', ',', 'z', 'z', ';'],
  ['\t', '\t', '\t', '\t'],
  ['\t', '\t', '\t', '\t', 'i', '+', '+', ';'],
  ['\t', '\t', '\t', '}'],
  ['\t', '\t', '\t', 'i', 'f', ' ', '(', 'u', 'p', 'd', 'a', 't', 'e', '_', 'D', 'Y', 'N', ')', ' ', 'u', 'p', 'd', 'a', 't', 'e', '_', 'i', 'n', 'e', 'r', 't', 'i', 'a', 'l', '_', 'D', 'Y', 'N', '(', ')', ';'],
  ['\t', '\t', '}'],
  ['\t', '}', ' ', 'c', 'a', 't', 'c', 'h', ' ', '(', 'c', 'o', 'n', 's', 't', ' ', 'Y', 'A', 'M', 'L', ':', ':', 'E', 'x', 'c', 'e', 'p', 't', 'i', 'o', 'n', '&', ' ', 'e', ')', ' ', '{'],
  ['\t', '\t', 's', 't', 'd', ':', ':', 'c', 'e', 'r', 'r', ' ', '<', '<', ' ', '"', 'E', 'r', 'r', 'o', 'r', ' ', 'w', 'h', 'i', 'l', 'e', ' ', 'p', 'a', 'r', 's', 'i', 'n', 'g', ' ', 'Y', 'A', 'M', 'L', ':', ' ', '"', ' ', '<', '<', ' ', 'e', '.', 'w', 'h', 'a', 't', '(', ')', ' ', '<', '<', ' ', 's', 't', 'd', ':', ':', 'e', 'n', 'd', 'l', ';'],
  ['\t', '}'],
  ['\t', 'r', 'e', 't', 'u', 'r', 'n', ' ', 'p', 'a', 'r', '_', 'R', 'E', 'G', ';'],
  ['}'],
  [],
  ['v', 'o', 'i', 'd', ' ', 't', 'h', 'u', 'n', 'd', 'e', 'r', '_', 'r', 'o', 'b', 'o', 't', ':', ':', 'l', 'o', 'a', 'd', '_', 'c', 'o', 'n', 'f', '(', 's', 't', 'd', ':', ':', 's', 't', 'r', 'i', 'n', 'g', ' ', 'f', 'i', 'l', 'e', '_', 'p', 'a', 't', 'h', ',', ' ', 'b', 'o', 'o', 'l', ' ', 'u', 'p', 'd', 'a', 't', 'e', '_', 'R', 'E', 'G', ')', '{'],
  ['\t', 't', 'r', 'y', ' ', '{'],
  ['\t', '\t', 'Y', 'A', 'M', 'L', ':', ':', 'N', 'o', 'd', 'e', ' ', 'c', 'o', 'n', 'f', 'i', 'g', ' ', '=', ' ', 'Y', 'A', 'M', 'L', ':', ':', 'L', 'o', 'a', 'd', 'F', 'i', 'l', 'e', '(', 'f', 'i', 'l', 'e', '_', 'p', 'a', 't', 'h', ')', ';'],
  ['\t', '\t', 'i', 'n', 't', ' ', 'i', 'n', 'd', 'e', 'x', ';'],
  ['\t', '\t', '/', '/', ' ', '-', '-', '-', ' ', 'P', 'a', 'r', 's', 'e', ' ', 'k', 'i', 'n', 'e', 'm', 'a', 't', 'i', 'c', 's', ' ', '-', '-', '-', ' ', '/', '/'],
  ['\t', '\t', 'i', 'f', ' ', '(', 'c', 'o', 'n', 'f', 'i', 'g', '[', '"', 'k', 'i', 'n', 'e', 'm', 'a', 't', 'i', 'c', 's', '"', ']', ')', '{'],
  ['\t', '\t', '\t', 'p', 'a', 'r', '_', 'D', 'H', 't', 'a', 'b', 'l', 'e', '.', 'r', 'e', 's', 'i', 'z', 'e', '(', 'n', '_', 'j', 'o', 'i', 'n', 't', 's', '*', '4', ')', ';'],
  ['\t', '\t', '\t', '/', '/', ' ', 'D', 'e', 'n', 'a', 'v', 'i', 't', '-', 'H', 'a', 'r', 't', 'e', 'n', 'b', 'e', 'r', 'g'],
  ['\t', '\t', '\t', 'Y', 'A', 'M', 'L', ':', ':', 'N', 'o', 'd', 'e', ' ', 'k', 'i', 'n', 'e', 'm', 'a', 't', 'i', 'c', 's', ' ', '=', ' ', 'c', 'o', 'n', 'f', 'i', 'g', '[', '"', 'k', 'i', 'n', 'e', 'm', 'a', 't', 'i', 'c', 's', '"', ']', ';'],
  ['\t', '\t', '\t', 's', 't', 'd', ':', ':', 'v', 'e', 'c', 't', 'o', 'r', '<', 'd', 'o', 'u', 'b', 'l', 'e', '>', ' ', 'd', 'h', '_', 'v', 'e', 'c', 't', ' ', '=', ' ', 'k', 'i', 'n', 'e', 'm', 'a', 't', 'i', 'c', 's', '[', '"', 'D', 'H', '"', ']', '.', 'a', 's', '<', 's', 't', 'd', ':', ':', 'v', 'e', 'c', 't', 'o', 'r', '<', 'd', 'o', 'u', 'b', 'l', 'e', '>', '>', '(', ')', ';'],
  ['\t', '\t', '\t', '/', '/', ' ', 'p', 'a', 'r', '_', 'D', 'H', 't', 'a', 'b', 'l', 'e', ' ', '=', ' ', 'E', 'i', 'g', 'e', 'n', ':', ':', 'M', 'a', 'p', '<', 'E', 'i', 'g', 'e', 'n', ':', ':', 'V', 'e', 'c', 't', 'o', 'r', 'X', 'd', '>', '(', '&', 'd', 'h', '_', 'v', 'e', 'c', 't', '[', '0', ']', ',', ' ', 'n', 'j', '*', '4', ')', '.', 'r', 'e', 's', 'h', 'a', 'p', 'e', 'd', '<', 'E', 'i', 'g', 'e', 'n', ':', ':', 'R', 'o', 'w', 'M', 'a', 'j', 'o', 'r', '>', '(', 'n', 'j', ',', ' ', '4', ')', ';'],
  ['\t', '\t', '\t', 'i', 'f', ' ', '(', 'k', 'i', 'n', 'e', 'm', 'a', 't', 'i', 'c', 's', '[', '"', 's', 'y', 'm', 'b', '"', ']', ')', '{'],
  ['\t', '\t', '\t', '\t', 'D', 'H', 't', 'a', 'b', 'l', 'e', '_', 's', 'y', 'm', 'b', ' ', '=', ' ', 'k', 'i', 'n', 'e', 'm', 'a', 't', 'i', 'c', 's', '[', '"', 's', 'y', 'm', 'b', '"', ']', '.', 'a', 's', '<', 's', 't', 'd', ':', ':', 'v', 'e', 'c', 't', 'o', 'r', '<', 'i', 'n', 't', '>', '>', '(', ')', ';'],
  ['\t', '\t', '\t', '}', ' ', 'e', 'l', 's', 'e', ' ', '{'],
  ['\t', '\t', '\t', '\t', '/', '/', ' ', 'n', 'o', ' ', 'p', 'a', 'r', 'a', 'm', 'e', 't', 'e', 'r', 's', ' ', 'h', 'e', 'r', 'e'],
  ['\t', '\t', '\t', '}'],
  ['\t', '\t', '\t', 'i', 'n', 't', ' ', 's', 'z', ' ', '=', ' ', 'd', 'h', '_', 'v', 'e', 'c', 't', '.', 's', 'i', 'z', 'e', '(', ')', ';'],
  ['\t', '\t', '\t', '/', '/', ' ', 'p', 'a', 'r', '_', 'D', 'H', 't', 'a', 'b', 'l', 'e', '.', 'r', 'e', 's', 'i', 'z', 'e', '(', 's', 'z', ')', ';'],
  ['\t', '\t', '\t', '/', '/', ' ', 'f', 'o', 'r', ' ', '(', 'i', 'n', 't', ' ', 'i', '=', '0', ';', ' ', 'i', '<', 's', 'z', ';', ' ', 'i', '+', '+', ')', '{'],
  ['\t', '\t', '\t', '/', '/', ' ', '\t', '\t', 'p', 'a', 'r', '_', 'D', 'H', 't', 'a', 'b', 'l', 'e', '(', 'i', ')', ' ', '=', ' ', 'd', 'h', '_', 'v', 'e', 'c', 't', '[', 'i', ']', ';'],
  ['\t', '\t', '\t', '/', '/', ' ', '\t', '}'],
  ['\t', '\t', '\t', '/', '/', ' ', '}'],
  ['\t', '\t', '\t', '/', '/', ' ', 'E', 'i', 'g', 'e', 'n', ':', ':', 'V', 'e', 'c', 't', 'o', 'r', 'X', 'd', ' ', 'g', 'r', 'a', 'v', 'i', 't', 'y', '_', 'n', 'e', 'w', '(', 's', 'z', ')', ';'],
  ['\t', '\t', '\t', 'i', 'n', 't', ' ', 's', 'z', '1', ' ', '=', ' ', '0', ';'],
  ['\t', '\t', '\t', 'f', 'o', 'r', ' ', '(', 'i', 'n', 't', ' ', 'i', '=', '0', ';', ' ', 'i', '<', 's', 'z', ';', ' ', 'i', '+', '+', ')', '{'],
  ['\t', '\t', '\t', '\t', 'i', 'f', ' ', '(', 'D', 'H', 't', 'a', 'b', 'l', 'e', '_', 's', 'y', 'm', 'b', '[', 'i', ']', ')', '{'],
  ['\t', '\t', '\t', '\t', '\t', 'p', 'a', 'r', '_', 'D', 'H', 't', 'a', 'b', 'l', 'e', '(', 's', 'z', '1', ')', ' ', '=', ' ', 'd', 'h', '_', 'v', 'e', 'c', 't', '[', 'i', ']', ';'],
  ['\t', '\t', '\t', '\t', '\t', 's', 'z', '1', '+', '+', ';'],
  ['\t', '\t', '\t', '\t', '}'],
  ['\t', '\t', '\t', '}'],
  ['\t', '\t', '\t', 'p', 'a', 'r', '_', 'D', 'H', 't', 'a', 'b', 'l', 'e', '.', 'c', 'o', 'n', 's', 'e', 'r', 'v', 'a', 't', 'i', 'v', 'e', 'R', 'e', 's', 'i', 'z', 'e', '(', 's', 'z', '1', ')', ';'],
  ['\t', '\t', '}'],
  ['\t', '\t', '/', '/', ' ', '-', ' ', 'F', 'r', 'a', 'm', 'e', ' ', 'O', 'f', 'f', 's', 'e', 't', 's', ' ', '-', ' ', '/', '/'],
  ['\t', '\t', 'i', 'f', ' ', '(', 'c', 'o', 'n', 'f', 'i', 'g', '[', '"', 'B', 'a', 's', 'e', '_', 't', 'o', '_', 'L', '0', '"', ']', ')', '{'],
  ['\t', '\t', '\t', 'p', 'a', 'r', '_', 'w', 'o', 'r', 'l', 'd', '2', 'L', '0', '.', 'r', 'e', 's', 'i', 'z', 'e', '(', '6', ')', ';'],
  ['\t', '\t', '\t', 'Y', 'A', 'M', 'L', ':', ':', 'N', 'o', 'd', 'e', ' ', 'f', 'r', 'a', 'm', 'e', '_', 'b', 'a', 's', 'e', ' ', '=', ' ', 'c', 'o', 'n', 'f', 'i', 'g', '[', '"', 'B', 'a', 's', 'e', '_', 't', 'o', '_', 'L', '0', '"', ']', ';'],
  ['\t', '\t', '\t', 'i', 'f', ' ', '(', 'f', 'r', 'a', 'm', 'e', '_', 'b', 'a', 's', 'e', '[', '"', 's', 'y', 'm', 'b', '"', ']', ')', '{'],
  ['\t', '\t', '\t', '\t', 'w', 'o', 'r', 'l', 'd', '2', 'L', '0', '_', 's', 'y', 'm', 'b', ' ', '=', ' ', 'f', 'r', 'a', 'm', 'e', '_', 'b', 'a', 's', 'e', '[', '"', 's', 'y', 'm', 'b', '"', ']', '.', 'a', 's', '<', 's', 't', 'd', ':', ':', 'v', 'e', 'c', 't', 'o', 'r', '<', 'i', 'n', 't', '>', '>', '(', ')', ';'],
  ['\t', '\t', '\t', '}', ' ', 'e', 'l', 's', 'e', ' ', '{'],
  ['\t', '\t', '\t', '\t', '/', '/', ' ', 'n', 'o', ' ', 'p', 'a', 'r', 'a', 'm', 'e', 't', 'e', 'r', 's', ' ', 'h', 'e', 'r', 'e'],
  ['\t', '\t', '\t', '}'],
  ['\t', '\t', '\t', '/', '/', ' ', 'i', 'n', 't', ' ', 's', 'z', ' ', '=', ' ', '0', ';'],
  ['\t', '\t', '\t', '/', '/', ' ', 'f', 'o', 'r', ' ', '(', 'i', 'n', 't', ' ', 'v', ' ', ':', ' ', 'w', 'o', 'r', 'l', 'd', '2', 'L', '0', '_', 's', 'y', 'm', 'b', ')', ' ', 'i', 'f', ' ', '(', 'v', ')', ' ', 's', 'z', '+', '+', ';'],
  ['\t', '\t', '\t', '/', '/', ' ', 's', 't', 'd', ':', ':', 'c', 'o', 'u', 't', ' ', '<', '<', ' ', '"', 's', 'z', ':', ' ', '"', ' ', '<', '<', ' ', 's', 'z', ' ', '<', '<', ' ', 's', 't', 'd', ':', ':', 'e', 'n', 'd', 'l', ';'],
  ['\t', '\t', '\t', 's', 't', 'd', ':', ':', 'v', 'e', 'c', 't', 'o', 'r', '<', 'd', 'o', 'u', 'b', 'l', 'e', '>', ' ', 't', 'r', ' ', '=', ' ', 'f', 'r', 'a', 'm', 'e', '_', 'b', 'a', 's', 'e', '[', '"', 't', 'r', '"', ']', '.', 'a', 's', '<', 's', 't', 'd', ':', ':', 'v', 'e', 'c', 't', 'o', 'r', '<', 'd', 'o', 'u', 'b', 'l', 'e', '>', '>', '(', ')', ';'],
  ['\t', '\t', '\t', 's', 't', 'd', ':', ':', 'v', 'e', 'c', 't', 'o', 'r', '<', 'd', 'o', 'u', 'b', 'l', 'e', '>', ' ', 'y', 'p', 'r', ' ', '=', ' ', 'f', 'r', 'a', 'm', 'e', '_', 'b', 'a', 's', 'e', '[', '"', 'y', 'p', 'r', '"', ']', '.', 'a', 's', '<', 's', 't', 'd', ':', ':', 'v', 'e', 'c', 't', 'o', 'r', '<', 'd', 'o', 'u', 'b', 'l', 'e', '>', '>', '(', ')', ';'],
  ['\t', '\t', '\t', '/', '/', ' ', 'E', 'i', 'g', 'e', 'n', ':', ':', 'V', 'e', 'c', 't', 'o', 'r', 'X', 'd', ' ', 'w', 'o', 'r', 'l', 'd', '2', 'L', '0', '_', 'n', 'e', 'w', '(', 's', 'z', ')', ';'],
  ['\t', '\t', '\t', 'i', 'n', 't', ' ', 's', 'z', '1', '=', '0', ',', ' ', 's', 'z', '2', '=', '0', ';'],
  ['\t', '\t', '\t', 'f', 'o', 'r', ' ', '(', 'i', 'n', 't', ' ', 'i', '=', '0', ';', ' ', 'i', '<', '3', ';', ' ', 'i', '+', '+', ')', '{'],
  ['\t', '\t', '\t', '\t', 'i', 'f', ' ', '(', 'w', 'o', 'r', 'l', 'd', '2', 'L', '0', '_', 's', 'y', 'm', 'b', '[', 'i', ']', ')', '{'],
  ['\t', '\t', '\t', '\t', '\t', 'p', 'a', 'r', '_', 'w', 'o', 'r', 'l', 'd', '2', 'L', '0', '(', 's', 'z', '1', ')', ' ', '=', ' ', 't', 'r', '[', 'i', ']', ';'],
  ['\t', '\t', '\t', '\t', '\t', 's', 'z', '1', '+', '+', ';'],
  ['\t', '\t', '\t', '\t', '}'],
  ['\t', '\t', '\t', '}'],
  ['\t', '\t', '\t', 'f', 'o', 'r', ' ', '(', 'i', 'n', 't', ' ', 'i', '=', '0', ';', ' ', 'i', '<', '3', ';', ' ', 'i', '+', '+', ')', '{'],
  ['\t', '\t', '\t', '\t', 'i', 'f', ' ', '(', 'w', 'o', 'r', 'l', 'd', '2', 'L', '0', '_', 's', 'y', 'm', 'b', '[', 'i', '+', '3', ']', ')', '{'],
  ['\t', '\t', '\t', '\t', '\t', 'p', 'a', 'r', '_', 'w', 'o', 'r', 'l', 'd', '2', 'L', '0', '(', 's', 'z', '1', '+', 's', 'z', '2', ')', ' ', '=', ' ', 'y', 'p', 'r', '[', 'i', ']', ';'],
  ['\t', '\t', '\t', '\t', '\t', 's', 'z', '2', '+', '+', ';'],
  ['\t', '\t', '\t', '\t', '}'],
  ['\t', '\t', '\t', '}'],
  ['\t', '\t', '\t', 'p', 'a', 'r', '_', 'w', 'o', 'r', 'l', 'd', '2', 'L', '0', '.', 'c', 'o', 'n', 's', 'e', 'r', 'v', 'a', 't', 'i', 'v', 'e', 'R', 'e', 's', 'i', 'z', 'e', '(', 's', 'z', '1', '+', 's', 'z', '2', ')', ';'],
  ['\t', '\t', '\t', '/', '/', ' ', 'w', 'o', 'r', 'l', 'd', '2', 'L', '0', ' ', '=', ' ', 'w', 'o', 'r', 'l', 'd', '2', 'L', '0', '_', 'n', 'e', 'w', ';'],
  ['\t', '\t', '}'],
  [],
  ['\t', '\t', 'i', 'f', ' ', '(', 'c', 'o', 'n', 'f', 'i', 'g', '[', '"', 'L', 'n', '_', 't', 'o', '_', 'E', 'E', '"', ']', ')', '{'],
  ['\t', '\t', '\t', 'p', 'a', 'r', '_', 'L', 'n', '2', 'E', 'E', '.', 'r', 'e', 's', 'i', 'z', 'e', '(', '6', ')', ';'],
  ['\t', '\t', '\t', 'Y', 'A', 'M', 'L', ':', ':', 'N', 'o', 'd', 'e', ' ', 'f', 'r', 'a', 'm', 'e', '_', 'e', 'e', ' ', '=', ' ', 'c', 'o', 'n', 'f', 'i', 'g', '[', '"', 'L', 'n', '_', 't', 'o', '_', 'E', 'E', '"', ']', ';'],
  ['\t', '\t', '\t', 'i', 'f', ' ', '(', 'f', 'r', 'a', 'm', 'e', '_', 'e', 'e', '[', '"', 's', 'y', 'm', 'b', '"', ']', ')', '{'],
  ['\t', '\t', '\t', '\t', 'L', 'n', '2', 'E', 'E', '_', 's', 'y', 'm', 'b', ' ', '=', ' ', 'f', 'r', 'a', 'm', 'e', '_', 'e', 'e', '[', '"', 's', 'y', 'm', 'b', '"', ']', '.', 'a', 's', '<', 's', 't', 'd', ':', ':', 'v', 'e', 'c', 't', 'o', 'r', '<', 'i', 'n', 't', '>', '>', '(', ')', ';'],
  ['\t', '\t', '\t', '}', ' ', 'e', 'l', 's', 'e', ' ', '{'],
  ['\t', '\t', '\t', '\t', '/', '/', ' ', 'n', 'o', ' ', 'p', 'a', 'r', 'a', 'm', 'e', 't', 'e', 'r', 's', ' ', 'h', 'e', 'r', 'e'],
  ['\t', '\t', '\t', '}'],
  ['\t', '\t', '\t', '/', '/', ' ', 'i', 'n', 't', ' ', 's', 'z', ' ', '=', ' ', '0', ';'],
  ['\t', '\t', '\t', '/', '/', ' ', 'f', 'o', 'r', ' ', '(', 'i', 'n', 't', ' ', 'v', ' ', ':', ' ', 'L', 'n', '2', 'E', 'E', '_', 's', 'y', 'm', 'b', ')', ' ', 'i', 'f', ' ', '(', 'v', ')', ' ', 's', 'z', '+', '+', ';'],
  ['\t', '\t', '\t', '/', '/', ' ', 's', 't', 'd', ':', ':', 'c', 'o', 'u', 't', ' ', '<', '<', ' ', '"', 's', 'z', ':', ' ', '"', ' ', '<', '<', ' ', 's', 'z', ' ', '<', '<', ' ', 's', 't', 'd', ':', ':', 'e', 'n', 'd', 'l', ';'],
  ['\t', '\t', '\t', 's', 't', 'd', ':', ':', 'v', 'e', 'c', 't', 'o', 'r', '<', 'd', 'o', 'u', 'b', 'l', 'e', '>', ' ', 't', 'r', ' ', '=', ' ', 'f', 'r', 'a', 'm', 'e', '_', 'e', 'e', '[', '"', 't', 'r', '"', ']', '.', 'a', 's', '<', 's', 't', 'd', ':', ':', 'v', 'e', 'c', 't', 'o', 'r', '<', 'd', 'o', 'u', 'b', 'l', 'e', '>', '>', '(', ')', ';'],
  ['\t', '\t', '\t', 's', 't', 'd', ':', ':', 'v', 'e', 'c', 't', 'o', 'r', '<', 'd', 'o', 'u', 'b', 'l', 'e', '>', ' ', 'y', 'p', 'r', ' ', '=', ' ', 'f', 'r', 'a', 'm', 'e', '_', 'e', 'e', '[', '"', 'y', 'p', 'r', '"', ']', '.', 'a', 's', '<', 's', 't', 'd', ':', ':', 'v', 'e', 'c', 't', 'o', 'r', '<', 'd', 'o', 'u', 'b', 'l', 'e', '>', '>', '(', ')', ';'],
  ['\t', '\t', '\t', '/', '/', ' ', 'E', 'i', 'g', 'e', 'n', ':', ':', 'V', 'e', 'c', 't', 'o', 'r', 'X', 'd', ' ', 'L', 'n', '2', 'E', 'E', '_', 'n', 'e', 'w', '(', 's', 'z', ')', ';'],
  ['\t', '\t', '\t', 'i', 'n', 't', ' ', 's', 'z', '1', '=', '0', ',', ' ', 's', 'z', '2', '=', '0', ';'],
  ['\t', '\t', '\t', 'f', 'o', 'r', ' ', '(', 'i', 'n', 't', ' ', 'i', '=', '0', ';', ' ', 'i', '<', '3', ';', ' ', 'i', '+', '+', ')', '{'],
  ['\t', '\t', '\t', '\t', 'i', 'f', ' ', '(', 'L', 'n', '2', 'E', 'E', '_', 's', 'y', 'm', 'b', '[', 'i', ']', ')', '{'],
  ['\t', '\t', '\t', '\t', '\t', 'p', 'a', 'r', '_', 'L', 'n', '2', 'E', 'E', '(', 's', 'z', '1', ')', ' ', '=', ' ', 't', 'r', '[', 'i', ']', ';'],
  ['\t', '\t', '\t', '\t', '\t', 's', 'z', '1', '+', '+', ';'],
  ['\t', '\t', '\t', '\t', '}'],
  ['\t', '\t', '\t', '}'],
  ['\t', '\t', '\t', 'f', 'o', 'r', ' ', '(', 'i', 'n', 't', ' ', 'i', '=', '0', ';', ' ', 'i', '<', '3', ';', ' ', 'i', '+', '+', ')', '{'],
  ['\t', '\t', '\t', '\t', 'i', 'f', ' ', '(', 'L', 'n', '2', 'E', 'E', '_', 's', 'y', 'm', 'b', '[', 'i', '+', '3', ']', ')', '{'],
  ['\t', '\t', '\t', '\t', '\t', 'p', 'a', 'r', '_', 'L', 'n', '2', 'E', 'E', '(', 's', 'z', '1', '+', 's', 'z', '2', ')', ' ', '=', ' ', 'y', 'p', 'r', '[', 'i', ']', ';'],
  ['\t', '\t', '\t', '\t', '\t', 's', 'z', '2', '+', '+', ';'],
  ['\t', '\t', '\t', '\t', '}'],
  ['\t', '\t', '\t', '}'],
  ['\t', '\t', '\t', 'p', 'a', 'r', '_', 'L', 'n', '2', 'E', 'E', '.', 'c', 'o', 'n', 's', 'e', 'r', 'v', 'a', 't', 'i', 'v', 'e', 'R', 'e', 's', 'i', 'z', 'e', '(', 's', 'z', '1', '+', 's', 'z', '2', ')', ';'],
  ['\t', '\t', '\t', '/', '/', ' ', 'p', 'a', 'r', '_', 'L', 'n', '2', 'E', 'E', ' ', '=', ' ', 'L', 'n', '2', 'E', 'E', '_', 'n', 'e', 'w', ';'],
  ['\t', '\t', '}'],
  ['\t', '\t'],
  ['\t', '\t', '/', '/', ' ', '-', '-', '-', ' ', 'P', 'a', 'r', 's', 'e', ' ', 'd', 'y', 'n', 'a', 'm', 'i', 'c', 's', ' ', '-', '-', '-', ' ', '/', '/'],
  ['\t', '\t', 'i', 'f', ' ', '(', 'c', 'o', 'n', 'f', 'i', 'g', '[', '"', 'd', 'y', 'n', 'a', 'm', 'i', 'c', 's', '"', ']', ')', '{'],
  ['\t', '\t', '\t', 'Y', 'A', 'M', 'L', ':', ':', 'N', 'o', 'd', 'e', ' ', 'd', 'y', 'n', 'a', 'm', 'i', 'c', 's', ' ', '=', ' ', 'c', 'o', 'n', 'f', 'i', 'g', '[', '"', 'd', 'y', 'n', 'a', 'm', 'i', 'c', 's', '"', ']', ';'],
  ['\t', '\t', '\t', 'd', 'o', 'u', 'b', 'l', 'e', ' ', 'm', 'a', 's', 's', ',', ' ', 'c', 'm', 'x', ',', ' ', 'c', 'm', 'y', ',', ' ', 'c', 'm', 'z', ',', ' ', 'x', 'x', ',', ' ', 'x', 'y', ',', ' ', 'x', 'z', ',', ' ', 'y', 'y', ',', ' ', 'y', 'z', ',', ' ', 'z', 'z', ';'],
  ['\t', '\t', '\t', 'i', 'n', 'd', 'e', 'x', '=', '0', ';'],
  ['\t', '\t', '\t', 'f', 'o', 'r', ' ', '(', 'c', 'o', 'n', 's', 't', ' ', 'a', 'u', 't', 'o', '&', ' ', 'n', 'o', 'd', 'e', ' ', ':', ' ', 'd', 'y', 'n', 'a', 'm', 'i', 'c', 's', ')', ' ', '{'],
  ['\t', '\t', '\t', '\t', 'i', 'f', ' ', '(', 'i', 'n', 'd', 'e', 'x', '=', '=', 'n', '_', 'j', 'o', 'i', 'n', 't', 's', ')', ' ', 'b', 'r', 'e', 'a', 'k', ';'],
  ['\t', '\t', '\t', '\t', 'Y', 'A', 'M', 'L', ':', ':', 'N', 'o', 'd', 'e', ' ', 'i', 'n', 'e', 'r', 't', 'i', 'a', 'l', ' ', '=', ' ', 'n', 'o', 'd', 'e', '.', 's', 'e', 'c', 'o', 'n', 'd', '[', '"', 'i', 'n', 'e', 'r', 't', 'i', 'a', 'l', '"', ']', ';'],
  ['\t', '\t', '\t', '\t', '/', '/', ' ', '-', ' ', 'i', 'n', 'e', 'r', 't', 'i', 'a', 'l', ' ', 'p', 'a', 'r', 'a', 'm', 'e', 't', 'e', 'r', 's', ' ', '-', ' ', '/', '/'],
  ['\t', '\t', '\t', '\t', 's', 't', 'd', ':', ':', 's', 't', 'r', 'i', 'n', 'g', ' ', 'l', 'i', 'n', 'k', 'N', 'a', 'm', 'e', ' ', '=', ' ', 'n', 'o', 'd', 'e', '.', 'f', 'i', 'r', 's', 't', '.', 'a', 's', '<', 's', 't', 'd', ':', ':', 's', 't', 'r', 'i', 'n', 'g', '>', '(', ')', ';'],
  ['\t', '\t', '\t', '\t', 'm', 'a', 's', 's', ' ', '=', ' ', 'i', 'n', 'e', 'r', 't', 'i', 'a', 'l', '[', '"', 'm', 'a', 's', 's', '"', ']', '.', 'a', 's', '<', 'd', 'o', 'u', 'b', 'l', 'e', '>', '(', ')', ';'],
  ['\t', '\t', '\t', '\t', 'c', 'm', 'x', ' ', '=', ' ', 'i', 'n', 'e', 'r', 't', 'i', 'a', 'l', '[', '"', 'C', 'o', 'M', '_', 'x', '"', ']', '.', 'a', 's', '<', 'd', 'o', 'u', 'b', 'l', 'e', '>', '(', ')', ';'],
  ['\t', '\t', '\t', '\t', 'c', 'm', 'y', ' ', '=', ' ', 'i', 'n', 'e', 'r', 't', 'i', 'a', 'l', '[', '"', 'C', 'o', 'M', '_', 'y', '"', ']', '.', 'a', 's', '<', 'd', 'o', 'u', 'b', 'l', 'e', '>', '(', ')', ';'],
  ['\t', '\t', '\t', '\t', 'c', 'm', 'z', ' ', '=', ' ', 'i', 'n', 'e', 'r', 't', 'i', 'a', 'l', '[', '"', 'C', 'o', 'M', '_', 'z', '"', ']', '.', 'a', 's', '<', 'd', 'o', 'u', 'b', 'l', 'e', '>', '(', ')', ';'],
  ['\t', '\t', '\t', '\t', 'x', 'x', ' ', '=', ' ', 'i', 'n', 'e', 'r', 't', 'i', 'a', 'l', '[', '"', 'I', 'x', 'x', '"', ']', '.', 'a', 's', '<', 'd', 'o', 'u', 'b', 'l', 'e', '>', '(', ')', ';'],
  ['\t', '\t', '\t', '\t', 'x', 'y', ' ', '=', ' ', 'i', 'n', 'e', 'r', 't', 'i', 'a', 'l', '[', '"', 'I', 'x', 'y', '"', ']', '.', 'a', 's', '<', 'd', 'o', 'u', 'b', 'l', 'e', '>', '(', ')', ';'],
  ['\t', '\t', '\t', '\t', 'x', 'z', ' ', '=', ' ', 'i', 'n', 'e', 'r', 't', 'i', 'a', 'l', '[', '"', 'I', 'x', 'z', '"', ']', '.', 'a', 's', '<', 'd', 'o', 'u', 'b', 'l', 'e', '>', '(', ')', ';'],
  ['\t', '\t', '\t', '\t', 'y', 'y', ' ', '=', ' ', 'i', 'n', 'e', 'r', 't', 'i', 'a', 'l', '[', '"', 'I', 'y', 'y', '"', ']', '.', 'a', 's', '<', 'd', 'o', 'u', 'b', 'l', 'e', '>', '(', ')', ';'],
  ['\t', '\t', '\t', '\t', 'y', 'z', ' ', '=', ' ', 'i', 'n', 'e', 'r', 't', 'i', 'a', 'l', '[', '"', 'I', 'y', 'z', '"', ']', '.', 'a', 's', '<', 'd', 'o', 'u', 'b', 'l', 'e', '>', '(', ')', ';'],
  ['\t', '\t', '\t', '\t', 'z', 'z', ' ', '=', ' ', 'i', 'n', 'e', 'r', 't', 'i', 'a', 'l', '[', '"', 'I', 'z', 'z', '"', ']', '.', 'a', 's', '<', 'd', 'o', 'u', 'b', 'l', 'e', '>', '(', ')', ';'],
  [],
  ['\t', '\t', '\t', '\t', 'p', 'a', 'r', '_', 'D', 'Y', 'N', '.', 's', 'e', 'g', 'm', 'e', 'n', 't', '(', 'S', 'T', 'D', '_', 'P', 'A', 'R', '_', 'L', 'I', 'N', 'K', '*', 'i', 'n', 'd', 'e', 'x', ',', ' ', 'S', 'T', 'D', '_', 'P', 'A', 'R', '_', 'L', 'I', 'N', 'K', ')', ' ', '<', '<', ' ', 'm', 'a', 's', 's', ',', 'c', 'm', 'x', ',', 'c', 'm', 'y', ',', 'c', 'm', 'z', ',', 'x', 'x', ',', 'x', 'y', ',', 'x', 'z', ',', 'y', 'y', ',', 'y', 'z', ',', 'z', 'z', ';'],
  ['\t', '\t', '\t', '\t'],
  ['\t', '\t', '\t', '\t', '/', '/', ' ', '-', ' ', 'l', 'i', 'n', 'k', ' ', 'f', 'r', 'i', 'c', 't', 'i', 'o', 'n', ' ', '-', ' ', '/', '/'],
  ['\t', '\t', '\t', '\t', 'i', 'f', ' ', '(', 'n', 'o', 'd', 'e', '.', 's', 'e', 'c', 'o', 'n', 'd', '[', '"', 'f', 'r', 'i', 'c', 't', 'i', 'o', 'n', '"', ']', ')', '{'],
  ['\t', '\t', '\t', '\t', '\t', 's', 't', 'd', ':', ':', 'v', 'e', 'c', 't', 'o', 'r', '<', 'd', 'o', 'u', 'b', 'l', 'e', '>', ' ', 'D', 'l', ' ', '=', ' ', 'n', 'o', 'd', 'e', '.', 's', 'e', 'c', 'o', 'n', 'd', '[', '"', 'f', 'r', 'i', 'c', 't', 'i', 'o', 'n', '"', ']', '[', '"', 'D', 'l', '"', ']', '.', 'a', 's', '<', 's', 't', 'd', ':', ':', 'v', 'e', 'c', 't', 'o', 'r', '<', 'd', 'o', 'u', 'b', 'l', 'e', '>', '>', '(', ')', ';'],
  ['\t', '\t', '\t', '\t', '\t', 'f', 'o', 'r', ' ', '(', 'i', 'n', 't', ' ', 'j', '=', '0', ';', ' ', 'j', '<', 'D', 'l', '_', 'o', 'r', 'd', 'e', 'r', ';', ' ', 'j', '+', '+', ')', '{'],
  ['\t', '\t', '\t', '\t', '\t', '\t', 'p', 'a', 'r', '_', 'D', 'l', '(', 'D', 'l', '_', 'o', 'r', 'd', 'e', 'r', '*', 'i', 'n', 'd', 'e', 'x', ' ', '+', ' ', 'j', ')', ' ', '=', ' ', 'D', 'l', '[', 'j', ']', ';'],
  ['\t', '\t', '\t', '\t', '\t', '}'],
  ['\t', '\t', '\t', '\t', '}'],
  ['\t', '\t', '\t', '\t', 'i', 'n', 'd', 'e', 'x', '+', '+', ';'],
  ['\t', '\t', '\t', '}'],
  ['\t', '\t', '\t', 'i', 'f', ' ', '(', 'u', 'p', 'd', 'a', 't', 'e', '_', 'R', 'E', 'G', ')', ' ', 'u', 'p', 'd', 'a', 't', 'e', '_', 'i', 'n', 'e', 'r', 't', 'i', 'a', 'l', '_', 'R', 'E', 'G', '(', ')', ';'],
  ['\t', '\t', '}'],
  ['\t', '\t', '/', '/', ' ', '-', ' ', 'G', 'r', 'a', 'v', 'i', 't', 'y', ' ', '-', ' ', '/', '/'],
  ['\t', '\t', 'i', 'f', ' ', '(', 'c', 'o', 'n', 'f', 'i', 'g', '[', '"', 'g', 'r', 'a', 'v', 'i', 't', 'y', '"', ']', ')', '{'],
  ['\t', '\t', '\t', 'p', 'a', 'r', '_', 'g', 'r', 'a', 'v', 'i', 't', 'y', '.', 'r', 'e', 's', 'i', 'z', 'e', '(', '3', ')', ';'],
  ['\t', '\t', '\t', 'Y', 'A', 'M', 'L', ':', ':', 'N', 'o', 'd', 'e', ' ', 'g', 'r', 'a', 'v', 'i', 't', 'y', '_', 'n', 'o', 'd', 'e', ' ', '=', ' ', 'c', 'o', 'n', 'f', 'i', 'g', '[', '"', 'g', 'r', 'a', 'v', 'i', 't', 'y', '"', ']', ';'],
  ['\t', '\t', '\t', 'i', 'f', ' ', '(', 'g', 'r', 'a', 'v', 'i', 't', 'y', '_', 'n', 'o', 'd', 'e', '[', '"', 's', 'y', 'm', 'b', '"', ']', ')', '{'],
  ['\t', '\t', '\t', '\t', 'g', 'r', 'a', 'v', 'i', 't', 'y', '_', 's', 'y', 'm', 'b', ' ', '=', ' ', 'g', 'r', 'a', 'v', 'i', 't', 'y', '_', 'n', 'o', 'd', 'e', '[', '"', 's', 'y', 'm', 'b', '"', ']', '.', 'a', 's', '<', 's', 't', 'd', ':', ':', 'v', 'e', 'c', 't', 'o', 'r', '<', 'i', 'n', 't', '>', '>', '(', ')', ';'],
  ['\t', '\t', '\t', '}', ' ', 'e', 'l', 's', 'e', ' ', '{'],
  ['\t', '\t', '\t', '\t', '/', '/', ' ', 'n', 'o', ' ', 'p', 'a', 'r', 'a', 'm', 'e', 't', 'e', 'r', 's', ' ', 'h', 'e', 'r', 'e'],
  ['\t', '\t', '\t', '}'],
  ['\t', '\t', '\t', '/', '/', ' ', 'i', 'n', 't', ' ', 's', 'z', ' ', '=', ' ', '0', ';'],
  ['\t', '\t', '\t', '/', '/', ' ', 'f', 'o', 'r', ' ', '(', 'i', 'n', 't', ' ', 'v', ' ', ':', ' ', 'g', 'r', 'a', 'v', 'i', 't', 'y', '_', 's', 'y', 'm', 'b', ')', ' ', 'i', 'f', ' ', '(', 'v', ')', ' ', 's', 'z', '+', '+', ';'],
  ['\t', '\t', '\t', 's', 't', 'd', ':', ':', 'v', 'e', 'c', 't', 'o', 'r', '<', 'd', 'o', 'u', 'b', 'l', 'e', '>', ' ', 'g', 'r', 'a', 'v', ' ', '=', ' ', 'g', 'r', 'a', 'v', 'i', 't', 'y', '_', 'n', 'o', 'd', 'e', '[', '"', 'v', 'a', 'l', 'u', 'e', '"', ']', '.', 'a', 's', '<', 's', 't', 'd', ':', ':', 'v', 'e', 'c', 't', 'o', 'r', '<', 'd', 'o', 'u', 'b', 'l', 'e', '>', '>', '(', ')', ';'],
  ['\t', '\t', '\t', '/', '/', ' ', 'E', 'i', 'g', 'e', 'n', ':', ':', 'V', 'e', 'c', 't', 'o', 'r', 'X', 'd', ' ', 'g', 'r', 'a', 'v', 'i', 't', 'y', '_', 'n', 'e', 'w', '(', 's', 'z', ')', ';'],
  ['\t', '\t', '\t', 'i', 'n', 't', ' ', 's', 'z', '1', ' ', '=', ' ', '0', ';'],
  ['\t', '\t', '\t', 'f', 'o', 'r', ' ', '(', 'i', 'n', 't', ' ', 'i', '=', '0', ';', ' ', 'i', '<', '3', ';', ' ', 'i', '+', '+', ')', '{'],
  ['\t', '\t', '\t', '\t', 'i', 'f', ' ', '(', 'g', 'r', 'a', 'v', 'i', 't', 'y', '_', 's', 'y', 'm', 'b', '[', 'i', ']', ')', '{'],
  ['\t', '\t', '\t', '\t', '\t', 'p', 'a', 'r', '_', 'g', 'r', 'a', 'v', 'i', 't', 'y', '(', 's', 'z', '1', ')', ' ', '=', ' ', 'g', 'r', 'a', 'v', '[', 'i', ']', ';'],
  ['\t', '\t', '\t', '\t', '\t', 's', 'z', '1', '+', '+', ';'],
  ['\t', '\t', '\t', '\t', '}'],
  ['\t', '\t', '\t', '}'],
  ['\t', '\t', '\t', 'p', 'a', 'r', '_', 'g', 'r', 'a', 'v', 'i', 't', 'y', '.', 'c', 'o', 'n', 's', 'e', 'r', 'v', 'a', 't', 'i', 'v', 'e', 'R', 'e', 's', 'i', 'z', 'e', '(', 's', 'z', '1', ')', ';'],
  ['\t', '\t', '\t', '/', '/', ' ', 'p', 'a', 'r', '_', 'g', 'r', 'a', 'v', 'i', 't', 'y', ' ', '=', ' ', 'g', 'r', 'a', 'v', 'i', 't', 'y', '_', 'n', 'e', 'w', ';'],
  ['\t', '\t', '}'],
  [],
  ['\t', '\t', '/', '/', ' ', '-', '-', '-', ' ', 'P', 'a', 'r', 's', 'e', ' ', 'e', 'l', 'a', 's', 't', 'i', 'c', ' ', '-', '-', '-', ' ', '/', '/'],
  ['\t', '\t', 'i', 'f', ' ', '(', 'c', 'o', 'n', 'f', 'i', 'g', '[', '"', 'e', 'l', 'a', 's', 't', 'i', 'c', '"', ']', ')', '{'],
  ['\t', '\t', '\t', 'Y', 'A', 'M', 'L', ':', ':', 'N', 'o', 'd', 'e', ' ', 'e', 'l', 'a', 's', 't', 'i', 'c', ' ', '=', ' ', 'c', 'o', 'n', 'f', 'i', 'g', '[', '"', 'e', 'l', 'a', 's', 't', 'i', 'c', '"', ']', ';'],
  ['\t', '\t', '\t', 'i', 'n', 'd', 'e', 'x', ' ', '=', ' ', '0', ';'],
  ['\t', '\t', '\t', 'f', 'o', 'r', ' ', '(', 'c', 'o', 'n', 's', 't', ' ', 'a', 'u', 't', 'o', '&', ' ', 'n', 'o', 'd', 'e', ' ', ':', ' ', 'e', 'l', 'a', 's', 't', 'i', 'c', '[', '"', 'j', 'o', 'i', 'n', 't', 's', '"', ']', ')', ' ', '{'],
  ['\t', '\t', '\t', '\t', 'i', 'f', ' ', '(', 'i', 'n', 'd', 'e', 'x', '=', '=', 'n', 'u', 'm', 'E', 'l', 'a', 's', 't', 'i', 'c', 'J', 'o', 'i', 'n', 't', 's', ')', ' ', 'b', 'r', 'e', 'a', 'k', ';'],
  ['\t', '\t', '\t', '\t', 's', 't', 'd', ':', ':', 's', 't', 'r', 'i', 'n', 'g', ' ', 'j', 'o', 'i', 'n', 't', 'N', 'a', 'm', 'e', ' ', '=', ' ', 'n', 'o', 'd', 'e', '.', 'f', 'i', 'r', 's', 't', '.', 'a', 's', '<', 's', 't', 'd', ':', ':', 's', 't', 'r', 'i', 'n', 'g', '>', '(', ')', ';'],
  ['\t', '\t', '\t', '\t', '/', '/', ' ', 's', 't', 'i', 'f', 'f', 'n', 'e', 's', 's'],
  ['\t', '\t', '\t', '\t', 'f', 'o', 'r', ' ', '(', 'i', 'n', 't', ' ', 'j', '=', '0', ';', ' ', 'j', '<', 'K', '_', 'o', 'r', 'd', 'e', 'r', ';', ' ', 'j', '+', '+', ')', '{'],
  ['\t', '\t', '\t', '\t', '\t', 's', 't', 'd', ':', ':', 'v', 'e', 'c', 't', 'o', 'r', '<', 'd', 'o', 'u', 'b', 'l', 'e', '>', ' ', 'K', ' ', '=', ' ', 'n', 'o', 'd', 'e', '.', 's', 'e', 'c', 'o', 'n', 'd', '[', '"', 'K', '"', ']', '.', 'a', 's', '<', 's', 't', 'd', ':', ':', 'v', 'e', 'c', 't', 'o', 'r', '<', 'd', 'o', 'u', 'b', 'l', 'e', '>', '>', '(', ')', ';'],
  ['\t', '\t', '\t', '\t', '\t', 'p', 'a', 'r', '_', 'K', '(', 'K', '_', 'o', 'r', 'd', 'e', 'r', '*', 'i', 'n', 'd', 'e', 'x', '+', 'j', ')', ' ', '=', ' ', 'K', '[', 'j', ']', ';'],
  ['\t', '\t', '\t', '\t', '\t', '/', '/', ' ', 's', 't', 'd', ':', ':', 'c', 'o', 'u', 't', '<', '<', '"', 'K', '_', '"', '<', '<', 'j', '<', '<', '"', ':', ' ', '"', '<', '<', 'K', '[', 'j', ']', ' ', '<', '<', ' ', 's', 't', 'd', ':', ':', 'e', 'n', 'd', 'l', ';'],
  ['\t', '\t', '\t', '\t', '}'],
  ['\t', '\t', '\t', '\t', '/', '/', ' ', 'c', 'o', 'u', 'p', 'l', 'i', 'n', 'g', ' ', 'f', 'r', 'i', 'c', 't', 'i', 'o', 'n'],
  ['\t', '\t', '\t', '\t', 'f', 'o', 'r', ' ', '(', 'i', 'n', 't', ' ', 'j', '=', '0', ';', ' ', 'j', '<', 'D', '_', 'o', 'r', 'd', 'e', 'r', ';', ' ', 'j', '+', '+', ')', '{'],
  ['\t', '\t', '\t', '\t', '\t', 's', 't', 'd', ':', ':', 'v', 'e', 'c', 't', 'o', 'r', '<', 'd', 'o', 'u', 'b', 'l', 'e', '>', ' ', 'D', ' ', '=', ' ', 'n', 'o', 'd', 'e', '.', 's', 'e', 'c', 'o', 'n', 'd', '[', '"', 'D', '"', ']', '.', 'a', 's', '<', 's', 't', 'd', ':', ':', 'v', 'e', 'c', 't', 'o', 'r', '<', 'd', 'o', 'u', 'b', 'l', 'e', '>', '>', '(', ')', ';'],
  ['\t', '\t', '\t', '\t', '\t', 'p', 'a', 'r', '_', 'D', '(', 'D', '_', 'o', 'r', 'd', 'e', 'r', '*', 'i', 'n', 'd', 'e', 'x', ' ', '+', ' ', 'j', ')', ' ', '=', ' ', 'D', '[', 'j', ']', ';'],
  ['\t', '\t', '\t', '\t', '\t', '/', '/', ' ', 's', 't', 'd', ':', ':', 'c', 'o', 'u', 't', '<', '<', '"', 'D', '_', '"', '<', '<', 'j', '<', '<', '"', ':', ' ', '"', '<', '<', 'D', '[', 'j', ']', ' ', '<', '<', ' ', 's', 't', 'd', ':', ':', 'e', 'n', 'd', 'l', ';'],
  ['\t', '\t', '\t', '\t', '}'],
  ['\t', '\t', '\t', '\t', '/', '/', ' ', 'm', 'o', 't', 'o', 'r', ' ', 'f', 'r', 'i', 'c', 't', 'i', 'o', 'n'],
  ['\t', '\t', '\t', '\t', 'f', 'o', 'r', ' ', '(', 'i', 'n', 't', ' ', 'j', '=', '0', ';', ' ', 'j', '<', 'D', 'm', '_', 'o', 'r', 'd', 'e', 'r', ';', ' ', 'j', '+', '+', ')', '{'],
  ['\t', '\t', '\t', '\t', '\t', 's', 't', 'd', ':', ':', 'v', 'e', 'c', 't', 'o', 'r', '<', 'd', 'o', 'u', 'b', 'l', 'e', '>', ' ', 'D', 'm', ' ', '=', ' ', 'n', 'o', 'd', 'e', '.', 's', 'e', 'c', 'o', 'n', 'd', '[', '"', 'D', 'm', '"', ']', '.', 'a', 's', '<', 's', 't', 'd', ':', ':', 'v', 'e', 'c', 't', 'o', 'r', '<', 'd', 'o', 'u', 'b', 'l', 'e', '>', '>', '(', ')', ';'],
  ['\t', '\t', '\t', '\t', '\t', 'p', 'a', 'r', '_', 'D', 'm', '(', 'D', 'm', '_', 'o', 'r', 'd', 'e', 'r', '*', 'i', 'n', 'd', 'e', 'x', ' ', '+', ' ', 'j', ')', ' ', '=', ' ', 'D', 'm', '[', 'j', ']', ';'],
  ['\t', '\t', '\t', '\t', '\t', '/', '/', ' ', 's', 't', 'd', ':', ':', 'c', 'o', 'u', 't', '<', '<', '"', 'D', 'm', '_', '"', '<', '<', 'j', '<', '<', '"', ':', ' ', '"', '<', '<', 'D', 'm', '[', 'j', ']', ' ', '<', '<', ' ', 's', 't', 'd', ':', ':', 'e', 'n', 'd', 'l', ';'],
  ['\t', '\t', '\t', '\t', '}'],
  ['\t', '\t', '\t', '\t', '/', '/', ' ', 'm', 'o', 't', 'o', 'r', ' ', 'I', 'n', 'e', 'r', 't', 'i', 'a'],
  ['\t', '\t', '\t', '\t', 'p', 'a', 'r', '_', 'M', 'm', '(', 'i', 'n', 'd', 'e', 'x', ')', ' ', '=', ' ', 'n', 'o', 'd', 'e', '.', 's', 'e', 'c', 'o', 'n', 'd', '[', '"', 'M', 'm', '"', ']', '.', 'a', 's', '<', 'd', 'o', 'u', 'b', 'l', 'e', '>', '(', ')', ';'],
  ['\t', '\t', '\t', '\t', '/', '/', ' ', 's', 't', 'd', ':', ':', 'c', 'o', 'u', 't', '<', '<', '"', 'D', 'm', '_', '"', '<', '<', 'j', '<', '<', '"', ':', ' ', '"', '<', '<', 'D', 'm', '[', 'j', ']', ' ', '<', '<', ' ', 's', 't', 'd', ':', ':', 'e', 'n', 'd', 'l', ';'],
  ['\t', '\t', '\t', '\t', 'i', 'n', 'd', 'e', 'x', '+', '+', ';'],
  ['\t', '\t', '\t', '}'],
  ['\t', '\t', '}'],
  ['\t', '}', ' ', 'c', 'a', 't', 'c', 'h', ' ', '(', 'c', 'o', 'n', 's', 't', ' ', 'Y', 'A', 'M', 'L', ':', ':', 'E', 'x', 'c', 'e', 'p', 't', 'i', 'o', 'n', '&', ' ', 'e', ')', ' ', '{'],
  ['\t', '\t', 's', 't', 'd', ':', ':', 'c', 'e', 'r', 'r', ' ', '<', '<', ' ', '"', 'E', 'r', 'r', 'o', 'r', ' ', 'w', 'h', 'i', 'l', 'e', ' ', 'p', 'a', 'r', 's', 'i', 'n', 'g', ' ', 'Y', 'A', 'M', 'L', ':', ' ', '"', ' ', '<', '<', ' ', 'e', '.', 'w', 'h', 'a', 't', '(', ')', ' ', '<', '<', ' ', 's', 't', 'd', ':', ':', 'e', 'n', 'd', 'l', ';'],
  ['\t', '}'],
  ['}'],
  [],
  ['/', '/', ' ', 'v', 'o', 'i', 'd', ' ', 't', 'h', 'u', 'n', 'd', 'e', 'r', '_', 'r', 'o', 'b', 'o', 't', ':', ':', 'l', 'o', 'a', 'd', '_', 'p', 'a', 'r', '_', 'e', 'l', 'a', 's', 't', 'i', 'c', '(', 's', 't', 'd', ':', ':', 's', 't', 'r', 'i', 'n', 'g', ' ', 'f', 'i', 'l', 'e', '_', 'p', 'a', 't', 'h', ')', '{'],
  ['/', '/', ' ', '\t', '/', '/', ' ', '-', '-', '-', '-', '-', ' ', 'p', 'a', 'r', 's', 'i', 'n', 'g', ' ', 'y', 'a', 'm', 'l', ' ', 'e', 'l', 'a', 's', 't', 'i', 'c', ' ', '-', '-', '-', '-', '-', ' ', '/', '/'],
  ['/', '/', ' ', '\t', 't', 'r', 'y', ' ', '{'],
  ['/', '/', ' ', '\t', '\t', '/', '/', ' ', 'l', 'o', 'a', 'd', ' ', 'y', 'a', 'm', 'l'],
  ['/', '/', ' ', '\t', '\t', 'Y', 'A', 'M', 'L', ':', ':', 'N', 'o', 'd', 'e', ' ', 'c', 'o', 'n', 'f', 'i', 'g', '_', 'f', 'i', 'l', 'e', ' ', '=', ' ', 'Y', 'A', 'M', 'L', ':', ':', 'L', 'o', 'a', 'd', 'F', 'i', 'l', 'e', '(', 'f', 'i', 'l', 'e', '_', 'p', 'a', 't', 'h', ')', ';'],
  ['/', '/', ' ', '\t', '\t', '/', '/', ' ', 'p', 'a', 'r', 's', 'e', ' ', 'e', 'l', 'a', 's', 't', 'i', 'c'],
  ['/', '/', ' ', '\t', '\t', 'Y', 'A', 'M', 'L', ':', ':', 'N', 'o', 'd', 'e', ' ', 'e', 'l', 'a', 's', 't', 'i', 'c', ' ', '=', ' ', 'c', 'o', 'n', 'f', 'i', 'g', '_', 'f', 'i', 'l', 'e', '[', '"', 'e', 'l', 'a', 's', 't', 'i', 'c', '"', ']', ';'],
  ['/', '/', ' ', '\t', '\t', 'i', 'n', 't', ' ', 'i', ' ', '=', ' ', '0', ';'],
  ['/', '/', ' ', '\t', '\t', 'f', 'o', 'r', ' ', '(', 'c', 'o', 'n', 's', 't', ' ', 'a', 'u', 't', 'o', '&', ' ', 'n', 'o', 'd', 'e', ' ', ':', ' ', 'e', 'l', 'a', 's', 't', 'i', 'c', '[', '"', 'j', 'o', 'i', 'n', 't', 's', '"', ']', ')', ' ', '{'],
  ['\t', '\t', '\t'],
  ['/', '/', ' ', '\t', '\t', '\t', 'i', 'f', ' ', '(', 'i', '=', '=', 'n', 'u', 'm', 'E', 'l', 'a', 's', 't', 'i', 'c', 'J', 'o', 'i', 'n', 't', 's', ')', ' ', 'b', 'r', 'e', 'a', 'k', ';'],
  ['/', '/', ' ', '\t', '\t', '\t', 's', 't', 'd', ':', ':', 's', 't', 'r', 'i', 'n', 'g', ' ', 'j', 'o', 'i', 'n', 't', 'N', 'a', 'm', 'e', ' ', '=', ' ', 'n', 'o', 'd', 'e', '.', 'f', 'i', 'r', 's', 't', '.', 'a', 's', '<', 's', 't', 'd', ':', ':', 's', 't', 'r', 'i', 'n', 'g', '>', '(', ')', ';'],
  ['/', '/', ' ', '\t', '\t', '\t', '/', '/', ' ', 's', 't', 'i', 'f', 'f', 'n', 'e', 's', 's'],
  ['/', '/', ' ', '\t', '\t', '\t', 'f', 'o', 'r', ' ', '(', 'i', 'n', 't', ' ', 'j', '=', '0', ';', ' ', 'j', '<', 'K', '_', 'o', 'r', 'd', 'e', 'r', ';', ' ', 'j', '+', '+', ')', '{'],
  ['/', '/', ' ', '\t', '\t', '\t', '\t', 's', 't', 'd', ':', ':', 'v', 'e', 'c', 't', 'o', 'r', '<', 'd', 'o', 'u', 'b', 'l', 'e', '>', ' ', 'K', ' ', '=', ' ', 'n', 'o', 'd', 'e', '.', 's', 'e', 'c', 'o', 'n', 'd', '[', '"', 'K', '"', ']', '.', 'a', 's', '<', 's', 't', 'd', ':', ':', 'v', 'e', 'c', 't', 'o', 'r', '<', 'd', 'o', 'u', 'b', 'l', 'e', '>', '>', '(', ')', ';'],
  ['/', '/', ' ', '\t', '\t', '\t', '\t', 'p', 'a', 'r', '_', 'K', '(', 'K', '_', 'o', 'r', 'd', 'e', 'r', '*', 'i', '+', 'j', ')', ' ', '=', ' ', 'K', '[', 'j', ']', ';'],
  ['/', '/', ' ', '\t', '\t', '\t', '\t', 's', 't', 'd', ':', ':', 'c', 'o', 'u', 't', '<', '<', '"', 'K', '_', '"', '<', '<', 'j', '<', '<', '"', ':', ' ', '"', '<', '<', 'K', '[', 'j', ']', ' ', '<', '<', ' ', 's', 't', 'd', ':', ':', 'e', 'n', 'd', 'l', ';'],
  ['/', '/', ' ', '\t', '\t', '\t', '}'],
  ['/', '/', ' ', '\t', '\t', '\t', '/', '/', ' ', 'c', 'o', 'u', 'p', 'l', 'i', 'n', 'g', ' ', 'f', 'r', 'i', 'c', 't', 'i', 'o', 'n'],
  ['/', '/', ' ', '\t', '\t', '\t', 'f', 'o', 'r', ' ', '(', 'i', 'n', 't', ' ', 'j', '=', '0', ';', ' ', 'j', '<', 'D', '_', 'o', 'r', 'd', 'e', 'r', ';', ' ', 'j', '+', '+', ')', '{'],
  ['/', '/', ' ', '\t', '\t', '\t', '\t', 's', 't', 'd', ':', ':', 'v', 'e', 'c', 't', 'o', 'r', '<', 'd', 'o', 'u', 'b', 'l', 'e', '>', ' ', 'D', ' ', '=', ' ', 'n', 'o', 'd', 'e', '.', 's', 'e', 'c', 'o', 'n', 'd', '[', '"', 'D', '"', ']', '.', 'a', 's', '<', 's', 't', 'd', ':', ':', 'v', 'e', 'c', 't', 'o', 'r', '<', 'd', 'o', 'u', 'b', 'l', 'e', '>', '>', '(', ')', ';'],
  ['/', '/', ' ', '\t', '\t', '\t', '\t', 'p', 'a', 'r', '_', 'D', '(', 'D', '_', 'o', 'r', 'd', 'e', 'r', '*', 'i', ' ', '+', ' ', 'j', ')', ' ', '=', ' ', 'D', '[', 'j', ']', ';'],
  ['/', '/', ' ', '\t', '\t', '\t', '\t', 's', 't', 'd', ':', ':', 'c', 'o', 'u', 't', '<', '<', '"', 'D', '_', '"', '<', '<', 'j', '<', '<', '"', ':', ' ', '"', '<', '<', 'D', '[', 'j', ']', ' ', '<', '<', ' ', 's', 't', 'd', ':', ':', 'e', 'n', 'd', 'l', ';'],
  ['/', '/', ' ', '\t', '\t', '\t', '}'],
  ['/', '/', ' ', '\t', '\t', '\t', '/', '/', ' ', 'm', 'o', 't', 'o', 'r', ' ', 'f', 'r', 'i', 'c', 't', 'i', 'o', 'n'],
  ['/', '/', ' ', '\t', '\t', '\t', 'f', 'o', 'r', ' ', '(', 'i', 'n', 't', ' ', 'j', '=', '0', ';', ' ', 'j', '<', 'D', 'm', '_', 'o', 'r', 'd', 'e', 'r', ';', ' ', 'j', '+', '+', ')', '{'],
  ['/', '/', ' ', '\t', '\t', '\t', '\t', 's', 't', 'd', ':', ':', 'v', 'e', 'c', 't', 'o', 'r', '<', 'd', 'o', 'u', 'b', 'l', 'e', '>', ' ', 'D', 'm', ' ', '=', ' ', 'n', 'o', 'd', 'e', '.', 's', 'e', 'c', 'o', 'n', 'd', '[', '"', 'D', 'm', '"', ']', '.', 'a', 's', '<', 's', 't', 'd', ':', ':', 'v', 'e', 'c', 't', 'o', 'r', '<', 'd', 'o', 'u', 'b', 'l', 'e', '>', '>', '(', ')', ';'],
  ['/', '/', ' ', '\t', '\t', '\t', '\t', 'p', 'a', 'r', '_', 'D', 'm', '(', 'D', 'm', '_', 'o', 'r', 'd', 'e', 'r', '*', 'i', ' ', '+', ' ', 'j', ')', ' ', '=', ' ', 'D', 'm', '[', 'j', ']', ';'],
  ['/', '/', ' ', '\t', '\t', '\t', '\t', 's', 't', 'd', ':', ':', 'c', 'o', 'u', 't', '<', '<', '"', 'D', 'm', '_', '"', '<', '<', 'j', '<', '<', '"', ':', ' ', '"', '<', '<', 'D', 'm', '[', 'j', ']', ' ', '<', '<', ' ', 's', 't', 'd', ':', ':', 'e', 'n', 'd', 'l', ';'],
  ['/', '/', ' ', '\t', '\t', '\t', '}'],
  ['/', '/', ' ', '\t', '\t', '\t', 'i', '+', '+', ';'],
  ['/', '/', ' ', '\t', '\t', '}'],
  ['/', '/', ' ', '\t', '\t', '/', '/', ' ', 's', 't', 'd', ':', ':', 'c', 'o', 'u', 't', '<', '<', '"', 'Y', 'A', 'M', 'L', '_', 'D', 'H', ' ', 'l', 'e', 't', 't', 'o', '"', '<', '<', 's', 't', 'd', ':', ':', 'e', 'n', 'd', 'l', ';'],
  ['/', '/', ' ', '\t', '\t', '/', '/', ' ', 's', 't', 'd', ':', ':', 'c', 'o', 'u', 't', '<', '<', '"', '\\', 'n', 'p', 'a', 'r', 'a', 'm', ' ', 'D', 'Y', 'N', ' ', '\\', 'n', '"', '<', '<', 'p', 'a', 'r', 'a', 'm', '_', 'D', 'Y', 'N', '<', '<', 's', 't', 'd', ':', ':', 'e', 'n', 'd', 'l', ';'],
  ['/', '/', ' ', '\t', '}', ' ', 'c', 'a', 't', 'c', 'h', ' ', '(', 'c', 'o', 'n', 's', 't', ' ', 'Y', 'A', 'M', 'L', ':', ':', 'E', 'x', 'c', 'e', 'p', 't', 'i', 'o', 'n', '&', ' ', 'e', ')', ' ', '{'],
  ['/', '/', ' ', '\t', '\t', 's', 't', 'd', ':', ':', 'c', 'e', 'r', 'r', ' ', '<', '<', ' ', '"', 'E', 'r', 'r', 'o', 'r', ' ', 'w', 'h', 'i', 'l', 'e', ' ', 'p', 'a', 'r', 's', 'i', 'n', 'g', ' ', 'Y', 'A', 'M', 'L', ':', ' ', '"', ' ', '<', '<', ' ', 'e', '.', 'w', 'h', 'a', 't', '(', ')', ' ', '<', '<', ' ', 's', 't', 'd', ':', ':', 'e', 'n', 'd', 'l', ';'],
  ['/', '/', ' ', '\t', '}'],
  ['/', '/', ' ', '}'],
  [],
  ['v', 'o', 'i', 'd', ' ', 't', 'h', 'u', 'n', 'd', 'e', 'r', '_', 'r', 'o', 'b', 'o', 't', ':', ':', 's', 'a', 'v', 'e', '_', 'p', 'a', 'r', '_', 'R', 'E', 'G', '(', 's', 't', 'd', ':', ':', 's', 't', 'r', 'i', 'n', 'g', ' ', 'p', 'a', 't', 'h', '_', 'y', 'a', 'm', 'l', '_', 'D', 'H', '_', 'R', 'E', 'G', ')', '{'],
  ['\t', 's', 't', 'd', ':', ':', 'v', 'e', 'c', 't', 'o', 'r', '<', 's', 't', 'd', ':', ':', 's', 't', 'r', 'i', 'n', 'g', '>', ' ', 'k', 'e', 'y', 's', '_', 'r', 'e', 'g', ';'],
  ['\t', 'k', 'e', 'y', 's', '_', 'r', 'e', 'g', '.', 'r', 'e', 's', 'i', 'z', 'e', '(', '5', ')', ';'],
  ['\t', 'k', 'e', 'y', 's', '_', 'r', 'e', 'g', '[', '0', ']', ' ', '=', ' ', '"', 'm', 'a', 's', 's', '"', ';', ' ', 'k', 'e', 'y', 's', '_', 'r', 'e', 'g', '[', '1', ']', ' ', '=', ' ', '"', 'm', '_', 'C', 'o', 'M', '_', '"', ';', ' ', 'k', 'e', 'y', 's', '_', 'r', 'e', 'g', '[', '2', ']', ' ', '=', ' ', '"', 'I', '"', ';', ' ', 'k', 'e', 'y', 's', '_', 'r', 'e', 'g', '[', '3', ']', ' ', '=', ' ', '"', 'R', 'E', 'G', '"', ';', ' ', 'k', 'e', 'y', 's', '_', 'r', 'e', 'g', '[', '4', ']', ' ', '=', ' ', '"', 'r', 'e', 'g', 'r', 'e', 's', 's', 'o', 'r', '"', ';'],
  ['\t', 's', 't', 'd', ':', ':', 'v', 'e', 'c', 't', 'o', 'r', '<', 'L', 'i', 'n', 'k', 'P', 'r', 'o', 'p', '>', ' ', 'l', 'i', 'n', 'k', 's', '_', 'p', 'r', 'o', 'p', '_', 'R', 'E', 'G', ';'],
  ['\t', 'l', 'i', 'n', 'k', 's', '_', 'p', 'r', 'o', 'p', '_', 'R', 'E', 'G', '.', 'r', 'e', 's', 'i', 'z', 'e', '(', 'n', '_', 'j', 'o', 'i', 'n', 't', 's', ')', ';'],
  [],
  ['\t', 'f', 'o', 'r', '(', 'i', 'n', 't', ' ', 'i', '=', '0', ';', ' ', 'i', '<', 'n', '_', 'j', 'o', 'i', 'n', 't', 's', ';', ' ', 'i', '+', '+', ')', '{'],
  ['\t', '\t', 'l', 'i', 'n', 'k', 's', '_', 'p', 'r', 'o', 'p', '_', 'R', 'E', 'G', '[', 'i', ']', '.', 'D', 'l', '.', 'r', 'e', 's', 'i', 'z', 'e', '(', 'D', 'l', '_', 'o', 'r', 'd', 'e', 'r', ')', ';'],
  ['\t', '\t', 'l', 'i', 'n', 'k', 's', '_', 'p', 'r', 'o', 'p', '_', 'R', 'E', 'G', '[', 'i', ']', '.', 'n', 'a', 'm', 'e', ' ', '=', ' ', '"', 'l', 'i', 'n', 'k', '"', ' ', '+', ' ', 's', 't', 'd', ':', ':', 't', 'o', '_', 's', 't', 'r', 'i', 'n', 'g', '(', 'i', '+', '1', ')', ';'],
  ['\t', '\t', 'l', 'i', 'n', 'k', 's', '_', 'p', 'r', 'o', 'p', '_', 'R', 'E', 'G', '[', 'i', ']', '.', 'm', 'a', 's', 's', ' ', '=', ' ', 'p', 'a', 'r', '_', 'R', 'E', 'G', '[', 'S', 'T', 'D', '_', 'P', 'A', 'R', '_', 'L', 'I', 'N', 'K', '*', 'i', ' ', '+', ' ', '0', ']', ';'],
  ['\t', '\t', 'l', 'i', 'n', 'k', 's', '_', 'p', 'r', 'o', 'p', '_', 'R', 'E', 'G', '[', 'i', ']', '.', 'x', 'y', 'z', ' ', '=', ' ', '{', 'p', 'a', 'r', '_', 'R', 'E', 'G', '[', 'S', 'T', 'D', '_', 'P', 'A', 'R', '_', 'L', 'I', 'N', 'K', '*', 'i', ' ', '+', ' ', '1', ']', ',', ' ', 'p', 'a', 'r', '_', 'R', 'E', 'G', '[', 'S', 'T', 'D', '_', 'P', 'A', 'R', '_', 'L', 'I', 'N', 'K', '*', 'i', ' ', '+', ' ', '2', ']', ',', ' ', 'p', 'a', 'r', '_', 'R', 'E', 'G', '[', 'S', 'T', 'D', '_', 'P', 'A', 'R', '_', 'L', 'I', 'N', 'K', '*', 'i', ' ', '+', ' ', '3', ']', '}', ';'],
  ['\t', '\t', 'l', 'i', 'n', 'k', 's', '_', 'p', 'r', 'o', 'p', '_', 'R', 'E', 'G', '[', 'i', ']', '.', 'p', 'a', 'r', 'I', '[', '0', ']', ' ', '=', ' ', 'p', 'a', 'r', '_', 'R', 'E', 'G', '[', 'S', 'T', 'D', '_', 'P', 'A', 'R', '_', 'L', 'I', 'N', 'K', '*', 'i', ' ', '+', ' ', '4', ']', ';'],
  ['\t', '\t', 'l', 'i', 'n', 'k', 's', '_', 'p', 'r', 'o', 'p', '_', 'R', 'E', 'G', '[', 'i', ']', '.', 'p', 'a', 'r', 'I', '[', '1', ']', ' ', '=', ' ', 'p', 'a', 'r', '_', 'R', 'E', 'G', '[', 'S', 'T', 'D', '_', 'P', 'A', 'R', '_', 'L', 'I', 'N', 'K', '*', 'i', ' ', '+', ' ', '5', ']', ';'],
  ['\t', '\t', 'l', 'i', 'n', 'k', 's', '_', 'p', 'r', 'o', 'p', '_', 'R', 'E', 'G', '[', 'i', ']', '.', 'p', 'a', 'r', 'I', '[', '2', ']', ' ', '=', ' ', 'p', 'a', 'r', '_', 'R', 'E', 'G', '[', 'S', 'T', 'D', '_', 'P', 'A', 'R', '_', 'L', 'I', 'N', 'K', '*', 'i', ' ', '+', ' ', '6', ']', ';'],
  ['\t', '\t', 'l', 'i', 'n', 'k', 's', '_', 'p', 'r', 'o', 'p', '_', 'R', 'E', 'G', '[', 'i', ']', '.', 'p', 'a', 'r', 'I', '[', '3', ']', ' ', '=', ' ', 'p', 'a', 'r', '_', 'R', 'E', 'G', '[', 'S', 'T', 'D', '_', 'P', 'A', 'R', '_', 'L', 'I', 'N', 'K', '*', 'i', ' ', '+', ' ', '7', ']', ';'],
  ['\t', '\t', 'l', 'i', 'n', 'k', 's', '_', 'p', 'r', 'o', 'p', '_', 'R', 'E', 'G', '[', 'i', ']', '.', 'p', 'a', 'r', 'I', '[', '4', ']', ' ', '=', ' ', 'p', 'a', 'r', '_', 'R', 'E', 'G', '[', 'S', 'T', 'D', '_', 'P', 'A', 'R', '_', 'L', 'I', 'N', 'K', '*', 'i', ' ', '+', ' ', '8', ']', ';'],
  ['\t', '\t', 'l', 'i', 'n', 'k', 's', '_', 'p', 'r', 'o', 'p', '_', 'R', 'E', 'G', '[', 'i', ']', '.', 'p', 'a', 'r', 'I', '[', '5', ']', ' ', '=', ' ', 'p', 'a', 'r', '_', 'R', 'E', 'G', '[', 'S', 'T', 'D', '_', 'P', 'A', 'R', '_', 'L', 'I', 'N', 'K', '*', 'i', ' ', '+', ' ', '9', ']', ';'],
  ['\t', '\t', 'f', 'o', 'r', ' ', '(', 'i', 'n', 't', ' ', 'j', '=', '0', ';', ' ', 'j', '<', 'D', 'l', '_', 'o', 'r', 'd', 'e', 'r', ';', ' ', 'j', '+', '+', ')', '{'],
  ['\t', '\t', '\t', 'l', 'i', 'n', 'k', 's', '_', 'p', 'r', 'o', 'p', '_', 'R', 'E', 'G', '[', 'i', ']', '.', 'D', 'l', '[', 'j', ']', ' ', '=', ' ', 'p', 'a', 'r', '_', 'D', 'l', '[', 'D', 'l', '_', 'o', 'r', 'd', 'e', 'r', '*', 'i', ' ', '+', ' ', 'j', ']', ';'],
  ['\t', '\t', '}'],
  ['\t', '}'],
  ['\t', '/', '/', ' ', 'c', 'r', 'e', 'a', 't', 'e', ' ', 'f', 'i', 'l', 'e'],
  ['\t', 't', 'r', 'y', ' ', '{'],
  ['\t', '\t', 'Y', 'A', 'M', 'L', ':', ':', 'E', 'm', 'i', 't', 't', 'e', 'r', ' ', 'e', 'm', 'i', 't', 't', 'e', 'r', ';'],
  ['\t', '\t', 'f', 'i', 'l', 'l', 'I', 'n', 'e', 'r', 't', 'i', 'a', 'l', 'Y', 'a', 'm', 'l', '(', 'n', '_', 'j', 'o', 'i', 'n', 't', 's', ',', ' ', 'e', 'm', 'i', 't', 't', 'e', 'r', ',', ' ', 'l', 'i', 'n', 'k', 's', '_', 'p', 'r', 'o', 'p', '_', 'R', 'E', 'G', ',', ' ', 'k', 'e', 'y', 's', '_', 'r', 'e', 'g', ')', ';'],
  ['\t', '\t', 's', 't', 'd', ':', ':', 'o', 'f', 's', 't', 'r', 'e', 'a', 'm', ' ', 'f', 'o', 'u', 't', '(', 'p', 'a', 't', 'h', '_', 'y', 'a', 'm', 'l', '_', 'D', 'H', '_', 'R', 'E', 'G', ')', ';'],
  ['\t', '\t', 'f', 'o', 'u', 't', ' ', '<', '<', ' ', 'e', 'm', 'i', 't', 't', 'e', 'r', '.', 'c', '_', 's', 't', 'r', '(', ')', ';'],
  ['\t', '\t', 'f', 'o', 'u', 't', '.', 'c', 'l', 'o', 's', 'e', '(', ')', ';'],
  [],
  ['\t', '\t', 's', 't', 'd', ':', ':', 'c', 'o', 'u', 't', ' ', '<', '<', ' ', '"', 'p', 'a', 'r', '_', 'R', 'E', 'G', ' ', 's', 'a', 'v', 'e', 'd', ' ', 'o', 'n', ' ', 'p', 'a', 't', 'h', ':', ' ', '"', ' ', '<', '<', ' ', 'p', 'a', 't', 'h', '_', 'y', 'a', 'm', 'l', '_', 'D', 'H', '_', 'R', 'E', 'G', ' ', '<', '<', ' ', 's', 't', 'd', ':', ':', 'e', 'n', 'd', 'l', ';'],
  [],
  ['\t', '}', ' ', 'c', 'a', 't', 'c', 'h', ' ', '(', 'c', 'o', 'n', 's', 't', ' ', 'Y', 'A', 'M', 'L', ':', ':', 'E', 'x', 'c', 'e', 'p', 't', 'i', 'o', 'n', '&', ' ', 'e', ')', ' ', '{'],
  ['\t', '\t', 's', 't', 'd', ':', ':', 'c', 'e', 'r', 'r', ' ', '<', '<', ' ', '"', 'E', 'r', 'r', 'o', 'r', ' ', 'w', 'h', 'i', 'l', 'e', ' ', 'g', 'e', 'n', 'e', 'r', 'a', 't', 'i', 'n', 'g', ' ', 'Y', 'A', 'M', 'L', ':', ' ', '"', ' ', '<', '<', ' ', 'e', '.', 'w', 'h', 'a', 't', '(', ')', ' ', '<', '<', ' ', 's', 't', 'd', ':', ':', 'e', 'n', 'd', 'l', ';'],
  ['\t', '}'],
  ['}'],
  [],
  ['v', 'o', 'i', 'd', ' ', 't', 'h', 'u', 'n', 'd', 'e', 'r', '_', 'r', 'o', 'b', 'o', 't', ':', ':', 's', 'a', 'v', 'e', '_', 'p', 'a', 'r', '_', 'D', 'Y', 'N', '(', 's', 't', 'd', ':', ':', 's', 't', 'r', 'i', 'n', 'g', ' ', 'p', 'a', 't', 'h', '_', 'y', 'a', 'm', 'l', '_', 'D', 'H', '_', 'D', 'Y', 'N', ')', '{'],
  ['\t', 's', 't', 'd', ':', ':', 'v', 'e', 'c', 't', 'o', 'r', '<', 's', 't', 'd', ':', ':', 's', 't', 'r', 'i', 'n', 'g', '>', ' ', 'k', 'e', 'y', 's', '_', 'r', 'e', 'g', ';'],
  ['\t', 'k', 'e', 'y', 's', '_', 'r', 'e', 'g', '.', 'r', 'e', 's', 'i', 'z', 'e', '(', '5', ')', ';'],
  ['\t', 'k', 'e', 'y', 's', '_', 'r', 'e', 'g', '[', '0', ']', ' ', '=', ' ', '"', 'm', 'a', 's', 's', '"', ';', ' ', 'k', 'e', 'y', 's', '_', 'r', 'e', 'g', '[', '1', ']', ' ', '=', ' ', '"', 'C', 'o', 'M', '_', '"', ';', ' ', 'k', 'e', 'y', 's', '_', 'r', 'e', 'g', '[', '2', ']', ' ', '=', ' ', '"', 'I', '"', ';', ' ', 'k', 'e', 'y', 's', '_', 'r', 'e', 'g', '[', '3', ']', ' ', '=', ' ', '"', 'D', 'Y', 'N', '"', ';', ' ', 'k', 'e', 'y', 's', '_', 'r', 'e', 'g', '[', '4', ']', ' ', '=', ' ', '"', 'd', 'y', 'n', 'a', 'm', 'i', 'c', 's', '"', ';'],
  ['\t', 's', 't', 'd', ':', ':', 'v', 'e', 'c', 't', 'o', 'r', '<', 'L', 'i', 'n', 'k', 'P', 'r', 'o', 'p', '>', ' ', 'l', 'i', 'n', 'k', 's', '_', 'p', 'r', 'o', 'p', '_', 'D', 'Y', 'N', ';'],
  ['\t', 'l', 'i', 'n', 'k', 's', '_', 'p', 'r', 'o', 'p', '_', 'D', 'Y', 'N', '.', 'r', 'e', 's', 'i', 'z', 'e', '(', 'n', '_', 'j', 'o', 'i', 'n', 't', 's', ')', ';'],
  [],
  ['\t', 'f', 'o', 'r', '(', 'i', 'n', 't', ' ', 'i', '=', '0', ';', ' ', 'i', '<', 'n', '_', 'j', 'o', 'i', 'n', 't', 's', ';', ' ', 'i', '+', '+', ')', '{'],
  ['\t', '\t', 'l', 'i', 'n', 'k', 's', '_', 'p', 'r', 'o', 'p', '_', 'D', 'Y', 'N', '[', 'i', ']', '.', 'D', 'l', '.', 'r', 'e', 's', 'i', 'z', 'e', '(', 'D', 'l', '_', 'o', 'r', 'd', 'e', 'r', ')', ';'],
  ['\t', '\t', 'l', 'i', 'n', 'k', 's', '_', 'p', 'r', 'o', 'p', '_', 'D', 'Y', 'N', '[', 'i', ']', '.', 'n', 'a', 'm', 'e', ' ', '=', ' ', '"', 'l', 'i', 'n', 'k', '"', ' ', '+', ' ', 's', 't', 'd', ':', ':', 't', 'o', '_', 's', 't', 'r', 'i', 'n', 'g', '(', 'i', '+', '1', ')', ';'],
  ['\t', '\t', 'l', 'i', 'n', 'k', 's', '_', 'p', 'r', 'o', 'p', '_', 'D', 'Y', 'N', '[', 'i', ']', '.', 'm', 'a', 's', 's', ' ', '=', ' ', 'p', 'a', 'r', '_', 'D', 'Y', 'N', '[', 'S', 'T', 'D', '_', 'P', 'A', 'R', '_', 'L', 'I', 'N', 'K', '*', 'i', ' ', '+', ' ', '0', ']', ';'],
  ['\t', '\t', 'l', 'i', 'n', 'k', 's', '_', 'p', 'r', 'o', 'p', '_', 'D', 'Y', 'N', '[', 'i', ']', '.', 'x', 'y', 'z', ' ', '=', ' ', '{', 'p', 'a', 'r', '_', 'D', 'Y', 'N', '[', 'S', 'T', 'D', '_', 'P', 'A', 'R', '_', 'L', 'I', 'N', 'K', '*', 'i', ' ', '+', ' ', '1', ']', ',', ' ', 'p', 'a', 'r', '_', 'D', 'Y', 'N', '[', 'S', 'T', 'D', '_', 'P', 'A', 'R', '_', 'L', 'I', 'N', 'K', '*', 'i', ' ', '+', ' ', '2', ']', ',', ' ', 'p', 'a', 'r', '_', 'D', 'Y', 'N', '[', 'S', 'T', 'D', '_', 'P', 'A', 'R', '_', 'L', 'I', 'N', 'K', '*', 'i', ' ', '+', ' ', '3', ']', '}', ';'],
  ['\t', '\t', 'l', 'i', 'n', 'k', 's', '_', 'p', 'r', 'o', 'p', '_', 'D', 'Y', 'N', '[', 'i', ']', '.', 'p', 'a', 'r', 'I', '[', '0', ']', ' ', '=', ' ', 'p', 'a', 'r', '_', 'D', 'Y', 'N', '[', 'S', 'T', 'D', '_', 'P', 'A', 'R', '_', 'L', 'I', 'N', 'K', '*', 'i', ' ', '+', ' ', '4', ']', ';'],
  ['\t', '\t', 'l', 'i', 'n', 'k', 's', '_', 'p', 'r', 'o', 'p', '_', 'D', 'Y', 'N', '[', 'i', ']', '.', 'p', 'a', 'r', 'I', '[', '1', ']', ' ', '=', ' ', 'p', 'a', 'r', '_', 'D', 'Y', 'N', '[', 'S', 'T', 'D', '_', 'P', 'A', 'R', '_', 'L', 'I', 'N', 'K', '*', 'i', ' ', '+', ' ', '5', ']', ';'],
  ['\t', '\t', 'l', 'i', 'n', 'k', 's', '_', 'p', 'r', 'o', 'p', '_', 'D', 'Y', 'N', '[', 'i', ']', '.', 'p', 'a', 'r', 'I', '[', '2', ']', ' ', '=', ' ', 'p', 'a', 'r', '_', 'D', 'Y', 'N', '[', 'S', 'T', 'D', '_', 'P', 'A', 'R', '_', 'L', 'I', 'N', 'K', '*', 'i', ' ', '+', ' ', '6', ']', ';'],
  ['\t', '\t', 'l', 'i', 'n', 'k', 's', '_', 'p', 'r', 'o', 'p', '_', 'D', 'Y', 'N', '[', 'i', ']', '.', 'p', 'a', 'r', 'I', '[', '3', ']', ' ', '=', ' ', 'p', 'a', 'r', '_', 'D', 'Y', 'N', '[', 'S', 'T', 'D', '_', 'P', 'A', 'R', '_', 'L', 'I', 'N', 'K', '*', 'i', ' ', '+', ' ', '7', ']', ';'],
  ['\t', '\t', 'l', 'i', 'n', 'k', 's', '_', 'p', 'r', 'o', 'p', '_', 'D', 'Y', 'N', '[', 'i', ']', '.', 'p', 'a', 'r', 'I', '[', '4', ']', ' ', '=', ' ', 'p', 'a', 'r', '_', 'D', 'Y', 'N', '[', 'S', 'T', 'D', '_', 'P', 'A', 'R', '_', 'L', 'I', 'N', 'K', '*', 'i', ' ', '+', ' ', '8', ']', ';'],
  ['\t', '\t', 'l', 'i', 'n', 'k', 's', '_', 'p', 'r', 'o', 'p', '_', 'D', 'Y', 'N', '[', 'i', ']', '.', 'p', 'a', 'r', 'I', '[', '5', ']', ' ', '=', ' ', 'p', 'a', 'r', '_', 'D', 'Y', 'N', '[', 'S', 'T', 'D', '_', 'P', 'A', 'R', '_', 'L', 'I', 'N', 'K', '*', 'i', ' ', '+', ' ', '9', ']', ';'],
  ['\t', '\t', 'f', 'o', 'r', ' ', '(', 'i', 'n', 't', ' ', 'j', '=', '0', ';', ' ', 'j', '<', 'D', 'l', '_', 'o', 'r', 'd', 'e', 'r', ';', ' ', 'j', '+', '+', ')', '{'],
  ['\t', '\t', '\t', 'l', 'i', 'n', 'k', 's', '_', 'p', 'r', 'o', 'p', '_', 'D', 'Y', 'N', '[', 'i', ']', '.', 'D', 'l', '[', 'j', ']', ' ', '=', ' ', 'p', 'a', 'r', '_', 'D', 'l', '[', 'D', 'l', '_', 'o', 'r', 'd', 'e', 'r', '*', 'i', ' ', '+', ' ', 'j', ']', ';'],
  ['\t', '\t', '}'],
  ['\t', '}'],
  ['\t', '/', '/', ' ', 'c', 'r', 'e', 'a', 't', 'e', ' ', 'f', 'i', 'l', 'e'],
  ['\t', 't', 'r', 'y', ' ', '{'],
  ['\t', '\t', 'Y', 'A', 'M', 'L', ':', ':', 'E', 'm', 'i', 't', 't', 'e', 'r', ' ', 'e', 'm', 'i', 't', 't', 'e', 'r', ';'],
  ['\t', '\t', 'f', 'i', 'l', 'l', 'I', 'n', 'e', 'r', 't', 'i', 'a', 'l', 'Y', 'a', 'm', 'l', '(', 'n', '_', 'j', 'o', 'i', 'n', 't', 's', ',', ' ', 'e', 'm', 'i', 't', 't', 'e', 'r', ',', ' ', 'l', 'i', 'n', 'k', 's', '_', 'p', 'r', 'o', 'p', '_', 'D', 'Y', 'N', ',', ' ', 'k', 'e', 'y', 's', '_', 'r', 'e', 'g', ')', ';'],
  ['\t', '\t', 's', 't', 'd', ':', ':', 'o', 'f', 's', 't', 'r', 'e', 'a', 'm', ' ', 'f', 'o', 'u', 't', '(', 'p', 'a', 't', 'h', '_', 'y', 'a', 'm', 'l', '_', 'D', 'H', '_', 'D', 'Y', 'N', ')', ';'],
  ['\t', '\t', 'f', 'o', 'u', 't', ' ', '<', '<', ' ', 'e', 'm', 'i', 't', 't', 'e', 'r', '.', 'c', '_', 's', 't', 'r', '(', ')', ';'],
  ['\t', '\t', 'f', 'o', 'u', 't', '.', 'c', 'l', 'o', 's', 'e', '(', ')', ';'],
  [],
  ['\t', '\t', 's', 't', 'd', ':', ':', 'c', 'o', 'u', 't', ' ', '<', '<', ' ', '"', 'p', 'a', 'r', '_', 'D', 'Y', 'N', ' ', 's', 'a', 'v', 'e', 'd', ' ', 'o', 'n', ' ', 'p', 'a', 't', 'h', ':', ' ', '"', ' ', '<', '<', ' ', 'p', 'a', 't', 'h', '_', 'y', 'a', 'm', 'l', '_', 'D', 'H', '_', 'D', 'Y', 'N', ' ', '<', '<', ' ', 's', 't', 'd', ':', ':', 'e', 'n', 'd', 'l', ';'],
  [],
  ['\t', '}', ' ', 'c', 'a', 't', 'c', 'h', ' ', '(', 'c', 'o', 'n', 's', 't', ' ', 'Y', 'A', 'M', 'L', ':', ':', 'E', 'x', 'c', 'e', 'p', 't', 'i', 'o', 'n', '&', ' ', 'e', ')', ' ', '{'],
  ['\t', '\t', 's', 't', 'd', ':', ':', 'c', 'e', 'r', 'r', ' ', '<', '<', ' ', '"', 'E', 'r', 'r', 'o', 'r', ' ', 'w', 'h', 'i', 'l', 'e', ' ', 'g', 'e', 'n', 'e', 'r', 'a', 't', 'i', 'n', 'g', ' ', 'Y', 'A', 'M', 'L', ':', ' ', '"', ' ', '<', '<', ' ', 'e', '.', 'w', 'h', 'a', 't', '(', ')', ' ', '<', '<', ' ', 's', 't', 'd', ':', ':', 'e', 'n', 'd', 'l', ';'],
  ['\t', '}'],
  ['}'],
  [],
  ['i', 'n', 't', ' ', 't', 'h', 'u', 'n', 'd', 'e', 'r', '_', 'r', 'o', 'b', 'o', 't', ':', ':', 's', 'a', 'v', 'e', '_', 'p', 'a', 'r', '(', 's', 't', 'd', ':', ':', 's', 't', 'r', 'i', 'n', 'g', ' ', 'p', 'a', 'r', '_', 'f', 'i', 'l', 'e', ')', '{'],
  ['\t', 't', 'r', 'y', ' ', '{'],
  ['\t', '\t', 'Y', 'A', 'M', 'L', ':', ':', 'E', 'm', 'i', 't', 't', 'e', 'r', ' ', 'e', 'm', 'i', 't', 't', 'e', 'r', ';'],
  ['\t', '\t', 'e', 'm', 'i', 't', 't', 'e', 'r', '.', 'S', 'e', 't', 'I', 'n', 'd', 'e', 'n', 't', '(', '2', ')', ';'],
  ['\t', '\t', 'e', 'm', 'i', 't', 't', 'e', 'r', '.', 'S', 'e', 't', 'S', 'e', 'q', 'F', 'o', 'r', 'm', 'a', 't', '(', 'Y', 'A', 'M', 'L', ':', ':', 'F', 'l', 'o', 'w', ')', ';'],
  [],
  ['\t', '\t', 'Y', 'A', 'M', 'L', ':', ':', 'N', 'o', 'd', 'e', ' ', 'y', 'a', 'm', 'l', 'F', 'i', 'l', 'e', ';'],
  [],
  ['\t', '\t', '/', '/', ' ', '-', ' ', 's', 'a', 'v', 'e', ' ', 'D', 'H', 't', 'a', 'b', 'l', 'e', ' ', '-', ' ', '/', '/'],
  ['\t', '\t', 's', 't', 'd', ':', ':', 'v', 'e', 'c', 't', 'o', 'r', '<', 'd', 'o', 'u', 'b', 'l', 'e', '>', ' ', 'D', 'H', 't', 'a', 'b', 'l', 'e', '_', 'v', 'e', 'c', 't', '(', 'p', 'a', 'r', '_', 'D', 'H', 't', 'a', 'b', 'l', 'e', '.', 'd', 'a', 't', 'a', '(', ')', ',', ' ', 'p', 'a', 'r', '_', 'D', 'H', 't', 'a', 'b', 'l', 'e', '.', 'd', 'a', 't', 'a', '(', ')', ' ', '+', ' ', 'p', 'a', 'r', '_', 'D', 'H', 't', 'a', 'b', 'l', 'e', '.', 'r', 'o', 'w', 's', '(', ')', ' ', '*', ' ', 'p', 'a', 'r', '_', 'D', 'H', 't', 'a', 'b', 'l', 'e', '.', 'c', 'o', 'l', 's', '(', ')', ')', ';'],
  ['\t', '\t', 'y', 'a', 'm', 'l', 'F', 'i', 'l', 'e', '[', '"', 'D', 'H', 't', 'a', 'b', 'l', 'e', '"', ']', ' ', '=', ' ', 'D', 'H', 't', 'a', 'b', 'l', 'e', '_', 'v', 'e', 'c', 't', ';'],
  [],
  ['\t', '\t', '/', '/', ' ', '-', ' ', 's', 'a', 'v', 'e', ' ', 'w', 'o', 'r', 'l', 'd', '2', 'L', '0', ' ', '-', ' ', '/', '/'],
  ['\t', '\t', 's', 't', 'd', ':', ':', 'v', 'e', 'c', 't', 'o', 'r', '<', 'd', 'o', 'u', 'b', 'l', 'e', '>', ' ', 'w', 'o', 'r', 'l', 'd', '2', 'L', '0', '_', 'v', 'e', 'c', 't', '(', 'p', 'a', 'r', '_', 'w', 'o', 'r', 'l', 'd', '2', 'L', '0', '.', 'd', 'a', 't', 'a', '(', ')', ',', ' ', 'p', 'a', 'r', '_', 'w', 'o', 'r', 'l', 'd', '2', 'L', '0', '.', 'd', 'a', 't', 'a', '(', ')', ' ', '+', ' ', 'p', 'a', 'r', '_', 'w', 'o', 'r', 'l', 'd', '2', 'L', '0', '.', 'r', 'o', 'w', 's', '(', ')', ' ', '*', ' ', 'p', 'a', 'r', '_', 'w', 'o', 'r', 'l', 'd', '2', 'L', '0', '.', 'c', 'o', 'l', 's', '(', ')', ')', ';'],
  ['\t', '\t', 'y', 'a', 'm', 'l', 'F', 'i', 'l', 'e', '[', '"', 'w', 'o', 'r', 'l', 'd', '2', 'L', '0', '"', ']', ' ', '=', ' ', 'w', 'o', 'r', 'l', 'd', '2', 'L', '0', '_', 'v', 'e', 'c', 't', ';'],
  [],
  ['\t', '\t', '/', '/', ' ', '-', ' ', 's', 'a', 'v', 'e', ' ', 'L', 'n', '2', 'E', 'E', ' ', '-', ' ', '/', '/'],
  ['\t', '\t', 's', 't', 'd', ':', ':', 'v', 'e', 'c', 't', 'o', 'r', '<', 'd', 'o', 'u', 'b', 'l', 'e', '>', ' ', 'L', 'n', '2', 'E', 'E', '_', 'v', 'e', 'c', 't', '(', 'p', 'a', 'r', '_', 'L', 'n', '2', 'E', 'E', '.', 'd', 'a', 't', 'a', '(', ')', ',', ' ', 'p', 'a', 'r', '_', 'L', 'n', '2', 'E', 'E', '.', 'd', 'a', 't', 'a', '(', ')', ' ', '+', ' ', 'p', 'a', 'r', '_', 'L', 'n', '2', 'E', 'E', '.', 'r', 'o', 'w', 's', '(', ')', ' ', '*', ' ', 'p', 'a', 'r', '_', 'L', 'n', '2', 'E', 'E', '.', 'c', 'o', 'l', 's', '(', ')', ')', ';'],
  ['\t', '\t', 'y', 'a', 'm', 'l', 'F', 'i', 'l', 'e', '[', '"', 'L', 'n', '2', 'E', 'E', '"', ']', ' ', '=', ' ', 'L', 'n', '2', 'E', 'E', '_', 'v', 'e', 'c', 't', ';'],
  [],
  ['\t', '\t', '/', '/', ' ', '-', ' ', 's', 'a', 'v', 'e', ' ', 'g', 'r', 'a', 'v', 'i', 't', 'y', ' ', '-', ' ', '/', '/'],
  ['\t', '\t', 's', 't', 'd', ':', ':', 'v', 'e', 'c', 't', 'o', 'r', '<', 'd', 'o', 'u', 'b', 'l', 'e', '>', ' ', 'g', 'r', 'a', 'v', 'i', 't', 'y', '_', 'v', 'e', 'c', 't', '(', 'p', 'a', 'r', '_', 'g', 'r', 'a', 'v', 'i', 't', 'y', '.', 'd', 'a', 't', 'a', '(', ')', ',', ' ', 'p', 'a', 'r', '_', 'g', 'r', 'a', 'v', 'i', 't', 'y', '.', 'd', 'a', 't', 'a', '(', ')', ' ', '+', ' ', 'p', 'a', 'r', '_', 'g', 'r', 'a', 'v', 'i', 't', 'y', '.', 'r', 'o', 'w', 's', '(', ')', ' ', '*', ' ', 'p', 'a', 'r', '_', 'g', 'r', 'a', 'v', 'i', 't', 'y', '.', 'c', 'o', 'l', 's', '(', ')', ')', ';'],
  ['\t', '\t', 'y', 'a', 'm', 'l', 'F', 'i', 'l', 'e', '[', '"', 'g', 'r', 'a', 'v', 'i', 't', 'y', '"', ']', ' ', '=', ' ', 'g', 'r', 'a', 'v', 'i', 't', 'y', '_', 'v', 'e', 'c', 't', ';'],
  [],
  ['\t', '\t', '/', '/', ' ', '-', ' ', 's', 'a', 'v', 'e', ' ', 'p', 'a', 'r', '_', 'D', 'Y', 'N', ' ', '-', ' ', '/', '/'],
  ['\t', '\t', 's', 't', 'd', ':', ':', 'v', 'e', 'c', 't', 'o', 'r', '<', 'd', 'o', 'u', 'b', 'l', 'e', '>', ' ', 'p', 'a', 'r', '_', 'D', 'Y', 'N', '_', 'v', 'e', 'c', 't', '(', 'p', 'a', 'r', '_', 'D', 'Y', 'N', '.', 'd', 'a', 't', 'a', '(', ')', ',', ' ', 'p', 'a', 'r', '_', 'D', 'Y', 'N', '.', 'd', 'a', 't', 'a', '(', ')', ' ', '+', ' ', 'p', 'a', 'r', '_', 'D', 'Y', 'N', '.', 'r', 'o', 'w', 's', '(', ')', ' ', '*', ' ', 'p', 'a', 'r', '_', 'D', 'Y', 'N', '.', 'c', 'o', 'l', 's', '(', ')', ')', ';'],
  ['\t', '\t', 'y', 'a', 'm', 'l', 'F', 'i', 'l', 'e', '[', '"', 'p', 'a', 'r', '_', 'D', 'Y', 'N', '"', ']', ' ', '=', ' ', 'p', 'a', 'r', '_', 'D', 'Y', 'N', '_', 'v', 'e', 'c', 't', ';'],
  [],
  ['\t', '\t', '/', '/', ' ', '-', ' ', 's', 'a', 'v', 'e', ' ', 'p', 'a', 'r', '_', 'R', 'E', 'G', ' ', '-', ' ', '/', '/'],
  ['\t', '\t', 's', 't', 'd', ':', ':', 'v', 'e', 'c', 't', 'o', 'r', '<', 'd', 'o', 'u', 'b', 'l', 'e', '>', ' ', 'p', 'a', 'r', '_', 'R', 'E', 'G', '_', 'v', 'e', 'c', 't', '(', 'p', 'a', 'r', '_', 'R', 'E', 'G', '.', 'd', 'a', 't', 'a', '(', ')', ',', ' ', 'p', 'a', 'r', '_', 'R', 'E', 'G', '.', 'd', 'a', 't', 'a', '(', ')', ' ', '+', ' ', 'p', 'a', 'r', '_', 'R', 'E', 'G', '.', 'r', 'o', 'w', 's', '(', ')', ' ', '*', ' ', 'p', 'a', 'r', '_', 'R', 'E', 'G', '.', 'c', 'o', 'l', 's', '(', ')', ')', ';'],
  ['\t', '\t', 'y', 'a', 'm', 'l', 'F', 'i', 'l', 'e', '[', '"', 'p', 'a', 'r', '_', 'R', 'E', 'G', '"', ']', ' ', '=', ' ', 'p', 'a', 'r', '_', 'R', 'E', 'G', '_', 'v', 'e', 'c', 't', ';'],
  [],
  ['\t', '\t', '/', '/', ' ', '-', ' ', 's', 'a', 'v', 'e', ' ', 'p', 'a', 'r', '_', 'K', ' ', '-', ' ', '/', '/'],
  ['\t', '\t', 's', 't', 'd', ':', ':', 'v', 'e', 'c', 't', 'o', 'r', '<', 'd', 'o', 'u', 'b', 'l', 'e', '>', ' ', 'p', 'a', 'r', '_', 'K', '_', 'v', 'e', 'c', 't', '(', 'p', 'a', 'r', '_', 'K', '.', 'd', 'a', 't', 'a', '(', ')', ',', ' ', 'p', 'a', 'r', '_', 'K', '.', 'd', 'a', 't', 'a', '(', ')', ' ', '+', ' ', 'p', 'a', 'r', '_', 'K', '.', 'r', 'o', 'w', 's', '(', ')', ' ', '*', ' ', 'p', 'a', 'r', '_', 'K', '.', 'c', 'o', 'l', 's', '(', ')', ')', ';'],
  ['\t', '\t', 'y', 'a', 'm', 'l', 'F', 'i', 'l', 'e', '[', '"', 'p', 'a', 'r', '_', 'K', '"', ']', ' ', '=', ' ', 'p', 'a', 'r', '_', 'K', '_', 'v', 'e', 'c', 't', ';'],
  [],
  ['\t', '\t', '/', '/', ' ', '-', ' ', 's', 'a', 'v', 'e', ' ', 'p', 'a', 'r', '_', 'D', 'l', ' ', '-', ' ', '/', '/'],
  ['\t', '\t', 's', 't', 'd', ':', ':', 'v', 'e', 'c', 't', 'o', 'r', '<', 'd', 'o', 'u', 'b', 'l', 'e', '>', ' ', 'p', 'a', 'r', '_', 'D', 'l', '_', 'v', 'e', 'c', 't', '(', 'p', 'a', 'r', '_', 'D', 'l', '.', 'd', 'a', 't', 'a', '(', ')', ',', ' ', 'p', 'a', 'r', '_', 'D', 'l', '.', 'd', 'a', 't', 'a', '(', ')', ' ', '+', ' ', 'p', 'a', 'r', '_', 'D', 'l', '.', 'r', 'o', 'w', 's', '(', ')', ' ', '*', ' ', 'p', 'a', 'r', '_', 'D', 'l', '.', 'c', 'o', 'l', 's', '(', ')', ')', ';'],
  ['\t', '\t', 'y', 'a', 'm', 'l', 'F', 'i', 'l', 'e', '[', '"', 'p', 'a', 'r', '_', 'D', 'l', '"', ']', ' ', '=', ' ', 'p', 'a', 'r', '_', 'D', 'l', '_', 'v', 'e', 'c', 't', ';'],
  [],
  ['\t', '\t', '/', '/', ' ', '-', ' ', 's', 'a', 'v', 'e', ' ', 'p', 'a', 'r', '_', 'D', ' ', '-', ' ', '/', '/'],
  ['\t', '\t', 's', 't', 'd', ':', ':', 'v', 'e', 'c', 't', 'o', 'r', '<', 'd', 'o', 'u', 'b', 'l', 'e', '>', ' ', 'p', 'a', 'r', '_', 'D', '_', 'v', 'e', 'c', 't', '(', 'p', 'a', 'r', '_', 'D', '.', 'd', 'a', 't', 'a', '(', ')', ',', ' ', 'p', 'a', 'r', '_', 'D', '.', 'd', 'a', 't', 'a', '(', ')', ' ', '+', ' ', 'p', 'a', 'r', '_', 'D', '.', 'r', 'o', 'w', 's', '(', ')', ' ', '*', ' ', 'p', 'a', 'r', '_', 'D', '.', 'c', 'o', 'l', 's', '(', ')', ')', ';'],
  ['\t', '\t', 'y', 'a', 'm', 'l', 'F', 'i', 'l', 'e', '[', '"', 'p', 'a', 'r', '_', 'D', '"', ']', ' ', '=', ' ', 'p', 'a', 'r', '_', 'D', '_', 'v', 'e', 'c', 't', ';'],
  [],
  ['\t', '\t', '/', '/', ' ', '-', ' ', 's', 'a', 'v', 'e', ' ', 'p', 'a', 'r', '_', 'D', 'm', ' ', '-', ' ', '/', '/'],
  ['\t', '\t', 's', 't', 'd', ':', ':', 'v', 'e', 'c', 't', 'o', 'r', '<', 'd', 'o', 'u', 'b', 'l', 'e', '>', ' ', 'p', 'a', 'r', '_', 'D', 'm', '_', 'v', 'e', 'c', 't', '(', 'p', 'a', 'r', '_', 'D', 'm', '.', 'd', 'a', 't', 'a', '(', ')', ',', ' ', 'p', 'a', 'r', '_', 'D', 'm', '.', 'd', 'a', 't', 'a', '(', ')', ' ', '+', ' ', 'p', 'a', 'r', '_', 'D', 'm', '.', 'r', 'o', 'w', 's', '(', ')', ' ', '*', ' ', 'p', 'a', 'r', '_', 'D', 'm', '.', 'c', 'o', 'l', 's', '(', ')', ')', ';'],
  ['\t', '\t', 'y', 'a', 'm', 'l', 'F', 'i', 'l', 'e', '[', '"', 'p', 'a', 'r', '_', 'D', 'm', '"', ']', ' ', '=', ' ', 'p', 'a', 'r', '_', 'D', 'm', '_', 'v', 'e', 'c', 't', ';'],
  [],
  ['\t', '\t', '/', '/', ' ', '-', ' ', 's', 'a', 'v', 'e', ' ', 'p', 'a', 'r', '_', 'M', 'm', ' ', '-', ' ', '/', '/'],
  ['\t', '\t', 's', 't', 'd', ':', ':', 'v', 'e', 'c', 't', 'o', 'r', '<', 'd', 'o', 'u', 'b', 'l', 'e', '>', ' ', 'p', 'a', 'r', '_', 'M', 'm', '_', 'v', 'e', 'c', 't', '(', 'p', 'a', 'r', '_', 'M', 'm', '.', 'd', 'a', 't', 'a', '(', ')', ',', ' ', 'p', 'a', 'r', '_', 'M', 'm', '.', 'd', 'a', 't', 'a', '(', ')', ' ', '+', ' ', 'p', 'a', 'r', '_', 'M', 'm', '.', 'r', 'o', 'w', 's', '(', ')', ' ', '*', ' ', 'p', 'a', 'r', '_', 'M', 'm', '.', 'c', 'o', 'l', 's', '(', ')', ')', ';'],
  ['\t', '\t', 'y', 'a', 'm', 'l', 'F', 'i', 'l', 'e', '[', '"', 'p', 'a', 'r', '_', 'M', 'm', '"', ']', ' ', '=', ' ', 'p', 'a', 'r', '_', 'M', 'm', '_', 'v', 'e', 'c', 't', ';'],
  [],
  ['\t', '\t', 'e', 'm', 'i', 't', 't', 'e', 'r', ' ', '<', '<', ' ', 'y', 'a', 'm', 'l', 'F', 'i', 'l', 'e', ' ', '<', '<', ' ', 'Y', 'A', 'M', 'L', ':', ':', 'N', 'e', 'w', 'l', 'i', 'n', 'e', ';'],
  [],
  ['\t', '\t', 's', 't', 'd', ':', ':', 'o', 'f', 's', 't', 'r', 'e', 'a', 'm', ' ', 'f', 'o', 'u', 't', '(', 'p', 'a', 'r', '_', 'f', 'i', 'l', 'e', ')', ';'],
  ['\t', '\t', 'f', 'o', 'u', 't', ' ', '<', '<', ' ', 'e', 'm', 'i', 't', 't', 'e', 'r', '.', 'c', '_', 's', 't', 'r', '(', ')', ';'],
  ['\t', '\t', 'f', 'o', 'u', 't', '.', 'c', 'l', 'o', 's', 'e', '(', ')', ';'],
  ['\t', '}', ' ', 'c', 'a', 't', 'c', 'h', ' ', '(', 'c', 'o', 'n', 's', 't', ' ', 'Y', 'A', 'M', 'L', ':', ':', 'E', 'x', 'c', 'e', 'p', 't', 'i', 'o', 'n', '&', ' ', 'e', ')', ' ', '{'],
  ['\t', '\t', 's', 't', 'd', ':', ':', 'c', 'e', 'r', 'r', ' ', '<', '<', ' ', '"', 'E', 'r', 'r', 'o', 'r', ' ', 'w', 'h', 'i', 'l', 'e', ' ', 'g', 'e', 'n', 'e', 'r', 'a', 't', 'i', 'n', 'g', ' ', 'Y', 'A', 'M', 'L', ':', ' ', '"', ' ', '<', '<', ' ', 'e', '.', 'w', 'h', 'a', 't', '(', ')', ' ', '<', '<', ' ', 's', 't', 'd', ':', ':', 'e', 'n', 'd', 'l', ';'],
  ['\t', '\t', 'r', 'e', 't', 'u', 'r', 'n', ' ', '0', ';'],
  ['\t', '}'],
  ['\t', 'r', 'e', 't', 'u', 'r', 'n', ' ', '1', ';'],
  ['}'],
  [],
  ['/', '/', ' ', 'O', 't', 'h', 'e', 'r', ' ', 'f', 'u', 'n', 'c', 't', 'i', 'o', 'n', 's'],
  ['v', 'o', 'i', 'd', ' ', 't', 'h', 'u', 'n', 'd', 'e', 'r', '_', 'r', 'o', 'b', 'o', 't', ':', ':', 'f', 'i', 'l', 'l', 'I', 'n', 'e', 'r', 't', 'i', 'a', 'l', 'Y', 'a', 'm', 'l', '(', 'i', 'n', 't', ' ', 'n', '_', 'j', 'o', 'i', 'n', 't', 's', ',', ' ', 'Y', 'A', 'M', 'L', ':', ':', 'E', 'm', 'i', 't', 't', 'e', 'r', ' ', '&', 'e', 'm', 'i', 't', 't', 'e', 'r', '_', ',', ' ', 's', 't', 'd', ':', ':', 'v', 'e', 'c', 't', 'o', 'r', '<', 'L', 'i', 'n', 'k', 'P', 'r', 'o', 'p', '>', ' ', '&', 'l', 'i', 'n', 'k', 's', '_', 'p', 'r', 'o', 'p', '_', ',', ' ', 's', 't', 'd', ':', ':', 'v', 'e', 'c', 't', 'o', 'r', '<', 's', 't', 'd', ':', ':', 's', 't', 'r', 'i', 'n', 'g', '>', ' ', 'k', 'e', 'y', 's', '_', ')', '{'],
  ['\t', 'Y', 'A', 'M', 'L', ':', ':', 'N', 'o', 'd', 'e', ' ', 'y', 'a', 'm', 'l', 'F', 'i', 'l', 'e', ';'],
  ['\t', 'Y', 'A', 'M', 'L', ':', ':', 'N', 'o', 'd', 'e', ' ', 'd', 'y', 'n', 'a', 'm', 'i', 'c', 's', 'N', 'o', 'd', 'e', ';'],
  [],
  ['\t', 'e', 'm', 'i', 't', 't', 'e', 'r', '_', '.', 'S', 'e', 't', 'I', 'n', 'd', 'e', 'n', 't', '(', '2', ')', ';'],
  ['\t', 'e', 'm', 'i', 't', 't', 'e', 'r', '_', '.', 'S', 'e', 't', 'S', 'e', 'q', 'F', 'o', 'r', 'm', 'a', 't', '(', 'Y', 'A', 'M', 'L', ':', ':', 'F', 'l', 'o', 'w', ')', ';'],
  ['\t', 'e', 'm', 'i', 't', 't', 'e', 'r', '_', ' ', '<', '<', ' ', 'Y', 'A', 'M', 'L', ':', ':', 'C', 'o', 'm', 'm', 'e', 'n', 't', '('],
  ['\t', '\t', '"', 'I', 'n', 'e', 'r', 't', 'i', 'a', 'l', ' ', 'p', 'a', 'r', 'a', 'm', 'e', 't', 'e', 'r', 's', ' ', 'r', 'e', 'f', 'e', 'r', 'r', 'e', 'd', ' ', 't', 'o', ' ', 'D', 'e', 'n', 'a', 'v', 'i', 't', '-', 'H', 'a', 'r', 't', 'e', 'n', 'b', 'e', 'r', 'g', ' ', 'p', 'a', 'r', 'a', 'm', 'e', 't', 'r', 'i', 'z', 'a', 't', 'i', 'o', 'n', ' ', 't', 'o', ' ', 'u', 's', 'e', ' ', '"', ' ', '+', ' ', 'k', 'e', 'y', 's', '_', '[', '4', ']', ' ', '+', ' ', '"', '\\', 'n', '"', ')', ';'],
  ['\t', 'e', 'm', 'i', 't', 't', 'e', 'r', '_', ' ', '<', '<', ' ', 'Y', 'A', 'M', 'L', ':', ':', 'N', 'e', 'w', 'l', 'i', 'n', 'e', ';'],
  [],
  ['\t', 'f', 'o', 'r', ' ', '(', 'i', 'n', 't', ' ', 'i', '=', '0', ';', ' ', ' ', 'i', '<', 'n', '_', 'j', 'o', 'i', 'n', 't', 's', ';', ' ', ' ', 'i', '+', '+', ')', ' ', '{'],
  [],
  ['\t', '\t', 'L', 'i', 'n', 'k', 'P', 'r', 'o', 'p', ' ', 'l', 'i', 'n', 'k', ' ', '=', ' ', 'l', 'i', 'n', 'k', 's', '_', 'p', 'r', 'o', 'p', '_', '[', 'i', ']', ';', ' ', ' ', ' ', ' '],
  ['\t', '\t', 'Y', 'A', 'M', 'L', ':', ':', 'N', 'o', 'd', 'e', ' ', 'l', 'i', 'n', 'k', 'N', 'o', 'd', 'e', ';'],
  ['\t', '\t', 's', 't', 'd', ':', ':', 's', 't', 'r', 'i', 'n', 'g', ' ', 'n', 'o', 'd', 'e', 'N', 'a', 'm', 'e', ';'],
  ['\t', '\t', 'Y', 'A', 'M', 'L', ':', ':', 'N', 'o', 'd', 'e', ' ', 'l', 'i', 'n', 'k', 'I', 'n', 'e', 'r', 't', 'i', 'a', ';'],
  ['\t', '\t', 'Y', 'A', 'M', 'L', ':', ':', 'N', 'o', 'd', 'e', ' ', 'l', 'i', 'n', 'k', 'F', 'r', 'i', 'c', ';'],
  [],
  ['\t', '\t', 'n', 'o', 'd', 'e', 'N', 'a', 'm', 'e', ' ', '=', ' ', 'l', 'i', 'n', 'k', '.', 'n', 'a', 'm', 'e', ';'],
  ['\t', '\t', 'l', 'i', 'n', 'k', 'I', 'n', 'e', 'r', 't', 'i', 'a', '[', 'k', 'e', 'y', 's', '_', '[', '0', ']', ']', ' ', '=', ' ', 'l', 'i', 'n', 'k', '.', 'm', 'a', 's', 's', ';'],
  ['\t', '\t', 'l', 'i', 'n', 'k', 'I', 'n', 'e', 'r', 't', 'i', 'a', '[', 'k', 'e', 'y', 's', '_', '[', '1', ']', '+', '"', 'x', '"', ']', ' ', '=', ' ', 'l', 'i', 'n', 'k', '.', 'x', 'y', 'z', '[', '0', ']', ';'],
  ['\t', '\t', 'l', 'i', 'n', 'k', 'I', 'n', 'e', 'r', 't', 'i', 'a', '[', 'k', 'e', 'y', 's', '_', '[', '1', ']', '+', '"', 'y', '"', ']', ' ', '=', ' ', 'l', 'i', 'n', 'k', '.', 'x', 'y', 'z', '[', '1', ']', ';'],
  ['\t', '\t', 'l', 'i', 'n', 'k', 'I', 'n', 'e', 'r', 't', 'i', 'a', '[', 'k', 'e', 'y', 's', '_', '[', '1', ']', '+', '"', 'z', '"', ']', ' ', '=', ' ', 'l', 'i', 'n', 'k', '.', 'x', 'y', 'z', '[', '2', ']', ';'],
  ['\t', '\t', 'l', 'i', 'n', 'k', 'I', 'n', 'e', 'r', 't', 'i', 'a', '[', 'k', 'e', 'y', 's', '_', '[', '2', ']', '+', '"', 'x', 'x', '"', ']', ' ', '=', ' ', 'l', 'i', 'n', 'k', '.', 'p', 'a', 'r', 'I', '[', '0', ']', ';'],
  ['\t', '\t', 'l', 'i', 'n', 'k', 'I', 'n', 'e', 'r', 't', 'i', 'a', '[', 'k', 'e', 'y', 's', '_', '[', '2', ']', '+', '"', 'x', 'y', '"', ']', ' ', '=', ' ', 'l', 'i', 'n', 'k', '.', 'p', 'a', 'r', 'I', '[', '1', ']', ';'],
  ['\t', '\t', 'l', 'i', 'n', 'k', 'I', 'n', 'e', 'r', 't', 'i', 'a', '[', 'k', 'e', 'y', 's', '_', '[', '2', ']', '+', '"', 'x', 'z', '"', ']', ' ', '=', ' ', 'l', 'i', 'n', 'k', '.', 'p', 'a', 'r', 'I', '[', '2', ']', ';'],
  ['\t', '\t', 'l', 'i', 'n', 'k', 'I', 'n', 'e', 'r', 't', 'i', 'a', '[', 'k', 'e', 'y', 's', '_', '[', '2', ']', '+', '"', 'y', 'y', '"', ']', ' ', '=', ' ', 'l', 'i', 'n', 'k', '.', 'p', 'a', 'r', 'I', '[', '3', ']', ';'],
  ['\t', '\t', 'l', 'i', 'n', 'k', 'I', 'n', 'e', 'r', 't', 'i', 'a', '[', 'k', 'e', 'y', 's', '_', '[', '2', ']', '+', '"', 'y', 'z', '"', ']', ' ', '=', ' ', 'l', 'i', 'n', 'k', '.', 'p', 'a', 'r', 'I', '[', '4', ']', ';'],
  ['\t', '\t', 'l', 'i', 'n', 'k', 'I', 'n', 'e', 'r', 't', 'i', 'a', '[', 'k', 'e', 'y', 's', '_', '[', '2', ']', '+', '"', 'z', 'z', '"', ']', ' ', '=', ' ', 'l', 'i', 'n', 'k', '.', 'p', 'a', 'r', 'I', '[', '5', ']', ';'],
  ['\t', '\t', '/', '/', ' ', 'l', 'i', 'n', 'k', ' ', 'f', 'r', 'i', 'c', 't', 'i', 'o', 'n'],
  ['\t', '\t', 'l', 'i', 'n', 'k', 'F', 'r', 'i', 'c', '[', '"', 'D', 'l', '"', ']', ' ', '=', ' ', 'l', 'i', 'n', 'k', '.', 'D', 'l', ';'],
  [],
  ['\t', '\t', 'l', 'i', 'n', 'k', 'N', 'o', 'd', 'e', '[', '"', 'i', 'n', 'e', 'r', 't', 'i', 'a', 'l', '"', ']', ' ', '=', ' ', 'l', 'i', 'n', 'k', 'I', 'n', 'e', 'r', 't', 'i', 'a', ';'],
  ['\t', '\t', 'l', 'i', 'n', 'k', 'N', 'o', 'd', 'e', '[', '"', 'f', 'r', 'i', 'c', 't', 'i', 'o', 'n', '"', ']', ' ', '=', ' ', 'l', 'i', 'n', 'k', 'F', 'r', 'i', 'c', ';'],
  ['\t', '\t', 'd', 'y', 'n', 'a', 'm', 'i', 'c', 's', 'N', 'o', 'd', 'e', '[', 'n', 'o', 'd', 'e', 'N', 'a', 'm', 'e', ']', ' ', '=', ' ', 'l', 'i', 'n', 'k', 'N', 'o', 'd', 'e', ';'],
  ['\t', '}'],
  ['\t', 'y', 'a', 'm', 'l', 'F', 'i', 'l', 'e', '[', '"', 'd', 'y', 'n', 'a', 'm', 'i', 'c', 's', '"', ']', ' ', '=', ' ', 'd', 'y', 'n', 'a', 'm', 'i', 'c', 's', 'N', 'o', 'd', 'e', ';'],
  ['\t', 'e', 'm', 'i', 't', 't', 'e', 'r', '_', ' ', '<', '<', ' ', 'y', 'a', 'm', 'l', 'F', 'i', 'l', 'e', ' ', '<', '<', ' ', 'Y', 'A', 'M', 'L', ':', ':', 'N', 'e', 'w', 'l', 'i', 'n', 'e', ';'],
  ['}'],
  [],
  ['E', 'i', 'g', 'e', 'n', ':', ':', 'M', 'a', 't', 'r', 'i', 'x', '3', 'd', ' ', 't', 'h', 'u', 'n', 'd', 'e', 'r', '_', 'r', 'o', 'b', 'o', 't', ':', ':', 'h', 'a', 't', '(', 'c', 'o', 'n', 's', 't', ' ', 'E', 'i', 'g', 'e', 'n', ':', ':', 'V', 'e', 'c', 't', 'o', 'r', '3', 'd', ' ', 'v', ')', '{'],
  ['\t', 'E', 'i', 'g', 'e', 'n', ':', ':', 'M', 'a', 't', 'r', 'i', 'x', '3', 'd', ' ', 'v', 'h', 'a', 't', ';'],
  ['\t', '\t', '\t'],
  ['\t', '/', '/', ' ', 'c', 'h', 'e', 'c', 'h'],
  ['\t', 'i', 'f', '(', 'v', '.', 's', 'i', 'z', 'e', '(', ')', ' ', '!', '=', ' ', '3', ' ', ')', '{'],
  ['\t', '\t', 's', 't', 'd', ':', ':', 'c', 'o', 'u', 't', '<', '<', '"', 'i', 'n', ' ', 'f', 'u', 'n', 'c', 't', 'i', 'o', 'n', ' ', 'h', 'a', 't', ' ', 'o', 'f', ' ', 'c', 'l', 'a', 's', 's', ' ', 'F', 'r', 'a', 'm', 'e', 'O', 'f', 'f', 's', 'e', 't', ' ', 'i', 'n', 'v', 'a', 'l', 'i', 'd', ' ', 'd', 'i', 'm', 'e', 'n', 's', 'i', 'o', 'n', ' ', 'o', 'f', ' ', 'i', 'n', 'p', 'u', 't', '"', '<', '<', 's', 't', 'd', ':', ':', 'e', 'n', 'd', 'l', ';'],
  ['\t', '}'],
  ['\t'],
  ['\t', 'v', 'h', 'a', 't', '(', '0', ',', '0', ')', ' ', '=', ' ', '0', ';'],
  ['\t', 'v', 'h', 'a', 't', '(', '0', ',', '1', ')', ' ', '=', ' ', '-', 'v', '[', '2', ']', ';'],
  ['\t', 'v', 'h', 'a', 't', '(', '0', ',', '2', ')', ' ', '=', ' ', 'v', '[', '1', ']', ';'],
  ['\t', 'v', 'h', 'a', 't', '(', '1', ',', '0', ')', ' ', '=', ' ', 'v', '[', '2', ']', ';'],
  ['\t', 'v', 'h', 'a', 't', '(', '1', ',', '1', ')', ' ', '=', ' ', '0', ';'],
  ['\t', 'v', 'h', 'a', 't', '(', '1', ',', '2', ')', ' ', '=', ' ', '-', 'v', '[', '0', ']', ';'],
  ['\t', 'v', 'h', 'a', 't', '(', '2', ',', '0', ')', ' ', '=', ' ', '-', 'v', '[', '1', ']', ';'],
  ['\t', 'v', 'h', 'a', 't', '(', '2', ',', '1', ')', ' ', '=', ' ', 'v', '[', '0', ']', ';'],
  ['\t', 'v', 'h', 'a', 't', '(', '2', ',', '2', ')', ' ', '=', ' ', '0', ';'],
  [],
  ['\t', 'r', 'e', 't', 'u', 'r', 'n', ' ', 'v', 'h', 'a', 't', ';'],
  ['}'],
  [],
  ['E', 'i', 'g', 'e', 'n', ':', ':', 'M', 'a', 't', 'r', 'i', 'x', '3', 'd', ' ', 't', 'h', 'u', 'n', 'd', 'e', 'r', '_', 'r', 'o', 'b', 'o', 't', ':', ':', 'r', 'p', 'y', 'R', 'o', 't', '(', 'c', 'o', 'n', 's', 't', ' ', 's', 't', 'd', ':', ':', 'v', 'e', 'c', 't', 'o', 'r', '<', 'd', 'o', 'u', 'b', 'l', 'e', '>', ' ', 'r', 'p', 'y', ')', '{'],
  ['\t', 'E', 'i', 'g', 'e', 'n', ':', ':', 'M', 'a', 't', 'r', 'i', 'x', '3', 'd', ' ', 'r', 'o', 't', 'T', 'r', ';'],
  ['\t'],
  ['\t', 'd', 'o', 'u', 'b', 'l', 'e', ' ', 'c', 'y', ' ', '=', ' ', 'c', 'o', 's', '(', 'r', 'p', 'y', '[', '2', ']', ')', ';'],
  ['\t', 'd', 'o', 'u', 'b', 'l', 'e', ' ', 's', 'y', ' ', '=', ' ', 's', 'i', 'n', '(', 'r', 'p', 'y', '[', '2', ']', ')', ';'],
  ['\t', 'd', 'o', 'u', 'b', 'l', 'e', ' ', 'c', 'p', ' ', '=', ' ', 'c', 'o', 's', '(', 'r', 'p', 'y', '[', '1', ']', ')', ';'],
  ['\t', 'd', 'o', 'u', 'b', 'l', 'e', ' ', 's', 'p', ' ', '=', ' ', 's', 'i', 'n', '(', 'r', 'p', 'y', '[', '1', ']', ')', ';'],
  ['\t', 'd', 'o', 'u', 'b', 'l', 'e', ' ', 'c', 'r', ' ', '=', ' ', 'c', 'o', 's', '(', 'r', 'p', 'y', '[', '0', ']', ')', ';'],
  ['\t', 'd', 'o', 'u', 'b', 'l', 'e', ' ', 's', 'r', ' ', '=', ' ', 's', 'i', 'n', '(', 'r', 'p', 'y', '[', '0', ']', ')', ';'],
  [],
  ['\t', '/', '/', 't', 'e', 'm', 'p', 'l', 'a', 't', 'e', ' ', 'R', ' ', 'y', 'a', 'w', '-', 'p', 'i', 't', 'c', 'h', '-', 'r', 'o', 'l', 'l'],
  ['\t', 'r', 'o', 't', 'T', 'r', '(', '0', ',', '0', ')', '=', 'c', 'y', '*', 'c', 'p', ';'],
  ['\t', 'r', 'o', 't', 'T', 'r', '(', '0', ',', '1', ')', '=', 'c', 'y', '*', 's', 'p', '*', 's', 'r', '-', 's', 'y', '*', 'c', 'r', ';'],
  ['\t', 'r', 'o', 't', 'T', 'r', '(', '0', ',', '2', ')', '=', 'c', 'y', '*', 's', 'p', '*', 'c', 'r', '-', 's', 'y', '*', 's', 'r', ';'],
  ['\t', 'r', 'o', 't', 'T', 'r', '(', '1', ',', '0', ')', '=', 's', 'y', '*', 'c', 'p', ';'],
  ['\t', 'r', 'o', 't', 'T', 'r', '(', '1', ',', '1', ')', '=', 's', 'y', '*', 's', 'p', '*', 's', 'r', '+', 'c', 'y', '*', 'c', 'r', ';'],
  ['\t', 'r', 'o', 't', 'T', 'r', '(', '1', ',', '2', ')', '=', 's', 'y', '*', 's', 'p', '*', 'c', 'r', '-', 'c', 'y', '*', 's', 'r', ';'],
  ['\t', 'r', 'o', 't', 'T', 'r', '(', '2', ',', '0', ')', '=', '-', 's', 'p', ';'],
  ['\t', 'r', 'o', 't', 'T', 'r', '(', '2', ',', '1', ')', '=', 'c', 'p', '*', 's', 'r', ';'],
  ['\t', 'r', 'o', 't', 'T', 'r', '(', '2', ',', '2', ')', '=', 'c', 'p', '*', 'c', 'r', ';'],
  [],
  ['\t', 'r', 'e', 't', 'u', 'r', 'n', ' ', 'r', 'o', 't', 'T', 'r', ';'],
  ['}'],
  [],
  ['E', 'i', 'g', 'e', 'n', ':', ':', 'M', 'a', 't', 'r', 'i', 'x', '3', 'd', ' ', 't', 'h', 'u', 'n', 'd', 'e', 'r', '_', 'r', 'o', 'b', 'o', 't', ':', ':', 'c', 'r', 'e', 'a', 't', 'e', 'I', '(', 'c', 'o', 'n', 's', 't', ' ', 's', 't', 'd', ':', ':', 'v', 'e', 'c', 't', 'o', 'r', '<', 'd', 'o', 'u', 'b', 'l', 'e', '>', ' ', 'p', 'a', 'r', 'I', ')', '{'],
  ['\t', 'E', 'i', 'g', 'e', 'n', ':', ':', 'M', 'a', 't', 'r', 'i', 'x', '3', 'd', ' ', 'I', ';'],
  ['\t', 'I', '(', '0', ',', ' ', '0', ')', ' ', '=', ' ', 'p', 'a', 'r', 'I', '[', '0', ']', ';'],
  ['\t', 'I', '(', '0', ',', ' ', '1', ')', ' ', '=', ' ', 'p', 'a', 'r', 'I', '[', '1', ']', ';'],
  ['\t', 'I', '(', '0', ',', ' ', '2', ')', ' ', '=', ' ', 'p', 'a', 'r', 'I', '[', '2', ']', ';'],
  ['\t', 'I', '(', '1', ',', ' ', '0', ')', ' ', '=', ' ', 'p', 'a', 'r', 'I', '[', '1', ']', ';'],
  ['\t', 'I', '(', '1', ',', ' ', '1', ')', ' ', '=', ' ', 'p', 'a', 'r', 'I', '[', '3', ']', ';'],
  ['\t', 'I', '(', '1', ',', ' ', '2', ')', ' ', '=', ' ', 'p', 'a', 'r', 'I', '[', '4', ']', ';'],
  ['\t', 'I', '(', '2', ',', ' ', '0', ')', ' ', '=', ' ', 'p', 'a', 'r', 'I', '[', '2', ']', ';'],
  ['\t', 'I', '(', '2', ',', ' ', '1', ')', ' ', '=', ' ', 'p', 'a', 'r', 'I', '[', '4', ']', ';'],
  ['\t', 'I', '(', '2', ',', ' ', '2', ')', ' ', '=', ' ', 'p', 'a', 'r', 'I', '[', '5', ']', ';'],
  [],
  ['\t', 'r', 'e', 't', 'u', 'r', 'n', ' ', 'I', ';'],
  ['}'],
  [],
  ['/', '/', ' ', '-', '-', '-', '-', '-', ' ', 'g', 'e', 'n', 'e', 'r', 'a', 't', 'e', 'd', ' ', 'f', 'u', 'n', 'c', 't', 'i', 'o', 'n', 's', ' ', '-', '-', '-', '-', '-', ' ', '/', '/'],
  ['/', '*', '#', '-', 'F', 'U', 'N', 'C', 'T', 'I', 'O', 'N', 'S', '_', 'C', 'P', 'P', '-', '#', '*', '/'],
  [],
  [],
  ['/', '*', '#', '-', 'O', 'P', 'T', 'I', 'O', 'N', 'A', 'L', ' ', 'S', 'P', 'A', 'C', 'E', ' ', 'F', 'O', 'R', ' ', 'P', 'Y', 'T', 'H', 'O', 'N', ' ', 'B', 'I', 'N', 'D', 'I', 'N', 'G', 'S', '-', '#', '*', '/'],
  [],
  []]

theorem sourceLines_eq : sourceLines.map ch = sourceChars := by
  have h : sourceLines = sourceChars.map String.ofList := rfl
  rw [h, List.map_map]
  exact (List.map_congr_left fun l _ => String.toList_ofList).trans (List.map_id _)

/-- The characters of `bindingLines`. -/
def bindingChars : List (List Char) := [
  [],
  ['/', '/', ' ', '-', '-', '-', '-', '-', ' ', 'P', 'y', 't', 'h', 'o', 'n', ' ', 'b', 'i', 'n', 'd', 'i', 'n', 'g', 's', ' ', '-', '-', '-', '-', '-', ' ', '/', '/'],
  ['n', 'a', 'm', 'e', 's', 'p', 'a', 'c', 'e', ' ', 'p', 'y', ' ', '=', ' ', 'p', 'y', 'b', 'i', 'n', 'd', '1', '1', ';'],
  [],
  ['P', 'Y', 'B', 'I', 'N', 'D', '1', '1', '_', 'M', 'O', 'D', 'U', 'L', 'E', '(', 't', 'h', 'u', 'n', 'd', 'e', 'r', '_', 'r', 'o', 'b', 'o', 't', '_', 'p', 'y', ',', ' ', 'm', ')', ' ', '{'],
  ['\t', 'p', 'y', ':', ':', 'c', 'l', 'a', 's', 's', '_', '<', 't', 'h', 'u', 'n', 'd', 'e', 'r', '_', 'r', 'o', 'b', 'o', 't', '>', '(', 'm', ',', ' ', '"', 't', 'h', 'u', 'n', 'd', 'e', 'r', '_', 'r', 'o', 'b', 'o', 't', '"', ')'],
  ['\t', '\t', '.', 'd', 'e', 'f', '(', 'p', 'y', ':', ':', 'i', 'n', 'i', 't', '<', '>', '(', ')', ')'],
  ['\t', '\t', '.', 'd', 'e', 'f', '(', '"', 'r', 'e', 's', 'i', 'z', 'e', 'V', 'a', 'r', 'i', 'a', 'b', 'l', 'e', 's', '"', ',', ' ', '&', 't', 'h', 'u', 'n', 'd', 'e', 'r', '_', 'r', 'o', 'b', 'o', 't', ':', ':', 'r', 'e', 's', 'i', 'z', 'e', 'V', 'a', 'r', 'i', 'a', 'b', 'l', 'e', 's', ')'],
  ['\t', '\t', '.', 'd', 'e', 'f', '(', '"', 's', 'e', 't', 'A', 'r', 'g', 'u', 'm', 'e', 'n', 't', 's', '"', ',', ' ', '&', 't', 'h', 'u', 'n', 'd', 'e', 'r', '_', 'r', 'o', 'b', 'o', 't', ':', ':', 's', 'e', 't', 'A', 'r', 'g', 'u', 'm', 'e', 'n', 't', 's', ',', ' ', '"', 'S', 'e', 't', ' ', 'q', ',', ' ', 'd', 'q', ',', ' ', 'd', 'q', 'r', ',', ' ', 'd', 'd', 'q', 'r', '"', ',', ' ', 'p', 'y', ':', ':', 'a', 'r', 'g', '(', '"', 'q', '"', ')', ',', ' ', 'p', 'y', ':', ':', 'a', 'r', 'g', '(', '"', 'd', 'q', '"', ')', ',', ' ', 'p', 'y', ':', ':', 'a', 'r', 'g', '(', '"', 'd', 'q', 'r', '"', ')', ',', ' ', 'p', 'y', ':', ':', 'a', 'r', 'g', '(', '"', 'd', 'd', 'q', 'r', '"', ')', ')'],
  ['\t', '\t', '.', 'd', 'e', 'f', '(', '"', 's', 'e', 't', '_', 'q', '"', ',', ' ', '&', 't', 'h', 'u', 'n', 'd', 'e', 'r', '_', 'r', 'o', 'b', 'o', 't', ':', ':', 's', 'e', 't', '_', 'q', ',', ' ', '"', 'S', 'e', 't', ' ', 'q', '"', ',', ' ', 'p', 'y', ':', ':', 'a', 'r', 'g', '(', '"', 'q', '"', ')', ')'],
  ['\t', '\t', '.', 'd', 'e', 'f', '(', '"', 's', 'e', 't', '_', 'd', 'q', '"', ',', ' ', '&', 't', 'h', 'u', 'n', 'd', 'e', 'r', '_', 'r', 'o', 'b', 'o', 't', ':', ':', 's', 'e', 't', '_', 'd', 'q', ',', ' ', '"', 'S', 'e', 't', ' ', 'd', 'q', '"', ',', ' ', 'p', 'y', ':', ':', 'a', 'r', 'g', '(', '"', 'd', 'q', '"', ')', ')'],
  ['\t', '\t', '.', 'd', 'e', 'f', '(', '"', 's', 'e', 't', '_', 'd', 'd', 'q', '"', ',', ' ', '&', 't', 'h', 'u', 'n', 'd', 'e', 'r', '_', 'r', 'o', 'b', 'o', 't', ':', ':', 's', 'e', 't', '_', 'd', 'd', 'q', ',', ' ', '"', 'S', 'e', 't', ' ', 'd', 'd', 'q', '"', ',', ' ', 'p', 'y', ':', ':', 'a', 'r', 'g', '(', '"', 'd', 'd', 'q', '"', ')', ')'],
  ['\t', '\t', '.', 'd', 'e', 'f', '(', '"', 's', 'e', 't', '_', 'd', '3', 'q', '"', ',', ' ', '&', 't', 'h', 'u', 'n', 'd', 'e', 'r', '_', 'r', 'o', 'b', 'o', 't', ':', ':', 's', 'e', 't', '_', 'd', '3', 'q', ',', ' ', '"', 'S', 'e', 't', ' ', 'd', '3', 'q', '"', ',', ' ', 'p', 'y', ':', ':', 'a', 'r', 'g', '(', '"', 'd', '3', 'q', '"', ')', ')'],
  ['\t', '\t', '.', 'd', 'e', 'f', '(', '"', 's', 'e', 't', '_', 'd', '4', 'q', '"', ',', ' ', '&', 't', 'h', 'u', 'n', 'd', 'e', 'r', '_', 'r', 'o', 'b', 'o', 't', ':', ':', 's', 'e', 't', '_', 'd', '4', 'q', ',', ' ', '"', 'S', 'e', 't', ' ', 'd', '4', 'q', '"', ',', ' ', 'p', 'y', ':', ':', 'a', 'r', 'g', '(', '"', 'd', '4', 'q', '"', ')', ')'],
  ['\t', '\t', '.', 'd', 'e', 'f', '(', '"', 's', 'e', 't', '_', 'd', 'q', 'r', '"', ',', ' ', '&', 't', 'h', 'u', 'n', 'd', 'e', 'r', '_', 'r', 'o', 'b', 'o', 't', ':', ':', 's', 'e', 't', '_', 'd', 'q', 'r', ',', ' ', '"', 'S', 'e', 't', ' ', 'd', 'q', 'r', '"', ',', ' ', 'p', 'y', ':', ':', 'a', 'r', 'g', '(', '"', 'd', 'q', 'r', '"', ')', ')'],
  ['\t', '\t', '.', 'd', 'e', 'f', '(', '"', 's', 'e', 't', '_', 'd', 'd', 'q', 'r', '"', ',', ' ', '&', 't', 'h', 'u', 'n', 'd', 'e', 'r', '_', 'r', 'o', 'b', 'o', 't', ':', ':', 's', 'e', 't', '_', 'd', 'd', 'q', 'r', ',', ' ', '"', 'S', 'e', 't', ' ', 'd', 'd', 'q', 'r', '"', ',', ' ', 'p', 'y', ':', ':', 'a', 'r', 'g', '(', '"', 'd', 'd', 'q', 'r', '"', ')', ')'],
  ['\t', '\t', '.', 'd', 'e', 'f', '(', '"', 's', 'e', 't', '_', 'x', '"', ',', ' ', '&', 't', 'h', 'u', 'n', 'd', 'e', 'r', '_', 'r', 'o', 'b', 'o', 't', ':', ':', 's', 'e', 't', '_', 'x', ',', ' ', '"', 'S', 'e', 't', ' ', 'x', '"', ',', ' ', 'p', 'y', ':', ':', 'a', 'r', 'g', '(', '"', 'x', '"', ')', ')'],
  ['\t', '\t', '.', 'd', 'e', 'f', '(', '"', 's', 'e', 't', '_', 'd', 'x', '"', ',', ' ', '&', 't', 'h', 'u', 'n', 'd', 'e', 'r', '_', 'r', 'o', 'b', 'o', 't', ':', ':', 's', 'e', 't', '_', 'd', 'x', ',', ' ', '"', 'S', 'e', 't', ' ', 'd', 'x', '"', ',', ' ', 'p', 'y', ':', ':', 'a', 'r', 'g', '(', '"', 'd', 'x', '"', ')', ')'],
  ['\t', '\t', '.', 'd', 'e', 'f', '(', '"', 's', 'e', 't', '_', 'd', 'd', 'x', '"', ',', ' ', '&', 't', 'h', 'u', 'n', 'd', 'e', 'r', '_', 'r', 'o', 'b', 'o', 't', ':', ':', 's', 'e', 't', '_', 'd', 'd', 'x', ',', ' ', '"', 'S', 'e', 't', ' ', 'd', 'd', 'x', '"', ',', ' ', 'p', 'y', ':', ':', 'a', 'r', 'g', '(', '"', 'd', 'd', 'x', '"', ')', ')'],
  ['\t', '\t', '.', 'd', 'e', 'f', '(', '"', 's', 'e', 't', '_', 'd', 'd', 'x', 'r', '"', ',', ' ', '&', 't', 'h', 'u', 'n', 'd', 'e', 'r', '_', 'r', 'o', 'b', 'o', 't', ':', ':', 's', 'e', 't', '_', 'd', 'd', 'x', 'r', ',', ' ', '"', 'S', 'e', 't', ' ', 'd', 'd', 'x', 'r', '"', ',', ' ', 'p', 'y', ':', ':', 'a', 'r', 'g', '(', '"', 'd', 'd', 'x', 'r', '"', ')', ')'],
  ['\t', '\t', '.', 'd', 'e', 'f', '(', '"', 's', 'e', 't', '_', 'w', '"', ',', ' ', '&', 't', 'h', 'u', 'n', 'd', 'e', 'r', '_', 'r', 'o', 'b', 'o', 't', ':', ':', 's', 'e', 't', '_', 'w', ',', ' ', '"', 'S', 'e', 't', ' ', 'w', '"', ',', ' ', 'p', 'y', ':', ':', 'a', 'r', 'g', '(', '"', 'w', '"', ')', ')'],
  ['\t', '\t', '.', 'd', 'e', 'f', '(', '"', 's', 'e', 't', '_', 'p', 'a', 'r', '_', 'R', 'E', 'G', '"', ',', ' ', '&', 't', 'h', 'u', 'n', 'd', 'e', 'r', '_', 'r', 'o', 'b', 'o', 't', ':', ':', 's', 'e', 't', '_', 'p', 'a', 'r', '_', 'R', 'E', 'G', ',', ' ', '"', 'S', 'e', 't', ' ', 'i', 'n', 'e', 'r', 't', 'i', 'a', 'l', ' ', 'p', 'a', 'r', 'a', 'm', 'e', 't', 'e', 'r', 's', ' ', 'R', 'E', 'G', '"', ',', ' ', 'p', 'y', ':', ':', 'a', 'r', 'g', '(', '"', 'p', 'a', 'r', '"', ')', ',', ' ', 'p', 'y', ':', ':', 'a', 'r', 'g', '(', '"', 'u', 'p', 'd', 'a', 't', 'e', '_', 'D', 'Y', 'N', '"', ')', ' ', '=', ' ', 't', 'r', 'u', 'e', ')'],
  ['\t', '\t', '.', 'd', 'e', 'f', '(', '"', 's', 'e', 't', '_', 'p', 'a', 'r', '_', 'D', 'Y', 'N', '"', ',', ' ', '&', 't', 'h', 'u', 'n', 'd', 'e', 'r', '_', 'r', 'o', 'b', 'o', 't', ':', ':', 's', 'e', 't', '_', 'p', 'a', 'r', '_', 'D', 'Y', 'N', ',', ' ', '"', 'S', 'e', 't', ' ', 'i', 'n', 'e', 'r', 't', 'i', 'a', 'l', ' ', 'p', 'a', 'r', 'a', 'm', 'e', 't', 'e', 'r', 's', ' ', 'D', 'Y', 'N', '"', ',', ' ', 'p', 'y', ':', ':', 'a', 'r', 'g', '(', '"', 'p', 'a', 'r', '"', ')', ',', ' ', 'p', 'y', ':', ':', 'a', 'r', 'g', '(', '"', 'u', 'p', 'd', 'a', 't', 'e', '_', 'R', 'E', 'G', '"', ')', ' ', '=', ' ', 't', 'r', 'u', 'e', ')'],
  ['\t', '\t', '.', 'd', 'e', 'f', '(', '"', 's', 'e', 't', '_', 'p', 'a', 'r', '_', 'K', '"', ',', ' ', '&', 't', 'h', 'u', 'n', 'd', 'e', 'r', '_', 'r', 'o', 'b', 'o', 't', ':', ':', 's', 'e', 't', '_', 'p', 'a', 'r', '_', 'K', ',', ' ', '"', 'S', 'e', 't', ' ', 'i', 'n', 'e', 'r', 't', 'i', 'a', 'l', ' ', 'p', 'a', 'r', 'a', 'm', 'e', 't', 'e', 'r', 's', ' ', 'K', '"', ',', ' ', 'p', 'y', ':', ':', 'a', 'r', 'g', '(', '"', 'p', 'a', 'r', '"', ')', ')'],
  ['\t', '\t', '.', 'd', 'e', 'f', '(', '"', 's', 'e', 't', '_', 'p', 'a', 'r', '_', 'D', '"', ',', ' ', '&', 't', 'h', 'u', 'n', 'd', 'e', 'r', '_', 'r', 'o', 'b', 'o', 't', ':', ':', 's', 'e', 't', '_', 'p', 'a', 'r', '_', 'D', ',', ' ', '"', 'S', 'e', 't', ' ', 'i', 'n', 'e', 'r', 't', 'i', 'a', 'l', ' ', 'p', 'a', 'r', 'a', 'm', 'e', 't', 'e', 'r', 's', ' ', 'D', '"', ',', ' ', 'p', 'y', ':', ':', 'a', 'r', 'g', '(', '"', 'p', 'a', 'r', '"', ')', ')'],
  ['\t', '\t', '.', 'd', 'e', 'f', '(', '"', 's', 'e', 't', '_', 'p', 'a', 'r', '_', 'D', 'm', '"', ',', ' ', '&', 't', 'h', 'u', 'n', 'd', 'e', 'r', '_', 'r', 'o', 'b', 'o', 't', ':', ':', 's', 'e', 't', '_', 'p', 'a', 'r', '_', 'D', 'm', ',', ' ', '"', 'S', 'e', 't', ' ', 'i', 'n', 'e', 'r', 't', 'i', 'a', 'l', ' ', 'p', 'a', 'r', 'a', 'm', 'e', 't', 'e', 'r', 's', ' ', 'D', 'm', '"', ',', ' ', 'p', 'y', ':', ':', 'a', 'r', 'g', '(', '"', 'p', 'a', 'r', '"', ')', ')'],
  ['\t', '\t', '.', 'd', 'e', 'f', '(', '"', 's', 'e', 't', '_', 'p', 'a', 'r', '_', 'M', 'm', '"', ',', ' ', '&', 't', 'h', 'u', 'n', 'd', 'e', 'r', '_', 'r', 'o', 'b', 'o', 't', ':', ':', 's', 'e', 't', '_', 'p', 'a', 'r', '_', 'M', 'm', ',', ' ', '"', 'S', 'e', 't', ' ', 'i', 'n', 'e', 'r', 't', 'i', 'a', 'l', ' ', 'p', 'a', 'r', 'a', 'm', 'e', 't', 'e', 'r', 's', ' ', 'M', 'm', '"', ',', ' ', 'p', 'y', ':', ':', 'a', 'r', 'g', '(', '"', 'p', 'a', 'r', '"', ')', ')'],
  ['\t', '\t', '.', 'd', 'e', 'f', '(', '"', 's', 'e', 't', '_', 'p', 'a', 'r', '_', 'D', 'l', '"', ',', ' ', '&', 't', 'h', 'u', 'n', 'd', 'e', 'r', '_', 'r', 'o', 'b', 'o', 't', ':', ':', 's', 'e', 't', '_', 'p', 'a', 'r', '_', 'D', 'l', ',', ' ', '"', 'S', 'e', 't', ' ', 'i', 'n', 'e', 'r', 't', 'i', 'a', 'l', ' ', 'p', 'a', 'r', 'a', 'm', 'e', 't', 'e', 'r', 's', ' ', 'D', 'l', '"', ',', ' ', 'p', 'y', ':', ':', 'a', 'r', 'g', '(', '"', 'p', 'a', 'r', '"', ')', ')'],
  ['\t', '\t', '.', 'd', 'e', 'f', '(', '"', 's', 'e', 't', '_', 'p', 'a', 'r', '_', 'D', 'H', 't', 'a', 'b', 'l', 'e', '"', ',', ' ', '&', 't', 'h', 'u', 'n', 'd', 'e', 'r', '_', 'r', 'o', 'b', 'o', 't', ':', ':', 's', 'e', 't', '_', 'p', 'a', 'r', '_', 'D', 'H', 't', 'a', 'b', 'l', 'e', ',', ' ', '"', 'S', 'e', 't', ' ', 'i', 'n', 'e', 'r', 't', 'i', 'a', 'l', ' ', 'p', 'a', 'r', 'a', 'm', 'e', 't', 'e', 'r', 's', ' ', 'D', 'H', 't', 'a', 'b', 'l', 'e', '"', ',', ' ', 'p', 'y', ':', ':', 'a', 'r', 'g', '(', '"', 'p', 'a', 'r', '"', ')', ')'],
  ['\t', '\t', '.', 'd', 'e', 'f', '(', '"', 's', 'e', 't', '_', 'p', 'a', 'r', '_', 'g', 'r', 'a', 'v', 'i', 't', 'y', '"', ',', ' ', '&', 't', 'h', 'u', 'n', 'd', 'e', 'r', '_', 'r', 'o', 'b', 'o', 't', ':', ':', 's', 'e', 't', '_', 'p', 'a', 'r', '_', 'g', 'r', 'a', 'v', 'i', 't', 'y', ',', ' ', '"', 'S', 'e', 't', ' ', 'i', 'n', 'e', 'r', 't', 'i', 'a', 'l', ' ', 'p', 'a', 'r', 'a', 'm', 'e', 't', 'e', 'r', 's', ' ', 'g', 'r', 'a', 'v', 'i', 't', 'y', '"', ',', ' ', 'p', 'y', ':', ':', 'a', 'r', 'g', '(', '"', 'p', 'a', 'r', '"', ')', ')'],
  ['\t', '\t', '.', 'd', 'e', 'f', '(', '"', 's', 'e', 't', '_', 'p', 'a', 'r', '_', 'w', 'o', 'r', 'l', 'd', '2', 'L', '0', '"', ',', ' ', '&', 't', 'h', 'u', 'n', 'd', 'e', 'r', '_', 'r', 'o', 'b', 'o', 't', ':', ':', 's', 'e', 't', '_', 'p', 'a', 'r', '_', 'w', 'o', 'r', 'l', 'd', '2', 'L', '0', ',', ' ', '"', 'S', 'e', 't', ' ', 'i', 'n', 'e', 'r', 't', 'i', 'a', 'l', ' ', 'p', 'a', 'r', 'a', 'm', 'e', 't', 'e', 'r', 's', ' ', 'w', 'o', 'r', 'l', 'd', '2', 'L', '0', '"', ',', ' ', 'p', 'y', ':', ':', 'a', 'r', 'g', '(', '"', 'p', 'a', 'r', '"', ')', ')'],
  ['\t', '\t', '.', 'd', 'e', 'f', '(', '"', 's', 'e', 't', '_', 'p', 'a', 'r', '_', 'L', 'n', '2', 'E', 'E', '"', ',', ' ', '&', 't', 'h', 'u', 'n', 'd', 'e', 'r', '_', 'r', 'o', 'b', 'o', 't', ':', ':', 's', 'e', 't', '_', 'p', 'a', 'r', '_', 'L', 'n', '2', 'E', 'E', ',', ' ', '"', 'S', 'e', 't', ' ', 'i', 'n', 'e', 'r', 't', 'i', 'a', 'l', ' ', 'p', 'a', 'r', 'a', 'm', 'e', 't', 'e', 'r', 's', ' ', 'L', 'n', '2', 'E', 'E', '"', ',', ' ', 'p', 'y', ':', ':', 'a', 'r', 'g', '(', '"', 'p', 'a', 'r', '"', ')', ')'],
  ['\t', '\t', '.', 'd', 'e', 'f', '(', '"', 'g', 'e', 't', '_', 'p', 'a', 'r', '_', 'R', 'E', 'G', '"', ',', ' ', '&', 't', 'h', 'u', 'n', 'd', 'e', 'r', '_', 'r', 'o', 'b', 'o', 't', ':', ':', 'g', 'e', 't', '_', 'p', 'a', 'r', '_', 'R', 'E', 'G', ',', ' ', '"', 'G', 'e', 't', ' ', 'p', 'a', 'r', ' ', 'p', 'a', 'r', 'a', 'm', 'e', 't', 'e', 'r', 's', ' ', 'R', 'E', 'G', '"', ')'],
  ['\t', '\t', '.', 'd', 'e', 'f', '(', '"', 'g', 'e', 't', '_', 'p', 'a', 'r', '_', 'D', 'Y', 'N', '"', ',', ' ', '&', 't', 'h', 'u', 'n', 'd', 'e', 'r', '_', 'r', 'o', 'b', 'o', 't', ':', ':', 'g', 'e', 't', '_', 'p', 'a', 'r', '_', 'D', 'Y', 'N', ',', ' ', '"', 'G', 'e', 't', ' ', 'i', 'n', 'e', 'r', 't', 'i', 'a', 'l', ' ', 'p', 'a', 'r', 'a', 'm', 'e', 't', 'e', 'r', 's', ' ', 'D', 'Y', 'N', '"', ')'],
  ['\t', '\t', '.', 'd', 'e', 'f', '(', '"', 'g', 'e', 't', '_', 'p', 'a', 'r', '_', 'K', '"', ',', ' ', '&', 't', 'h', 'u', 'n', 'd', 'e', 'r', '_', 'r', 'o', 'b', 'o', 't', ':', ':', 'g', 'e', 't', '_', 'p', 'a', 'r', '_', 'K', ',', ' ', '"', 'G', 'e', 't', ' ', 'p', 'a', 'r', ' ', 'p', 'a', 'r', 'a', 'm', 'e', 't', 'e', 'r', 's', ' ', 'K', '"', ')'],
  ['\t', '\t', '.', 'd', 'e', 'f', '(', '"', 'g', 'e', 't', '_', 'p', 'a', 'r', '_', 'D', '"', ',', ' ', '&', 't', 'h', 'u', 'n', 'd', 'e', 'r', '_', 'r', 'o', 'b', 'o', 't', ':', ':', 'g', 'e', 't', '_', 'p', 'a', 'r', '_', 'D', ',', ' ', '"', 'G', 'e', 't', ' ', 'p', 'a', 'r', ' ', 'p', 'a', 'r', 'a', 'm', 'e', 't', 'e', 'r', 's', ' ', 'D', '"', ')'],
  ['\t', '\t', '.', 'd', 'e', 'f', '(', '"', 'g', 'e', 't', '_', 'p', 'a', 'r', '_', 'D', 'm', '"', ',', ' ', '&', 't', 'h', 'u', 'n', 'd', 'e', 'r', '_', 'r', 'o', 'b', 'o', 't', ':', ':', 'g', 'e', 't', '_', 'p', 'a', 'r', '_', 'D', 'm', ',', ' ', '"', 'G', 'e', 't', ' ', 'p', 'a', 'r', ' ', 'p', 'a', 'r', 'a', 'm', 'e', 't', 'e', 'r', 's', ' ', 'D', 'm', '"', ')'],
  ['\t', '\t', '.', 'd', 'e', 'f', '(', '"', 'g', 'e', 't', '_', 'p', 'a', 'r', '_', 'M', 'm', '"', ',', ' ', '&', 't', 'h', 'u', 'n', 'd', 'e', 'r', '_', 'r', 'o', 'b', 'o', 't', ':', ':', 'g', 'e', 't', '_', 'p', 'a', 'r', '_', 'M', 'm', ',', ' ', '"', 'G', 'e', 't', ' ', 'p', 'a', 'r', ' ', 'p', 'a', 'r', 'a', 'm', 'e', 't', 'e', 'r', 's', ' ', 'M', 'm', '"', ')'],
  ['\t', '\t', '.', 'd', 'e', 'f', '(', '"', 'g', 'e', 't', '_', 'p', 'a', 'r', '_', 'D', 'l', '"', ',', ' ', '&', 't', 'h', 'u', 'n', 'd', 'e', 'r', '_', 'r', 'o', 'b', 'o', 't', ':', ':', 'g', 'e', 't', '_', 'p', 'a', 'r', '_', 'D', 'l', ',', ' ', '"', 'G', 'e', 't', ' ', 'p', 'a', 'r', ' ', 'p', 'a', 'r', 'a', 'm', 'e', 't', 'e', 'r', 's', ' ', 'D', 'l', '"', ')'],
  ['\t', '\t', '.', 'd', 'e', 'f', '(', '"', 'g', 'e', 't', '_', 'p', 'a', 'r', '_', 'D', 'H', 't', 'a', 'b', 'l', 'e', '"', ',', ' ', '&', 't', 'h', 'u', 'n', 'd', 'e', 'r', '_', 'r', 'o', 'b', 'o', 't', ':', ':', 'g', 'e', 't', '_', 'p', 'a', 'r', '_', 'D', 'H', 't', 'a', 'b', 'l', 'e', ',', ' ', '"', 'G', 'e', 't', ' ', 'p', 'a', 'r', ' ', 'p', 'a', 'r', 'a', 'm', 'e', 't', 'e', 'r', 's', ' ', 'p', 'a', 'r', '_', 'D', 'H', 't', 'a', 'b', 'l', 'e', '"', ')'],
  ['\t', '\t', '.', 'd', 'e', 'f', '(', '"', 'g', 'e', 't', '_', 'p', 'a', 'r', '_', 'g', 'r', 'a', 'v', 'i', 't', 'y', '"', ',', ' ', '&', 't', 'h', 'u', 'n', 'd', 'e', 'r', '_', 'r', 'o', 'b', 'o', 't', ':', ':', 'g', 'e', 't', '_', 'p', 'a', 'r', '_', 'g', 'r', 'a', 'v', 'i', 't', 'y', ',', ' ', '"', 'G', 'e', 't', ' ', 'p', 'a', 'r', ' ', 'p', 'a', 'r', 'a', 'm', 'e', 't', 'e', 'r', 's', ' ', 'g', 'r', 'a', 'v', 'i', 't', 'y', '"', ')'],
  ['\t', '\t', '.', 'd', 'e', 'f', '(', '"', 'g', 'e', 't', '_', 'p', 'a', 'r', '_', 'w', 'o', 'r', 'l', 'd', '2', 'L', '0', '"', ',', ' ', '&', 't', 'h', 'u', 'n', 'd', 'e', 'r', '_', 'r', 'o', 'b', 'o', 't', ':', ':', 'g', 'e', 't', '_', 'p', 'a', 'r', '_', 'w', 'o', 'r', 'l', 'd', '2', 'L', '0', ',', ' ', '"', 'G', 'e', 't', ' ', 'p', 'a', 'r', ' ', 'p', 'a', 'r', 'a', 'm', 'e', 't', 'e', 'r', 's', ' ', 'w', 'o', 'r', 'l', 'd', '2', 'L', '0', '"', ')'],
  ['\t', '\t', '.', 'd', 'e', 'f', '(', '"', 'g', 'e', 't', '_', 'p', 'a', 'r', '_', 'L', 'n', '2', 'E', 'E', '"', ',', ' ', '&', 't', 'h', 'u', 'n', 'd', 'e', 'r', '_', 'r', 'o', 'b', 'o', 't', ':', ':', 'g', 'e', 't', '_', 'p', 'a', 'r', '_', 'L', 'n', '2', 'E', 'E', ',', ' ', '"', 'G', 'e', 't', ' ', 'p', 'a', 'r', ' ', 'p', 'a', 'r', 'a', 'm', 'e', 't', 'e', 'r', 's', ' ', 'L', 'n', '2', 'E', 'E', '"', ')'],
  ['\t', '\t', '.', 'd', 'e', 'f', '(', '"', 'l', 'o', 'a', 'd', '_', 'p', 'a', 'r', '_', 'R', 'E', 'G', '"', ',', ' ', '&', 't', 'h', 'u', 'n', 'd', 'e', 'r', '_', 'r', 'o', 'b', 'o', 't', ':', ':', 'l', 'o', 'a', 'd', '_', 'p', 'a', 'r', '_', 'R', 'E', 'G', ',', ' ', '"', 'L', 'o', 'a', 'd', ' ', 'p', 'a', 'r', ' ', 'p', 'a', 'r', 'a', 'm', 'e', 't', 'e', 'r', 's', ' ', 'R', 'E', 'G', ' ', 'f', 'r', 'o', 'm', ' ', 'Y', 'A', 'M', 'L', ' ', 'f', 'i', 'l', 'e', '"', ',', ' ', 'p', 'y', ':', ':', 'a', 'r', 'g', '(', '"', 'f', 'i', 'l', 'e', '_', 'p', 'a', 't', 'h', '"', ')', ',', ' ', 'p', 'y', ':', ':', 'a', 'r', 'g', '(', '"', 'u', 'p', 'd', 'a', 't', 'e', '_', 'D', 'Y', 'N', '"', ')', ' ', '=', ' ', 't', 'r', 'u', 'e', ')'],
  ['\t', '\t', '.', 'd', 'e', 'f', '(', '"', 'l', 'o', 'a', 'd', '_', 'c', 'o', 'n', 'f', '"', ',', ' ', '&', 't', 'h', 'u', 'n', 'd', 'e', 'r', '_', 'r', 'o', 'b', 'o', 't', ':', ':', 'l', 'o', 'a', 'd', '_', 'c', 'o', 'n', 'f', ',', ' ', '"', 'L', 'o', 'a', 'd', ' ', 'c', 'o', 'n', 'f', 'i', 'g', 'u', 'r', 'a', 't', 'i', 'o', 'n', ' ', 'f', 'r', 'o', 'm', ' ', 'Y', 'A', 'M', 'L', ' ', 'f', 'i', 'l', 'e', '"', ',', ' ', 'p', 'y', ':', ':', 'a', 'r', 'g', '(', '"', 'f', 'i', 'l', 'e', '_', 'p', 'a', 't', 'h', '"', ')', ',', ' ', 'p', 'y', ':', ':', 'a', 'r', 'g', '(', '"', 'u', 'p', 'd', 'a', 't', 'e', '_', 'R', 'E', 'G', '"', ')', ' ', '=', ' ', 't', 'r', 'u', 'e', ')'],
  ['\t', '\t', '.', 'd', 'e', 'f', '(', '"', 's', 'a', 'v', 'e', '_', 'p', 'a', 'r', '_', 'R', 'E', 'G', '"', ',', ' ', '&', 't', 'h', 'u', 'n', 'd', 'e', 'r', '_', 'r', 'o', 'b', 'o', 't', ':', ':', 's', 'a', 'v', 'e', '_', 'p', 'a', 'r', '_', 'R', 'E', 'G', ',', ' ', '"', 'S', 'a', 'v', 'e', ' ', 'p', 'a', 'r', ' ', 'p', 'a', 'r', 'a', 'm', 'e', 't', 'e', 'r', 's', ' ', 'R', 'E', 'G', ' ', 't', 'o', ' ', 'Y', 'A', 'M', 'L', ' ', 'f', 'i', 'l', 'e', '"', ',', ' ', 'p', 'y', ':', ':', 'a', 'r', 'g', '(', '"', 'f', 'i', 'l', 'e', '_', 'p', 'a', 't', 'h', '"', ')', ')'],
  ['\t', '\t', '.', 'd', 'e', 'f', '(', '"', 's', 'a', 'v', 'e', '_', 'p', 'a', 'r', '_', 'D', 'Y', 'N', '"', ',', ' ', '&', 't', 'h', 'u', 'n', 'd', 'e', 'r', '_', 'r', 'o', 'b', 'o', 't', ':', ':', 's', 'a', 'v', 'e', '_', 'p', 'a', 'r', '_', 'D', 'Y', 'N', ',', ' ', '"', 'S', 'a', 'v', 'e', ' ', 'i', 'n', 'e', 'r', 't', 'i', 'a', 'l', ' ', 'p', 'a', 'r', 'a', 'm', 'e', 't', 'e', 'r', 's', ' ', 'D', 'Y', 'N', ' ', 't', 'o', ' ', 'Y', 'A', 'M', 'L', ' ', 'f', 'i', 'l', 'e', '"', ',', ' ', 'p', 'y', ':', ':', 'a', 'r', 'g', '(', '"', 'f', 'i', 'l', 'e', '_', 'p', 'a', 't', 'h', '"', ')', ')'],
  ['\t', '\t', '.', 'd', 'e', 'f', '(', '"', 's', 'a', 'v', 'e', '_', 'p', 'a', 'r', '"', ',', ' ', '&', 't', 'h', 'u', 'n', 'd', 'e', 'r', '_', 'r', 'o', 'b', 'o', 't', ':', ':', 's', 'a', 'v', 'e', '_', 'p', 'a', 'r', ',', ' ', '"', 'S', 'a', 'v', 'e', ' ', 'a', 'l', 'l', ' ', 'p', 'a', 'r', 'a', 'm', 'e', 't', 'e', 'r', 's', ' ', 'i', 'n', 't', 'o', ' ', 'f', 'i', 'l', 'e', '"', ',', ' ', 'p', 'y', ':', ':', 'a', 'r', 'g', '(', '"', 'f', 'i', 'l', 'e', '_', 'p', 'a', 't', 'h', '"', ')', ')'],
  ['\t', '\t', '.', 'd', 'e', 'f', '(', '"', 'g', 'e', 't', '_', 'n', 'u', 'm', 'J', 'o', 'i', 'n', 't', 's', '"', ',', ' ', '&', 't', 'h', 'u', 'n', 'd', 'e', 'r', '_', 'r', 'o', 'b', 'o', 't', ':', ':', 'g', 'e', 't', '_', 'n', 'u', 'm', 'J', 'o', 'i', 'n', 't', 's', ',', ' ', '"', 'G', 'e', 't', ' ', 'n', 'u', 'm', 'b', 'e', 'r', ' ', 'o', 'f', ' ', 'j', 'o', 'i', 'n', 't', 's', '"', ')'],
  ['\t', '\t', '.', 'd', 'e', 'f', '(', '"', 'g', 'e', 't', '_', 'n', 'u', 'm', 'P', 'a', 'r', 'D', 'Y', 'N', '"', ',', ' ', '&', 't', 'h', 'u', 'n', 'd', 'e', 'r', '_', 'r', 'o', 'b', 'o', 't', ':', ':', 'g', 'e', 't', '_', 'n', 'u', 'm', 'P', 'a', 'r', 'D', 'Y', 'N', ',', ' ', '"', 'G', 'e', 't', ' ', 'n', 'u', 'm', 'b', 'e', 'r', ' ', 'o', 'f', ' ', 'p', 'a', 'r', 'a', 'm', 'e', 't', 'e', 'r', 's', ' ', 'p', 'e', 'r', ' ', 'l', 'i', 'n', 'k', '"', ')'],
  ['\t', '\t', '.', 'd', 'e', 'f', '(', '"', 'g', 'e', 't', '_', 'n', 'u', 'm', 'P', 'a', 'r', 'R', 'E', 'G', '"', ',', ' ', '&', 't', 'h', 'u', 'n', 'd', 'e', 'r', '_', 'r', 'o', 'b', 'o', 't', ':', ':', 'g', 'e', 't', '_', 'n', 'u', 'm', 'P', 'a', 'r', 'R', 'E', 'G', ',', ' ', '"', 'G', 'e', 't', ' ', 'n', 'u', 'm', 'b', 'e', 'r', ' ', 'o', 'f', ' ', 'p', 'a', 'r', 'a', 'm', 'e', 't', 'e', 'r', 's', '"', ')'],
  ['/', '*', '#', '-', 'G', 'E', 'N', 'E', 'R', 'A', 'T', 'E', 'D', '_', 'P', 'Y', 'T', 'H', 'O', 'N', '_', 'B', 'I', 'N', 'D', 'I', 'N', 'G', 'S', '-', '#', '*', '/'],
  ['}'],
  []]

theorem bindingLines_eq : bindingLines.map ch = bindingChars := by
  have h : bindingLines = bindingChars.map String.ofList := rfl
  rw [h, List.map_map]
  exact (List.map_congr_left fun l _ => String.toList_ofList).trans (List.map_id _)

/-! ## Patterns -/

def patGuard : List Char := ['T', 'H', 'U', 'N', 'D', 'E', 'R', 'R', 'O', 'B', 'O', 'T']
theorem patGuard_eq : ch "THUNDERROBOT" = patGuard := String.toList_ofList (l := patGuard)
def patRobot : List Char := ['r', 'o', 'b', 'o', 't']
theorem patRobot_eq : ch "robot" = patRobot := String.toList_ofList (l := patRobot)
def patName : List Char := ['/', '*', '#', '-', 'R', 'O', 'B', 'O', 'T', '_', 'N', 'A', 'M', 'E', '-', '#', '*', '/']
theorem patName_eq : ch "/*#-ROBOT_NAME-#*/" = patName := String.toList_ofList (l := patName)
def patN : List Char := ['/', '*', '#', '-', 'n', '_', 'j', 'o', 'i', 'n', 't', 's', '-', '#', '*', '/']
theorem patN_eq : ch "/*#-n_joints-#*/" = patN := String.toList_ofList (l := patN)
def patEla : List Char := ['/', '*', '#', '-', 'E', 'L', 'A', 'S', 'T', 'I', 'C', '-', '#', '*', '/']
theorem patEla_eq : ch "/*#-ELASTIC-#*/" = patEla := String.toList_ofList (l := patEla)
def patNe : List Char := ['/', '*', '#', '-', 'n', 'u', 'm', 'E', 'l', 'a', 's', 't', 'i', 'c', 'J', 'o', 'i', 'n', 't', 's', '-', '#', '*', '/']
theorem patNe_eq : ch "/*#-numElasticJoints-#*/" = patNe := String.toList_ofList (l := patNe)
def patK : List Char := ['/', '*', '#', '-', 'K', '_', 'o', 'r', 'd', 'e', 'r', '-', '#', '*', '/']
theorem patK_eq : ch "/*#-K_order-#*/" = patK := String.toList_ofList (l := patK)
def patD : List Char := ['/', '*', '#', '-', 'D', '_', 'o', 'r', 'd', 'e', 'r', '-', '#', '*', '/']
theorem patD_eq : ch "/*#-D_order-#*/" = patD := String.toList_ofList (l := patD)
def patDl : List Char := ['/', '*', '#', '-', 'D', 'l', '_', 'o', 'r', 'd', 'e', 'r', '-', '#', '*', '/']
theorem patDl_eq : ch "/*#-Dl_order-#*/" = patDl := String.toList_ofList (l := patDl)
def patDm : List Char := ['/', '*', '#', '-', 'D', 'm', '_', 'o', 'r', 'd', 'e', 'r', '-', '#', '*', '/']
theorem patDm_eq : ch "/*#-Dm_order-#*/" = patDm := String.toList_ofList (l := patDm)
def patIs : List Char := ['/', '*', '#', '-', 'i', 's', 'E', 'l', 'a', 's', 't', 'i', 'c', 'J', 'o', 'i', 'n', 't', '-', '#', '*', '/']
theorem patIs_eq : ch "/*#-isElasticJoint-#*/" = patIs := String.toList_ofList (l := patIs)
def patH : List Char := ['/', '*', '#', '-', 'F', 'U', 'N', 'C', 'T', 'I', 'O', 'N', 'S', '_', 'H', '-', '#', '*', '/']
theorem patH_eq : ch "/*#-FUNCTIONS_H-#*/" = patH := String.toList_ofList (l := patH)
def patCpp : List Char := ['/', '*', '#', '-', 'F', 'U', 'N', 'C', 'T', 'I', 'O', 'N', 'S', '_', 'C', 'P', 'P', '-', '#', '*', '/']
theorem patCpp_eq : ch "/*#-FUNCTIONS_CPP-#*/" = patCpp := String.toList_ofList (l := patCpp)
def patPy : List Char := ['/', '*', '#', '-', 'G', 'E', 'N', 'E', 'R', 'A', 'T', 'E', 'D', '_', 'P', 'Y', 'T', 'H', 'O', 'N', '_', 'B', 'I', 'N', 'D', 'I', 'N', 'G', 'S', '-', '#', '*', '/']
theorem patPy_eq : ch "/*#-GENERATED_PYTHON_BINDINGS-#*/" = patPy := String.toList_ofList (l := patPy)
def patBind : List Char := ['/', '*', '#', '-', 'O', 'P', 'T', 'I', 'O', 'N', 'A', 'L', ' ', 'S', 'P', 'A', 'C', 'E', ' ', 'F', 'O', 'R', ' ', 'P', 'Y', 'T', 'H', 'O', 'N', ' ', 'B', 'I', 'N', 'D', 'I', 'N', 'G', 'S', '-', '#', '*', '/']
theorem patBind_eq : ch "/*#-OPTIONAL SPACE FOR PYTHON BINDINGS-#*/" = patBind := String.toList_ofList (l := patBind)
def patIncl : List Char := ['/', '*', 'O', 'P', 'T', 'I', 'O', 'N', 'A', 'L', ' ', 'P', 'Y', 'B', 'I', 'N', 'D', '1', '1', ' ', 'I', 'N', 'C', 'L', 'U', 'D', 'E', ' ', 'P', 'O', 'I', 'N', 'T', '*', '/']
theorem patIncl_eq : ch "/*OPTIONAL PYBIND11 INCLUDE POINT*/" = patIncl := String.toList_ofList (l := patIncl)
def textIncl1 : List Char := ['#', 'i', 'n', 'c', 'l', 'u', 'd', 'e', ' ', '<', 'p', 'y', 'b', 'i', 'n', 'd', '1', '1', '/', 'p', 'y', 'b', 'i', 'n', 'd', '1', '1', '.', 'h', '>']
theorem textIncl1_eq : ch "#include <pybind11/pybind11.h>" = textIncl1 := String.toList_ofList (l := textIncl1)
def textIncl2 : List Char := ['#', 'i', 'n', 'c', 'l', 'u', 'd', 'e', ' ', '<', 'p', 'y', 'b', 'i', 'n', 'd', '1', '1', '/', 'e', 'i', 'g', 'e', 'n', '.', 'h', '>']
theorem textIncl2_eq : ch "#include <pybind11/eigen.h>" = textIncl2 := String.toList_ofList (l := textIncl2)

end Thunder.Text
