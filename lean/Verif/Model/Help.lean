import Verif.Model.Text

/-!
# The help messages of the command line: atooms/postprocessing/core.py, class `CustomHelpFormatter`

`textwrap.wrap` of the standard library is a parameter; `str.splitlines` is left out, the rows are given.
-/

namespace PP

/-- `nargs` of an argument of argparse: not given, `'?'`, `'*'`, or anything else (used in
atooms/postprocessing/core.py:33-34). -/
inductive Nargs
  | unset
  | optional
  | zeroOrMore
  | other
deriving DecidableEq

/-- What `CustomHelpFormatter._get_help_string` looks at in an argument, atooms/postprocessing/core.py:29-36: the help text,
whether the default is `argparse.SUPPRESS`, whether there are option strings, and `nargs`. -/
structure HelpAction where
  help : Str
  suppressed : Bool
  isOption : Bool
  nargs : Nargs

/-- Whether the string `p` occurs in `s` (the operator `in` at atooms/postprocessing/core.py:31). -/
def pyIn (p : Str) : Str → Bool
  | [] => p.isEmpty
  | a :: s => p.isPrefixOf (a :: s) || pyIn p s

/-- `_get_help_string`, atooms/postprocessing/core.py:29-36. -/
def getHelpString (a : HelpAction) : Str :=
  if !pyIn "%(default)".toList a.help then
    if !a.suppressed then
      if a.isOption || a.nargs ∈ [Nargs.optional, Nargs.zeroOrMore] then a.help ++ " [default: %(default)s]".toList
      else a.help
    else a.help
  else a.help

/-- The class `\s` of regular expressions, the blanks of one-byte text (atooms/postprocessing/core.py:48-49). -/
def isBlank (c : Char) : Bool := c ∈ [' ', '\t', '\n', '\r', '\x0b', '\x0c']

/-- The class `[0-9\-]`, atooms/postprocessing/core.py:48. -/
def isMark (c : Char) : Bool := c.isDigit || c == '-'

/-- `search.end()`, atooms/postprocessing/core.py:48-52. All parts of the regular expression may be empty, so that it always
matches at the beginning of the line. -/
def markEnd (line : Str) : ℕ :=
  let a := (line.dropWhile isBlank).dropWhile isMark
  let b := match a with
    | '.' :: t => t
    | t => t
  line.length - (b.dropWhile isBlank).length

/-- `__add_whitespace`, atooms/postprocessing/core.py:38-41. -/
def addWhitespace (idx n : ℕ) (text : Str) : Str := if idx = 0 then text else List.replicate n ' ' ++ text

/-- `_split_lines`, atooms/postprocessing/core.py:43-56. A blank row becomes the string `" "`, whose only character is then
an item of the result. -/
def splitLines (wrap : Str → ℕ → List Str) (rows : List Str) (width : ℕ) : List Str :=
  rows.flatMap fun line =>
    if line.all isBlank then [[' ']]
    else (wrap line width).mapIdx fun i x => addWhitespace i (markEnd line) x

end PP
