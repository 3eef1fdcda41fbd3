import Verif.Model.Py

/-!
# Model of the string operations, of `_output_file` and of the tags

Strings are lists of characters.
-/

namespace PP

/-- Strings (e.g. `self.tag`, atooms/postprocessing/correlation.py:209). -/
abbrev Str := List Char

/-- `s.replace(old, new)` for a non-empty `old`: occurrences are searched from the left and do not overlap
(atooms/postprocessing/correlation.py:552, filter.py:35-42). The first argument is the number of characters still
to be examined. -/
def pyReplaceAux (old new : Str) : ℕ → Str → Str
  | 0, s => s
  | _ + 1, [] => []
  | n + 1, c :: s =>
    if old.isPrefixOf (c :: s) then new ++ pyReplaceAux old new n ((c :: s).drop old.length)
    else c :: pyReplaceAux old new n s

/-- `s.replace(old, new)` (atooms/postprocessing/correlation.py:552, filter.py:35-42). -/
def pyReplace (old new s : Str) : Str := pyReplaceAux old new s.length s

/-- `s.strip(p)` for a single character `p` (atooms/postprocessing/correlation.py:553). -/
def pyStrip (p : Char) (s : Str) : Str :=
  ((s.dropWhile (· == p)).reverse.dropWhile (· == p)).reverse

/-- `s.split('/')` (atooms/postprocessing/correlation.py:551) or `s.split(',')` (filter.py:51). -/
def pySplit (c : Char) (s : Str) : List Str := s.splitOn c

/-- `'/'.join(l)` (atooms/postprocessing/correlation.py:554). -/
def pyJoin (c : Char) (l : List Str) : Str := List.intercalate [c] l

/-- The body of the loop over the punctuation marks, atooms/postprocessing/correlation.py:551-554. -/
def cleanStep (filename : Str) (punct : Char) : Str :=
  let subpaths := pySplit '/' filename
  let last := subpaths.getLastD []
  pyJoin '/' (subpaths.dropLast ++ [pyStrip punct (pyReplace [punct, punct] [punct] last)])

/-- `_output_file` for an output path already interpolated, atooms/postprocessing/correlation.py:549-555. -/
def outputFile (filename : Str) : Str := ['.', '_', '-'].foldl cleanStep filename

/-- The default output path after interpolation: `{trajectory.filename}.pp.{symbol}.{tag}`
(atooms/postprocessing/core.py:16, correlation.py:543-548). -/
def defaultPath (trajectory symbol tag : Str) : Str :=
  trajectory ++ ".pp.".toList ++ symbol ++ ".".toList ++ tag

/-- The tag that `Filter` gives to a condition, atooms/postprocessing/filter.py:35-42. -/
def filterTag (condition : Str) : Str :=
  let tag := pyReplace " ".toList [] condition
  let tag := pyReplace "and".toList "_".toList tag
  let tag := pyReplace "or".toList "+".toList tag
  let tag := pyReplace "\"".toList [] tag
  let tag := pyReplace "'".toList [] tag
  let tag := pyReplace "==".toList [] tag
  let tag := pyReplace "!=".toList ".not".toList tag
  pyReplace ",".toList "-".toList tag

end PP
