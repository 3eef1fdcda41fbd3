import Verif.Model.Text

/-!
# Model of the text written by `write` and of the paths of the output files

Numbers are formatted outside of the model: a row of data is the string that `numpy.savetxt` writes, without newline.
-/

namespace PP

/-- `grid_name` and the beginning of the comment line of `write`: `self.short_name.split('(')[1][:-1].split(',')`
(atooms/postprocessing/correlation.py:569-579, 609-610). -/
def gridName (shortName : Str) : Py (List Str) := do
  let p ← pyGet (pySplit '(' shortName) 1
  return pySplit ',' p.dropLast

/-- The columns named in the header, atooms/postprocessing/correlation.py:611. -/
def headerColumns (shortName : Str) : Py (List Str) := do
  let vs ← gridName shortName
  return vs ++ [shortName]

/-- One line of metadata, `comment + '{}: {}\n'.format(key, value)` (atooms/postprocessing/helpers.py:262-264). -/
def metaLine (key value : Str) : Str := "# ".toList ++ key ++ ": ".toList ++ value ++ ['\n']

/-- `_dump` as called by `write`, atooms/postprocessing/helpers.py:231-265: entries that are `None` are left out. The
package `medepy` that may replace it (correlation.py:16-19) is not modelled. -/
def dumpHeader (title : Str) (columns : List Str) (date command version : Str) (parents : Option Str) : Str :=
  metaLine "title".toList title ++
  metaLine "columns".toList (List.intercalate ", ".toList columns) ++
  metaLine "date".toList date ++
  metaLine "command".toList command ++
  metaLine "version".toList version ++
  (match parents with
    | some p => metaLine "parents".toList p
    | none => [])

/-- The attributes that `write` puts in the header, the comments set by the user and the results of `analyze`, already
converted to strings (atooms/postprocessing/correlation.py:196-237, 607-629). -/
structure Described where
  longName : Str
  shortName : Str
  tagDescription : Str
  comments : Option Str
  analysis : List (Str × Option Str)
  date : Str
  version : Str
  parents : Option Str

/-- The title, atooms/postprocessing/correlation.py:612-616. -/
def Described.title (o : Described) : Str :=
  o.longName ++ [' '] ++ o.shortName ++ [' '] ++ (if o.tagDescription.length > 0 then "of".toList else []) ++ [' '] ++
    o.tagDescription

/-- The results of the analysis, without those that are `None`, atooms/postprocessing/correlation.py:625-629. -/
def analysisText (a : List (Str × Option Str)) : Str :=
  a.flatMap fun e => match e.2 with
    | some f => "# ".toList ++ e.1 ++ ": ".toList ++ f ++ ['\n']
    | none => []

/-- The text of the file written by `write`, atooms/postprocessing/correlation.py:607-642, where `rows` are the lines
of `numpy.savetxt`. -/
def fileText (o : Described) (rows : List Str) : Py Str := do
  let columns ← headerColumns o.shortName
  let header := dumpHeader o.title columns o.date "atooms-pp".toList o.version o.parents
  return header ++ o.comments.getD [] ++ analysisText o.analysis ++ rows.flatMap fun r => r ++ ['\n']

/-- The fields that the output path may contain, atooms/postprocessing/correlation.py:543-548. -/
inductive PathPiece
  | lit (s : Str)
  | symbol
  | shortName
  | longName
  | tag
  | tagDescription
  | filename
deriving DecidableEq

/-- The attributes of a correlation function used to name its file (atooms/postprocessing/correlation.py:543-548). -/
structure Named where
  symbol : Str
  shortName : Str
  longName : Str
  tag : Str
  tagDescription : Str
  filename : Str

/-- `replace(' ', '_')`, atooms/postprocessing/correlation.py:545,547. -/
def underscored (s : Str) : Str := s.map fun c => if c = ' ' then '_' else c

/-- `output_path.format(...)` for one field, atooms/postprocessing/correlation.py:543-548. -/
def PathPiece.value (o : Named) : PathPiece → Str
  | .lit s => s
  | .symbol => o.symbol
  | .shortName => o.shortName
  | .longName => underscored o.longName
  | .tag => o.tag
  | .tagDescription => underscored o.tagDescription
  | .filename => o.filename

/-- `_output_file` for an output path which is not `None`, atooms/postprocessing/correlation.py:536-555. -/
def outputFileOf (path : List PathPiece) (o : Named) : Str := outputFile (path.flatMap (PathPiece.value o))

/-- `core.pp_output_path`, atooms/postprocessing/core.py:16. -/
def ppOutputPath : List PathPiece := [.filename, .lit ".pp.".toList, .symbol, .lit ".".toList, .tag]

/-- A `Chi4SelfOverlap` object: its own output path and those of the two objects that it creates, with their names
(atooms/postprocessing/chi4t.py:32-51). -/
structure Chi4Files where
  path : List PathPiece
  pathAverage : List PathPiece
  pathVariance : List PathPiece
  tag : Str
  tagDescription : Str
  filename : Str

/-- The constructor, atooms/postprocessing/chi4t.py:37-51 and correlation.py:209-214, for a trajectory with a file. -/
def Chi4Files.init (filename : Str) : Chi4Files :=
  ⟨ppOutputPath, ppOutputPath, ppOutputPath, [], "the whole system".toList, filename⟩

/-- `cf.output_path = path`, for the object itself or through `Partial` (atooms/postprocessing/partial.py:55-59). -/
def Chi4Files.setPath (path : List PathPiece) (o : Chi4Files) : Chi4Files := { o with path := path }

/-- The files written by `write` after `compute`, which copies the tag but not the description of the tag
(atooms/postprocessing/chi4t.py:32-34, 44-51, 59-60, 79-83). -/
def Chi4Files.files (o : Chi4Files) : List Str :=
  [outputFileOf o.path ⟨"chi4qs".toList, "chi_4(t)".toList, "dynamic susceptibility of self overlap".toList, o.tag,
      o.tagDescription, o.filename⟩,
    outputFileOf o.pathAverage ⟨"qsu".toList, "Q^u(t)".toList, "Average of self overlap, not normalized".toList, o.tag,
      "the whole system".toList, o.filename⟩,
    outputFileOf o.pathVariance ⟨"q2su".toList, "Q_2^u(t)".toList, "Variance of self overlap, not normalized".toList,
      o.tag, "the whole system".toList, o.filename⟩]

/-- The names of the partial functions of a one-body function, atooms/postprocessing/partial.py:30-36. `str(isp)` is
the species. -/
def partialNamed1 (o : Named) (species : List Str) : List Named :=
  species.map fun a => { o with tag := a, tagDescription := "species ".toList ++ a }

/-- The names of the partial functions of a two-body function, atooms/postprocessing/partial.py:38-49. -/
def partialNamed2 (o : Named) (species : List Str) : List Named :=
  species.flatMap fun a => species.map fun b =>
    { o with tag := a ++ ['-'] ++ b, tagDescription := "species pair ".toList ++ a ++ ['-'] ++ b }

end PP
