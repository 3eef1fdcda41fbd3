import Verif.Model.Text
import Verif.Model.Correlation

/-!
# The script bin/acf.py
-/

namespace PP

/-- Statements at the top level of a script that bind names: `import a.b.c`, `from m import x, y`, a function or an
assignment (bin/acf.py:3-26). -/
inductive Binding
  | importModule (dotted : List Str)
  | fromImport (names : List Str)
  | define (names : List Str)

/-- The names bound by a statement: `import a.b.c` binds `a` only (language reference of python, used in bin/acf.py:3-6). -/
def Binding.names : Binding → List Str
  | .importModule [] => []
  | .importModule (a :: _) => [a]
  | .fromImport l => l
  | .define l => l

/-- The statements of the script that bind names before `main` is called, bin/acf.py:3-24. -/
def acfBindings : List Binding :=
  [.importModule ["sys".toList], .importModule ["numpy".toList],
   .importModule ["atooms".toList, "postprocessing".toList],
   .fromImport ["linear_grid".toList, "logx_grid".toList], .define ["main".toList],
   .importModule ["sys".toList], .fromImport ["OptionParser".toList], .define ["parser".toList],
   .define ["opts".toList, "args".toList]]

/-- `main`, bin/acf.py:8-14, for the numbers read by `numpy.loadtxt` and a set of global names: the lines printed and how it
ends. The names `len`, `range`, `zip`, `print` are built in. -/
def acfMain {K : Type} [Field K] (globals : List Str) (x : List K) : List (ℕ × K) × Py Unit :=
  let tGrid := rangeList 0 x.length 10
  let t := List.range x.length
  if "postprocessing".toList ∈ globals then
    match acf tGrid 1 t x with
    | .error e => ([], .error e)
    | .ok (x, y, _) => (x.zip y, .ok ())
  else ([], .error .nameError)

/-- The script as it is run, bin/acf.py:16-26. -/
def acfScript {K : Type} [Field K] (x : List K) : List (ℕ × K) × Py Unit := acfMain (acfBindings.flatMap Binding.names) x

end PP
