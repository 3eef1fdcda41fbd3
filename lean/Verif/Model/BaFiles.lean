import Verif.Model.BondAngle
import Verif.Model.Relax

/-!
# Model of the files written by atooms/postprocessing/ba.py

The default cut-offs are found by computing the partial radial distribution functions with `Partial.do`, which writes
them. The calculations themselves are arbitrary here.
-/

namespace PP

/-- The loop at the end of `Partial.do`, atooms/postprocessing/partial.py:104-111 (also `Partial.write`, 92-94): each
function is written to its file, up to the first exception. `path` is the output path of all of them. -/
def writeAll {R : Type} (path : Option (List PathPiece)) (text : Named → R → Py Str) :
    List (Named × R) → List (Str × Str) → List (Str × Str) × Py Unit
  | [], fs => (fs, .ok ())
  | (o, r) :: l, fs =>
    match writeText (outputFileOpt path o) (text o r) fs with
    | (fs, .error e) => (fs, .error e)
    | (fs, .ok ()) => writeAll path text l fs

/-- The attributes of a radial distribution function that name its file (atooms/postprocessing/gr.py:86-88,
correlation.py:208-209). -/
def grPartialNamed (filename : Str) : Named :=
  ⟨"gr".toList, "g(r)".toList, "radial distribution function".toList, [], "the whole system".toList, filename⟩

section
variable {K : Type} [Field K] [LinearOrder K] [FloorRing K]

/-- `_default_rcut`, atooms/postprocessing/ba.py:20-46: `gr dr` computes the partial radial distribution functions with
spacing `dr`, in the order of the pairs of species, or raises; `text` builds the text of a file. The functions are new
objects, with the default output path. `none`: no entry in the dictionary. -/
def defaultRcutFiles (filename : Option Str) (species : List Str) (gr : K → Py (List (List K × List K)))
    (text : Named → List K × List K → Py Str) (fs : List (Str × Str)) : List (Str × Str) × Py (List (Option K)) :=
  match gr (1 / 10) with
  | .error e => (fs, .error e)
  | .ok rs =>
    match writeAll (initOutputPath filename none) text ((partialNamed2 (grPartialNamed (filename.getD "None".toList)) species).zip rs) fs with
    | (fs, .error e) => (fs, .error e)
    | (fs, .ok ()) => (fs, rs.mapM fun r => baDefaultRcut r.1 r.2)

/-- `do(update)` of the bond-angle distribution (atooms/postprocessing/ba.py:64-117, correlation.py:644-661): the
cut-offs are those given, or the default ones; `hist` computes the distribution with them, or raises; it is then written
to `file`. -/
def baDoFiles {R : Type} (file : Option Str) (trajTime : ℤ) (mtime : Str → Option ℤ) (filename : Option Str)
    (species : List Str) (gr : K → Py (List (List K × List K))) (grText : Named → List K × List K → Py Str)
    (rcut : Option (List (Option K))) (hist : List (Option K) → Py R) (text : R → Py Str) (update : Bool)
    (fs : List (Str × Str)) : List (Str × Str) × Py Unit :=
  match (if update then needUpdateAt file trajTime mtime else .ok true) with
  | .error e => (fs, .error e)
  | .ok false => (fs, .ok ())
  | .ok true =>
    match ((match rcut with
      | some c => (fs, .ok c)
      | none => defaultRcutFiles filename species gr grText fs) : List (Str × Str) × Py (List (Option K))) with
    | (fs, .error e) => (fs, .error e)
    | (fs, .ok c) =>
      match hist c with
      | .error e => (fs, .error e)
      | .ok r => writeText file (text r) fs

end

end PP
