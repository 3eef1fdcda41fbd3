import Verif.Model.Write
import Verif.Model.Progress

/-!
# The template method `compute`, its messages, and the verbosity of the script

`compute` of correlation.py measures the time spent and logs it. The clock is a parameter: the model makes no assumption on
its readings. Of `Timer` (atooms) only the difference between the readings at `stop()` and `start()` is used. The methods
`_setup_arrays`, `_compute`, `analyze` and `write` are parameters that change the object (or the files) and may raise.
-/

namespace PP

/-- The messages of `compute`, atooms/postprocessing/correlation.py:501,507-510,515-521, with the numbers they contain: frames
used as time origins and frames, time spent (seconds) and shares of it (percent). -/
inductive LogMsg (K : Type)
  | setup
  | computing
  | origins (used total : ℕ)
  | outputFile
  | done (seconds setup compute : K)
  | blank
deriving DecidableEq

/-- The level of the messages of `compute`: all are sent by `_log.info` (atooms/postprocessing/correlation.py:501-521). -/
def LogMsg.level {K : Type} (_ : LogMsg K) : ℕ := 20

section
variable {K : Type} [Field K] [DecidableEq K] {O R : Type}

/-- `compute`, atooms/postprocessing/correlation.py:493-523: final state of the object, messages, and what is returned.
`clock i` is the `i`-th reading of the clock, `n` the length of the trajectory. -/
def computeTemplate (setup run : O → O × Py Unit) (result : O → R) (skip n : ℕ) (clock : ℕ → K) (o : O) :
    O × List (LogMsg K) × Py R :=
  match setup o with
  | (o, .error e) => (o, [.setup], .error e)
  | (o, .ok ()) =>
    match pyRange 0 n skip with
    | .error e => (o, [.setup, .computing], .error e)
    | .ok r =>
      match run o with
      | (o, .error e) => (o, [.setup, .computing, .origins r.length n], .error e)
      | (o, .ok ()) =>
        let t0 := clock 1 - clock 0
        let t1 := clock 3 - clock 2
        if t0 + t1 = 0 then (o, [.setup, .computing, .origins r.length n, .outputFile], .error .zeroDivisionError)
        else (o, [.setup, .computing, .origins r.length n, .outputFile,
          .done (t0 + t1) (t0 / (t0 + t1) * 100) (t1 / (t0 + t1) * 100), .blank], .ok (result o))

/-- `do()`, atooms/postprocessing/correlation.py:644-661, for a function that is computed: final state of the object, files,
and the exception if any. An `ImportError` of `analyze` is ignored. -/
def doTemplate {F : Type} (setup run : O → O × Py Unit) (result : O → R) (skip n : ℕ) (clock : ℕ → K)
    (analyze : O → O × Py Unit) (write : O → F → F × Py Unit) (o : O) (fs : F) : O × F × Py Unit :=
  match computeTemplate setup run result skip n clock o with
  | (o, _, .error e) => (o, fs, .error e)
  | (o, _, .ok _) =>
    match analyze o with
    | (o, .ok ()) => (o, write o fs)
    | (o, .error .importError) => (o, write o fs)
    | (o, .error e) => (o, fs, .error e)

end

/-- The options of the script that set global variables, bin/pp.py:27,30-32. -/
structure ScriptOpts where
  output : Option (List PathPiece)
  quiet : Bool
  verbose : Bool
  debug : Bool

/-- The global variables set by the script, bin/pp.py:46-66: `core.pp_output_path`, the levels of the loggers `atooms` and
`atooms.postprocessing`, and `progress.active`. -/
structure ScriptState where
  path : List PathPiece
  levelAtooms : ℕ
  levelPP : ℕ
  active : Bool

/-- The statements of the script before the command is dispatched, bin/pp.py:27,46-66. `active` is the value of
`progress.active` before, `False` (atooms/postprocessing/progress.py:13). -/
def ppScript (active : Bool) (o : ScriptOpts) : ScriptState :=
  let path := o.output.getD ppOutputPath
  if o.verbose then ⟨path, 40, 20, true⟩
  else if o.quiet then ⟨path, 40, 40, false⟩
  else if o.debug then ⟨path, 40, 10, active⟩
  else ⟨path, 40, 20, true⟩

/-- The messages that a logger of the package displays, those of its level or above (`setup_logging`, bin/pp.py:48-66). -/
def ScriptState.shown {K : Type} (s : ScriptState) (l : List (LogMsg K)) : List (LogMsg K) :=
  l.filter fun m => decide (s.levelPP ≤ m.level)

/-- The output path of a correlation function created by the script, for a trajectory with a file
(atooms/postprocessing/correlation.py:209-213). -/
def ScriptState.outputPath (s : ScriptState) (given : Option (List PathPiece)) : List PathPiece := given.getD s.path

end PP
