import Verif.Model.Py

/-!
# Progress bars: atooms/postprocessing/progress.py

Of tqdm only the attributes `n` (position) and `disable` are modelled; its `update(k)` adds `k` to the position of a bar that is
not disabled.
-/

namespace PP

/-- An object of the fallback class, atooms/postprocessing/progress.py:22-23. -/
structure NoBar (α : Type) where
  iterable : Option (List α)

/-- `NoProgressBar.__init__`, atooms/postprocessing/progress.py:22-23: all other arguments are ignored. -/
def NoBar.init {α κ : Type} (iterable : Option (List α)) (_kwargs : List κ) : NoBar α := ⟨iterable⟩

/-- `NoProgressBar.__iter__`, atooms/postprocessing/progress.py:34-37: the objects of a loop over the bar, in order. -/
def NoBar.iter {α : Type} (b : NoBar α) : Py (List α) :=
  match b.iterable with
  | none => .error .typeError
  | some l => .ok (l.foldl (fun acc a => acc ++ [a]) [])

/-- `NoProgressBar.__len__`, atooms/postprocessing/progress.py:31-32. -/
def NoBar.len {α : Type} (b : NoBar α) : Py ℕ :=
  match b.iterable with
  | none => .error .typeError
  | some l => .ok l.length

/-- `NoProgressBar.update`, atooms/postprocessing/progress.py:25-26; the argument has no default. -/
def NoBar.update {α : Type} (value : Option ℤ) (b : NoBar α) : Py (NoBar α) :=
  match value with
  | none => .error .typeError
  | some _ => .ok b

/-- A `with` statement on a bar, atooms/postprocessing/progress.py:39-44: `__exit__` returns `False`, so that an exception of
the body is raised again. -/
def NoBar.withBar {α β : Type} (b : NoBar α) (body : NoBar α → Py β) : Py β :=
  match body b with
  | .error e => .error e
  | .ok r => .ok r

/-- An object of the class derived from tqdm, atooms/postprocessing/progress.py:50-66. -/
structure Bar (α : Type) where
  items : List α
  n : ℤ
  disable : Bool

/-- `CustomProgressBar.__init__`, atooms/postprocessing/progress.py:54-62: `active` is the keyword argument, if given, and
`moduleActive` the variable of the module. -/
def Bar.init {α : Type} (moduleActive : Bool) (active : Option Bool) (items : List α) : Bar α :=
  let a := match active with
    | some a => a
    | none => moduleActive
  ⟨items, 0, !a⟩

/-- `tqdm.update`, called at atooms/postprocessing/progress.py:66. -/
def Bar.tqdmUpdate {α : Type} (k : ℤ) (b : Bar α) : Bar α := if b.disable then b else { b with n := b.n + k }

/-- `CustomProgressBar.update`, atooms/postprocessing/progress.py:64-66. -/
def Bar.update {α : Type} (n : Option ℤ) (b : Bar α) : Py (Bar α) :=
  if !b.disable then .ok (b.tqdmUpdate (n.getD 1 - b.n)) else .ok b

end PP
