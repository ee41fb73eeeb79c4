/-
Exceptions, dictionaries and the file system seen by the modelled code.
-/
import Verif.Py.Str

namespace Py

/-- Exception classes raised (or let through) by the modelled code. -/
inductive Err
  | ValueError | IndexError | KeyError | TypeError | AttributeError | UnboundLocalError
  | ZeroDivisionError | FileNotFoundError | OSError | StopIteration | NotImplementedError
  | LinAlgError
  deriving DecidableEq, Repr

/-- Turn `none` into a given exception. -/
def orErr (e : Err) : Option α → Except Err α
  | some a => .ok a
  | none => .error e

/-! ### Dictionaries: insertion ordered association lists -/

/-- A Python `dict`. -/
abbrev Dict (K V : Type*) := List (K × V)

namespace Dict
variable {K V : Type*} [DecidableEq K]

/-- `d[k] = v`: replace in place or append. -/
def set (d : Dict K V) (k : K) (v : V) : Dict K V :=
  if d.any (fun e => e.1 = k) then d.map (fun e => if e.1 = k then (k, v) else e) else d ++ [(k, v)]

/-- `d.get(k)`. -/
def get (d : Dict K V) (k : K) : Option V := (d.find? (fun e => e.1 = k)).map (·.2)

/-- `list(d.keys())`. -/
def keys (d : Dict K V) : List K := d.map (·.1)

/-- `list(d.values())`. -/
def values (d : Dict K V) : List V := d.map (·.2)

end Dict

/-! ### File system -/

/-- What a path refers to. -/
inductive Node
  | file (content : Str)
  | dir
  deriving DecidableEq, Repr

/-- A file system: nodes, and which paths the process is allowed to write. -/
structure FS where
  node : Str → Option Node
  perm : Str → Bool

/-- Part of a path before the last `/` (`none` if there is no `/`). -/
def parent (p : Str) : Option Str :=
  match p.reverse.dropWhile (· ≠ '/') with
  | [] => none
  | _ :: r => some r.reverse

/-- The parent directory of `p` exists (or `p` is relative without `/`). -/
def FS.parentOk (fs : FS) (p : Str) : Bool :=
  match parent p with
  | none => true
  | some [] => true
  | some d => fs.node d = some .dir

/-- `open(p, 'w')` succeeds. -/
def FS.canWrite (fs : FS) (p : Str) : Bool :=
  fs.perm p && fs.parentOk p && (fs.node p != some .dir)

/-- Replace the node at `p`. -/
def FS.put (fs : FS) (p : Str) (n : Node) : FS :=
  { fs with node := fun q => if q = p then some n else fs.node q }

/-- A computation that may raise and may change the file system; changes made before an exception persist. -/
def PyM (α : Type) := FS → Except Err α × FS

namespace PyM

protected def pure (a : α) : PyM α := fun fs => (.ok a, fs)

protected def bind (m : PyM α) (f : α → PyM β) : PyM β := fun fs =>
  match m fs with
  | (.ok a, fs') => f a fs'
  | (.error e, fs') => (.error e, fs')

instance : Monad PyM where
  pure := PyM.pure
  bind := PyM.bind

/-- `raise e`. -/
def raise (e : Err) : PyM α := fun fs => (.error e, fs)

/-- Lift a pure computation that may raise. -/
def lift (x : Except Err α) : PyM α := fun fs => (x, fs)

/-- Read the file system. -/
def getFS : PyM FS := fun fs => (.ok fs, fs)

@[simp] theorem pure_run (a : α) (fs : FS) : (pure a : PyM α) fs = (.ok a, fs) := rfl
@[simp] theorem raise_run (e : Err) (fs : FS) : (raise e : PyM α) fs = (.error e, fs) := rfl
@[simp] theorem lift_run (x : Except Err α) (fs : FS) : lift x fs = (x, fs) := rfl
@[simp] theorem getFS_run (fs : FS) : getFS fs = (.ok fs, fs) := rfl
theorem bind_run (m : PyM α) (f : α → PyM β) (fs : FS) :
    (m >>= f) fs = match m fs with
      | (.ok a, fs') => f a fs'
      | (.error e, fs') => (.error e, fs') := rfl
theorem bind_ok {m : PyM α} {f : α → PyM β} {fs fs' : FS} {a : α} (h : m fs = (.ok a, fs')) :
    (m >>= f) fs = f a fs' := by rw [bind_run, h]
theorem bind_err {m : PyM α} {f : α → PyM β} {fs fs' : FS} {e : Err} (h : m fs = (.error e, fs')) :
    (m >>= f) fs = (.error e, fs') := by rw [bind_run, h]

end PyM

/-- `with open(p) as f: f.read()`: universal newlines; a missing file raises FileNotFoundError, a directory OSError. -/
def readText (p : Str) : PyM Str := fun fs =>
  match fs.node p with
  | some (.file c) => (.ok (univNL c), fs)
  | some .dir => (.error .OSError, fs)
  | none => (.error .FileNotFoundError, fs)

/-- `with open(p, 'w') as f: f.write(c)`. A path that cannot be opened raises and changes nothing. -/
def writeText (p c : Str) : PyM Unit := fun fs =>
  if fs.canWrite p then (.ok (), fs.put p (.file c)) else (.error .OSError, fs)

end Py
