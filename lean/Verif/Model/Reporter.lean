import Verif.Basic

/-!
# The Reporter

`Reporter` – utils/reporter/reporter.py:13-236.  Python's `logging`, `pprint` and `tqdm` are
represented by what they are asked to do; formatting is not modelled.
-/

namespace PySwarms.Rep

/-- What happens when the file at a path is opened, parsed as YAML and handed to
`logging.config.dictConfig` (reporter.py:180-182).  `badType`: some step raises `TypeError`, e.g.
`dictConfig(None)` for an empty file.  `fails`: another exception (a directory, no permission,
malformed YAML, an invalid configuration). -/
inductive FileResult
  | missing
  | applied (config : Nat)
  | badType
  | fails (e : Err)
  deriving DecidableEq, Repr

/-- The world around a Reporter: working directory, the environment variable `LOG_CFG`, the files,
and which paths can be opened for appending (reporter.py:83, 178-182). -/
structure World where
  cwd : String
  logCfg : Option String
  file : String → FileResult
  writable : String → Bool

/-- The logging configuration that a Reporter has installed: the configuration from a file, or
`_default_config`, of which only the file name of the file handler depends on the arguments
(reporter.py:86-117). -/
inductive Installed
  | fromFile (config : Nat)
  | default (filename : String)
  deriving DecidableEq, Repr

/-- Python's `a or b` for an optional string: the empty string is false (reporter.py:81-83, 178). -/
def pyOr (a : Option String) (b : Option String) : Option String :=
  match a with
  | none => b
  | some s => if s = "" then b else some s

/-- `log_path or (os.getcwd() + "/report.log")` (reporter.py:83). -/
def effectiveLogPath (w : World) (logPath : Option String) : String :=
  match pyOr logPath none with
  | some s => s
  | none => w.cwd ++ "/report.log"

/-- `_load_defaults` (reporter.py:186-188): the file handler opens the log file at once, and
`dictConfig` turns a failure into `ValueError`. -/
def loadDefaults (w : World) (logPath : String) : Except Err Installed :=
  if w.writable logPath then .ok (.default logPath) else .error .valueError

/-- `_setup_logger` (reporter.py:164-184): `open(None)` raises `TypeError`, `open("")` and a missing
file `FileNotFoundError`; both select the defaults. -/
def setupLogger (w : World) (logPath : String) (path : Option String) : Except Err Installed :=
  match pyOr path w.logCfg with
  | none => loadDefaults w logPath
  | some v =>
    if v = "" then loadDefaults w logPath
    else
      match w.file v with
      | .missing => loadDefaults w logPath
      | .badType => loadDefaults w logPath
      | .fails e => .error e
      | .applied c => .ok (.fromFile c)

/-- A Reporter object and what it has emitted: printed messages, log records, and the state of its
progress bar (`none`: no attribute `t` yet; otherwise the total and the number of postfixes set)
(reporter.py:81-118). -/
structure Reporter where
  logPath : String
  installed : Installed
  printed : List String := []
  logged : List (Int × String) := []
  bar : Option (Nat × Nat) := none

/-- `Reporter.__init__` (reporter.py:62-118). -/
def create (w : World) (logPath configPath : Option String) : Except Err Reporter :=
  let lp := effectiveLogPath w logPath
  match setupLogger w lp configPath with
  | .error e => .error e
  | .ok c => .ok { logPath := lp, installed := c }

/-- A call of a method of a Reporter (reporter.py:120-236). -/
inductive Call
  | print (msg : String) (verbosity threshold : Int)
  | log (msg : String) (lvl : Int)
  | pbar (iters : Nat)
  | hook
  deriving DecidableEq

/-- The effect of a call: `log` (reporter.py:120-139), `print` (reporter.py:141-162), `pbar`
(reporter.py:190-218), `hook` (reporter.py:220-236: `self.t` does not exist before the first
`pbar`). -/
def step (r : Reporter) : Call → Reporter × Except Err Unit
  | .print msg v t => if v > t then ({ r with printed := r.printed ++ [msg] }, .ok ()) else (r, .ok ())
  | .log msg lvl => ({ r with logged := r.logged ++ [(lvl, msg)] }, .ok ())
  | .pbar k => ({ r with bar := some (k, 0) }, .ok ())
  | .hook =>
    match r.bar with
    | none => (r, .error .attributeError)
    | some (k, j) => ({ r with bar := some (k, j + 1) }, .ok ())

/-- A sequence of calls; exceptions are caught by the caller (reporter.py:120-236). -/
def run (r : Reporter) (calls : List Call) : Reporter := calls.foldl (fun r c => (step r c).1) r

end PySwarms.Rep
