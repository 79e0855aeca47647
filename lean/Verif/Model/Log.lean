import Verif.Model.Cycle

/-!
# Log levels (`utils/utilities.py:93-194`)

The state is the level of the loggers `fastsim` and `fastsim_core`, plus that of the root logger, which decides
for a logger whose own level is `NOTSET`. Handlers, filters, `logging.disable` and intermediate loggers are left out.
-/

namespace Fastsim

/-- `level` attributes of the loggers. -/
structure LogState where
  fs : Int
  core : Int
  root : Int
  deriving DecidableEq, Repr

/-- The argument `level: str | int`. -/
inductive LevelArg where
  | str (s : String)
  | int (n : Int)

/-- utilities.py:121-130 `allowed_args` -/
def allowedArgs : List (String × Int) :=
  [("CRITICAL", 50), ("ERROR", 40), ("WARNING", 30), ("INFO", 20), ("DEBUG", 10), ("NOTSET", 0), ("NONE", 51)]

/-- `logging._nameToLevel` of the standard library. -/
def nameToLevel : List (String × Int) :=
  [("CRITICAL", 50), ("FATAL", 50), ("ERROR", 40), ("WARN", 30), ("WARNING", 30), ("INFO", 20), ("DEBUG", 10),
    ("NOTSET", 0)]

/-- utilities.py:131-141: check of the argument and conversion to a number. `String.toUpper` converts ASCII
letters only. -/
def levelNumber : LevelArg → Except PyErr Int
  | .str s =>
    if s.toUpper ∈ allowedArgs.map Prod.fst then
      match nameToLevel.lookup s.toUpper with
      | some n => .ok n
      | none => .error .keyError
    else .error .assertionError
  | .int n => if n ∈ allowedArgs.map Prod.snd then .ok n else .error .assertionError

/-- utilities.py:93-150 `set_log_level`: the previous level of `fastsim` and the new state. -/
def setLogLevel (level : LevelArg) (st : LogState) : Except PyErr (Int × LogState) :=
  match levelNumber level with
  | .error e => .error e
  | .ok n => .ok (st.fs, { st with
      fs := n
      core := n })

/-- utilities.py:152-162 `disable_logging` -/
def disableLogging (st : LogState) : Except PyErr (Int × LogState) := setLogLevel (.int 51) st

/-- utilities.py:164-177 `enable_logging` -/
def enableLogging (level : Option LevelArg) (st : LogState) : Except PyErr LogState := do
  let r ← setLogLevel (level.getD (.int 30)) st
  .ok r.2

/-- Python code that logs, changes levels, raises, catches and suppresses logging. -/
inductive LogProg where
  | skip
  | seq (p q : LogProg)
  /-- a message of the given level to `fastsim` (or to `fastsim_core`) -/
  | log (core : Bool) (level : Int)
  /-- `set_log_level(a)` -/
  | setLevel (a : LevelArg)
  /-- `logging.getLogger(...).setLevel(n)` -/
  | direct (core : Bool) (n : Int)
  | throw (e : PyErr)
  /-- `try: p` / `except: q` -/
  | catching (p q : LogProg)
  /-- `with suppress_logging(): p` -/
  | suppress (p : LogProg)

/-- `logger.isEnabledFor(level)` of the standard library: a logger at `NOTSET` follows the root logger. -/
def LogState.enabled (st : LogState) (core : Bool) (level : Int) : Bool :=
  let own := if core then st.core else st.fs
  decide ((if own = 0 then st.root else own) ≤ level)

/-- The outcome of running code: final state, exception if any, and the levels of the messages shown. -/
structure LogOut where
  st : LogState
  exc : Option PyErr
  shown : List Int

/-- Execution; `suppress` is utilities.py:179-194, a `try`/`finally` around the body: if restoring raises, that
exception replaces the one of the body. -/
def LogProg.run : LogProg → LogState → LogOut
  | .skip, st => ⟨st, none, []⟩
  | .seq p q, st =>
    let r := p.run st
    match r.exc with
    | some e => ⟨r.st, some e, r.shown⟩
    | none => let r' := q.run r.st; ⟨r'.st, r'.exc, r.shown ++ r'.shown⟩
  | .log core level, st => ⟨st, none, if st.enabled core level then [level] else []⟩
  | .setLevel a, st =>
    match setLogLevel a st with
    | .ok r => ⟨r.2, none, []⟩
    | .error e => ⟨st, some e, []⟩
  | .direct core n, st =>
    ⟨if core then { st with core := n } else { st with fs := n }, none, []⟩
  | .throw e, st => ⟨st, some e, []⟩
  | .catching p q, st =>
    let r := p.run st
    match r.exc with
    | none => r
    | some _ => let r' := q.run r.st; ⟨r'.st, r'.exc, r.shown ++ r'.shown⟩
  | .suppress p, st =>
    match disableLogging st with
    | .error e => ⟨st, some e, []⟩
    | .ok (prev, st1) =>
      let r := p.run st1
      match enableLogging (some (.int prev)) r.st with
      | .ok st2 => ⟨st2, r.exc, r.shown⟩
      | .error e => ⟨r.st, some e, r.shown⟩

end Fastsim
