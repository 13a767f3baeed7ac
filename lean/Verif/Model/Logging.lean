import Verif.Model.Paths

/-!
# Model of the log of a run (util.py:119-150, io/core.py:255-268) and of Python's root logger

Modelled of Python's `logging`: the handlers and the level of the root logger, `basicConfig` (does nothing if there are
handlers) and `logging.info` etc. (configure a handler on stderr at the default level if there are none).  Log files are
opened to append.  A message is its level and its text.  Not modelled: messages of other libraries, which go to the same
handlers, and `lut`'s log directory below the working directory.
-/

namespace QM.Logging

open QM.Paths

/-- A message: its level (`DEBUG` 10, `INFO` 20, `WARNING` 30) and its text (util.py:136). -/
abbrev Msg := ℕ × Str

/-- Handlers of the root logger (util.py:142-148). -/
inductive Handler where
  | file (p : Path) | stdout | stderr
deriving DecidableEq, Repr

/-- The root logger of a process, and what was written (util.py:142-150). -/
structure Log where
  handlers : List Handler
  level : ℕ
  files : Path → Option (List Msg)
  stdout : List Msg
  stderr : List Msg

/-- The logger when the process starts: no handlers, level `WARNING` (Python's `logging`; util.py:150). -/
def start (files : Path → Option (List Msg)) : Log := ⟨[], 30, files, [], []⟩

/-- `logging.basicConfig(level=…, handlers=…)` (util.py:150). -/
def basicConfig (s : Log) (hs : List Handler) (level : Option ℕ) : Log :=
  if s.handlers = [] then { s with handlers := hs, level := level.getD s.level } else s

/-- `logging.FileHandler(path)`: the file is opened to append (util.py:143). -/
def openFile (s : Log) (p : Path) : Log :=
  { s with files := fun q => if q = p then some ((s.files p).getD []) else s.files q }

/-- A handler writes a message (util.py:142-148). -/
def deliver (m : Msg) (s : Log) : Handler → Log
  | .file p => { s with files := fun q => if q = p then some ((s.files p).getD [] ++ [m]) else s.files q }
  | .stdout => { s with stdout := s.stdout ++ [m] }
  | .stderr => { s with stderr := s.stderr ++ [m] }

/-- `logging.info(msg)`, `logging.debug(msg)`, … (e.g. io/core.py:268). -/
def emit (s : Log) (m : Msg) : Log :=
  let s := if s.handlers = [] then basicConfig s [.stderr] none else s
  if s.level ≤ m.1 then s.handlers.foldl (deliver m) s else s

/-- `DEBUG if loglevel == "debug" else INFO` (util.py:136). -/
def levelOf (loglevel : Str) : ℕ := if loglevel = "debug".toList then 10 else 20

/-- `util.logger(logstem, log, loglevel)` with the log file already named (util.py:119-150). -/
def logger (s : Log) (file : Path) (log : Bool) (loglevel : Str) : Log :=
  if log then basicConfig (openFile s file) [.file file, .stdout] (some (levelOf loglevel))
  else basicConfig s [.stdout] (some (levelOf loglevel))

/-- The log file of a stage (io/core.py:266, util.py:139-143); `now` is the time, as text. -/
def logFile (r : Run) (stage now : Str) : Option Path :=
  withSuffix (join [r.base, stage] r.subname ++ ["logs".toList]) (r.name ++ '_' :: now) ".log".toList

/-- What happens in a process, as far as the log is concerned: a stage sets up its log (trigger.py:210, scan.py:316,
374) or something is logged. -/
inductive Act where
  | logger (file : Path) (log : Bool) (loglevel : Str)
  | message (m : Msg)

/-- One of these (util.py:119-150). -/
def step (s : Log) : Act → Log
  | .logger f l v => logger s f l v
  | .message m => emit s m

/-- A whole process (util.py:119-150). -/
def runActs (s : Log) (as : List Act) : Log := as.foldl step s

end QM.Logging
