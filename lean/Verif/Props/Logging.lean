import Verif.Model.Logging
import Verif.Props.Paths

/-!
# The log of each stage of a run: C167
-/

namespace QM

open QM.Paths QM.Logging

/-- The messages logged by a stage. -/
def Spec.loggedAt (level : ℕ) (ms : List Msg) : List Msg := ms.filter fun m => level ≤ m.1

/-- The messages among what happens in a process. -/
def Spec.messagesOf (as : List Act) : List Msg :=
  as.filterMap fun | .message m => some m | .logger .. => none

namespace LogLemmas

theorem emit_eq {s : Log} (h : s.handlers ≠ []) (m : Msg) :
    emit s m = if s.level ≤ m.1 then s.handlers.foldl (deliver m) s else s := by
  unfold emit
  rw [if_neg h]

theorem deliver_handlers (m : Msg) (s : Log) (h : Handler) : (deliver m s h).handlers = s.handlers := by
  cases h <;> rfl

theorem deliver_level (m : Msg) (s : Log) (h : Handler) : (deliver m s h).level = s.level := by
  cases h <;> rfl

theorem foldl_deliver (m : Msg) (hs : List Handler) (s : Log) :
    (hs.foldl (deliver m) s).handlers = s.handlers ∧ (hs.foldl (deliver m) s).level = s.level := by
  induction hs generalizing s with
  | nil => exact ⟨rfl, rfl⟩
  | cons h hs ih =>
    rw [List.foldl_cons]
    exact ⟨(ih _).1.trans (deliver_handlers m s h), (ih _).2.trans (deliver_level m s h)⟩

theorem emit_keeps {s : Log} (h : s.handlers ≠ []) (m : Msg) :
    (emit s m).handlers = s.handlers ∧ (emit s m).level = s.level := by
  rw [emit_eq h]
  by_cases hl : s.level ≤ m.1
  · rw [if_pos hl]; exact foldl_deliver m _ _
  · rw [if_neg hl]; exact ⟨rfl, rfl⟩

theorem logger_keeps {s : Log} (h : s.handlers ≠ []) (f : Path) (l : Bool) (v : Str) :
    logger s f l v = if l then openFile s f else s := by
  unfold logger basicConfig
  cases l
  · simp only [Bool.false_eq_true, if_false, if_neg h]
  · have : (openFile s f).handlers ≠ [] := h
    simp only [if_true, if_neg this]

theorem foldl_deliver_file (m : Msg) (p : Path) (hs : List Handler) (s : Log) (h : .file p ∉ hs) :
    (hs.foldl (deliver m) s).files p = s.files p := by
  induction hs generalizing s with
  | nil => rfl
  | cons a hs ih =>
    rw [List.foldl_cons, ih _ (fun hc => h (List.mem_cons_of_mem _ hc))]
    cases a with
    | file q =>
      have : p ≠ q := fun e => h (by rw [e]; exact List.mem_cons_self)
      simp only [deliver, if_neg this]
    | stdout => rfl
    | stderr => rfl

theorem emit_file {s : Log} (h : s.handlers ≠ []) (m : Msg) {p : Path} (hp : .file p ∉ s.handlers) :
    (emit s m).files p = s.files p := by
  rw [emit_eq h]
  by_cases hl : s.level ≤ m.1
  · rw [if_pos hl]; exact foldl_deliver_file m p _ _ hp
  · rw [if_neg hl]

theorem step_keeps {s : Log} (h : s.handlers ≠ []) (a : Act) :
    (step s a).handlers = s.handlers ∧ (step s a).level = s.level := by
  cases a with
  | message m => exact emit_keeps h m
  | logger f l v =>
    simp only [step, logger_keeps h]
    cases l <;> exact ⟨rfl, rfl⟩

/-- The messages of a stage whose log goes to one file and to the screen. -/
theorem emits_two {s : Log} {f : Path} (h : s.handlers = [.file f, .stdout]) (ms : List Msg) :
    let e := runActs s (ms.map .message)
    (∀ p, e.files p = if p = f ∧ Spec.loggedAt s.level ms ≠ [] then
        some ((s.files f).getD [] ++ Spec.loggedAt s.level ms) else s.files p) ∧
      e.stdout = s.stdout ++ Spec.loggedAt s.level ms ∧ e.stderr = s.stderr := by
  induction ms generalizing s with
  | nil => simp [runActs, Spec.loggedAt]
  | cons m ms ih =>
    have hne : s.handlers ≠ [] := by rw [h]; exact List.cons_ne_nil _ _
    obtain ⟨k1, k2⟩ := emit_keeps hne m
    obtain ⟨i1, i2, i3⟩ := ih (s := emit s m) (k1.trans h)
    have e : runActs s ((m :: ms).map .message) = runActs (emit s m) (ms.map .message) := rfl
    simp only [e]
    rw [k2] at i1 i2
    by_cases hl : s.level ≤ m.1
    · have e2 : emit s m = deliver m (deliver m s (.file f)) .stdout := by
        rw [emit_eq hne, if_pos hl, h]; rfl
      have e3 : Spec.loggedAt s.level (m :: ms) = m :: Spec.loggedAt s.level ms := by
        unfold Spec.loggedAt; rw [List.filter_cons_of_pos (by simpa using hl)]
      rw [e3]
      refine ⟨?_, ?_, ?_⟩
      · intro p
        rw [i1 p, e2]
        simp only [deliver, if_true, Option.getD_some, List.append_assoc, List.singleton_append]
        by_cases hp : p = f
        · subst hp
          by_cases hz : Spec.loggedAt s.level ms = []
          · simp [hz]
          · simp [hz]
        · simp [hp]
      · rw [i2, e2]; simp [deliver]
      · rw [i3, e2]; rfl
    · have e2 : emit s m = s := by rw [emit_eq hne, if_neg hl]
      have e3 : Spec.loggedAt s.level (m :: ms) = Spec.loggedAt s.level ms := by
        unfold Spec.loggedAt; rw [List.filter_cons_of_neg (by simpa using hl)]
      rw [e3]
      rw [e2] at i1 i2 i3
      rw [e2]
      exact ⟨i1, i2, i3⟩

end LogLemmas

open LogLemmas

/-- **C167** (partial: the first thing in its process to set up a log or to log anything): the log file of a stage gets
exactly its messages at or above the level asked for, in order, after what it held before; the screen gets the same; no
other file changes. -/
theorem C167_first_stage_partial (files : Path → Option (List Msg)) (file : Path) (loglevel : Str) (ms : List Msg) :
    let e := runActs (start files) (.logger file true loglevel :: ms.map .message)
    e.files file = some ((files file).getD [] ++ Spec.loggedAt (levelOf loglevel) ms) ∧
      (∀ p, p ≠ file → e.files p = files p) ∧ e.stdout = Spec.loggedAt (levelOf loglevel) ms ∧ e.stderr = [] := by
  have h : (logger (start files) file true loglevel).handlers = [.file file, .stdout] := rfl
  obtain ⟨h1, h2, h3⟩ := emits_two h ms
  have el : (logger (start files) file true loglevel).level = levelOf loglevel := rfl
  have ef : (logger (start files) file true loglevel).files =
    fun q => if q = file then some ((files file).getD []) else files q := rfl
  rw [el] at h1 h2
  refine ⟨?_, ?_, h2, h3⟩
  · show (runActs (logger (start files) file true loglevel) _).files file = _
    rw [h1, ef]
    by_cases hz : Spec.loggedAt (levelOf loglevel) ms = []
    · simp [hz]
    · simp [hz]
  · intro p hp
    show (runActs (logger (start files) file true loglevel) _).files p = _
    rw [h1, ef]
    simp [hp]

/-- **C167** (partial: the level of the first stage): whatever stages follow one another in a process, and whether or not
they ask for log files, every message at or above the level of the first is shown on the screen, once and in order. -/
theorem C167_screen_partial (files : Path → Option (List Msg)) (file : Path) (log : Bool) (loglevel : Str) (as : List Act) :
    (runActs (start files) (.logger file log loglevel :: as)).stdout =
      Spec.loggedAt (levelOf loglevel) (Spec.messagesOf as) := by
  have key : ∀ (s : Log), (s.handlers = [.stdout] ∨ ∃ f, s.handlers = [.file f, .stdout]) →
      (runActs s as).stdout = s.stdout ++ Spec.loggedAt s.level (Spec.messagesOf as) := by
    induction as with
    | nil => intro s _; simp [runActs, Spec.loggedAt, Spec.messagesOf]
    | cons a as ih =>
      intro s hs
      have hne : s.handlers ≠ [] := by rcases hs with h | ⟨f, h⟩ <;> rw [h] <;> exact List.cons_ne_nil _ _
      obtain ⟨k1, k2⟩ := step_keeps hne a
      have e : runActs s (a :: as) = runActs (step s a) as := rfl
      rw [e, ih (step s a) (by rw [k1]; exact hs), k2]
      cases a with
      | logger f l v =>
        have e1 : (step s (.logger f l v)).stdout = s.stdout := by
          simp only [step, logger_keeps hne]
          cases l <;> rfl
        have e2 : Spec.messagesOf (.logger f l v :: as) = Spec.messagesOf as := rfl
        rw [e1, e2]
      | message m =>
        have e2 : Spec.messagesOf (.message m :: as) = m :: Spec.messagesOf as := rfl
        rw [e2]
        by_cases hl : s.level ≤ m.1
        · have e3 : Spec.loggedAt s.level (m :: Spec.messagesOf as) = m :: Spec.loggedAt s.level (Spec.messagesOf as) := by
            unfold Spec.loggedAt; rw [List.filter_cons_of_pos (by simpa using hl)]
          have e4 : (step s (.message m)).stdout = s.stdout ++ [m] := by
            simp only [step]
            rw [emit_eq hne, if_pos hl]
            rcases hs with h | ⟨f, h⟩ <;> rw [h] <;> rfl
          rw [e3, e4, List.append_assoc, List.singleton_append]
        · have e3 : Spec.loggedAt s.level (m :: Spec.messagesOf as) = Spec.loggedAt s.level (Spec.messagesOf as) := by
            unfold Spec.loggedAt; rw [List.filter_cons_of_neg (by simpa using hl)]
          have e4 : (step s (.message m)).stdout = s.stdout := by
            simp only [step]
            rw [emit_eq hne, if_neg hl]
          rw [e3, e4]
  have h1 : (logger (start files) file log loglevel).stdout = [] := by cases log <;> rfl
  have h2 : (logger (start files) file log loglevel).level = levelOf loglevel := by cases log <;> rfl
  have h3 := key (logger (start files) file log loglevel) (by cases log; exact Or.inl rfl; exact Or.inr ⟨file, rfl⟩)
  rw [h1, h2, List.nil_append] at h3
  exact h3

/-- **C167 is violated** by every second stage of a process: its log file is created, but none of its messages are written
to it (they go to the log of the first stage). -/
theorem C167_violated_second_stage (files : Path → Option (List Msg)) (file file' : Path) (hf : file' ≠ file)
    (loglevel loglevel' : Str) (ms ms' : List Msg) :
    let e := runActs (start files)
      (.logger file true loglevel :: ms.map .message ++ .logger file' true loglevel' :: ms'.map .message)
    e.files file' = some ((files file').getD []) ∧
      e.files file = some ((files file).getD [] ++ Spec.loggedAt (levelOf loglevel) (ms ++ ms')) := by
  intro e
  obtain ⟨a1, a2, _, _⟩ := C167_first_stage_partial files file loglevel ms
  set s1 := runActs (start files) (.logger file true loglevel :: ms.map .message) with hs1
  have gen : ∀ (ms : List Msg) (s : Log), s.handlers = [.file file, .stdout] →
      (runActs s (ms.map .message)).handlers = [.file file, .stdout] ∧ (runActs s (ms.map .message)).level = s.level := by
    intro ms
    induction ms with
    | nil => intro s h; exact ⟨h, rfl⟩
    | cons m ms ih =>
      intro s h
      obtain ⟨k1, k2⟩ := emit_keeps (s := s) (by rw [h]; exact List.cons_ne_nil _ _) m
      obtain ⟨i1, i2⟩ := ih (emit s m) (k1.trans h)
      exact ⟨i1, i2.trans k2⟩
  obtain ⟨hh, hl⟩ := gen ms (logger (start files) file true loglevel) rfl
  have hh : s1.handlers = [.file file, .stdout] := hh
  have hl : s1.level = levelOf loglevel := hl
  have he : e = runActs (openFile s1 file') (ms'.map .message) := by
    have : e = runActs (logger s1 file' true loglevel') (ms'.map .message) := by
      show runActs _ (_ ++ _) = _
      unfold runActs
      rw [List.foldl_append]
      rfl
    rw [this, logger_keeps (by rw [hh]; exact List.cons_ne_nil _ _)]
    rfl
  clear_value s1
  obtain ⟨b1, _, _⟩ := emits_two (s := openFile s1 file') hh ms'
  rw [← he] at b1
  have el : (openFile s1 file').level = levelOf loglevel := hl
  rw [el] at b1
  constructor
  · rw [b1, if_neg (fun hc => hf hc.1)]
    simp only [openFile, if_true]
    rw [a2 file' hf]
  · rw [b1]
    simp only [openFile, if_neg hf.symm, true_and, a1, Option.getD_some]
    unfold Spec.loggedAt
    rw [List.filter_append, ← List.append_assoc]
    split_ifs with hz
    · rfl
    · push Not at hz
      rw [hz, List.append_nil]

/-- **C167 is violated** by a second stage that asks for more detail: after a stage at level "info", no debugging message
is written anywhere. -/
theorem C167_violated_level (files : Path → Option (List Msg)) (file file' : Path) (log log' : Bool) (ms : List Msg)
    (text : Str) :
    let e := runActs (start files) (.logger file log "info".toList :: .logger file' log' "debug".toList ::
      (ms.map .message ++ [.message (10, text)]))
    e = runActs (start files) (.logger file log "info".toList :: .logger file' log' "debug".toList :: ms.map .message) := by
  have keep : ∀ (as : List Act) (s : Log), s.handlers ≠ [] → (runActs s as).handlers = s.handlers ∧
      (runActs s as).level = s.level := by
    intro as
    induction as with
    | nil => intro s _; exact ⟨rfl, rfl⟩
    | cons a as ih =>
      intro s h
      obtain ⟨k1, k2⟩ := step_keeps h a
      obtain ⟨i1, i2⟩ := ih (step s a) (by rw [k1]; exact h)
      exact ⟨i1.trans k1, i2.trans k2⟩
  have h1 : (logger (start files) file log "info".toList).handlers ≠ [] := by cases log <;> exact List.cons_ne_nil _ _
  have h2 : (logger (start files) file log "info".toList).level = 20 := by cases log <;> rfl
  obtain ⟨k1, k2⟩ := keep (.logger file' log' "debug".toList :: ms.map .message) _ h1
  intro e
  have : e = emit (runActs (logger (start files) file log "info".toList)
      (.logger file' log' "debug".toList :: ms.map .message)) (10, text) := by
    show runActs (start files) (_ :: _ :: (_ ++ _)) = _
    rw [← List.cons_append, ← List.cons_append]
    unfold runActs
    rw [List.foldl_append]
    rfl
  rw [this, emit_eq (by rw [k1]; exact h1), k2, h2, if_neg (by norm_num)]
  rfl

/-- **C167 is violated** if anything is logged before the first stage sets up its log: its log file stays empty. -/
theorem C167_violated_early (files : Path → Option (List Msg)) (m : Msg) (file : Path) (loglevel : Str) (ms : List Msg) :
    (runActs (start files) (.message m :: .logger file true loglevel :: ms.map .message)).files file =
      some ((files file).getD []) := by
  have h1 : (emit (start files) m).handlers = [.stderr] := by
    unfold emit basicConfig start
    simp only [if_true]
    split_ifs
    · rfl
    · rfl
  have h2 : (emit (start files) m).files = files := by
    unfold emit basicConfig start
    simp only [if_true]
    split_ifs
    · rfl
    · rfl
  have key : ∀ (ms : List Msg) (s : Log), s.handlers = [.stderr] → (runActs s (ms.map .message)).files file = s.files file := by
    intro ms
    induction ms with
    | nil => intro s _; rfl
    | cons m ms ih =>
      intro s h
      have hne : s.handlers ≠ [] := by rw [h]; exact List.cons_ne_nil _ _
      have e : runActs s ((m :: ms).map .message) = runActs (emit s m) (ms.map .message) := rfl
      rw [e, ih _ ((emit_keeps hne m).1.trans h), emit_file hne m (by rw [h]; simp)]
  have e : runActs (start files) (.message m :: .logger file true loglevel :: ms.map .message) =
    runActs (logger (emit (start files) m) file true loglevel) (ms.map .message) := rfl
  rw [e, logger_keeps (by rw [h1]; exact List.cons_ne_nil _ _), if_pos rfl, key ms (openFile (emit (start files) m) file) h1]
  simp only [openFile, if_true, h2]

/-- **C167**, the place of the log: for names without dots it is `name/stage[/subname]/logs/name[_subname]_time.log`. -/
theorem C167_log_place (name subname stage now : Str) (h1 : '.' ∉ name) (h2 : '.' ∉ subname) (h3 : '.' ∉ now) :
    logFile (mkRun name subname) stage now =
      some (if subname = [] then [name, stage, "logs".toList, name ++ '_' :: now ++ ".log".toList]
        else [name, stage, subname, "logs".toList, name ++ '_' :: subname ++ '_' :: now ++ ".log".toList]) := by
  rw [mkRun_plain h1 h2]
  unfold logFile withSuffix Run.name join
  have hd : ∀ x : Str, '.' ∉ x → (splitSuffix x).1 = x := by
    intro x hx
    unfold splitSuffix
    simp only
    rw [if_neg (fun hc => hx hc.1)]
  by_cases hs : subname = []
  · simp only [hs, if_true]
    rw [hd _ (by simp [h1, h3]), if_neg (by simp)]
    rfl
  · simp only [hs, if_false]
    rw [hd _ (by simp [h1, h2, h3]), if_neg (by simp)]
    simp

/-- **C167**, the place of the log: stages and starting times have their own files. -/
theorem C167_own_file (name subname stage stage' now now' : Str) (h1 : '.' ∉ name) (h2 : '.' ∉ subname) (h3 : '.' ∉ now)
    (h3' : '.' ∉ now') (hne : (stage, now) ≠ (stage', now')) :
    logFile (mkRun name subname) stage now ≠ logFile (mkRun name subname) stage' now' := by
  rw [C167_log_place name subname stage now h1 h2 h3, C167_log_place name subname stage' now' h1 h2 h3']
  intro hc
  apply hne
  by_cases hs : subname = []
  · simp [hs] at hc
    rw [hc.1, hc.2]
  · simp [hs] at hc
    rw [hc.1, hc.2]

/-- A notebook: detect, then trigger, each with a log. -/
def exNotebook : List Act :=
  [.logger ["d".toList] true "info".toList, .message (20, "DETECT".toList), .message (10, "detail".toList),
   .logger ["t".toList] true "debug".toList, .message (20, "TRIGGER".toList), .message (10, "detail".toList)]

/-- The log of trigger is empty, and that of detect has both. -/
example : (runActs (start fun _ => none) exNotebook).files ["t".toList] = some [] ∧
    (runActs (start fun _ => none) exNotebook).files ["d".toList] =
      some [(20, "DETECT".toList), (20, "TRIGGER".toList)] ∧
    (runActs (start fun _ => none) exNotebook).stdout = [(20, "DETECT".toList), (20, "TRIGGER".toList)] := by
  decide +kernel

example : logFile (mkRun "run".toList []) "detect".toList "2021-01-05_10-00-00".toList =
    some ["run".toList, "detect".toList, "logs".toList, "run_2021-01-05_10-00-00.log".toList] := by
  decide +kernel

end QM
