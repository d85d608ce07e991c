import Verif.Model.ScoreConversions

/-
Model of private/mx/api/DocumentManager.cpp: the operations as the sequences of reads and writes they perform while they hold the mutex,
and any number of threads that call them and are interleaved in every possible way.

Simplifications: parsing a file or stream and writing a score to a document happen before the lock is taken and touch
nothing shared, so their outcome is a parameter of the call (`none`: an exception).  Writing is represented by
the document that is written; errors of the output stream are left out.  Reading is a parameter `read` (see the models of the
reader for what it does), `none` being an exception.  Each step under the lock is one access to the shared state.
-/
namespace Mx.Manager
open Mx.Convert

variable {H G A M S : Type}

/-- What the manager calls. -/
structure Lib (H G A M S : Type) where
  /-- contents of new elements -/
  fresh : Fresh A M
  /-- `ScoreReader::getScoreData`, `none` if it throws -/
  read : Partwise H G A M → Option S
  /-- `score.musicXmlType = "timewise"` -/
  asTimewise : S → S
  /-- `ScoreData{}` -/
  noData : S

/-- `DocumentManager::Impl`, private/mx/api/DocumentManager.cpp 19-35 (the mutex is in `Sys`). -/
structure Mem (H G A M : Type) where
  nextId : Int
  docs : Int → Option (Doc H G A M)
  nextUnique : Int

/-- A new manager, private/mx/api/DocumentManager.cpp 27-41. -/
def Mem.init : Mem H G A M := { nextId := 1, docs := fun _ => none, nextUnique := 1000000 }

/-- `myMap[ id ] = doc` and `erase`. -/
def Mem.put (m : Mem H G A M) (id : Int) (d : Option (Doc H G A M)) : Mem H G A M :=
  { m with docs := fun j => if j = id then d else m.docs j }

/-- The calls.  `create` stands for `createFromFile`, `createFromStream` and `createFromScore`: its argument is what they make before they
take the lock (57-99, 109-121, 131-142), `none` if that fails with an exception. -/
inductive Op (H G A M : Type) where
  | create (doc : Option (Doc H G A M))
  | write (id : Int)
  | getData (id : Int)
  | destroy (id : Int)
  | getDocument (id : Int)
  | getUniqueId

/-- What a call returns to its caller (for `write`: what is put out). -/
inductive Ret (H G A M S : Type) where
  | id (i : Int)
  | written (d : Option (Doc H G A M))
  | data (s : S)
  | doc (d : Option (Doc H G A M))
  | nothing
  | exception

/-- Local variables of a call. -/
structure Local (S H G A M : Type) where
  number : Int := 0
  wasTimewise : Bool := false
  score : Option S := none
  /-- set by `return` and `throw` -/
  ret : Option (Ret H G A M S) := none

/-- One step of a call under the lock; `none`: undefined behaviour. -/
abbrev Instr (H G A M S : Type) := Mem H G A M → Local S H G A M → Option (Mem H G A M × Local S H G A M)

/-- `it->second->getChoice() == timewise` ... `convertContents()`, private/mx/api/DocumentManager.cpp 199-203. -/
def toPartwise (lib : Lib H G A M S) (id : Int) : Instr H G A M S := fun m l =>
  match m.docs id with
  | some (.timewise t) => (convertContents lib.fresh (.timewise t)).map (fun d => (m.put id (some d), { l with wasTimewise := true }))
  | _ => some (m, l)

/-- `ScoreReader reader{ *it->second->getScorePartwise() }; auto score = reader.getScoreData();`,
private/mx/api/DocumentManager.cpp 205-206. -/
def readScore (lib : Lib H G A M S) (id : Int) : Instr H G A M S := fun m l =>
  match m.docs id with
  | some (.partwise p) =>
    match lib.read p with
    | some s => some (m, { l with score := some s })
    | none => some (m, { l with ret := some .exception })
  | _ => none

/-- private/mx/api/DocumentManager.cpp 208-212. -/
def toTimewise (lib : Lib H G A M S) (id : Int) : Instr H G A M S := fun m l =>
  if l.wasTimewise then
    match m.docs id with
    | some d => (convertContents lib.fresh d).map (fun d' => (m.put id (some d'), { l with score := l.score.map lib.asTimewise }))
    | none => none
  else some (m, l)

/-- The steps of each call between taking and releasing the lock. -/
def code (lib : Lib H G A M S) : Op H G A M → List (Instr H G A M S)
  | .create (some d) =>
    -- 101-103, 123-125, 144-146: myMap[myCurrentId] = mxdoc; return myCurrentId++;
    [fun m l => some (m.put m.nextId (some d), l),
     fun m l => some (m, { l with number := m.nextId }),
     fun m l => (chk (m.nextId + 1)).map (fun n => ({ m with nextId := n }, l)),
     fun m l => some (m, { l with ret := some (.id l.number) })]
  | .create none => []
  | .write id =>
    -- 152-163, 169-180
    [fun m l => some (m, { l with ret := some (.written (m.docs id)) })]
  | .getData id =>
    -- 186-213
    [fun m l => some (m, if (m.docs id).isNone then { l with ret := some (.data lib.noData) } else l),
     toPartwise lib id, readScore lib id, toTimewise lib id,
     fun m l => l.score.map (fun s => (m, { l with ret := some (.data s) }))]
  | .destroy id =>
    -- 219-227
    [fun m l => some (m, if (m.docs id).isNone then { l with ret := some .nothing } else l),
     fun m l => some (m.put id none, l),
     fun m l => some (m, { l with ret := some .nothing })]
  | .getDocument id =>
    -- 233-241
    [fun m l => some (m, { l with ret := some (.doc (m.docs id)) })]
  | .getUniqueId =>
    -- 246-249
    [fun m l => some (m, { l with number := m.nextUnique }),
     fun m l => (chk (m.nextUnique + 1)).map (fun n => ({ m with nextUnique := n }, l)),
     fun m l => some (m, { l with ret := some (.id l.number) })]

/-- What a thread is doing: nothing, waiting for the lock, or inside the call with some steps left. -/
inductive Phase (H G A M S : Type) where
  | idle
  | waiting (op : Op H G A M)
  | inside (op : Op H G A M) (rest : List (Instr H G A M S)) (l : Local S H G A M)

/-- All threads (`T` are their names), each with the calls it still has to make; the manager; the holder of its mutex; and
the calls that have been completed so far, with their results, in the order in which they released the lock. -/
structure Sys (T H G A M S : Type) where
  mem : Mem H G A M
  owner : Option T
  todo : T → List (Op H G A M)
  phase : T → Phase H G A M S
  log : List (T × Op H G A M × Ret H G A M S)

variable {T : Type} [DecidableEq T]

/-- Update of a function at one place. -/
def upd {α : Type} (f : T → α) (t : T) (a : α) : T → α := fun u => if u = t then a else f u

/-- One step of thread `t`. -/
inductive Step (lib : Lib H G A M S) : Sys T H G A M S → Sys T H G A M S → Prop where
  /-- the thread makes its next call (and prepares a document) -/
  | call (s) (t : T) (op) (rest) : s.todo t = op :: rest → s.phase t = .idle →
      Step lib s { s with todo := upd s.todo t rest, phase := upd s.phase t (.waiting op) }
  /-- the preparation throws -/
  | fail (s) (t : T) : s.phase t = .waiting (.create none) →
      Step lib s { s with phase := upd s.phase t .idle, log := s.log ++ [(t, .create none, .exception)] }
  /-- the lock is taken -/
  | acquire (s) (t : T) (op) : s.phase t = .waiting op → op ≠ .create none → s.owner = none →
      Step lib s { s with owner := some t, phase := upd s.phase t (.inside op (code lib op) {}) }
  /-- one access to the manager -/
  | exec (s) (t : T) (op) (i) (rest) (l) (m') (l') : s.phase t = .inside op (i :: rest) l → l.ret = none → i s.mem l = some (m', l') →
      Step lib s { s with mem := m', phase := upd s.phase t (.inside op rest l') }
  /-- the call returns or throws, and the lock is released -/
  | release (s) (t : T) (op) (rest) (l) (r) : s.phase t = .inside op rest l → l.ret = some r →
      Step lib s { s with owner := none, phase := upd s.phase t .idle, log := s.log ++ [(t, op, r)] }

/-- All states that can be reached when the threads start with the given lists of calls. -/
inductive Reach (lib : Lib H G A M S) (prog : T → List (Op H G A M)) : Sys T H G A M S → Prop where
  | start : Reach lib prog { mem := Mem.init, owner := none, todo := prog, phase := fun _ => .idle, log := [] }
  | step {s s'} : Reach lib prog s → Step lib s s' → Reach lib prog s'

/-- A call made alone: all steps from the first one until the call returns. -/
def runSteps : List (Instr H G A M S) → Mem H G A M → Local S H G A M → Option (Mem H G A M × Ret H G A M S)
  | is, m, l =>
    match l.ret with
    | some r => some (m, r)
    | none =>
      match is with
      | [] => none
      | i :: is => (i m l).bind (fun x => runSteps is x.1 x.2)

/-- A call made alone, with the preparation. -/
def runOp (lib : Lib H G A M S) (op : Op H G A M) (m : Mem H G A M) : Option (Mem H G A M × Ret H G A M S) :=
  match op with
  | .create none => some (m, .exception)
  | op => runSteps (code lib op) m {}

end Mx.Manager
