import Verif.Py.Dict
import Verif.Model.ValuePool
import Verif.Model.Deep
/-!
# Model of `maus.transformation`

asyncio is modelled by its scheduling points: a coroutine runs without interruption until it suspends itself, then the event
loop continues any task that is not waiting. A schedule is the list of choices the event loop makes. `asyncio.gather` creates
a task per coroutine; the awaiting coroutine goes on when all tasks have returned or as soon as one has raised. (asyncio
starts the tasks in the order of the list; the model allows every order.)

Simplifications: application data is immutable; its values, as far as they are read, are strings or `None`; every call of
`transform_application_to_edi_domain` creates a new object; no converter catches a `CancelledError`.
-/

namespace Verif

/-- a coroutine that works on an object of type `D`: it returns or raises, reads and modifies the object and goes on, or
suspends (awaits something that is not available yet) (serves transformation.py:109, 131) -/
inductive Conv (D R : Type) where
  | ret (r : PyRes R)
  | op (f : D → D) (k : D → Conv D R)
  | suspend (k : Conv D R)

/-- run a coroutine until it returns, raises or suspends; the new content of the object and what is left to do (serves transformation.py:109, 131) -/
def Conv.segment {D R : Type} : Conv D R → D → D × (PyRes R ⊕ Conv D R)
  | ret r, d => (d, .inl r)
  | op f k, d => (k d).segment (f d)
  | suspend k, d => (d, .inr k)

/-- the arguments `converter`, `edifact_accessor`, `application_accessor` and `edifact_to_non_edifact_path_mapping` (the items
of the mapping); `A` is the type of the application data, `D` the type of the edifact data
— /repo/src/maus/transformation.py:41-84, 89-96 -/
structure TransformEnv (A D : Type) where
  toEdi : A → Conv Unit D
  toApp : Conv D A
  ediGet : D → PyStr → PyRes (Option PyStr)
  /-- the new content of the object, and `None` or an exception -/
  ediSet : D → PyStr → PyStr → D × PyRes Unit
  appGet : A → PyStr → PyRes (Option PyStr)
  mapping : List (PyStr × PyStr)

/-- a task that executes `_get_value_pool_mapping` for an entry with the qualifier `q`; `finished q (.ok v)` has returned
`{q: v}` — transformation.py:124-133 -/
inductive EntryTask (A D : Type) where
  | pending (q : PyStr)
  | running (q : PyStr) (c : Conv D A)
  | finished (q : PyStr) (r : PyRes (Option PyStr))

section
variable {A D : Type} (env : TransformEnv A D)

/-- continue the conversion and, if it returns, read the application value — transformation.py:130-133 -/
def resumeEntry (nonEdiPath q : PyStr) (c : Conv D A) (d : D) : D × EntryTask A D :=
  match c.segment d with
  | (d', .inr c') => (d', .running q c')
  | (d', .inl (.error e)) => (d', .finished q (.error e))
  | (d', .inl (.ok a)) => (d', .finished q (env.appGet a nonEdiPath))

/-- run a task until it suspends or ends, `none` if it has ended already; `d` is the object all tasks share
(`modified_edifact_data = initial_edifact_data`) — transformation.py:124-133 -/
def entryStep (ediPath nonEdiPath : PyStr) (d : D) : EntryTask A D → Option (D × EntryTask A D)
  | .pending q =>
    match env.ediSet d ediPath q with
    | (d', .error e) => some (d', .finished q (.error e))
    | (d', .ok ()) => some (resumeEntry env nonEdiPath q env.toApp d')
  | .running q c => some (resumeEntry env nonEdiPath q c d)
  | .finished _ _ => none

/-- `generate_value_pool_replacement` between two scheduling points (serves transformation.py:109-140) -/
inductive GenState (A D : Type) where
  /-- in the first `await` -/
  | converting (c : Conv Unit D)
  /-- in the second `await`: paths, mapping so far, shared object, tasks, the first exception -/
  | gathering (ediPath nonEdiPath : PyStr) (current : List (PyStr × Option PyStr)) (data : D) (tasks : List (EntryTask A D))
      (err : Option Exc)
  | finished (r : PyRes (List (PyStr × Option PyStr)))

/-- from the first to the second `await` — transformation.py:109-137 -/
def beginGather (app : A) (discriminator : Option PyStr) (pool : List ValuePoolEntry) (d : D) : GenState A D :=
  match env.mapping.find? fun p => decide (some p.1 = discriminator) with
  | none => .finished (.error .valueError)
  | some (ediPath, nonEdiPath) =>
    match env.appGet app nonEdiPath with
    | .error e => .finished (.error e)
    | .ok nonEdiValue =>
      match env.ediGet d ediPath with
      | .error e => .finished (.error e)
      | .ok none => .gathering ediPath nonEdiPath [] d (pool.map fun e => .pending e.qualifier) none
      | .ok (some ediValue) =>
        .gathering ediPath nonEdiPath [(ediValue, nonEdiValue)] d (pool.map fun e => .pending e.qualifier) none

/-- the dictionary a task has returned (serves transformation.py:138-139) -/
def EntryTask.result? {A D : Type} : EntryTask A D → Option (PyStr × Option PyStr)
  | .finished q (.ok v) => some (q, v)
  | _ => none

/-- the exception a task has raised (serves transformation.py:138) -/
def EntryTask.error? {A D : Type} : EntryTask A D → Option Exc
  | .finished _ (.error e) => some e
  | _ => none

/-- what the event loop continues: the coroutine `generate_value_pool_replacement` or one of its tasks (serves transformation.py:138) -/
inductive Choice where
  | self
  | entry (i : Nat)
  deriving DecidableEq

/-- one step of `generate_value_pool_replacement` and its tasks; `none` if what has been chosen cannot go on
— transformation.py:107-140 -/
def genStep (app : A) (discriminator : Option PyStr) (pool : List ValuePoolEntry) :
    Choice → GenState A D → Option (GenState A D)
  | .self, .converting c =>
    match (c.segment ()).2 with
    | .inl (.error e) => some (.finished (.error e))
    | .inl (.ok d) => some (beginGather env app discriminator pool d)
    | .inr c' => some (.converting c')
  | .entry i, .gathering ediPath nonEdiPath current data tasks err =>
    match tasks[i]? with
    | none => none
    | some t =>
      match entryStep env ediPath nonEdiPath data t with
      | none => none
      | some (data', t') => some (.gathering ediPath nonEdiPath current data' (tasks.set i t') (err.or t'.error?))
  | .self, .gathering _ _ current _ tasks err =>
    match err with
    | some e => some (.finished (.error e))
    | none =>
      if (tasks.all fun t => t.result?.isSome) then
        some (.finished (.ok (dictUpdate current (tasks.filterMap EntryTask.result?))))
      else none
  | _, _ => none

/-- the state after a schedule, `none` if a choice was not possible (serves transformation.py:138) -/
def genRun (app : A) (discriminator : Option PyStr) (pool : List ValuePoolEntry) : List Choice → GenState A D → Option (GenState A D)
  | [], s => some s
  | c :: cs, s =>
    match genStep env app discriminator pool c s with
    | none => none
    | some s' => genRun app discriminator pool cs s'

/-- the call of `generate_value_pool_replacement` (serves transformation.py:109-137) -/
def genInit (app : A) : GenState A D := .converting (env.toEdi app)

/-! ## transform_all_value_pools -/

/-- the condition in `transform_all_value_pools` — transformation.py:168-173 -/
def poolIsTransformed (discriminator : Option PyStr) : Bool :=
  match discriminator with
  | none => false
  | some d => py!"$".isPrefixOf d && !contains py!"Absender" d && !contains py!"Empfänger" d

/-- the entries of a value pool (serves transformation.py:136) -/
def DataElement.poolEntries (de : DataElement) : List ValuePoolEntry :=
  match de.kind with
  | .freeText _ => []
  | .valuePool es => es

/-- a value pool returned by `get_all_value_pools` and the task `transform_value_pool` for it — transformation.py:155-164 -/
inductive PoolTask (A D : Type) where
  | skipped (de : DataElement)
  | running (de : DataElement) (g : GenState A D)
  | done (de : DataElement) (r : PyRes Unit)

/-- the value pool as it is now (serves transformation.py:165) -/
def PoolTask.pool {A D : Type} : PoolTask A D → DataElement
  | skipped de => de
  | running de _ => de
  | done de _ => de

/-- the exception the task has raised (serves transformation.py:176) -/
def PoolTask.error? {A D : Type} : PoolTask A D → Option Exc
  | done _ (.error e) => some e
  | _ => none

/-- after a step of `generate_value_pool_replacement`: if it has returned, replace — transformation.py:156-164 -/
def afterGenStep (de : DataElement) : GenState A D → PoolTask A D
  | .finished (.error e) => .done de (.error e)
  | .finished (.ok replacement) =>
    let r := de.replaceValuePool (fun q => dictGet q replacement) none
    .done r.1 r.2
  | g => .running de g

/-- all tasks and the first exception (serves transformation.py:154-176) -/
structure TopState (A D : Type) where
  tasks : List (PoolTask A D)
  err : Option Exc

/-- `transform_all_value_pools` up to its `await` — transformation.py:166-175 -/
def topInit (app : A) (ahb : DeepAhb) : TopState A D :=
  { tasks := ahb.getAllValuePools.map fun de =>
      if poolIsTransformed de.discriminator then .running de (genInit env app) else .skipped de
    err := none }

/-- one step of the task of the `i`-th value pool — transformation.py:155-164 -/
def topStep (app : A) (choice : Nat × Choice) (s : TopState A D) : Option (TopState A D) :=
  match s.tasks[choice.1]? with
  | some (.running de g) =>
    match genStep env app de.discriminator de.poolEntries choice.2 g with
    | none => none
    | some g' =>
      let t := afterGenStep de g'
      some { tasks := s.tasks.set choice.1 t, err := s.err.or t.error? }
  | _ => none

/-- the state after a schedule (serves transformation.py:176) -/
def topRun (app : A) : List (Nat × Choice) → TopState A D → Option (TopState A D)
  | [], s => some s
  | c :: cs, s =>
    match topStep env app c s with
    | none => none
    | some s' => topRun app cs s'

/-- `await asyncio.gather(*replacement_tasks)` — transformation.py:176: `none` as long as it waits -/
def TopState.outcome {A D : Type} (s : TopState A D) : Option (PyRes Unit) :=
  match s.err with
  | some e => some (.error e)
  | none =>
    if s.tasks.all fun t => match t with
      | .running _ _ => false
      | _ => true
    then some (.ok ()) else none

/-- a task that is cancelled: if it has not ended, a `CancelledError` is raised where it waits (serves transformation.py:155-164) -/
def PoolTask.cancel {A D : Type} : PoolTask A D → PoolTask A D
  | running de _ => done de (.error .other)
  | t => t

/-- the call of `transform_all_value_pools` is cancelled while it waits: `gather` cancels all its tasks and raises a
`CancelledError`; if it does not wait any more, there is nothing to cancel (serves transformation.py:176) -/
def TopState.cancel {A D : Type} (s : TopState A D) : TopState A D :=
  match s.outcome with
  | some _ => s
  | none => { tasks := s.tasks.map PoolTask.cancel, err := some .other }

end

end Verif
