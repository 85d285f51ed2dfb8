import Verif.Py.Dict
import Verif.Model.Edifact
/-!
# Model of the methods of `DataElementValuePool` (`maus.models.edifact_components`)

The entries of a pool are distinct objects; the reference to an entry is its position in the list.
-/

namespace Verif

/-- `existing_value_pool_entries` — /repo/src/maus/models/edifact_components.py:242 -/
def existingEntries (pool : List ValuePoolEntry) : List (PyStr × Nat) :=
  dictUpdate [] (pool.zipIdx.map fun x => (x.1.qualifier, x.2))

/-- `value_pool_entry.meaning = meaning_qualifier_merger(...)` if there is a merger — edifact_components.py:245-248 -/
def mergeMeaning (merger : Option (PyStr → PyStr → PyStr)) (q : PyStr) (i : Nat) (pool : List ValuePoolEntry) :
    List ValuePoolEntry :=
  match merger with
  | none => pool
  | some f => pool.modify i fun e => { e with meaning := f e.meaning q }

/-- the loop of `replace_value_pool` — edifact_components.py:243-249. `mapping q` is `none` iff `q` is no key of the
mapping; its values are meant to be strings, but `None` is possible, too. The assignments run the validators
(`attrs.define`); that of `meaning` only tests for `str`. The modified pool is also returned if an exception is raised. -/
def replaceLoop (mapping : PyStr → Option (Option PyStr)) (merger : Option (PyStr → PyStr → PyStr)) :
    List (PyStr × Nat) → List ValuePoolEntry → List ValuePoolEntry × PyRes Unit
  | [], pool => (pool, .ok ())
  | (q, i) :: rest, pool =>
    match mapping q with
    | none => replaceLoop mapping merger rest pool
    | some new =>
      let pool := mergeMeaning merger q i pool
      if !isEdifactQualifier new then (pool, .error .valueError)
      else replaceLoop mapping merger rest (pool.modify i fun e => { e with qualifier := new.getD [] })

/-- `DataElementValuePool.replace_value_pool` — edifact_components.py:211-249 (a free text has no such method) -/
def DataElement.replaceValuePool (de : DataElement) (mapping : PyStr → Option (Option PyStr))
    (merger : Option (PyStr → PyStr → PyStr)) : DataElement × PyRes Unit :=
  match de.kind with
  | .freeText _ => (de, .error .attributeError)
  | .valuePool pool =>
    let r := replaceLoop mapping merger (existingEntries pool) pool
    ({ de with kind := .valuePool r.1 }, r.2)

/-- an `Iterable[str]`: a container (list, set, dict keys…), which can be searched again and again, or a one-shot iterator
(generator, `map` object, file…) with the items that are still to come (serves edifact_components.py:251) -/
inductive PyIterable where
  | container (items : List PyStr)
  | iterator (items : List PyStr)

/-- `x in iterable`: the answer and the state of the iterable afterwards. Searching an iterator consumes it up to and
including the first match. (serves edifact_components.py:251-261) -/
def PyIterable.search (x : PyStr) : PyIterable → Bool × PyIterable
  | container items => (decide (x ∈ items), container items)
  | iterator items =>
    match items.dropWhile fun y => y ≠ x with
    | [] => (false, iterator [])
    | _ :: rest => (true, iterator rest)

/-- `all(x.qualifier in entries for x in self.value_pool)` — edifact_components.py:255 -/
def allIn : List ValuePoolEntry → PyIterable → Bool
  | [], _ => true
  | e :: pool, entries =>
    let r := entries.search e.qualifier
    if r.1 then allIn pool r.2 else false

/-- `DataElementValuePool.has_value_pool_which_is_subset_of` — edifact_components.py:251-255 -/
def DataElement.hasValuePoolWhichIsSubsetOf (de : DataElement) (entries : PyIterable) : PyRes Bool :=
  match de.kind with
  | .freeText _ => .error .attributeError
  | .valuePool pool => .ok (allIn pool entries)

end Verif
