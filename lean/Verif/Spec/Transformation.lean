import Verif.Model.Transformation
import Verif.Spec.ValuePool
/-!
# Specification of the value pool transformation
-/

namespace Verif

section
variable {A D R : Type}

/-- the result of a coroutine that is alone: nobody else touches the object while it is suspended -/
def Conv.alone : Conv D R → D → PyRes R
  | ret r, _ => r
  | op f k, d => (k d).alone (f d)
  | suspend k, d => k.alone d

/-- the coroutine does not look at the object any more and will end with `r` -/
inductive Conv.Settled (r : PyRes R) : Conv D R → Prop
  | ret : Settled r (.ret r)
  | suspend {k : Conv D R} : Settled r k → Settled r (.suspend k)

/-- the coroutine reads all it needs of the object before it suspends for the first time, and does not modify the object -/
def Conv.ReadsFirst (c : Conv D R) : Prop :=
  ∀ d, c.segment d = (d, .inl (c.alone d)) ∨ ∃ k, c.segment d = (d, .inr k) ∧ k.Settled (c.alone d)

/-- the coroutine never raises -/
inductive Conv.NeverRaises : Conv D R → Prop
  | ret (a : R) : NeverRaises (.ret (.ok a))
  | op {f : D → D} {k : D → Conv D R} : (∀ d, NeverRaises (k d)) → NeverRaises (.op f k)
  | suspend {k : Conv D R} : NeverRaises k → NeverRaises (.suspend k)

/-- setting a value twice is the same as setting the second one -/
def TransformEnv.Overwrites (env : TransformEnv A D) : Prop :=
  ∀ d path q q', env.ediSet (env.ediSet d path q).1 path q' = env.ediSet d path q'

/-- the application value that belongs to the qualifier `q`: set exactly this qualifier in the edifact data `d`, convert, read -/
def TransformEnv.valueFor (env : TransformEnv A D) (d : D) (ediPath nonEdiPath q : PyStr) : PyRes (Option PyStr) := do
  (env.ediSet d ediPath q).2
  let a ← env.toApp.alone (env.ediSet d ediPath q).1
  env.appGet a nonEdiPath

/-- the mapping has the entry `discriminator: path` (and no other one for it, since it is a mapping) -/
def TransformEnv.Maps (env : TransformEnv A D) (discriminator : Option PyStr) (ediPath nonEdiPath : PyStr) : Prop :=
  discriminator = some ediPath ∧ (ediPath, nonEdiPath) ∈ env.mapping

/-- the keys of the path mapping are distinct, as in every Python mapping -/
def TransformEnv.IsMapping (env : TransformEnv A D) : Prop := (env.mapping.map Prod.fst).Nodup

/-- a dictionary with exactly the entries `rel` -/
def DictIs (dict : List (PyStr × Option PyStr)) (rel : PyStr → Option PyStr → Prop) : Prop :=
  (dict.map Prod.fst).Nodup ∧ ∀ k v, (k, v) ∈ dict ↔ rel k v

/-- the qualifiers of a pool -/
def qualifiersOf (pool : List ValuePoolEntry) : List PyStr := pool.map ValuePoolEntry.qualifier

/-- the replacement the docstring describes: each qualifier of the pool is sent to its application value; the value the edifact
data has now is sent to the application value that is there now, unless it is a qualifier of the pool -/
def TransformEnv.Replacement (env : TransformEnv A D) (app : A) (pool : List ValuePoolEntry) (d : D) (ediPath nonEdiPath : PyStr)
    (k : PyStr) (v : Option PyStr) : Prop :=
  (k ∈ qualifiersOf pool ∧ env.valueFor d ediPath nonEdiPath k = .ok v) ∨
  (k ∉ qualifiersOf pool ∧ env.ediGet d ediPath = .ok (some k) ∧ env.appGet app nonEdiPath = .ok v)

/-- the call for this data element ends with the result `r` under some schedule -/
def TransformEnv.EndsWith (env : TransformEnv A D) (app : A) (discriminator : Option PyStr) (pool : List ValuePoolEntry)
    (r : PyRes (List (PyStr × Option PyStr))) : Prop :=
  ∃ schedule, genRun env app discriminator pool schedule (genInit env app) = some (.finished r)

/-- what can go wrong for a pool -/
inductive TransformEnv.Fails (env : TransformEnv A D) (app : A) (discriminator : Option PyStr) (pool : List ValuePoolEntry) : Exc → Prop
  | toEdi {e : Exc} : (env.toEdi app).alone () = .error e → Fails env app discriminator pool e
  | unmapped {d : D} : (env.toEdi app).alone () = .ok d → (∀ p ∈ env.mapping, discriminator ≠ some p.1) →
      Fails env app discriminator pool .valueError
  | appGet {d : D} {ediPath nonEdiPath : PyStr} {e : Exc} : (env.toEdi app).alone () = .ok d →
      env.Maps discriminator ediPath nonEdiPath → env.appGet app nonEdiPath = .error e → Fails env app discriminator pool e
  | ediGet {d : D} {ediPath nonEdiPath : PyStr} {e : Exc} {v : Option PyStr} : (env.toEdi app).alone () = .ok d →
      env.Maps discriminator ediPath nonEdiPath → env.appGet app nonEdiPath = .ok v → env.ediGet d ediPath = .error e →
      Fails env app discriminator pool e
  | entry {d : D} {ediPath nonEdiPath : PyStr} {e : Exc} {v v' : Option PyStr} {q : PyStr} : (env.toEdi app).alone () = .ok d →
      env.Maps discriminator ediPath nonEdiPath → env.appGet app nonEdiPath = .ok v → env.ediGet d ediPath = .ok v' →
      q ∈ qualifiersOf pool → env.valueFor d ediPath nonEdiPath q = .error e → Fails env app discriminator pool e

/-- the discriminator is a JSON path and is neither about the sender nor about the receiver -/
def IsTransformed (de : DataElement) : Prop :=
  ∃ rest, de.discriminator = some ('$' :: rest) ∧ ¬ py!"Absender" <:+: '$' :: rest ∧ ¬ py!"Empfänger" <:+: '$' :: rest

/-- the task of a value pool fails with `e`: the replacement cannot be computed, or the application value of a qualifier is
no acceptable qualifier -/
inductive TransformEnv.PoolFails (env : TransformEnv A D) (app : A) (de : DataElement) : Exc → Prop
  | generate {e : Exc} : env.Fails app de.discriminator de.poolEntries e → PoolFails env app de e
  | unacceptable {d : D} {ediPath nonEdiPath q : PyStr} {v : Option PyStr} : (∀ e, ¬ env.Fails app de.discriminator de.poolEntries e) →
      (env.toEdi app).alone () = .ok d → env.Maps de.discriminator ediPath nonEdiPath → q ∈ qualifiersOf de.poolEntries →
      env.valueFor d ediPath nonEdiPath q = .ok v → (∀ new, v = some new → ¬ AcceptableQualifier new) → PoolFails env app de .valueError

/-- `de'` is the value pool `de` with each qualifier replaced by its application value. (If a qualifier occurs several times, only
the last entry with it is replaced, see C34.) -/
def TransformEnv.PoolReplaced (env : TransformEnv A D) (app : A) (de de' : DataElement) : Prop :=
  ∃ d ediPath nonEdiPath pool', (env.toEdi app).alone () = .ok d ∧ env.Maps de.discriminator ediPath nonEdiPath ∧
    de' = { de with kind := .valuePool pool' } ∧ pool'.length = de.poolEntries.length ∧
    ∀ (i : Nat) (e : ValuePoolEntry), de.poolEntries[i]? = some e →
      ((∃ (j : Nat) (e' : ValuePoolEntry), i < j ∧ de.poolEntries[j]? = some e' ∧ e'.qualifier = e.qualifier) → pool'[i]? = some e) ∧
      ((∀ (j : Nat) (e' : ValuePoolEntry), i < j → de.poolEntries[j]? = some e' → e'.qualifier ≠ e.qualifier) →
        ∃ new, env.valueFor d ediPath nonEdiPath e.qualifier = .ok (some new) ∧ AcceptableQualifier new ∧
          pool'[i]? = some { e with qualifier := new })

/-- `de'` is the value pool `de` with each qualifier replaced by its value in the dictionary. (If a qualifier occurs several times, only
the last entry with it is replaced, see C34.) -/
def ReplacedBy (dict : List (PyStr × Option PyStr)) (de de' : DataElement) : Prop :=
  ∃ pool', de' = { de with kind := .valuePool pool' } ∧ pool'.length = de.poolEntries.length ∧
    ∀ (i : Nat) (e : ValuePoolEntry), de.poolEntries[i]? = some e →
      ((∃ (j : Nat) (e' : ValuePoolEntry), i < j ∧ de.poolEntries[j]? = some e' ∧ e'.qualifier = e.qualifier) → pool'[i]? = some e) ∧
      ((∀ (j : Nat) (e' : ValuePoolEntry), i < j → de.poolEntries[j]? = some e' → e'.qualifier ≠ e.qualifier) →
        ∃ new, (e.qualifier, some new) ∈ dict ∧ AcceptableQualifier new ∧ pool'[i]? = some { e with qualifier := new })

/-- the dictionary sends a qualifier of the pool to something that is no acceptable qualifier -/
def HasUnacceptable (dict : List (PyStr × Option PyStr)) (de : DataElement) : Prop :=
  ∃ q ∈ qualifiersOf de.poolEntries, ∃ v, (q, v) ∈ dict ∧ ∀ new, v = some new → ¬ AcceptableQualifier new

end

end Verif
