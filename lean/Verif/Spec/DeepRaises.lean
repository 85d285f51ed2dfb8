import Verif.Spec.DeepSuccess
/-!
# Specification: which exception `to_deep_ahb` raises

The runs of lines are converted one after the other; the first one that cannot be converted decides. What a run needs of the runs before
it is whether anything has been created for them, and in which order they have opened groups.
-/

namespace Verif

/-- runs of lines that `to_deep_ahb` gets through (the condition of C89) -/
structure Convertible (reader : MigLookup) (posStr : AhbLocation → PyStr) (runs : List Run) : Prop where
  fine : ∀ r ∈ runs, r.isHeading = false → r.Fine reader
  root : StartsWithRoot (createdItems reader posStr [] runs)
  fit : OpeningsFit 1 (openings reader [] none runs).tail

/-- the MIG reader is asked for the location of the run and, if it does not know it (`ValueError`) and the run has several lines, for the
location of the first line. It raises something else than a `ValueError`. -/
def Run.LookupRaises (reader : MigLookup) (r : Run) (e : Exc) : Prop :=
  e ≠ .valueError ∧ (reader r.location = .error e ∨
    reader r.location = .error .valueError ∧ ∃ x y rest, r.2 = x :: y :: rest ∧ reader x.2 = .error e)

/-- a line with an expression that cannot become an entry of a value pool: it has no name (`None.strip()`), or its qualifier is not
acceptable -/
def BadEntry (l : AhbLine) (e : Exc) : Prop :=
  l.ahbExpression ≠ none ∧
    (l.name = none ∧ e = .attributeError ∨ l.name ≠ none ∧ ¬ SomeOf AcceptableQualifier l.valuePoolEntry ∧ e = .valueError)

/-- the data element of a run cannot be created: the first bad entry of a value pool decides; a free text needs an expression in its first
line -/
def Run.ElementRaises (r : Run) (e : Exc) : Prop :=
  r.hasExpression = true ∧ ∃ first, r.lines.head? = some first ∧
    ((first.valuePoolEntry ≠ none ∧
        ∃ good l rest, r.lines = good ++ l :: rest ∧ (∀ x ∈ good, ∀ e', ¬ BadEntry x e') ∧ BadEntry l e) ∨
      first.valuePoolEntry = none ∧ first.ahbExpression = none ∧ e = .typeError)

/-- the exception raised for a run with a segment code, after the runs `before` -/
inductive RunRaises (reader : MigLookup) (posStr : AhbLocation → PyStr) (before : List Run) (r : Run) : Exc → Prop
  /-- the MIG reader raises -/
  | lookup (e : Exc) (h : r.LookupRaises reader e) : RunRaises reader posStr before r e
  /-- the data element cannot be created -/
  | element (e : Exc) (answer : ∀ e', ¬ r.LookupRaises reader e') (data : r.hasDataElement = true) (h : r.ElementRaises e) :
      RunRaises reader posStr before r e
  /-- a data element, but nothing has been created before: there is no segment for it -/
  | noSegment (answer : ∀ e', ¬ r.LookupRaises reader e') (data : r.hasDataElement = true) (expression : r.hasExpression = true)
      (built : ∀ e', ¬ r.ElementRaises e') (h : createdItems reader posStr [] before = []) :
      RunRaises reader posStr before r .valueError
  /-- no data element, and the last line has no segment code -/
  | noCode (answer : ∀ e', ¬ r.LookupRaises reader e') (data : r.hasDataElement = false) (last : AhbLine)
      (hl : r.lines.getLast? = some last) (h : last.segmentCode = none) : RunRaises reader posStr before r .assertionError
  /-- a segment, but nothing has been created before, and the run does not open the group of the message root -/
  | noGroup (answer : ∀ e', ¬ r.LookupRaises reader e') (data : r.hasDataElement = false) (last : AhbLine)
      (hl : r.lines.getLast? = some last) (code : last.segmentCode ≠ none) (nothing : createdItems reader posStr [] before = [])
      (h : ¬ StartsWithRoot (r.created reader posStr [])) : RunRaises reader posStr before r .unboundLocalError
  /-- the run opens a group that cannot be inserted -/
  | doesNotFit (answer : ∀ e', ¬ r.LookupRaises reader e') (data : r.hasDataElement = false)
      (something : createdItems reader posStr [] before ≠ [])
      (h : ¬ OpeningsFit 1 (openings reader [] none (before ++ [r])).tail) : RunRaises reader posStr before r .valueError

/-- the first run that cannot be converted -/
def FirstFailure (reader : MigLookup) (posStr : AhbLocation → PyStr) (runs : List Run) (e : Exc) : Prop :=
  ∃ before r after, runs = before ++ r :: after ∧ Convertible reader posStr before ∧ r.isHeading = false ∧
    RunRaises reader posStr before r e

end Verif
