import Verif.Py.Xml
import Verif.Py.Dict
import Mathlib.Data.List.Forall2
/-!
# Specification of C132: MIGs that say the same to their reader
-/

namespace Verif

/-- the attributes of a MIG that identify an element -/
def identifyingAttributes : List PyStr := [py!"ref", py!"key", py!"meta.id"]

/-- the attributes of a MIG that name an element -/
def namingAttributes : List PyStr := [py!"migName", py!"ahbName", py!"name"]

/-- the two element trees have the same shape, the same tags and the same values of the given attributes; their texts, the order of attributes and
all other attributes may differ -/
inductive MigAlike (names : List PyStr) : Xml → Xml → Prop
  | elem {tag : PyStr} {attrib attrib' : List (PyStr × PyStr)} {text text' : Option PyStr} {children children' : List Xml} :
    (∀ name ∈ names, dictGet name attrib = dictGet name attrib') → List.Forall₂ (MigAlike names) children children' →
    MigAlike names (.elem tag attrib text children) (.elem tag attrib' text' children')

end Verif
