import Verif.Proofs.MigAttribs
import Verif.Model.Cli
import Verif.Props.MigExact
import Verif.Props.Pipeline
/-!
# C132: only the identifying attributes and the names of a MIG matter
-/

namespace Verif

/-- **C132** in MIGs with the same identifying attributes, every lookup finds the element at the same position, or raises the same exception. -/
theorem C132_element {root root' : Xml} (h : MigAlike identifyingAttributes root root') (location : AhbLocation) :
    (getElement root location).map (·.path) = (getElement root' location).map (·.path) := by
  rcases getElement_alike h location with ⟨n, n', h1, h2, hn⟩ | ⟨e, h1, h2⟩
  · rw [h1, h2]
    exact congrArg Except.ok hn.1
  · rw [h1, h2]

/-- **C132 (sanitised tree)** a lookup in the tree with the comparable names finds the element at the same position as in the original tree. -/
theorem C132_sanitised (root : Xml) (location : AhbLocation) :
    (getElement (makeTreeNamesComparable root) location).map (·.path) = (getElement root location).map (·.path) :=
  (C132_element (makeTree_alike root) location).symm

/-- **C132 (stacks)** if the names agree, too, then every lookup yields the same stack or raises the same exception. -/
theorem C132_stack {root root' : Xml} (h : MigAlike (identifyingAttributes ++ namingAttributes) root root') (location : AhbLocation) :
    getEdifactStack root location = getEdifactStack root' location := by
  unfold getEdifactStack
  rcases getElement_alike (h.mono (by simp) _ _) location with ⟨n, n', h1, h2, hn⟩ | ⟨e, h1, h2⟩
  · rw [h1, h2]
    simp only [bind, Except.bind, elementToEdifactStack]
    rw [hn.1, stackLoop_alike _ _ _ _ (h.mono (by simp) _ _)]
  · rw [h1, h2]
    rfl

/-- **C132 (MAUS)** every flat AHB is converted to the same MAUS, or the conversion raises the same exception. -/
theorem C132_maus {root root' : Xml} (h : MigAlike (identifyingAttributes ++ namingAttributes) root root') (posStr : AhbLocation → PyStr) (flat : FlatAhb) (sgh : Sgh) :
    toDeepAhb (migLookup root) posStr flat sgh = toDeepAhb (migLookup root') posStr flat sgh := by
  have : migLookup root = migLookup root' := by
    funext location
    unfold migLookup
    rw [C132_stack h]
  rw [this]

/-- **C132 (command line tool)** with MIG files that only differ in texts and in other attributes, runs of the tool write the same bytes. -/
theorem C132_command {flat : FlatAhb} (hf : flat.Constructed) (env : CliEnv) (o o' : CliOptions) (w w' : FileWorld) (sgh : Sgh) {root root' : Xml}
    (h : MigAlike (identifyingAttributes ++ namingAttributes) root root') (hs : InputsStored env w.fs o flat sgh root) (hs' : InputsStored env w'.fs o' flat sgh root') (p p' : FsPath)
    (hc : o.checkPath = none) (ho : o.outputPath = some p) (hc' : o'.checkPath = none) (ho' : o'.outputPath = some p')
    (hok : (cliCommand env o w).1 = .ok ()) (hok' : (cliCommand env o' w').1 = .ok ()) :
    ∃ bytes, (cliCommand env o w).2.fs.contentAt p = some bytes ∧ (cliCommand env o' w').2.fs.contentAt p' = some bytes := by
  obtain ⟨maus, hg, hcont⟩ := (C58_output env o w p hc ho).2.1 hok
  obtain ⟨maus', hg', hcont'⟩ := (C58_output env o' w' p' hc' ho').2.1 hok'
  obtain ⟨f, hd⟩ := (generates_of_stored hs hf maus).1 hg
  obtain ⟨f', hd'⟩ := (generates_of_stored hs' hf maus').1 hg'
  rw [C132_maus h, hd'] at hd
  cases hd
  exact ⟨_, hcont, hcont'⟩

/-- a MIG with one data element, with the given further attributes and text -/
def exAttributes (first further : List (PyStr × PyStr)) (text : Option PyStr) : Xml :=
  .elem py!"UTILMD" further text [.elem py!"class" (first ++ (py!"ref", py!"/") :: further) text
    [.elem py!"class" (first ++ [(py!"name", py!"Kopf"), (py!"ref", py!"UNH")] ++ further) text
      [.elem py!"field" (first ++ [(py!"name", py!"Datum"), (py!"meta.id", py!"2005"), (py!"ref", py!"DTM:1:1[1:0=92]")] ++ further) text []]]]

def exAttributesLoc : AhbLocation :=
  { segmentCode := some py!"UNH", dataElementId := some py!"2005", qualifier := none,
    layers := [{ segmentGroupKey := none, openingSegmentCode := py!"UNH", openingQualifier := none }] }

theorem exAttributes_alike : MigAlike (identifyingAttributes ++ namingAttributes) (exAttributes [] [] none)
    (exAttributes [(py!"max", py!"9")] [(py!"meta.type", py!"an"), (py!"status", py!"M")] (some py!"\n")) :=
  .elem (by decide) (.cons (.elem (by decide) (.cons (.elem (by decide) (.cons (.elem (by decide) .nil) .nil)) .nil)) .nil)

/-- the data element is found -/
example : ((getElement (exAttributes [] [] none) exAttributesLoc).toOption.map (·.path)) = some [0, 0, 0] := by decide +kernel

/-- the attributes that are listed must not differ: with another name the stack is another one -/
example : getEdifactStack (exAttributes [] [] none) exAttributesLoc ≠
    getEdifactStack (exAttributes [(py!"ahbName", py!"X")] [] none) exAttributesLoc := by decide +kernel

/-- the example MIG with further attributes of its root and a text -/
def exMigMore : Xml := .elem exMig.tag [(py!"author", py!"BDEW"), (py!"date", py!"2022")] (some py!"\n") exMig.children

theorem exMigMore_alike : MigAlike (identifyingAttributes ++ namingAttributes) exMig exMigMore := .elem (by decide) (List.forall₂_same.2 fun c _ => MigAlike.refl c)

/-- two templates -/
def exTwoMigs : CliEnv := { exCliEnv with parseXml := fun content => .ok (if content = [60, 63] then exMig else exMigMore) }

/-- the example directory with the other template -/
def exFsMore (flat : FlatAhb) : FsNode :=
  .dir [(py!"data", .dir [
    (py!"flat.json", .file (encodeUtf8 (jsonDumps exDefaultStyle flat.dump))),
    (py!"sgh.json", .file (encodeUtf8 (jsonDumps exCliStyle exSgh.dump))),
    (py!"utilmd.template", .file [60])])]

/-- the hypotheses of `C132_command`: two successful runs with different templates -/
example : InputsStored exTwoMigs (exFs exFlatSchema) (exOptions none (some exOut)) exFlatSchema exSgh exMig ∧
    InputsStored exTwoMigs (exFsMore exFlatSchema) (exOptions none (some exOut)) exFlatSchema exSgh exMigMore ∧
    (cliCommand exTwoMigs (exOptions none (some exOut)) ⟨exFs exFlatSchema, []⟩).1 = .ok () ∧
    (cliCommand exTwoMigs (exOptions none (some exOut)) ⟨exFsMore exFlatSchema, []⟩).1 = .ok () := by
  have s1 : InputsStored exTwoMigs (exFs exFlatSchema) (exOptions none (some exOut)) exFlatSchema exSgh exMig :=
    ⟨⟨_, rfl, rfl⟩, ⟨_, rfl, rfl⟩, _, ⟨rfl, rfl⟩, rfl⟩
  have s2 : InputsStored exTwoMigs (exFsMore exFlatSchema) (exOptions none (some exOut)) exFlatSchema exSgh exMigMore :=
    ⟨⟨_, rfl, rfl⟩, ⟨_, rfl, rfl⟩, _, ⟨rfl, rfl⟩, rfl⟩
  obtain ⟨flat', maus, hd, _⟩ := ex_deep
  have hp : PathsOk exFiles (exFsMore exFlatSchema) (exOptions none (some exOut)) := by
    refine ⟨?_, fun p hp => ?_⟩
    · rintro p (h | h | h | h)
      · subst h; exact ⟨rfl, rfl⟩
      · subst h; exact ⟨rfl, rfl⟩
      · subst h; exact ⟨rfl, rfl⟩
      · cases h
    · cases hp
      exact ⟨rfl, fun _ => rfl⟩
  refine ⟨s1, s2, ?_, ?_⟩
  · exact (C58_output exTwoMigs _ ⟨exFs exFlatSchema, []⟩ exOut rfl rfl).1.2 ⟨ex_pathsOk _, maus,
      (generates_of_stored s1 exFlatSchema_constructed maus).2 ⟨flat', hd⟩,
      .inr ⟨⟨[py!"data"], py!"maus.json", rfl, rfl⟩, rfl⟩, rfl, fun n hn => by cases hn⟩
  · exact (C58_output exTwoMigs _ ⟨exFsMore exFlatSchema, []⟩ exOut rfl rfl).1.2 ⟨hp, maus,
      (generates_of_stored s2 exFlatSchema_constructed maus).2 ⟨flat', (C132_maus exMigMore_alike _ _ _) ▸ hd⟩,
      .inr ⟨⟨[py!"data"], py!"maus.json", rfl, rfl⟩, rfl⟩, rfl, fun n hn => by cases hn⟩

end Verif
