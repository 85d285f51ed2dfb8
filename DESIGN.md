# DESIGN

Formal model (Lean 4.33, core + single Mathlib modules where needed) of the Python package `maus`
(`/repo/src/maus`, Hochfrequenz/mig_ahb_utility_stack). The model is a set of total, computable functions that
mirror the Python functions branch by branch; exceptions are values (`Except Exc α`), mutation is modelled by returning
the new state, external collaborators (MIG reader, converters, accessors, file system, `str.lower`, `uuid4`, efoli) are
parameters.

## Layout

| path | content |
|---|---|
| `lean/Verif/Py/*` | Python runtime pieces: exceptions, strings (code point lists), Unicode tables, regex engine, JSON values |
| `lean/Verif/Model/*` | the model of the code; every definition cites file and lines in `/repo` |
| `lean/Verif/Spec/*` | small independent specifications (tree addresses, paths, document order, ...) |
| `lean/Verif/Proofs/*` | helper lemmas |
| `lean/Verif/Props/*` | property theorems (named after the property ids) and non-vacuity examples |
| `conformance/*` | tests of the model against the unit tests of the project and against CPython |

## Plan per property

- **C01 SGH flattening is an exact pre-order listing** — Model `Sgh.flattened` by structural recursion. Spec: valid tree addresses and their lexicographic order. Proof by induction over the tree.
- **C02 is_hierarchically_below decides strict descendance** — Spec: inductive strict-descendant relation. Induction over the tree.
- **C03 sg_is_hierarchically_below is the strict nesting order of groups** — Same spec as C02; strict-order laws from uniqueness of addresses under distinct keys.
- **C04 Sub-location is the prefix order on layers** — Model the length test + zip loop; spec `<+:` (list prefix).
- **C05 find_common_ancestor returns the last common ancestor** — Model the zip loop with break, the constructor's min_len validator and the ValueError; spec: greatest common prefix.
- **C06 calculate_distance is the tree distance** — On top of C05; arithmetic over longest common prefixes (`omega`).
- **C07 determine_hierarchy_changes annotates every line, in order, with a sound change** — Model the state machine as a fold over lines (state: previous line, last opening segment/qualifier, ready flag). Induction over lines.
- **C08 A same-key neighbour group is announced only when one may start** — Same fold, with an independent history spec (most recent group change; segment-less line since).
- **C09 determine_locations keeps the lines and describes each line by itself and its next segment** — Model of `determine_locations` as a fold in `Except`; induction over lines; spec of 'next segment' via first element of the suffix.
- **C10 determine_locations ends in the line's own segment group** — Invariant on the layer stack, induction over lines, no assumption on lines.
- **C11 determine_locations follows the hierarchy** — Invariant: layer keys = hierarchy path of the current key. Spec: path via tree addresses. Uses C03/C05.
- **C12 determine_locations succeeds on well-formed AHBs and never raises NotImplementedError** — Progress part of the C11 invariant; NotImplementedError unreachable by C07. Counterexample (skipped level) shows the assumption is needed.
- **C13 determine_locations: layers only change when a group is opened** — One-step lemma of the fold, lifted to all consecutive pairs.
- **C14 Look-ahead enrichment returns the same lines** — The code returns shifted lines for trailing lines without successor: negation with a witness, `_partial` theorem for the second components and for the prefix up to the last matching line.
- **C15 to_deep_ahb loses, duplicates and reorders nothing** — Model references to inner lists by tree paths; invariant: all live references lie on the rightmost spine; hence document order = creation order. The event sequence is specified separately.
- **C16 Deep AHB group discriminators are unique and there is at most one root** — Invariant over `used_stacks`.
- **C17 Deep AHB carries no blank expression** — Invariant over the built tree; validators of the constructors.
- **C18 merge_lines_with_same_data_element is exact** — Direct case analysis + induction over lines.
- **C19 to_deep_ahb nests groups as their locations are nested** — Invariant relating stack of list references to layers of the previous position.
- **C20 Document order of the deep AHB follows the flat AHB** — Corollary of C15 + order preservation of the event sequence.
- **C21 to_deep_ahb keeps the metadata** — Direct.
- **C22 Sorting by segment groups is a stable regrouping** — Model `sorted` as a stable merge sort (`List.mergeSort`); spec via filter/permutation/Sublist.
- **C23 get_segment_groups lists the distinct groups in order of first occurrence** — Induction over lines.
- **C24 A flat AHB never has a line without segment group in between** — The code keeps instead of removes the chunks that contain the control section: negation with a witness; `_partial` theorem for the pattern part and the exact acceptance condition.
- **C25 Line discriminators identify group, segment, data element and name** — String injectivity with separators, using the regex validators.
- **C26 holds_any_information detects exactly the non-blank lines** — Direct, `strip` characterised by `all isSpace`.
- **C27 reset_ahb_line_index clears every index and nothing else** — Structural induction; spec: equality up to index.
- **C28 replace_inputs_based_on_discriminator updates exactly the addressed inputs** — Structural induction; spec over data elements listed in document order.
- **C29 SegmentGroup.find_segments is exact** — Structural induction; spec: document-order list of segments, filtered.
- **C30 DeepAnwendungshandbuch.find_segment_groups is sound and complete** — Structural induction; spec: inductive occurrence relation.
- **C31 DeepAnwendungshandbuch.find_segments returns matching segments of matching groups, each once** — False of the code (duplicates; segments of top level groups are returned regardless of the group predicate): negations with witnesses, `_partial` membership theorem. The exact number of times a segment is returned is the number of matching groups around it (`Spec/FindExact.lean`), plus one in outermost groups; counting along addresses.
- **C32 get_all_value_pools returns every value pool** — Fold invariant.
- **C33 get_all_expressions is the sorted set of all expressions** — Set of expressions by occurrence; `sorted` by code point order.
- **C34 replace_value_pool replaces simultaneously and only mapped qualifiers** — Dict keyed by qualifier (last duplicate wins), sequential assignment with validation on assignment (attrs `define`).
- **C35 has_value_pool_which_is_subset_of decides the subset relation** — Containers: iff. One-shot iterators: soundness + counterexample for completeness.
- **C36 JSON path round trip of an EdifactStack** — Regex engine run on the rendered path; induction over levels.
- **C37 Sub-stack is the prefix order** — As C04.
- **C38 Flat AHB JSON round trip** — marshmallow field semantics over JSON values; UUID text form modelled concretely.
- **C39 Deep AHB JSON round trip up to line indices** — As C38 over trees; `section_name=None` / `value_type=None` do not load: negation + `_partial` with exact side conditions.
- **C40 SGH JSON round trip** — As C38.
- **C41 AHB location XML round trip** — XML element trees + xmltodict conversion; single layer locations fail: negation + `_partial`.
- **C42 merge_section_only_lines only merges headings** — Loop as recursion with the pending heading as accumulator; spec via span of section-only rows.
- **C43 CSV lines carry the section heading above them and ascending indices** — Fold over rows with the current section as state.
- **C44 separate_value_pool_entry_and_name loses nothing and prefers value pool entries** — Case analysis; idempotence is false if neither input is a value pool entry: negation + `_partial`.
- **C45 Condition extraction** — Regex engine run on the rendered text; induction over conditions.
- **C46 The expression column is the first five-digit column** — Regex engine; `re.match` with `$` also accepts a trailing newline: stated precisely.
- **C47 Hard coded section name replacement is total** — KeyError for padded names: negation + `_partial`; unreachable from the CSV reader (theorem).
- **C48 MIG lookup returns an element that matches the location** — XPath steps over XML trees; soundness of every step.
- **C49 MIG lookup failures are ValueErrors** — IndexError for a trailing `|`: negation + `_partial`.
- **C50 The stack of an element lists its named ancestors** — A nameless element inherits the name of its parent level / UnboundLocalError: negation + `_partial`.
- **C51 Nested qualifiers are read exactly** — Regex engine; see C49.
- **C52 Name similarity is an equivalence** — `str.lower` is a parameter with two assumed laws.
- **C53 make_tree_names_comparable touches only names** — Structural induction over XML trees.
- **C54 Division detection** — `str.lower` a parameter; case analysis.
- **C55 EdiMetaData is always consistent** — efoli lookup a parameter; regex engine.
- **C56 Value pool replacement is independent of the task schedule** — Explicit small-step scheduler over tasks sharing one mutable edifact object; proved for converters that read before suspending, counterexample schedule otherwise (`_partial`).
- **C57 transform_all_value_pools transforms exactly the json path pools** — Same scheduler, one task per pool.
- **C58 The CLI never reads or writes if its mode is ambiguous** — Effects as a trace over an abstract file system.
- **C59 A generated MAUS passes its own check** — Composition of C15.., C39, C27; needs section names (see C39): `_partial`.
- **C60 The file based MAUS provider returns None only for missing files** — File system a parameter.
- **C61 check_youngest_tree_is_parseable checks the last tree file** — Directory listing and parser as parameters.
- **C62 Group border detection is exact** — Same fold as C07; the announced opening / closing lines are characterised from both sides (a line is announced iff the border condition on the raw lines holds).
- **C63 Loading never bypasses the validators** — Every object produced by a schema is produced by the constructors; proved as "loaded ⇒ constructor accepts the loaded fields".
- **C64 Complete CSV files can be read** — Success condition of the reader for files that contain all columns; the capital heading witness shows why the condition on headings is needed.
- **C65 Boilerplate segments** — Case analysis over segments of the deep AHB.
- **C66 JSON files in every formatting are read back** — Concrete model of `json.dumps`/`json.loads`: a declarative grammar of JSON texts with arbitrary white space; the parser is proved to read every text of the grammar.
- **C67 Loading untrusted data raises documented exceptions only** — `Raises` predicate over all JSON values and all schemas.
- **C68 CSV texts are read exactly** — UTF-8 decoding, universal newlines, line iterator and csv state machine; spec: declarative quoting grammar.
- **C69 Reading untrusted CSV files raises documented exceptions only** — `Raises` over all texts / byte contents.
- **C70 Dumped deep AHBs conform to the published JSON schema** — Draft-07 validator over the published schema as data; false of the code (the schema is outdated): negation for *every* deep AHB, segment and data element, `_partial` for value pool entries; equations for the validator give an exact description of the conforming documents (Spec/PublishedSchema.lean).
- **C71 XML texts of locations are read as XML says** — XML parser and writer as functions; the parser is proved equivalent to a declarative grammar.
- **C72 The sanity check of MIG files, and formatting of MIG files** — On top of C71: the check and every lookup depend on the element tree only, not on its formatting.
- **C73 Reading locations from XML: exact input language, documented exceptions** — `iff` with a declarative description of acceptable elements.
- **C74 Helpers for MIG elements return the attributes** — Direct.
- **C75 Exactly the documented form is accepted as .tree file** — Lark's single terminal as a regular expression run by the backtracking engine; a declarative description of `.tree` texts (`Spec/Tree.lean`); the pieces of a tree end at their first `]`, hence the first (greedy) match is the longest.
- **C76 get_all_value_pools returns the first value pool object per discriminator** — Objects as pairs of place and content (`Model/DeepRef.lean`), the code once more on these pairs; repetitions in the search are shown to change nothing, so what is left is the first object per discriminator of a sorted list.
- **C77 transform_all_value_pools transforms every value pool** — The scheduler of C57 with the objects of C76: the tasks write to the places of the returned objects. False if two value pools share a discriminator; exact otherwise.
- **C78, C79 independence of GUIDs and line numbers**: no new model. `AhbLine.bare k` erases GUID, conditions and segment id and renumbers with `k`; every function of `navigation.py` and `mig_ahb_matching.py` is shown to commute with it (and with the renumbering of the tree under construction) by induction over the loops; the CSV reader is compared for two GUID generators. Specification: `SameContent`, `SameButGuid`, `SameOutcome`, `renumber` in `Spec/Content.lean`.
- **C80, C81 unknown segment groups** — No new model: induction over the line number with the trace of a successful run of `determine_locations`. C81 is false of the code: `_find_common_ancestor_from_sgh` tests `location_x` twice, so a missing second group is an AttributeError.
- **C82 documented JSON objects** — The specification `Spec/SchemaLoad.lean` is a family of inductive relations `Describes… j x` that list, key by key, what the document has to contain; nested groups and hierarchies by recursion in the relation. Proof: one lemma per kind of field declaration (required, nullable, default), then both directions per schema; recursion over the size of the document resp. over the relation.
- **C83 requirements on data elements** — Flat and deep AHB are each read as a list of requirements (`Spec/Requirements.lean`); the lists are compared. False of the code (consecutive free text lines with the same data element: only the first one survives), so: counterexample, equality under the premise that free texts have one line, and without premise that the deep list is a sublist of the flat list. Proof: C15 (document order) and C18 (merging) per run, runs partition the lines.
- **C84 expressions of segments** — Same technique for segments. False of the code (the segment that opens a group gets the expression of the group heading); counterexample and equality under the premise that headings agree with their segments and segments are separated by data elements.
- **C85 JSON grammar** — Grammar of RFC 8259 as inductive relations between texts and values (white space, escapes, surrogate pairs, integers, numbers with fraction and exponent as nearest doubles, NaN/Infinity, duplicate keys), written apart from the parser. Soundness by induction on the fuel, completeness by mutual induction on derivations, the fuel bound removed with C66; combined with C82 for the three schemas. The rounding algorithm is proved to return the nearest double with ties to even. Lone surrogates are not modelled.
- **C86 CLI from contents to contents** — C58 with the XML parser of C71 plugged in; the input files are described by C82, C85 and C71 without any parser. Same content gives the same MAUS up to indices (C72, C79), and the written JSON does not contain the indices, so the bytes agree.
- **C87 Exceptions of loading** — `Spec/SchemaErrors.lean` lists the objects of a document in the order in which they are built (the hooks run after the nested fields have been deserialised) and says, without the model's loaders, when an object is refused. Proved for every loader by cases, for groups and hierarchies by induction on the size of the JSON value; the ValidationError case follows with C82.
- **C88 Constructors** — every constructor with validators, all outcomes in both directions. The regular expressions are described by the readable predicates of `Spec/Codes.lean`, `Spec/Csv.lean` and `Spec/ValuePool.lean`; proved by cases over the arguments. Arguments of a wrong Python type (`instance_of`) cannot be expressed in the model, except `None`.
- **C89 Success of to_deep_ahb** — both directions, on the specification of runs and openings of C15/C19 plus the depth of the group opened last (`Spec/DeepSuccess.lean`). The tree invariant of C15 gives for each step: it succeeds iff the run is fine and its group can be inserted; induction over the runs. The premise on expressions is what the constructor of `AhbLine` guarantees (C88).
- **C90 Complete specification of to_deep_ahb** — an equivalence: the result is the one tree with the document order of C15 and the depths computed from the openings (`Spec/DeepTree.lean`). Uniqueness of the tree by induction over the length of the document, with an arbitrary continuation; existence from C89. Gives the exact number of outermost groups for C16.
- **C91 Complete specification of determine_locations** — an equivalence (`Spec/LocationLayers.lean`): the layers of a line are `layerAt` of the keys on the path, i.e. the last line up to here for which a change into the group was reported. Invariant of the loop: the open layers before line n are the most recent openings below n along the path of the previous key; needs that the keys on a path are distinct. Necessity of the code conditions from the validators, by inverting each step.
- **C92 Interrupted runs and the provider** — from C58_interrupted: the output file contains a first part of the bytes. UTF-8 is prefix free, so what can be decoded is a first part of the text; an object value ends at its closing brace whatever follows (the parser accepts it without look-ahead), so a proper part of the text of an object is no document. The parser fails on it with a ValueError: its only other error, a lone surrogate, would be met in the complete text too (Proofs/PartialError.lean). Together with C60 and the round trip C66.
- **C93 Texts are only copied** — a relabelling of lines and of deep AHBs; every step of `determine_locations` and `to_deep_ahb` commutes with it (generalises the renumbering of C79). The structure theorem is the relabelling that erases the texts; for the locations any change outside the four columns commutes.
- **C94 Look-ahead** — the items of the loop for the first lines depend on the rest only through the first segment code and the first value pool entry there; the loop only appends, one location per line.
- **C95 Stopped transformation** — the invariant of the concurrent run (each task is unstarted, running on the unchanged pool, or has replaced it at once) at every reachable state, and a cancellation that ends the running tasks.
- **C96 Histories of edits** — induction on the list of calls with a closed form of the result (a function mapped over the data elements of the, possibly reset, tree); for raising functions a relation of visits, one data element after the other, and the skeleton of the tree without inputs.
- **C97 Further lines** — the locations by C94; `groupby` of two parts with different keys at the border; the loop over the runs of the first part is an initial part of the whole loop, what it creates and the depths of its groups are prefixes (C90).
- **C98 Repetition** — the version is overwritten before it is read; the round trips of C66.
- **C99 Parallel runs** — the tool as a tree of operations on files (`Py/FileTask.lean`, `Model/CliTask.lean`), proved to do what the model of C58 does when it is alone; small steps (a file is emptied when it is opened, written in pieces of any size at the position of the process) and all interleavings; invariant: each run, if it were alone from now on, would end as if it had always been alone; well-founded induction for the end. Each process reads a file in one go, and a full device or a missing permission are fixed for each process.
- **C100 From CSV to MAUS** — composition of the models of the CSV reader, the schemas, `to_deep_ahb` and the command line tool (`Spec/Pipeline.lean`). Every flat AHB from a CSV file passes all validators (induction over the rows), so it survives every JSON style; then C58, C66 and C78.
- **C101 Discriminators and template** — composition of the models of `to_deep_ahb` and of the template reader (`Spec/TemplatePath.lean`). Every item of the deep AHB stems from a run of lines (C15); its stack is that of a location of the run (C48, C50); the JSON path is read off the levels. Uniqueness by induction along the path with C36. Reading the path back is C36 with the names from the lineage.
- **C102 Placement of segments** — every item of the deep AHB has a position in what the runs create one after the other (C15); the group of a segment is the last group item before it (`Spec/Placement.lean`). The second half is false of the code: when the segments of an outer group go on after an inner group (such as `UNT` at the end of a message), they are appended to the inner group (`C102_false`). Proved under the hypothesis that everything created has the layers of the group opened last (`C102_partial`).
- **C103 Printed locations** — model of CPython's `repr` of strings (`Py/Repr.lean`; `str.isprintable` is a parameter) and of the `__repr__` that attrs generates (`Model/LocationRepr.lean`). The printed characters are a prefix code, so the end of a printed string can be told; then field by field and layer by layer. Elsewhere the printed form remains the parameter `posStr`; the theorems hold in particular for this one.
- **C104 Requirements on segment groups** — false of the code as stated (a second group for which the template has the same element is lost). Exact characterisation instead (`C104_exact`): the located lines are divided into longest parts at the same place (`C104_parts_unique`: only one division exists); the groups are those the parts ask for (`askedGroup`), the first one for each discriminator (`firstNotes`). Proof by induction over the runs of lines with the set of used paths as accumulator; consequences in both directions (`C104_asked_partial`, `C104_nothing_invented`).
- **C105 Virtual groups** — false of the code as documented. The children of a parent are modelled as a list with identities (Model/MigVirtual.lean), so that the index of a group is found among the children moved before; `insert` of lxml counts negative indices from the end. Proved: the children are the documented ones as a multiset, the exact order for one group, the labels of the whole tree by induction over its size, and that no group remains if none is nested directly.
- **C106 Strings and files** — the kinds of arguments are a sum type (Model/XmlReading.lean, `MigInit`). lxml's test for an encoding declaration is its regular expression, run by the engine of Py/Regex.lean; its language is computed by `run_lang`, and compared with the XML declarations of Spec/XmlText.lean: an XML declaration with an encoding is always in it, one without is never.
- **C107 Namespaces** — lxml's resolution of names is a function on element trees (Py/XmlNs.lean: declarations in scope, Clark names, the constraints on declarations; which URIs are accepted is a parameter). Spec/XmlNs.lean describes the expanded document by inductive relations; `resolveNs_iff` shows that the function computes exactly this relation, by induction over the tree with the scope as a finite map that represents the function from prefixes to namespaces.
- **C108 Exceptions of to_deep_ahb** — same model as C89. Spec/DeepRaises.lean lists the failures of a run as an inductive relation (`RunRaises`) that refers to the runs before it only through what they have created and opened. Each step of the fold is shown to fail with exactly that exception (`deepStep_error_iff`), using the invariants of C15/C89 and that the previous position is known as soon as there is a group.
- **C109 Outcome of determine_locations in any order** — same model as C12/C91, without the assumption that no level is skipped. Spec/LocationOutcome.lean gives the open groups after a line as a relation on lists of keys (`NextOpen`), the exception of a line (`LineRaises`) and the runs without exception (`Through`). Proved by an invariant: the keys of the layers are a sublist of the path to the current group with the root first and the group last, so that the number of closed groups is determined by the longest common start (`leave_outcome`).
- **C110 Exact exception of every failing run of the command line tool** — model of C58 (`cliCommand`). Spec/CliRaises.lean describes the failures as relations on the file system (`TextFails`, `InputFails`, `WriteFails`, `CheckFails`, `CommandFails`), with one case per stage which requires the stages before to succeed. Proved by following the program; `store_error` characterises the failures of opening for writing by recursion on the path. That nothing else gives `click.Abort` (`Proofs/NoAbort.lean`) goes through all functions that a run calls, and through C87, C49 and C108. The XML parser is a parameter; that it does not raise `click.Abort` is a hypothesis of `C110_abort`.
- **C111 Exact outcome of the MIG lookup** — model of C48 (`getElement`). Spec/MigExact.lean says when a lookup stumbles over an unreadable attribute, as a walk down the tree (`LayerCrash`, `SegmentCrash`, `FieldCrash`); the result is that of C48 (`Found`). Proved by induction on the layers and on the lists of candidates; the premises on readable qualifiers of C48 and C49 are not needed. Of several message classes at most one may have classes for the first layer: then the queries give the same results without the other ones (`C111_other_messages`, `C111_no_first_layer`). That a restriction is necessary is shown by a document in which a field of another message is returned (`C111_several_messages`, `C48_two_messages`).
- **C112 Reading any text as a JSON path** — model of C36 (`fromJsonPath` with the regular expression and `finditer`). Spec/JsonPathRead.lean says without regular expressions which levels a text has (`LevelsOfText`). Proved by induction on that relation, for all texts. (The limit of 4300 digits of `int` is not modelled, see below.)
- **C113 The exact exception of the CSV reader** — models of C42, C43 and C69. Spec/CsvRaises.lean says which rows raise what (`IndexRaises`, `RowRaises`) and which of them comes first. Proved for all records by induction on the rows, for the merging of the headings and for the reading of the rows. (Decoding errors of a file, which are raised while the file is read block by block, are part of C69 only.)
- **C114 Flat AHBs that are edited in place** — Model/FlatEdit.lean: a handbook holds references to line objects; assignments run the validator of the attribute (attrs `define`), changes of the list in place run none. Proved by induction on the history and, for sorting, with the lemmas of C22 moved from lines to references. `C114_bypass`: an assignment to a segment group gets past the handbook's validators and makes the next sort raise, so the premise of `C114_stays_acceptable` is needed. (Values of another type are refused with a TypeError by the type validators and are not modelled, except that the validator of `index` is only a comparison with 0.)
- **C115 A CSV file that passes the sanity check becomes a flat AHB** — false of the code (`C115_check_does_not_suffice`: a segment group "SG" without a number is read, but refused by the flat AHB). Spec/CsvFlat.lean describes the rows that can be converted in terms of their cells; `C115_exact` combines C43 (which line comes from which row) with C24 (which lines are accepted).
- **C116 Results do not depend on hash randomisation** — Model/HashOrder.lean repeats the two places that iterate a set with the order as a parameter. `C116_reader`: two orders give the same reader; `C116_model`: and the one of Model/Csv.lean; `C116_merge`: the merged rows are equal as dictionaries; `C116_expressions`: sorting any enumeration of the expressions gives `get_all_expressions`. The other sets of the code are used only for `in`, `len` and the text of exceptions.
- **C117 Assignments to attributes of a deep AHB and its parts** — Model/DeepAssign.lean has one heap per class, so that objects may be shared; `DeepObj.value` is the tree that is seen when the objects are read (to a finite depth). `C117_stays_constructed`: invariant over histories; `C117_assign`: exact effect; `C117_outcome`: exact outcome; `C117_cycle`: a group that contains itself is accepted; `C117_value_unique`, `C117_value_shows`: reading is well defined and shows what the references lead to. Values of other types than the documented ones are not modelled.
- **C118 The lists of a converted AHB are separate objects** — Model/DeepHeap.lean is `to_deep_ahb` once more, with lists, groups and segments as objects on a heap and references to them in the local variables. `C118_same`: refinement, it raises what Model/Matching.lean raises and its heap shows the tree of Model/Matching.lean (simulation with the address of every list as ghost state); so the addresses that Model/Matching.lean uses for references are no longer part of the trusted base. `C118_nothing_shared`: no object or list is used twice. `C118_change`: emptying one list is seen at one place.
- **C119 A MAUS file that is read while it is written** — Model/ReadWhile.lean: the operations of the reader (open, read at most n bytes, end at an empty read) and of the writer (open and empty the file, write at most n bytes) take turns in any order. `C119_reads`: invariant over all schedules and, conversely, a schedule for every outcome: exactly the mixtures of k bytes of the old and the rest of the part of the new content that has been written. The property is false for a file that is overwritten (`C119_mixture`: a MAUS with the description of the old and the pruefidentifikator of the new one). Proved: for a new file or unchanged content (`C119_new_file_partial`), for a reader that opens the file after the writer (`C119_opened_later_partial`) or ends before it (`C119_ended_before_partial`). `C119_get_maus` connects this with `get_maus` of Model/Cli.lean.
- **C120 Objects made from one CSV reader are independent** — Model/Session.lean: a reader, its flat and deep AHBs, with references to lines and meta information, and histories of calls and edits. Each call returns what is seen at this time (`C120_to_flat`, `C120_to_deep`); what a step can change at most (`C120_frame`, invariant: every flat AHB has its own meta information, every deep AHB that of a flat AHB). Independence itself is false: the lines are shared by all flat AHBs of the reader (`C120_lines_not_independent`, `C120_lines_shared`, `C120_assign_line`), the meta information by a flat AHB and its deep AHBs (`C120_meta_not_independent`, `C120_meta_shared`, `C120_assign_meta`), the condition texts by all callers (`C120_conditions`). `C120_to_flat_again`: without assignments to lines the result of `to_flat_ahb` stays the same. `C120_reader`: the histories begin with the reader as constructed.
- **C121 Runs of the tool that write the same MAUS file at the same time** — Model/WriteWhile.lean: the file and, for each run, how much it has written; every schedule of `open` (empties the file) and `write` (a piece of any size at the position of the run; a gap is filled with zeros). Invariant over all schedules: every byte is from one of the runs at its position or a zero (`C121_bytes`), and the run that opened last has left no gap up to its position. Runs that write the same leave just this (`C121_same_partial`); if they are killed, the file is complete or reading it raises (`C121_killed_partial`: a part is no JSON text, nor is a text with a zero in it). For runs that write different MAUS the claim is false (`C121_mixture`).
- **C122 From the rows of a CSV file to the requirements of a MAUS** — Spec/CsvMaus.lean says which requirement a row states, in terms of its cells (`RowStatesField`, `RowStatesSegment`), and lists what the rows state from top to bottom (`StatedBy`). `C122_stated`: the flat AHB states exactly this (induction over the merged rows; headings and blank rows state nothing); then C83, C84 and C100. `C122_nothing_invented` and `C122_command` hold for all files; that nothing is lost is false (`C122_counterexample`) and holds under the premises of C83 and C84 (`C122_kept_partial`).
- **C123 A run of the tool that fails keeps the MAUS of the last run** — False: Model/Surrogates.lean extends the model of the tool to texts with lone surrogates (the last 2048 private use characters stand for them): which string the escapes in a JSON file give, the pieces in which `json.dump` hands the text to the file, and the encoder that fails on the first piece with a lone surrogate. `C123_reading`: the strings read are those of the UTF-16 units (Spec/Surrogates.lean, `UnitsString`). `C123_without_surrogates`: without surrogates the tool is `cliCommand`, so all theorems about it stay. `C123_written`, `C123_lone`: what the output file holds afterwards, exactly. `C123_refused`: a provider then raises `ValueError`. `C123_failed_run_changes_nothing_partial`: the claim for MAUS without lone surrogates; `C123_counterexample`: a flat AHB with `\ud800` in its description destroys a MAUS. By induction on the JSON value (the pieces make up the text), on the tokens of the text, and the case analysis of `writeBytes`.
- **C124 Every text of a MAUS comes from the flat AHB or from the template** — Spec/Texts.lean lists the texts of flat AHBs and of deep AHBs (an inductive predicate over everything that occurs in the tree). From the runs of lines (C15), the created items (C16, C20) and the way in the template (C101) each of them is traced to a line, to the template or to a printed location. For the tool: all strings of a dump are such texts or keys (induction over values), the text of a value holds a lone surrogate only if a string does, printed locations never do (`repr` escapes), and the strings of a JSON text without escapes of surrogates hold none (induction over the grammar of C85). This replaces the premise of the partial theorem of C123 by one about the input file.
- **C125 Histories of runs of the command line tool** — Spec/RunHistory.lean: steps (a run of the modelled command, ended or interrupted at any of the points of C58/C92; or any change by another program) and histories of steps as an inductive relation; each step has its own permissions and free space. Induction over the history with the effect of a single run (C58, C92, C110): unchanged files, the last change of a file, the content after the last successful run; with C60, C66 what the provider returns and with C58 the later check; without interruptions the files are a dictionary.
- **C126 The discriminator of a data element identifies it** — false of the code (`C126_counterexample`: the reference number in the first and in the last segment of a message; `C126_value_pool_lost`: a value pool which `get_all_value_pools` leaves out). On the runs of C15 and the template paths of C101: `C126_same_discriminator` says what two data elements with one discriminator have in common; `C126_groups_partial`, `C126_segments_partial` and `C126_classes_partial` prove distinctness if no data element is described at two places that are the same in increasingly fine senses; `C126_value_pools` draws the consequence for `get_all_value_pools`. Needs that all locations of `determine_locations` have segment group keys `SG…` and three letter segment codes, an invariant of its loop.
- **C127 Merging section headings twice** — model of C42 (`mergeSectionOnlyLines`), specification of C42 (`SectionOnly`). False: `C127_counterexample`. Proved exactly (`C127_exact`) by induction on the rows, with the accumulated heading generalised; that two blanks are reduced from left to right by `str.replace` decides when a heading is a fixed point.
- **C128 Cut CSV files** — model of C41, C42 and C24 (`CsvReader.new`, `toFlatAhb`). Proved by induction on the rows before the cut, with the accumulated heading and the state of the reader generalised; the blocks counted by the check of the flat AHB stay the same before the cut, apart from the last one, which can only grow. The random guids are a function of the position of the row, so the claim compares two readings that draw the same guids. For texts (model of C68): behind a line the tokeniser is at the start of a record or inside quotation marks; the hypothesis of `C128_text` tells the two apart by what a further line feed would be read as, and `C128_plain` shows that it holds without quotation marks.
- **C129 Independent sections** — model of C41-C43 (`CsvReader.new`), specification Spec/CsvSections.lean. Merging distributes over the two parts by induction on the first one. The artificial heading row at the start of the second part either replaces the section name or, if it is taken for a line (short or capital headings), has no cell in the expression column and fails in every state; behind it the two readings agree up to guids, indexes and conditions. The necessity of the condition on the pruefidentifikator: `C129_other_column`.
- **C130 Columns** — model of C42-C46 (`CsvReader.new`), specification Spec/CsvColumns.lean (the cell of a record in a named column, via the last position of the name in the header). Rows that agree in the columns of an AHB are merged to rows that agree and read alike, by induction. `C130_order` is the case of a permutation of columns with different names.
- **C131 Two pruefidentifikators** — model of C42-C46 (`CsvReader.new`). The two loops over the merged rows run in lockstep: same state, same lines apart from the expression, by induction. For the flat AHB, rows that say nothing besides their expression are excluded by a hypothesis, because `to_flat_ahb` drops a row whose expression is blank only for one of the two. `C131_every_column`: the rows of the file have every column of the header, and the rows made from headings have no column for expressions, so they never get as far as reading one. The locations follow with C93.
- **C132 Attributes of a MIG** — model of C48-C50 (`getElement`, `getEdifactStack`), specification Spec/MigAttribs.lean (an inductive relation between element trees). Corresponding nodes have the same path; every XPath step, every choice among candidates and every level of a stack respects the correspondence, by induction on the steps, the candidates, the layers and the path. `C132_command` adds the command line tool (C58, C100).
- **C133 What a lookup reads of a location** — model of C48 (`getElement`), specification Spec/MigLocation.lean (`SameQuestion`). The loop over the layers gives the same query for both locations, by induction on the layers.

## Disagreements between code and property

The properties are stated as a user of the package would expect them. Where the unchanged code violates one, the
negation is proved with a concrete witness, and the strongest true version carries the suffix `_partial`
(or is an exact characterisation).

| id | what the code does instead | witness |
|---|---|---|
| C14 | lines behind the last segment code / value pool entry are replaced by their predecessor | `C14_lines_not_kept` |
| C16 | two top level groups are possible if the locations open more than one layer at a time | `C16_two_roots` |
| C24 | the filter for `Abschnitts-Kontrollsegment` is inverted: chunks that *contain* it are kept, all others removed | `C24_gap_accepted` |
| C31 | the group predicate is ignored for the outermost groups; nested segments are returned repeatedly | witnesses in `Props/Deep.lean` |
| C35 | one-shot iterators are consumed by the membership tests | witness in `Props/Components.lean` |
| C39 | `None` discriminators, section names and value types are dumped as `null` but not accepted on loading; the value type may be given as `__text_signature__`, an attribute of the enum that is `None`, so that even a deep AHB that has just been loaded cannot be loaded from its dump | witnesses in `Props/Schema.lean`, `C39_loaded_fails` |
| C41 | a location of one layer cannot be read again (xmltodict yields no list); empty qualifiers become `None`; padded qualifiers are trimmed | witnesses in `Props/LocationXml.lean` |
| C44 | not idempotent if neither argument is a value pool entry | witness in `Props/Csv.lean` |
| C46 | `^\d{5}$` accepts a trailing line feed | witness in `Props/Csv.lean` |
| C47 | `KeyError` for an outdated name with surrounding white space | witness in `Props/Csv.lean` |
| C48 | with several message classes a group with another qualifier can be returned (not excluded by the statement) | `C48_two_messages` |
| C49, C51 | a dangling pipe in `key`/`ref` raises `IndexError` | `C49_counterexample`, `C51_counterexample` |
| C49 | a MIG whose root is in a namespace raises `XPathEvalError` in every lookup | `C49_namespace` |
| C50 | an element without any name gets the name of an ancestor level or raises `UnboundLocalError` | `C50_counterexample`, `C50_error` |
| C52 | insertion of separators changes the result next to a capital sigma (final sigma rule of `str.lower`) | `C52_insertion_counterexample` |
| C56, C57 | all tasks share one edifact object: a converter that awaits before it reads gets another entry's qualifier | `C56_counterexample`, `C57_counterexample` |
| C59 | the check fails for segments without section name (see C39) | `C59_counterexample` |
| C60 | a regular file in the place of a directory raises `NotADirectoryError` | counterexample in `Props/Provider.lean` |
| C64 | a heading written in capitals is not recognised as heading | witness in `Props/Csv.lean` |
| C70 | the published schema is outdated: no dumped deep AHB conforms | `C70_*` |
| C77 | of several value pools with the same discriminator only the first one is transformed | `C77_counterexample`, `C77_second_untouched` |
| C81 | a line of a segment group that is missing in the hierarchy gives an AttributeError instead of the ValueError the code has a message for (`location_x` is tested twice) | `C81_counterexample`, `C81_common_ancestor`, `C81_behind_partial` |
| C83 | of consecutive lines with the same data element and no value pool entry (e.g. name, first name in data element 3036) only the first one appears in the deep AHB | `C83_counterexample`, `C83_requirements_kept_partial` |
| C84 | the segment that opens a group gets the expression of the heading of the group (heading "Kann", segment "Muss": the segment is "Kann"; the expected file 11042_deep.json of the repository's tests has "Muss") | `C84_counterexample`, `C84_segments_kept_partial` |
| C102 | the segments of an outer group that follow after an inner group (such as `UNT` at the end of the message) are placed in the inner group; likewise the segments of a repeated group with the same path are placed in whatever group was opened last | `C102_false`, `C102_partial` |
| C104 | if two groups of the flat AHB have the same path in the template, the second one is lost together with the expression of its heading (its segments are added to the group opened last); a heading whose group the template does not know opens no group | `C104_counterexample`, `C104_exact` |
| C105 | `_unpack_virtual_groups` (not called) inserts the children of a group one by one at the index of the group minus one: in reverse order in front of the preceding sibling, or in front of the last child if the group is the first one; virtual groups in virtual groups remain | `C105_order_is_wrong`, `C105_nested_group_remains`, `C105_one_group` |
| C114 | assignments to a line (and changes of the list in place) get past the validators of the handbook; the next sort raises | `C114_bypass` |
| C115 | the sanity check accepts CSV files that `to_flat_ahb` refuses | `C115_check_does_not_suffice` |
| C119 | the tool overwrites the MAUS file in place: a `get_maus` at the same time can return a MAUS mixed of the old and the new one | `C119_mixture` |
| C120 | flat AHBs of one reader share their lines, a flat AHB and its deep AHBs their meta information, callers of `extract_condition_texts` the dictionary; a conversion that fails has written the version into the flat AHB | `C120_lines_not_independent`, `C120_meta_not_independent`, `C120_conditions`, `C120_to_deep` |
| C121 | two runs of the tool that write different MAUS to the same path at the same time can leave a readable MAUS that is neither of the two | `C121_mixture` |
| C122 | of two rows one after the other with the same data element and no codes, the requirement of the second is lost on the way from the CSV file to the MAUS | `C122_counterexample` |
| C123 | a text in the flat AHB that UTF-8 cannot express (escape of a lone surrogate) makes the tool fail after it has emptied the output file: the MAUS of the last run is lost, the file holds a part of the new one, which providers refuse with a `ValueError` | `C123_counterexample`, `C123_lone`, `C123_refused` |
| C126 | the docstring of `DataElement.discriminator` (edifact_components.py:51-54) and the comment in `get_all_value_pools` (anwendungshandbuch.py:524) say that the discriminator is unique; data elements for the same field of the template (the same id in two segments of a group whose fields are in the class of the group, a repeated group) share it, and `get_all_value_pools` returns only the first of such value pools | `C126_counterexample`, `C126_value_pool_lost` |
| C111 | `get_element` "raises ValueErrors if it cannot find the group or the result would be ambiguous" (mig_xml_reader.py:141-145); with several classes with `ref='/'` the position in the query is counted for each of them separately, and an element of another message may be returned | `C111_several_messages` |
| C127 | `.strip().replace("  ", " ")` (flat_ahb_reader.py:122) is meant to leave no double blanks in a heading, but leaves two of three; merging again changes the heading | `C127_counterexample`, `C127_exact` |

## Trusted base

1. **Lean's kernel** (Lean 4.33.0) and the axioms below. No axioms are added; no `sorry`, `native_decide`, `bv_decide`,
   `implemented_by` or `unsafe` is used.
2. **The reading of the source.** The model was written by reading `/repo` as text; every definition cites the file and
   lines it models. Nothing was compared by running the project's code.
3. **The library behaviour assumed** in the next section.

### What is modelled

All modules of `src/maus` are modelled function by function:

| module of `/repo/src/maus` | model |
|---|---|
| `models/edifact_components.py` | `Model/Edifact.lean`, `Model/Deep.lean`, `Model/ValuePool.lean`, `Model/Schema.lean` |
| `models/anwendungshandbuch.py` | `Model/AhbLine.lean`, `Model/Flat.lean, FlatEdit.lean`, `Model/Ahb.lean`, `Model/Deep.lean`, `Model/DeepRef.lean`, `Model/Schema.lean` |
| `models/message_implementation_guide.py` | `Model/Sgh.lean`, `Model/Schema.lean` |
| `navigation.py` | `Model/Navigation.lean` |
| `mig_ahb_matching.py`, `__init__.py` | `Model/Matching.lean` |
| `reader/flat_ahb_reader.py` | `Model/Csv.lean`, `Model/CsvText.lean`, `Model/CsvFile.lean` |
| `reader/ahb_location_xml.py` | `Model/LocationXml.lean`, `Model/XmlReading.lean` |
| `reader/mig_xml_reader.py`, `reader/etree_element_helpers.py`, `reader/mig_ahb_name_helpers.py` | `Model/MigXml.lean`, `Model/XmlReading.lean`, `Model/MigVirtual.lean` |
| `reader/tree_to_sgh.py`, `cli.py`, `maus_provider.py` | `Model/Cli.lean`, `Model/Tree.lean`, `Model/Surrogates.lean` |
| `edifact.py`, `division_helper.py` | `Model/Meta.lean` |
| `transformation.py` | `Model/Transformation.lean`, `Model/DeepRef.lean` |
| `json_schemas/` (published schema) | `Model/PublishedSchema.lean` |

Not modelled: abstract methods and `Protocol`s (no behaviour), `_create_null_element`
(called from nowhere), `to_segment_group_hierarchy` (raises `NotImplementedError`), log messages and texts of
exceptions (exceptions are modelled by their type), performance and memory limits.

### Simplifications and library assumptions

* **Python values.** A `str` is a list of code points without lone surrogates (`List Char`); for the command line tool C123 treats them, with the last 2048 private use characters in their place. Integers are unbounded;
  the limit of 4300 digits of `int(str)` and `str(int)` is not modelled. Object identity and aliasing are modelled only
  where the code depends on it: the lists in `to_deep_ahb` (references as paths, justified by C118), the metadata object shared by
  flat and deep AHB, the edifact object shared by the conversion tasks.
* **Unicode.** `str.lower`, `isspace`, `isdigit`/`\d`, `\w`, casing of sigma: tables of Unicode 14 (Python 3.11) generated
  from CPython's `unicodedata` (`Py/Unicode.lean`, `Py/Case.lean`).
* **re.** A backtracking matcher for the constructs the code uses (`Py/Regex.lean`) with a proof that it agrees with the
  language of the expression (`Proofs/RegexLang.lean`).
* **sorted** is a stable merge sort (`List.mergeSort`); `dict` preserves insertion order.
* **attrs** (24.2.0): validators run at construction and, for `define`d classes, on assignment.
* **marshmallow** (3.22.0): field semantics over JSON values; `load` collects errors, modelled as one `ValidationError`;
  integer fields accept JSON numbers (a float is truncated, `NaN` and infinity are refused) and numeric strings. The enum field looks the name up
  with `getattr`, so that the names of other attributes of the enum get past the field (`dataTypeAttributes`, as in Python 3.11).
  `uuid4` is a parameter; the textual forms `uuid.UUID` accepts are modelled.
* **json.** Text layer of CPython's `json` (`Py/JsonText.lean`): floats (`Py/Float.lean`), `NaN` and infinity
  are read but have no text of their own (no schema dumps them); no lone surrogates, recursion limit or limit on the digits of an `int`.
* **csv.** State machine of the C module with the field size limit; a file is decoded as a whole (an invalid byte is
  reported before the first row, CPython reports it when the buffer is reached); surplus cells of `DictReader`.
* **XML** (lxml 5.3.0, xmltodict 0.13.0). Texts without DOCTYPE; the XML declaration follows the grammar of XML 1.0 (expat accepts further version numbers;
  lxml's refusal of `str` input with an encoding declaration is the regular expression of lxml's source); name characters beyond U+007F are letters of any kind;
  namespaces are resolved for lxml (`Py/XmlNs.lean`; the URIs it accepts are a parameter, colons in names of processing instructions are not refused) and kept as written for expat; comments and processing instructions are skipped (lxml keeps them as nodes;
  they carry no text relevant to the code); no depth limit. XPath expressions are modelled by the steps the code uses.
* **asyncio.** Tasks are coroutines cut at their awaits; the scheduler may pick any runnable task (asyncio's own order is
  one of them); a cancellation ends every running task (converters do not catch `CancelledError`); converters may not mutate the data they are given, except the shared edifact object.
* **efoli.** `get_edifact_format_version`/`EdifactFormat` are parameters.
* **File system** (`Py/Files.lean`): a tree of directories and regular files, permissions per path; no links, `..` or
  special files. Interruption of the CLI at any effect is modelled (prefix of the trace), and so are runs of the CLI at the same time
  (`Py/FileTask.lean`, `Model/CliTask.lean`): each system call is one step, the steps of the processes are interleaved in any order.
* **click** is modelled by the result of option parsing. **Lark**: all rules of the grammar are terminals, so Lark's Earley parser
  with dynamic lexer amounts to one regular expression with ignored characters around it (`Model/Tree.lean`); the order in which Lark
  tries alternatives is irrelevant for acceptance (C75).

### Checks of the model against the code

The model cannot be compared with the running code here, but with the literals in its unit tests and with CPython's standard library. The
scripts are in `conformance/`; no theorem depends on them.

* 173 cases of the parametrised unit tests, and the 832 lines of the handbook 11042 (CSV reading, locations, hierarchy changes): the
  model gives the expected results.
* About 100 000 random inputs for the regular expressions, `csv`, `json`, `uuid`, `int`, `str.strip`, `str.lower` and expat, and every code
  point below U+20000 for the character classes: no differences but the limits of the model stated above.

### Axioms

Dependence of the property theorems on axioms (`#print axioms`, namespace `Verif`):

* **none** (7): `C26_other_fields`, `C46_newline`, `C47_replace_none`, `C47_key_error`, `C52_german_letters`, `C52_sharp_s`, `C52_insertion_counterexample`
* **propext** (37): `C05_common_ancestor_comm`, `C103_no_path`, `C104_counterexample`, `C105_order_is_wrong`, `C11_skipped_level`, `C119_ended_before_partial`, `C12_skipped_level`, `C127_counterexample`, `C129_other_column`, `C131_only_expressions`, `C14_lines_not_kept`, `C16_two_roots`, `C21_metadata`, `C29_not_recursive`, `C31_root_ignores_group_predicate`, `C31_duplicates`, `C35_iterator_false`, `C35_free_text`, `C39_round_trip_fails'`, `C41_round_trip_fails`, `C41_texts_change`, `C44_not_idempotent`, `C49_counterexample`, `C49_layers`, `C50_counterexample`, `C51_counterexample`, `C56_counterexample`, `C56_terminates`, `C57_terminates`, `C62_opening_segment_line_border`, `C69_to_flat_ahb_exceptions`, `C70_conforming_not_loadable`, `C83_counterexample`, `C84_counterexample`, `C93_locations`, `C98_version_irrelevant`, `C98_second_call`
* **propext, Quot.sound** (101): `C02_is_hierarchically_below`, `C03_sg_below_iff`, `C03_sg_below_irrefl`, `C03_sg_below_trans`, `C03_sg_below_asymm`, `C03_line_below_iff`, `C04_is_sub_location_of`, `C04_is_parent_of`, `C04_partial_order`, `C05_common_ancestor`, `C05_common_ancestor_error`, `C103_identifies`, `C104_parts_unique`, `C114_lines_stay_sound`, `C114_assign`, `C114_refused`, `C116_reader`, `C116_model`, `C116_merge`, `C117_value_unique`, `C117_value_shows`, `C120_to_flat`, `C120_to_deep`, `C120_frame`, `C120_lines_shared`, `C120_to_flat_again`, `C120_conditions`, `C120_assign_line`, `C120_assign_meta`, `C120_lines_not_independent`, `C120_meta_not_independent`, `C121_bytes`, `C121_same_partial`, `C124_printed_locations`, `C126_counterexample`, `C126_value_pool_lost`, `C131_flat`, `C131_locations`, `C133_question`, `C133_stack`, `C15_runs`, `C18_merge_value_error`, `C18_merge_result`, `C24_gap_accepted`, `C26_holds_any_information`, `C27_no_index`, `C28_replace_inputs`, `C28_document_order`, `C29_find_segments`, `C30_order`, `C30_once`, `C35_container_partial`, `C35_iterator`, `C37_prefix`, `C37_path_prefix`, `C38_flat_round_trip`, `C39_deep_round_trip_exact`, `C40_sgh_round_trip`, `C43_guids`, `C43_to_flat_ahb`, `C47_replace_exact`, `C47_replace_partial`, `C47_reader_total`, `C50_levels`, `C50_names_partial`, `C50_error`, `C50_descendant`, `C52_equivalence`, `C52_characters`, `C52_insertion_partial`, `C54_division`, `C54_lower`, `C54_names`, `C54_not_both_false`, `C56_value_error`, `C60_get_maus`, `C60_exceptions`, `C60_none_iff_missing_partial`, `C63_loaded_deep_is_valid`, `C64_capital_heading`, `C65_boilerplate`, `C66_no_nesting_limit`, `C67_load_exceptions`, `C68_csv_text`, `C68_reader`, `C68_formatting`, `C68_tokeniser_total`, `C68_long_cell`, `C70_entries_partial`, `C70_never_conforms`, `C70_no_segment_conforms`, `C70_no_data_element_conforms`, `C73_exceptions`, `C73_text_exceptions`, `C74_helpers`, `C81_counterexample`, `C88_line`, `C90_document_order_and_depths`, `C95_cancelled`, `C96_in_place`, `C96_interrupted`
* **propext, Classical.choice, Quot.sound** (366): `C01_flattened_preorder`, `C06_distance_defined`, `C06_distance_path`, `C06_distance_swap`, `C06_distance_zero`, `C06_distance_triangle`, `C07_hierarchy_changes`, `C08_move_to_neighbour`, `C09_locations_describe_lines`, `C10_innermost_outermost`, `C100_stored_flat_ahb`, `C100_command`, `C100_read_back`, `C100_same_bytes`, `C101_data_elements`, `C101_no_discriminator`, `C101_groups`, `C101_segments`, `C101_data_elements_found`, `C101_groups_found`, `C101_unambiguous`, `C101_same_discriminator`, `C101_read_back`, `C102_last_group`, `C102_last_segment`, `C102_partial`, `C102_false`, `C103_segments`, `C103_nesting`, `C104_exact`, `C104_asked_partial`, `C104_nothing_invented`, `C105_same_children_partial`, `C105_one_group`, `C105_no_group`, `C105_elements_kept`, `C105_none_remains_partial`, `C105_nested_group_remains`, `C106_str_or_file`, `C106_declared_encoding`, `C106_no_declared_encoding`, `C107_no_namespaces`, `C107_root`, `C107_unusable`, `C107_undeclared_prefix`, `C49_namespace`, `C108_to_deep_ahb_raises`, `C108_later_lines`, `C109_determine_locations_raises`, `C109_determine_locations_returns`, `C109_layers_on_path`, `C109_which_exceptions`, `C11_locations_follow_hierarchy`, `C110_exception`, `C110_flat_first`, `C110_abort`, `C110_failed_run_changes_nothing`, `C111_indexError`, `C111_returns`, `C111_valueError`, `C111_no_message`, `C111_several_messages`, `C111_other_messages`, `C111_no_first_layer`, `C112_exact`, `C112_levels`, `C112_reread`, `C112_empty`, `C112_canonical`, `C113_reader`, `C113_text`, `C113_unique`, `C114_set_lines`, `C114_sort`, `C114_stays_acceptable`, `C114_bypass`, `C115_exact`, `C115_no_control_section_partial`, `C115_check_does_not_suffice`, `C116_expressions`, `C117_stays_constructed`, `C117_assign`, `C117_outcome`, `C117_cycle`, `C118_same`, `C118_nothing_shared`, `C118_change`, `C119_reads`, `C119_get_maus`, `C119_new_file_partial`, `C119_opened_later_partial`, `C119_mixture`, `C12_locations_succeed`, `C12_locations_errors`, `C120_meta_shared`, `C120_reader`, `C121_killed_partial`, `C121_mixture`, `C122_stated`, `C122_nothing_invented`, `C122_kept_partial`, `C122_command`, `C122_counterexample`, `C123_reading`, `C123_without_surrogates`, `C123_written`, `C123_lone`, `C123_refused`, `C123_failed_run_changes_nothing_partial`, `C123_counterexample`, `C124_segments`, `C124_data_elements`, `C124_texts`, `C124_lone_surrogates`, `C124_flat_texts`, `C124_failed_run_changes_nothing`, `C125_other_files`, `C125_found`, `C125_last_run`, `C125_provider`, `C125_check`, `C125_dictionary`, `C126_same_discriminator`, `C126_groups_partial`, `C126_segments_partial`, `C126_classes_partial`, `C126_value_pools`, `C127_exact`, `C127_second_pass`, `C127_tidy_partial`, `C128_lines`, `C128_error`, `C128_flat`, `C128_text`, `C128_plain`, `C129_sections`, `C129_all_sections`, `C13_layers_change`, `C130_columns`, `C130_order`, `C131_every_column`, `C132_element`, `C132_sanitised`, `C132_stack`, `C132_maus`, `C132_command`, `C14_next_segment_partial`, `C14_next_value_pool_entry_partial`, `C14_exact`, `C15_document_order`, `C16_discriminators_unique`, `C16_first_is_root`, `C16_single_root_partial`, `C16_roots_exact`, `C17_no_blank_expression`, `C18_merge_succeeds`, `C19_nesting`, `C20_indices_ascend`, `C22_sort`, `C22_incomplete_order`, `C23_get_segment_groups`, `C24_acceptance_partial`, `C24_exact_acceptance`, `C25_discriminator_without_name`, `C25_discriminator_with_name`, `C27_equal_up_to_index`, `C27_idempotent`, `C29_document_order`, `C30_find_segment_groups`, `C30_distinct_groups`, `C31_find_segments_partial`, `C31_outermost_match_partial`, `C31_all_segments`, `C31_multiplicity`, `C32_get_all_value_pools`, `C33_get_all_expressions`, `C34_replace_value_pool`, `C34_repeated_qualifiers`, `C34_unacceptable`, `C34_acceptable_qualifiers`, `C36_round_trip`, `C36_normalisation`, `C36_injective`, `C39_deep_round_trip_partial`, `C39_round_trip_fails`, `C39_loaded_fails`, `C41_location_round_trip_exact`, `C41_locations_round_trip_exact`, `C41_location_round_trip_partial`, `C41_locations_round_trip_partial`, `C42_merge`, `C42_merge_succeeds`, `C42_rows_kept`, `C42_joined_text`, `C43_reader_succeeds`, `C43_lines`, `C43_to_flat_ahb_succeeds`, `C43_rows`, `C43_identifier`, `C44_separate`, `C44_entry_first`, `C44_idempotent_exact`, `C44_idempotent_partial`, `C45_extract`, `C45_well_formed`, `C45_keys_and_texts`, `C45_reader_conditions`, `C46_expression_column_exact`, `C46_expression_column_none`, `C46_expression_column_partial`, `C48_lineage`, `C48_walk`, `C48_complete`, `C48_two_messages`, `C49_valueError_partial`, `C49_errors`, `C49_valueError_iff`, `C50_of_location`, `C51_exact_partial`, `C51_all_qualifiers`, `C51_single`, `C52_comparable`, `C52_casing_partial`, `C53_tree`, `C55_consistent`, `C55_constructible_iff`, `C55_default_format`, `C55_exceptions`, `C56_schedule_partial`, `C56_same_result_partial`, `C56_single_partial`, `C56_keys`, `C56_progress`, `C57_counterexample`, `C57_frame`, `C57_transform_partial`, `C57_same_result_partial`, `C57_ahb_frame`, `C57_ahb_partial`, `C57_progress`, `C58_ambiguous`, `C58_output`, `C58_check`, `C58_interrupted`, `C59_check_after_output_exact`, `C59_check_after_output_partial`, `C59_fails_without_section_name`, `C60_not_a_directory`, `C61_nothing_to_check`, `C61_not_a_directory`, `C61_youngest`, `C63_loaded_flat_is_valid`, `C64_complete_file`, `C64_check_file`, `C64_check_complete_file`, `C66_loads_dumps`, `C66_loads_dumps_unsorted`, `C66_sorted_text_is_canonical`, `C66_flat_text_round_trip`, `C66_sgh_text_round_trip`, `C66_deep_text_round_trip_exact`, `C66_style_irrelevant`, `C68_file`, `C68_complete_file`, `C69_reader_exceptions`, `C69_file_exceptions`, `C69_check_exceptions`, `C70_documents`, `C70_loaded`, `C71_documents`, `C71_not_well_formed`, `C71_location_text`, `C71_formatting`, `C71_tostring`, `C71_element_or_text`, `C71_round_trip_text`, `C71_round_trip_texts`, `C72_check`, `C72_check_errors`, `C72_lookup`, `C72_formatting`, `C73_element`, `C73_elements`, `C73_text`, `C75_text`, `C75_refused`, `C75_wrong_type`, `C75_no_blanks_inside`, `C75_file`, `C75_youngest`, `C76_value_pool_objects`, `C76_exactly_one`, `C77_counterexample`, `C77_all_pools_partial`, `C77_second_untouched`, `C78_deep_ahb`, `C78_csv_reader`, `C78_flat_ahb`, `C78_maus`, `C79_renumber`, `C79_equal_up_to_index`, `C80_known_groups`, `C80_to_deep_ahb_refuses`, `C81_first_line_partial`, `C81_behind_partial`, `C81_common_ancestor`, `C82_flat_ahb`, `C82_deep_ahb`, `C82_hierarchy`, `C83_requirements_kept_partial`, `C83_nothing_invented`, `C83_exact`, `C84_segments_kept_partial`, `C84_exact`, `C85_documents`, `C85_unambiguous`, `C85_dumps`, `C85_flat_texts`, `C85_deep_texts`, `C85_hierarchy_texts`, `C86_inputs`, `C86_same_maus`, `C86_same_output`, `C86_same_check`, `C87_flat_ahb`, `C87_deep_ahb`, `C87_hierarchy`, `C87_hierarchy_only_missing`, `C87_which_exceptions`, `C88_meta`, `C88_value_pool_entry`, `C88_free_text`, `C88_value_pool`, `C88_segment`, `C88_group`, `C88_location_layer`, `C88_location`, `C89_to_deep_ahb_returns`, `C89_one_layer_at_a_time`, `C89_exceptions`, `C90_to_deep_ahb`, `C91_determine_locations`, `C91_codes`, `C92_part_is_unreadable`, `C92_interrupted`, `C92_provider_after_interruption`, `C92_incomplete_file`, `C92_provider_after_output`, `C93_copied`, `C93_structure`, `C94_look_ahead`, `C94_prefix`, `C94_error`, `C95_all_or_nothing`, `C95_described`, `C96_history`, `C96_commute`, `C96_idempotent`, `C97_extends`, `C98_stored`, `C99_same_as_alone`, `C99_output`, `C99_other_files`, `C99_all_end`, `C99_terminates`, `C99_shared_file`
