{"id": "C01", "title": "SGH flattening is an exact pre-order listing", "statement": "SegmentGroupHierarchy.flattened() lists every (segment group, opening segment) of the hierarchy exactly once, parents before children and siblings in their given order (i.e. in lexicographic order of tree addresses).", "quantifier": "every segment group hierarchy, of any shape, depth and width, including None and empty sub hierarchies and duplicated keys", "why_tests_cant": "Trees of unbounded depth and width; tests only look at two hand-written hierarchies.", "anchors": ["src/maus/models/message_implementation_guide.py:SegmentGroupHierarchy.flattened"]}
{"id": "C02", "title": "is_hierarchically_below decides strict descendance", "statement": "sgh.is_hierarchically_below(k) is True exactly if some strict (direct or indirect) descendant of sgh has the key k.", "quantifier": "every hierarchy and every key (including None)", "why_tests_cant": "Universally quantified over trees.", "anchors": ["src/maus/models/message_implementation_guide.py:SegmentGroupHierarchy.is_hierarchically_below"]}
{"id": "C03", "title": "sg_is_hierarchically_below is the strict nesting order of groups", "statement": "sgh.sg_is_hierarchically_below(x, y) is True exactly if x != y and the hierarchy contains a group with key y that has a descendant with key x. It is irreflexive; if all keys of the hierarchy are distinct it is transitive and asymmetric.", "quantifier": "every hierarchy and all pairs/triples of keys", "why_tests_cant": "An order law over all keys and all trees.", "anchors": ["src/maus/models/message_implementation_guide.py:SegmentGroupHierarchy.sg_is_hierarchically_below"]}
{"id": "C04", "title": "Sub-location is the prefix order on layers", "statement": "a.is_sub_location_of(b) is True exactly if the layers of b are a prefix of the layers of a; b.is_parent_of(a) says the same. Hence it is reflexive, transitive, and antisymmetric on layers.", "quantifier": "all pairs/triples of AHB locations", "why_tests_cant": "Holds for all lengths of layer lists; tests have three literal pairs.", "anchors": ["src/maus/navigation.py:AhbLocation.is_sub_location_of", "src/maus/navigation.py:AhbLocation.is_parent_of"]}
{"id": "C05", "title": "find_common_ancestor returns the last common ancestor", "statement": "For two (real) locations find_common_ancestor returns the location whose layers are the longest common prefix of both, regardless of argument order; it raises ValueError exactly if the first layers differ.", "quantifier": "all pairs of valid AHB locations", "why_tests_cant": "Maximality is a statement over all common prefixes of arbitrary lists.", "anchors": ["src/maus/navigation.py:find_common_ancestor"]}
{"id": "C06", "title": "calculate_distance is the tree distance", "statement": "calculate_distance(x, y) returns layers_up/layers_down with: removing layers_up layers from x and adding the last layers_down layers of y gives y; both are minimal; swapping the arguments swaps up and down; layers_up == 0 iff y is a sub location of x; layers_down == 0 iff x is a sub location of y; up+down satisfies the triangle inequality.", "quantifier": "all pairs/triples of valid AHB locations with a common root", "why_tests_cant": "Metric laws over all location triples.", "anchors": ["src/maus/navigation.py:calculate_distance", "src/maus/navigation.py:_AhbLocationDistance"]}
{"id": "C07", "title": "determine_hierarchy_changes annotates every line, in order, with a sound change", "statement": "determine_hierarchy_changes returns exactly the given lines in the given order with one change each. A line whose group key equals the previous one's (None before the first line) is STAY or MOVE_TO_NEIGHBOUR_SAME_KEY; a line with a different key is DIVE_INTO_SUB_GROUP if it is hierarchically below the previous key and LEAVE_TO_PARENT_AND_DIVE_INTO_SUB_GROUP otherwise. LEAVE_TO_PARENT and MOVE_TO_NEIGHBOUR_DIFFERENT_KEY are never produced.", "quantifier": "every list of AHB lines and every hierarchy", "why_tests_cant": "All line histories of any length; the change depends on state carried along the whole list.", "anchors": ["src/maus/navigation.py:determine_hierarchy_changes", "src/maus/navigation.py:_determine_hierarchy_change"]}
{"id": "C08", "title": "A same-key neighbour group is announced only when one may start", "statement": "determine_hierarchy_changes reports MOVE_TO_NEIGHBOUR_SAME_KEY at a line exactly if its key equals the previous key, the next segment code equals the code that opened the current group, the next qualifier differs from the qualifier that opened the current group, and a line without segment code was seen since the last line with a segment code (the line itself or the start of the AHB counts). The opening code/qualifier are those read at the most recent group change.", "quantifier": "every list of AHB lines and every hierarchy", "why_tests_cant": "Depends on the entire history of lines.", "anchors": ["src/maus/navigation.py:determine_hierarchy_changes", "src/maus/navigation.py:_determine_hierarchy_change"]}
{"id": "C09", "title": "determine_locations keeps the lines and describes each line by itself and its next segment", "statement": "If determine_locations returns, it returns the given lines in the given order, and the location of line n has line n's data element as data_element_id, line n's value pool entry as qualifier, and as segment_code the first segment code at or after line n (None if there is none).", "quantifier": "every list of AHB lines and every hierarchy", "why_tests_cant": "Look-ahead over arbitrary suffixes.", "anchors": ["src/maus/navigation.py:determine_locations", "src/maus/navigation.py:_enhance_with_next_segment"]}
{"id": "C10", "title": "determine_locations ends in the line's own segment group", "statement": "For a hierarchy whose root key is None, if determine_locations returns, the innermost layer of each location has the segment group key of its line and the outermost layer has the key None.", "quantifier": "every list of AHB lines and every hierarchy with root key None, with no well-formedness assumption on the lines", "why_tests_cant": "An invariant over a stack mutated along arbitrary line sequences.", "anchors": ["src/maus/navigation.py:determine_locations"]}
{"id": "C11", "title": "determine_locations follows the hierarchy", "statement": "If the hierarchy has pairwise distinct keys and root key None, and no group is entered while its parent group is not open, then determine_locations, when it returns, gives each line a location whose layer keys are exactly the keys on the hierarchy path from the root to the line's group.", "quantifier": "every such hierarchy and every such line sequence of any length", "why_tests_cant": "Path correctness after arbitrarily long histories of entering and leaving groups.", "anchors": ["src/maus/navigation.py:determine_locations", "src/maus/navigation.py:_find_common_ancestor_from_sgh"]}
{"id": "C12", "title": "determine_locations succeeds on well-formed AHBs and never raises NotImplementedError", "statement": "Under the assumptions of the previous property plus codes/qualifiers/data elements that pass the location validators and at least one segment code at or after every line, determine_locations returns (does not raise). For no input at all does it raise NotImplementedError.", "quantifier": "every hierarchy and line sequence", "why_tests_cant": "Absence of IndexError/ValueError/TypeError on all histories.", "anchors": ["src/maus/navigation.py:determine_locations"]}
{"id": "C13", "title": "determine_locations: layers only change when a group is opened", "statement": "Between two consecutive lines the layers stay identical unless a segment group change is reported for the second line; when a change is reported the innermost layer is (line key, next segment code, next qualifier) and all outer layers are an initial part of the previous layers.", "quantifier": "every list of AHB lines and every hierarchy", "why_tests_cant": "Relates all consecutive pairs of all histories.", "anchors": ["src/maus/navigation.py:determine_locations", "src/maus/navigation.py:determine_hierarchy_changes"]}
{"id": "C14", "title": "Look-ahead enrichment returns the same lines", "statement": "The look-ahead helpers return, for every line, that same line together with the next segment code / value pool entry at or after it (None if there is none).", "quantifier": "every list of AHB lines", "why_tests_cant": "Tests have one example in which every line has a successor; the trailing case is never exercised.", "anchors": ["src/maus/navigation.py:_enhance_with_next_line_that_fulfills_predicate", "src/maus/navigation.py:_enhance_with_next_segment", "src/maus/navigation.py:_enhance_with_next_value_pool_entry"]}
{"id": "C15", "title": "to_deep_ahb loses, duplicates and reorders nothing", "statement": "If to_deep_ahb returns, reading the deep AHB in document order (group, then its segments with their data elements, then its sub groups) gives exactly the groups, segments and data elements that were created while walking over the flat lines, in that order: every created segment sits in the most recently opened group and every data element in the most recently created segment.", "quantifier": "every flat AHB, hierarchy and MIG reader (any function from locations to stacks or ValueErrors)", "why_tests_cant": "The code stores references to inner lists; correctness is an aliasing invariant over all histories.", "anchors": ["src/maus/mig_ahb_matching.py:to_deep_ahb"]}
{"id": "C16", "title": "Deep AHB group discriminators are unique and there is at most one root", "statement": "If to_deep_ahb returns, no two segment groups of the result have the same discriminator and the result has at most one top level group, whose discriminator is the document/message path.", "quantifier": "every flat AHB, hierarchy and MIG reader", "why_tests_cant": "Uniqueness over unbounded output built by mutation.", "anchors": ["src/maus/mig_ahb_matching.py:to_deep_ahb"]}
{"id": "C17", "title": "Deep AHB carries no blank expression", "statement": "If to_deep_ahb returns, every segment group, segment, free text and value pool entry in the result has an ahb expression that is neither empty nor whitespace only, and every value pool entry comes from a line with an ahb expression.", "quantifier": "every flat AHB, hierarchy and MIG reader", "why_tests_cant": "All outputs for all inputs.", "anchors": ["src/maus/mig_ahb_matching.py:to_deep_ahb", "src/maus/mig_ahb_matching.py:merge_lines_with_same_data_element"]}
{"id": "C18", "title": "merge_lines_with_same_data_element is exact", "statement": "It raises ValueError if the lines do not share exactly one data element key (in particular for no lines). Otherwise, if the first line has a value pool entry, the result is a value pool containing exactly one entry per line with a non-empty ahb expression, in order, with the line's entry, stripped name and expression; else it is a free text with the first line's expression, of type DATETIME iff the first line's segment is DTM. The discriminator is the json path of the given stack or None.", "quantifier": "every list of AHB lines and every stack or None", "why_tests_cant": "All list lengths and contents.", "anchors": ["src/maus/mig_ahb_matching.py:merge_lines_with_same_data_element", "src/maus/models/edifact_components.py:derive_data_type_from_segment_code"]}
{"id": "C19", "title": "to_deep_ahb nests groups as their locations are nested", "statement": "If a group is opened for every layer change (each step opening one new innermost layer whose outer layers are open), every group in the result sits at the depth of its number of layers, below the group that was opened for its outer layers.", "quantifier": "every flat AHB, hierarchy and MIG reader satisfying the premise", "why_tests_cant": "Aliasing/stack invariant over all histories.", "anchors": ["src/maus/mig_ahb_matching.py:to_deep_ahb", "src/maus/navigation.py:calculate_distance"]}
{"id": "C20", "title": "Document order of the deep AHB follows the flat AHB", "statement": "If the flat AHB's line indices are strictly increasing, then the ahb_line_index values of the groups and segments read in document order are increasing (non-decreasing, strictly among segments).", "quantifier": "every flat AHB with increasing indices, every hierarchy and MIG reader", "why_tests_cant": "Order property of all outputs.", "anchors": ["src/maus/mig_ahb_matching.py:to_deep_ahb"]}
{"id": "C21", "title": "to_deep_ahb keeps the metadata", "statement": "The deep AHB has the same pruefidentifikator, description and direction as the flat AHB and carries the current MAUS version; the lines of the flat AHB are unchanged.", "quantifier": "every flat AHB, hierarchy and MIG reader", "why_tests_cant": "Frame property for every input.", "anchors": ["src/maus/mig_ahb_matching.py:to_deep_ahb"]}
{"id": "C22", "title": "Sorting by segment groups is a stable regrouping", "statement": "sort_lines_by_segment_groups yields a permutation of the lines in which the lines of one segment group are contiguous and keep their relative order, and groups appear in order of their first occurrence; sorting twice changes nothing; a valid flat AHB stays valid so no exception is raised.", "quantifier": "every valid flat AHB", "why_tests_cant": "Permutation, stability and idempotence over all lists.", "anchors": ["src/maus/models/anwendungshandbuch.py:FlatAnwendungshandbuch.sort_lines_by_segment_groups", "src/maus/models/anwendungshandbuch.py:FlatAnwendungshandbuch._sorted_lines_by_segment_groups"]}
{"id": "C23", "title": "get_segment_groups lists the distinct groups in order of first occurrence", "statement": "get_segment_groups contains each segment group key of the lines exactly once, no others, ordered by first occurrence.", "quantifier": "every list of AHB lines", "why_tests_cant": "All lists.", "anchors": ["src/maus/models/anwendungshandbuch.py:FlatAnwendungshandbuch.get_segment_groups"]}
{"id": "C24", "title": "A flat AHB never has a line without segment group in between", "statement": "Constructing a FlatAnwendungshandbuch succeeds only if every line's data element, group key and segment code are None or match their patterns, and lines without segment group occur only at the beginning and at the end (except around an Abschnitts-Kontrollsegment).", "quantifier": "every list of AHB lines", "why_tests_cant": "A validity predicate over all lists.", "anchors": ["src/maus/models/anwendungshandbuch.py:_check_that_nearly_all_lines_have_a_segment_group", "src/maus/models/anwendungshandbuch.py:_remove_grouped_ahb_lines_containing_section_name", "src/maus/models/anwendungshandbuch.py:_check_that_line_has_either_none_or_d4_data_element"]}
{"id": "C25", "title": "Line discriminators identify group, segment, data element and name", "statement": "For two lines that pass the flat AHB validation, get_discriminator() is equal iff group key, segment code, data element and (non-empty) name are equal; with include_name=False iff group key, segment code and data element are equal.", "quantifier": "all pairs of validated AHB lines", "why_tests_cant": "Injectivity over an infinite domain.", "anchors": ["src/maus/models/anwendungshandbuch.py:AhbLine.get_discriminator"]}
{"id": "C26", "title": "holds_any_information detects exactly the non-blank lines", "statement": "holds_any_information is False iff group key, segment code, data element, value pool entry, name and expression are each None or whitespace only; guid, index, section name, segment id and conditions do not matter.", "quantifier": "every AHB line", "why_tests_cant": "All string contents.", "anchors": ["src/maus/models/anwendungshandbuch.py:AhbLine.holds_any_information"]}
{"id": "C27", "title": "reset_ahb_line_index clears every index and nothing else", "statement": "After deep_ahb.reset_ahb_line_index() no group or segment at any depth has an index; two deep AHBs are equal after resetting both iff they were equal up to line indices; resetting twice equals resetting once.", "quantifier": "every deep AHB", "why_tests_cant": "Arbitrary nesting.", "anchors": ["src/maus/models/anwendungshandbuch.py:DeepAnwendungshandbuch.reset_ahb_line_index", "src/maus/models/edifact_components.py:SegmentGroup.reset_ahb_line_index"]}
{"id": "C28", "title": "replace_inputs_based_on_discriminator updates exactly the addressed inputs", "statement": "Each data element at any depth whose discriminator d is not None and for which the function reports a replacement gets the reported input (also None); all other data elements and the rest of the deep AHB are unchanged; the function is only consulted with discriminators present in the AHB, once per data element.", "quantifier": "every deep AHB and every replacement function", "why_tests_cant": "Arbitrary nesting and arbitrary functions.", "anchors": ["src/maus/models/anwendungshandbuch.py:DeepAnwendungshandbuch.replace_inputs_based_on_discriminator", "src/maus/models/anwendungshandbuch.py:_replace_inputs_based_on_discriminator"]}
{"id": "C29", "title": "SegmentGroup.find_segments is exact", "statement": "group.find_segments(pred) returns exactly the segments of the group and, if searching recursively, of all nested groups that satisfy pred, each occurrence once, in document order; with search_recursively=False only the group's own segments.", "quantifier": "every segment group and predicate", "why_tests_cant": "Arbitrary nesting and predicates.", "anchors": ["src/maus/models/edifact_components.py:SegmentGroup.find_segments"]}
{"id": "C30", "title": "DeepAnwendungshandbuch.find_segment_groups is sound and complete", "statement": "It returns a group iff the group occurs at some depth of the deep AHB and satisfies the predicate. If groups at different places are different (as in every result of to_deep_ahb), each matching group is returned once: for each outermost group first the matching groups below it in document order, then the outermost group itself.", "quantifier": "every deep AHB and predicate", "why_tests_cant": "Arbitrary nesting and predicates.", "anchors": ["src/maus/models/anwendungshandbuch.py:DeepAnwendungshandbuch.find_segment_groups"]}
{"id": "C31", "title": "DeepAnwendungshandbuch.find_segments returns matching segments of matching groups, each once", "statement": "find_segments(group_predicate, segment_predicate) returns exactly the segments that satisfy segment_predicate and lie inside a group satisfying group_predicate, each once.", "quantifier": "every deep AHB and all predicates", "why_tests_cant": "Arbitrary nesting and predicates.", "anchors": ["src/maus/models/anwendungshandbuch.py:DeepAnwendungshandbuch.find_segments"]}
{"id": "C32", "title": "get_all_value_pools returns every value pool", "statement": "get_all_value_pools returns value pools of the deep AHB with pairwise distinct discriminators, one for each discriminator that occurs; if discriminators are pairwise distinct it returns every value pool of the deep AHB.", "quantifier": "every deep AHB", "why_tests_cant": "Arbitrary nesting.", "anchors": ["src/maus/models/anwendungshandbuch.py:DeepAnwendungshandbuch.get_all_value_pools"]}
{"id": "C33", "title": "get_all_expressions is the sorted set of all expressions", "statement": "get_all_expressions returns, strictly ascending, exactly the non-empty ahb expressions of all groups, segments, free texts and value pool entries of the deep AHB.", "quantifier": "every deep AHB", "why_tests_cant": "Arbitrary nesting.", "anchors": ["src/maus/models/anwendungshandbuch.py:DeepAnwendungshandbuch.get_all_expressions"]}
{"id": "C34", "title": "replace_value_pool replaces simultaneously and only mapped qualifiers", "statement": "If the pool's qualifiers are distinct and all replacement values are acceptable qualifiers, every entry whose qualifier is a key of the mapping gets the mapped qualifier (and merged meaning), simultaneously (swaps work), all other entries and all expressions are unchanged, order is kept. A replacement value that is no acceptable qualifier raises ValueError.", "quantifier": "every value pool, mapping and merger", "why_tests_cant": "All pools and mappings; validation on assignment is not visible in tests.", "anchors": ["src/maus/models/edifact_components.py:DataElementValuePool.replace_value_pool", "src/maus/models/edifact_components.py:_check_is_edifact_qualifier"]}
{"id": "C35", "title": "has_value_pool_which_is_subset_of decides the subset relation", "statement": "It is True iff every qualifier of the pool is among the given entries.", "quantifier": "every value pool and every iterable of entries, including one-shot iterators", "why_tests_cant": "All pools and iterables.", "anchors": ["src/maus/models/edifact_components.py:DataElementValuePool.has_value_pool_which_is_subset_of"]}
{"id": "C36", "title": "JSON path round trip of an EdifactStack", "statement": "EdifactStack.from_json_path(s.to_json_path()) equals s for every stack whose level names are non-empty and bracket-free and whose levels are groupable iff they carry a (non negative) index; a groupable level without index comes back with index 0. In particular to_json_path is injective on such stacks.", "quantifier": "every such stack of any depth, any names (also names with quotes) and any indices", "why_tests_cant": "Round trip through a regex over an infinite language.", "anchors": ["src/maus/models/edifact_components.py:EdifactStack.to_json_path", "src/maus/models/edifact_components.py:EdifactStack.from_json_path"]}
{"id": "C37", "title": "Sub-stack is the prefix order", "statement": "a.is_sub_stack_of(b) iff b's levels are a prefix of a's levels; b.is_parent_of(a) says the same; in that case b's json path is a prefix of a's json path.", "quantifier": "all pairs of stacks", "why_tests_cant": "All lengths.", "anchors": ["src/maus/models/edifact_components.py:EdifactStack.is_sub_stack_of", "src/maus/models/edifact_components.py:EdifactStack.is_parent_of"]}
{"id": "C38", "title": "Flat AHB JSON round trip", "statement": "Loading the dumped representation of a flat AHB gives back the same flat AHB (lines, metadata, order).", "quantifier": "every valid flat AHB", "why_tests_cant": "Round trip over all values of optional fields.", "anchors": ["src/maus/models/anwendungshandbuch.py:FlatAnwendungshandbuchSchema", "src/maus/models/anwendungshandbuch.py:AhbLineSchema", "src/maus/models/anwendungshandbuch.py:AhbMetaInformationSchema"]}
{"id": "C39", "title": "Deep AHB JSON round trip up to line indices", "statement": "Loading the dumped representation of a deep AHB gives back the same deep AHB except that line indices are None.", "quantifier": "every valid deep AHB, including optional fields that are None", "why_tests_cant": "Round trip over trees of any shape and all optional field combinations.", "anchors": ["src/maus/models/anwendungshandbuch.py:DeepAnwendungshandbuchSchema", "src/maus/models/edifact_components.py:SegmentGroupSchema", "src/maus/models/edifact_components.py:SegmentSchema", "src/maus/models/edifact_components.py:_FreeTextOrValuePoolSchema"]}
{"id": "C40", "title": "SGH JSON round trip", "statement": "Loading the dumped representation of a segment group hierarchy gives back the same hierarchy.", "quantifier": "every hierarchy", "why_tests_cant": "Arbitrary trees.", "anchors": ["src/maus/models/message_implementation_guide.py:SegmentGroupHierarchySchema"]}
{"id": "C41", "title": "AHB location XML round trip", "statement": "from_xml_element(to_xml_element(l)) == l and from_xml_elements(to_xml_elements(ls)) == ls.", "quantifier": "every valid AHB location / non-empty list of locations", "why_tests_cant": "All layer counts and field contents; tests only use three-layer locations.", "anchors": ["src/maus/reader/ahb_location_xml.py:to_xml_element", "src/maus/reader/ahb_location_xml.py:from_xml_element", "src/maus/reader/ahb_location_xml.py:to_xml_elements", "src/maus/reader/ahb_location_xml.py:from_xml_elements", "src/maus/reader/ahb_location_xml.py:_xml_dict_to_location"]}
{"id": "C42", "title": "merge_section_only_lines only merges headings", "statement": "The rows that are no section-only rows come out unchanged and in order; every maximal run of section-only rows followed by another row is replaced by one heading row placed directly before that row, holding the joined heading text; the result is not longer than the input.", "quantifier": "every list of raw rows", "why_tests_cant": "All lists, all run lengths.", "anchors": ["src/maus/reader/flat_ahb_reader.py:FlatAhbCsvReader.merge_section_only_lines"]}
{"id": "C43", "title": "CSV lines carry the section heading above them and ascending indices", "statement": "Reading rows gives lines with strictly ascending indices; each line's section name is the (normalised) last heading above it; to_flat_ahb keeps exactly the lines that hold information, in order.", "quantifier": "every list of raw rows", "why_tests_cant": "State carried over arbitrary row histories.", "anchors": ["src/maus/reader/flat_ahb_reader.py:FlatAhbCsvReader.__init__", "src/maus/reader/flat_ahb_reader.py:FlatAhbCsvReader.raw_ahb_row_to_ahbline", "src/maus/reader/flat_ahb_reader.py:FlatAhbCsvReader.to_flat_ahb"]}
{"id": "C44", "title": "separate_value_pool_entry_and_name loses nothing and prefers value pool entries", "statement": "The two results are the two stripped inputs in some order with blanks as None; the inputs are only swapped if the first is no value pool entry; if either input looks like a value pool entry, the first result does; applying the function to its own result does not change it.", "quantifier": "all pairs of optional strings", "why_tests_cant": "All strings; regex based classification.", "anchors": ["src/maus/reader/flat_ahb_reader.py:FlatAhbCsvReader.separate_value_pool_entry_and_name", "src/maus/reader/flat_ahb_reader.py:FlatAhbCsvReader._is_value_pool_entry"]}
{"id": "C45", "title": "Condition extraction", "statement": "Extracting the conditions from a text '[k1] t1 [k2] t2 ...' with digit keys and bracket-free, non-blank texts gives exactly the mapping ki -> stripped ti, the last definition of a key winning; keys of any extraction result are non-empty digit strings and texts are stripped and bracket-free.", "quantifier": "every such text, any number of conditions", "why_tests_cant": "Regex scanning over an infinite language.", "anchors": ["src/maus/reader/flat_ahb_reader.py:FlatAhbCsvReader._extract_bedingungen", "src/maus/reader/flat_ahb_reader.py:FlatAhbCsvReader.extract_condition_texts"]}
{"id": "C46", "title": "The expression column is the first five-digit column", "statement": "_get_name_of_expression_column returns the first field name that consists of exactly five digits, None iff there is none.", "quantifier": "every list of field names", "why_tests_cant": "All lists and names.", "anchors": ["src/maus/reader/flat_ahb_reader.py:FlatAhbCsvReader._get_name_of_expression_column"]}
{"id": "C47", "title": "Hard coded section name replacement is total", "statement": "_replace_hardcoded_section_names never raises, maps the known outdated names to their replacement and leaves all other names unchanged.", "quantifier": "every optional section name", "why_tests_cant": "All strings.", "anchors": ["src/maus/reader/flat_ahb_reader.py:_replace_hardcoded_section_names"]}
{"id": "C48", "title": "MIG lookup returns an element that matches the location", "statement": "If MigXmlReader.get_element returns an element for a location with a data element id, the element is a field with that id; its ancestors below the message root are classes whose refs are the layer keys in order (UNH for None), followed by at most one class with the segment code as ref. Without data element id the element is the class of the innermost layer.", "quantifier": "every MIG XML tree and every location", "why_tests_cant": "All XML trees.", "anchors": ["src/maus/reader/mig_xml_reader.py:MigXmlReader.get_element", "src/maus/reader/mig_xml_reader.py:MigXmlReader._get_candidate_index_from_key"]}
{"id": "C49", "title": "MIG lookup failures are ValueErrors", "statement": "If MigXmlReader.get_element does not return an element it raises a ValueError (so that to_deep_ahb can handle it).", "quantifier": "every MIG XML tree and every location", "why_tests_cant": "All XML trees and attribute contents.", "anchors": ["src/maus/reader/mig_xml_reader.py:MigXmlReader.get_element", "src/maus/reader/etree_element_helpers.py:get_nested_qualifiers"]}
{"id": "C50", "title": "The stack of an element lists its named ancestors", "statement": "element_to_edifact_stack has one level per ancestor-or-self below the root, groupable iff the tag is class, named by the first of the prioritised name attributes of that very element; the stack of a descendant is a sub stack of the stack of its ancestor.", "quantifier": "every XML tree and element", "why_tests_cant": "All XML trees.", "anchors": ["src/maus/reader/mig_xml_reader.py:MigXmlReader.element_to_edifact_stack"]}
{"id": "C51", "title": "Nested qualifiers are read exactly", "statement": "get_nested_qualifiers returns [q] for a single qualifier reference, all of [q1..qn] in order for 'SEG:n:m[..=q1|..=q2|..=qn]', None if the attribute is absent or has neither form; it never raises.", "quantifier": "all attribute contents, any number of qualifiers", "why_tests_cant": "Regex language.", "anchors": ["src/maus/reader/etree_element_helpers.py:get_nested_qualifiers"]}
{"id": "C52", "title": "Name similarity is an equivalence", "statement": "are_similar_names is reflexive, symmetric and transitive; make_name_comparable is idempotent and its result contains no blank, hyphen, newline or sharp s; a name is similar to itself in other casing / with blanks, hyphens or line breaks inserted.", "quantifier": "all optional names", "why_tests_cant": "All strings.", "anchors": ["src/maus/reader/mig_ahb_name_helpers.py:are_similar_names", "src/maus/reader/mig_ahb_name_helpers.py:make_name_comparable"]}
{"id": "C53", "title": "make_tree_names_comparable touches only names", "statement": "make_tree_names_comparable applies make_name_comparable to each name and ahbName attribute at any depth and leaves tags, structure and all other attributes unchanged; doing it twice equals doing it once.", "quantifier": "every XML tree", "why_tests_cant": "All XML trees.", "anchors": ["src/maus/reader/mig_ahb_name_helpers.py:make_tree_names_comparable"]}
{"id": "C54", "title": "Division detection", "statement": "get_division is GAS iff the lower-cased name contains 'gas', ELECTRICITY iff it contains 'strom' and not 'gas', None otherwise; is_gas_name and is_electricity_name terminate and never are both False.", "quantifier": "every optional field name", "why_tests_cant": "All strings.", "anchors": ["src/maus/division_helper.py:get_division", "src/maus/division_helper.py:is_gas_name", "src/maus/division_helper.py:is_electricity_name"]}
{"id": "C55", "title": "EdiMetaData is always consistent", "statement": "Every constructed EdiMetaData has a five-digit pruefidentifikator without leading zero and the format belonging to it; constructing it without format never fails for a valid, known pruefidentifikator; every other combination of arguments is refused with the exception of the first reason that applies (lookup of the format, type and form of the pruefidentifikator, other format, type of the format, type of the version).", "quantifier": "all pruefidentifikatoren, formats and any format lookup", "why_tests_cant": "All strings.", "anchors": ["src/maus/edifact.py:EdiMetaData", "src/maus/edifact.py:_check_that_pruefi_and_format_are_consistent", "src/maus/edifact.py:is_edifact_boilerplate"]}
{"id": "C56", "title": "Value pool replacement is independent of the task schedule", "statement": "generate_value_pool_replacement returns, under every scheduling of its concurrent conversions, the mapping that sends each qualifier of the pool to the application value obtained by converting the edifact data with exactly that qualifier set (plus the current value if it is no qualifier of the pool); it raises ValueError iff the path mapping has no entry for the discriminator.", "quantifier": "every pool, converter, accessor, path mapping and every interleaving of the tasks", "why_tests_cant": "All interleavings.", "anchors": ["src/maus/transformation.py:generate_value_pool_replacement"]}
{"id": "C57", "title": "transform_all_value_pools transforms exactly the json path pools", "statement": "transform_all_value_pools replaces the qualifiers of each returned value pool whose discriminator starts with $ and contains neither Absender nor Empfänger and leaves everything else unchanged; the result does not depend on the task schedule.", "quantifier": "every deep AHB, converter and schedule", "why_tests_cant": "All interleavings, all AHBs.", "anchors": ["src/maus/transformation.py:transform_all_value_pools"]}
{"id": "C58", "title": "The CLI never reads or writes if its mode is ambiguous", "statement": "main aborts without touching any file unless exactly one of output path and check path is given; with an output path exactly that file is written; with a check path nothing is written and it succeeds iff the stored MAUS equals the generated one up to line indices.", "quantifier": "every combination of options and file contents", "why_tests_cant": "All inputs and file system states.", "anchors": ["src/maus/cli.py:main"]}
{"id": "C59", "title": "A generated MAUS passes its own check", "statement": "If main succeeds with an output path, then main with the written file as check path succeeds for the same inputs.", "quantifier": "every flat AHB, hierarchy and MIG", "why_tests_cant": "Composition of conversion, serialisation and comparison over all inputs.", "anchors": ["src/maus/cli.py:main", "src/maus/models/anwendungshandbuch.py:DeepAnwendungshandbuchSchema"]}
{"id": "C60", "title": "The file based MAUS provider returns None only for missing files", "statement": "FileBasedMausProvider.get_maus returns None iff the file for the requested format, version and pruefidentifikator does not exist; otherwise it returns the deserialised content or raises.", "quantifier": "every file system state, path function and parameters", "why_tests_cant": "All file system states.", "anchors": ["src/maus/maus_provider.py:FileBasedMausProvider.get_maus"]}
{"id": "C61", "title": "check_youngest_tree_is_parseable checks the last tree file", "statement": "It does nothing if the directory does not exist or has no .tree file, raises ValueError if the path is no directory, and otherwise fails iff parsing the lexicographically greatest .tree file fails.", "quantifier": "every directory content and parser", "why_tests_cant": "All directory listings.", "anchors": ["src/maus/reader/tree_to_sgh.py:check_youngest_tree_is_parseable"]}
{"id": "C62", "title": "Group border detection is exact", "statement": "_is_opening_segment_line_border is True iff the section names of the two lines differ, this line has a segment code, the next line has none, and the next filled segment is the opening segment of the group.", "quantifier": "all pairs of AHB lines, all next segments and opening segments", "why_tests_cant": "The unit tests use a handful of line pairs; the function has five branches on four optional values, one of which compares a line with a string and is always False.", "anchors": ["src/maus/navigation.py:_is_opening_segment_line_border"]}
{"id": "C63", "title": "Loading never bypasses the validators", "statement": "Whatever the flat or deep AHB schema loads from arbitrary JSON data is a valid object: every line, data element, value pool entry, segment and segment group at every depth passes its constructor's validators; loaded deep AHBs carry no line indices and no group or segment without discriminator.", "quantifier": "all JSON values", "why_tests_cant": "The input is arbitrary, arbitrarily nested data from a file.", "anchors": ["src/maus/models/anwendungshandbuch.py:FlatAnwendungshandbuchSchema", "src/maus/models/anwendungshandbuch.py:DeepAnwendungshandbuchSchema", "src/maus/models/edifact_components.py:SegmentGroupSchema"]}
{"id": "C64", "title": "Complete CSV files can be read", "statement": "If every row of the CSV file has all columns, an integer in the unnamed column, an empty or non-blank expression, and every heading has at least three non-blank characters one of which could not be part of a segment group, then FlatAhbCsvReader (and check_file_can_be_parsed_as_ahb_csv) does not raise.", "quantifier": "every list of CSV records, any number of rows and headings", "why_tests_cant": "All files; interplay of heading merging with the row conversion.", "anchors": ["src/maus/reader/flat_ahb_reader.py:FlatAhbCsvReader.__init__", "src/maus/reader/flat_ahb_reader.py:check_file_can_be_parsed_as_ahb_csv", "src/maus/reader/flat_ahb_reader.py:FlatAhbCsvReader.get_raw_rows"]}
{"id": "C65", "title": "Boilerplate segments", "statement": "is_edifact_boilerplate is True iff there is no segment code, or it is UNT or UNZ up to surrounding white space.", "quantifier": "every optional segment code", "why_tests_cant": "All strings, including padded and blank ones (a blank, non-empty code is no boilerplate).", "anchors": ["src/maus/edifact.py:is_edifact_boilerplate"]}
{"id": "C66", "title": "JSON files in every formatting are read back", "statement": "Writing a flat AHB, a deep AHB or a segment group hierarchy with json.dump(s) and any indent, ensure_ascii and sort_keys, and reading the text with json.load(s) and the schema gives back the same value (for a complete deep AHB: without line indices); with sort_keys, equal values give identical texts.", "quantifier": "all JSON values with distinct keys, all constructed flat AHBs, deep AHBs and hierarchies (any strings, any depth), all formatting styles", "why_tests_cant": "Strings may contain any Unicode character, including quotes, control characters and characters outside the BMP; nesting is unbounded.", "anchors": ["src/maus/cli.py:main", "src/maus/maus_provider.py:FileBasedMausProvider.get_maus", "src/maus/reader/flat_ahb_reader.py", "src/maus/models/anwendungshandbuch.py:DeepAnwendungshandbuchSchema", "src/maus/models/anwendungshandbuch.py:FlatAnwendungshandbuchSchema", "src/maus/models/message_implementation_guide.py:SegmentGroupHierarchySchema"]}
{"id": "C67", "title": "Loading untrusted data raises documented exceptions only", "statement": "For every JSON value whatsoever, loading it with FlatAnwendungshandbuchSchema, DeepAnwendungshandbuchSchema or SegmentGroupHierarchySchema either returns an object or raises ValidationError, TypeError or ValueError; no other exception (KeyError, AttributeError, IndexError, FileNotFoundError, ...) can escape.", "quantifier": "all JSON values of any shape and depth, all three schemas", "why_tests_cant": "The input is an arbitrary, possibly hostile JSON document of unbounded depth; tests can only try finitely many malformed documents.", "anchors": ["src/maus/models/anwendungshandbuch.py:FlatAnwendungshandbuchSchema", "src/maus/models/anwendungshandbuch.py:DeepAnwendungshandbuchSchema", "src/maus/models/message_implementation_guide.py:SegmentGroupHierarchySchema", "src/maus/models/edifact_components.py"]}
{"id": "C68", "title": "CSV texts are read exactly", "statement": "Let a table of cells be written as CSV text in any of the usual ways: any delimiter, any of the line ends LF, CRLF, CR, cells with or without quotes, quotes doubled inside quoted cells, delimiters and line ends inside quoted cells, blank lines, with or without a line end after the last row. FlatAhbCsvReader reads exactly these cells (line ends inside cells become LF), so two texts of the same cells give the same reader. No text of at most 131072 characters is refused by the tokeniser.", "quantifier": "all tables of cells (cells of at most 131072 characters), all ways to write them, all delimiters other than quote and line ends, all expression columns", "why_tests_cant": "the ways to mix quoting, delimiters and line ends are unbounded", "anchors": ["src/maus/reader/flat_ahb_reader.py: FlatAhbCsvReader.__init__, get_raw_rows"]}
{"id": "C69", "title": "Reading untrusted CSV files raises documented exceptions only", "statement": "Whatever the text of the file is, creating a FlatAhbCsvReader either succeeds or raises a ValueError, KeyError, TypeError or csv.Error, the latter only for texts of more than 131072 characters; to_flat_ahb then either succeeds or raises a ValueError.", "quantifier": "all texts, delimiters and expression columns", "why_tests_cant": "all malformed files", "anchors": ["src/maus/reader/flat_ahb_reader.py: FlatAhbCsvReader, check_file_can_be_parsed_as_ahb_csv, to_flat_ahb"]}
{"id": "C70", "title": "Dumped deep AHBs conform to the published JSON schema", "statement": "Whatever DeepAnwendungshandbuchSchema().dump returns conforms to json_schemas/DeepAnwendungshandbuchSchema.json (JSON Schema draft 7), and documents that conform to it can be loaded.", "quantifier": "all deep AHBs, all JSON documents", "why_tests_cant": "tests check single documents; other tools rely on the schema for every document", "anchors": ["json_schemas/DeepAnwendungshandbuchSchema.json", "json_schemas/generate_json_schemas.py", "src/maus/models/anwendungshandbuch.py: DeepAnwendungshandbuchSchema"]}
{"id": "C71", "title": "XML texts of locations are read as XML says", "statement": "from_xml_element and from_xml_elements, given a string, read exactly the root element of the XML document the string is (XML 1.0 without DOCTYPE): the way the document is written - declaration, comments, processing instructions, CDATA sections, character references, kinds of quotes, line ends, byte order mark, white space around texts - makes no difference; a string that is no well-formed document is refused by the parser. What lxml writes for an element is such a document with that element, so handing over an element or its text gives the same result, and a location written to XML text is read back (up to the defects in C41).", "quantifier": "all strings, all XML documents, all ways to write an element, all locations", "why_tests_cant": "unbounded ways to write a document; well-formedness of arbitrary strings", "anchors": ["src/maus/reader/ahb_location_xml.py: from_xml_element, from_xml_elements, to_xml_element, to_xml_elements"]}
{"id": "C72", "title": "The sanity check of MIG files, and formatting of MIG files", "statement": "check_file_can_be_parsed_as_mig_xml accepts a file iff its text is a well-formed XML document (with correct namespaces) whose root element is named like an EDIFACT format (and in no namespace); otherwise it raises (the parser's error or a ValueError). The edifact stacks that are looked up in a MIG file do not depend on comments, indentation, texts, kinds of quotes, the order of attributes and the prefixes of namespaces.", "quantifier": "all texts, all sets of formats, all locations", "why_tests_cant": "all texts", "anchors": ["src/maus/reader/mig_xml_reader.py: check_file_can_be_parsed_as_mig_xml, MigXmlReader.__init__, get_format_name, get_edifact_stack"]}
{"id": "C73", "title": "Reading locations from XML: exact input language, documented exceptions", "statement": "from_xml_element returns the location l for exactly those elements (and texts) that describe l: an element ahbLocation without attributes and text, with one child 'layers' that has at least two children ahbLocationLayer and with at most one child for each of the other fields; a field is None if it is marked with an attribute ns*:nil=\"true\" or blank, else its trimmed text; unknown or repeated fields are refused, as is whatever the constructors refuse. The same for from_xml_elements. Whatever the input is, only KeyError, TypeError, AttributeError, ValueError and (for texts) the XML parser's error can be raised.", "quantifier": "all XML elements, all strings, all locations", "why_tests_cant": "arbitrary documents", "anchors": ["src/maus/reader/ahb_location_xml.py: from_xml_element, from_xml_elements, _xml_dict_to_location, _replace_nil_element_with_none"]}
{"id": "C74", "title": "Helpers for MIG elements return the attributes", "statement": "get_segment_group_key_or_none returns the attribute ref iff it begins with SG, get_ahb_name_or_none the attribute ahbName; None otherwise.", "quantifier": "all elements", "why_tests_cant": "all attribute values", "anchors": ["src/maus/reader/etree_element_helpers.py: get_segment_group_key_or_none, get_ahb_name_or_none"]}
{"id": "C75", "title": "Exactly the documented form is accepted as .tree file", "statement": "read_tree accepts a text iff it is '/:' followed by lines (optional group key, a segment, further segments or group references behind commas; segments with definitions, data elements, value pools and conditions) with blank characters before and behind it only; it returns this text without them. Any other text raises one of Lark's exceptions, an argument of another type a ValueError. A file is accepted iff its UTF-8 text with unified line ends is accepted; check_youngest_tree_is_parseable accepts iff the youngest .tree file is.", "quantifier": "all texts, file systems and paths", "why_tests_cant": "the test suite parses a single file; greedy matching without end anchor could stop early for some well-formed text", "anchors": ["src/maus/reader/tree_to_sgh.py: GRAMMAR, read_tree, check_file_can_be_parsed_as_tree, check_youngest_tree_is_parseable"]}
{"id": "C76", "title": "get_all_value_pools returns the first value pool object per discriminator", "statement": "get_all_value_pools returns, among the value pool objects of the deep AHB that share a discriminator, exactly the first one in the order of the search, and returns them in this order: lines one after the other, the groups below a line before the line itself, otherwise document order.", "quantifier": "every deep AHB", "why_tests_cant": "Equal objects at arbitrary places; duplicates are skipped by equality while callers modify the returned objects.", "anchors": ["src/maus/models/anwendungshandbuch.py: DeepAnwendungshandbuch.get_all_value_pools, find_segments, find_segment_groups", "src/maus/models/edifact_components.py: Segment.get_all_value_pools, SegmentGroup.get_all_value_pools, SegmentGroup.find_segments"]}
{"id": "C77", "title": "transform_all_value_pools transforms every value pool", "statement": "After transform_all_value_pools has returned, every value pool object of the deep AHB whose discriminator is a JSON path without Absender and Empfänger has been replaced.", "quantifier": "every deep AHB, converter that reads before it awaits, mapping and schedule", "why_tests_cant": "Value pools that share a discriminator, at arbitrary places, under all interleavings.", "anchors": ["src/maus/transformation.py: transform_all_value_pools", "src/maus/models/anwendungshandbuch.py: DeepAnwendungshandbuch.get_all_value_pools"]}
{"id": "C78", "title": "The MAUS does not depend on the random GUIDs", "statement": "Reading the same AHB CSV file twice gives lines that differ at most in their (random) GUIDs, or the same exception; so do the flat AHBs; and to_deep_ahb reads neither GUIDs nor condition texts nor segment ids, so that the deep AHB is the same in every run.", "quantifier": "every CSV file content, delimiter, Prüfidentifikator, sequence of random GUIDs, MIG reader and segment group hierarchy; every two flat AHBs that differ at most in these fields", "why_tests_cant": "a test compares two runs on a few files; independence of a random field must hold for all inputs and all values", "anchors": ["src/maus/reader/flat_ahb_reader.py: FlatAhbCsvReader", "src/maus/mig_ahb_matching.py: to_deep_ahb", "src/maus/navigation.py: determine_locations"]}
{"id": "C79", "title": "Line numbers are only copied", "statement": "If the lines of a flat AHB are renumbered in any way, to_deep_ahb gives the same deep AHB (or exception) with the groups and segments renumbered in the same way. In particular the comparison of the command line tool, which ignores line indices, does not depend on the indices of the flat AHB.", "quantifier": "every flat AHB, renumbering, MIG reader and segment group hierarchy", "why_tests_cant": "all renumberings of all inputs", "anchors": ["src/maus/mig_ahb_matching.py: to_deep_ahb", "src/maus/models/anwendungshandbuch.py: DeepAnwendungshandbuch.reset_ahb_line_index"]}
{"id": "C80", "title": "Lines of unknown segment groups are refused", "statement": "If determine_locations returns, the segment group key of every line is None or the key of a group of the hierarchy; a line of any other group makes determine_locations and to_deep_ahb raise.", "quantifier": "every list of lines, hierarchy (keys need not be distinct), MIG reader", "why_tests_cant": "the unknown group may occur at any position of any AHB", "anchors": ["src/maus/navigation.py: determine_locations, _find_common_ancestor_from_sgh", "src/maus/mig_ahb_matching.py: to_deep_ahb"]}
{"id": "C81", "title": "An unknown segment group is reported by a ValueError", "statement": "If a line belongs to a segment group (not None) that the hierarchy does not contain, determine_locations raises a ValueError.", "quantifier": "every list of lines and hierarchy", "why_tests_cant": "the exception depends on the position of the line and on the lines before it", "anchors": ["src/maus/navigation.py: determine_locations, _find_common_ancestor_from_sgh"]}
{"id": "C82", "title": "Exactly the documented JSON objects are loaded", "statement": "The schemas of flat AHBs, deep AHBs and segment group hierarchies load a JSON document if and only if it describes an object field by field: only the documented keys occur, required keys are present, null occurs only where it is allowed, every value has the documented type (UUIDs in any spelling uuid.UUID accepts, indices as numbers, of which only the integer part counts, or numeric strings, data types by name), missing keys stand for their defaults, and the constructors accept the values. The result is the described object.", "quantifier": "every JSON value, nested to any depth", "why_tests_cant": "infinitely many documents with missing, additional, null or wrongly typed keys at any depth; tests only load what was dumped", "anchors": ["src/maus/models/anwendungshandbuch.py: AhbLineSchema, AhbMetaInformationSchema, FlatAnwendungshandbuchSchema, DeepAnwendungshandbuchSchema", "src/maus/models/edifact_components.py: ValuePoolEntrySchema, DataElementFreeTextSchema, DataElementValuePoolSchema, _FreeTextOrValuePoolSchema, SegmentSchema, SegmentGroupSchema", "src/maus/models/message_implementation_guide.py: SegmentGroupHierarchySchema"]}
{"id": "C83", "title": "No requirement on a data element is lost or invented", "statement": "If to_deep_ahb returns, the free texts and value pool entries of the deep AHB, read in document order, are exactly the requirements on data elements stated by the lines of the flat AHB (lines with a data element and an expression): same order, same number, same data element, qualifier, (stripped) meaning and expression.", "quantifier": "every flat AHB, hierarchy and MIG reader for which to_deep_ahb returns", "why_tests_cant": "the lines may combine value pools, free texts and missing expressions in infinitely many ways; tests check a handful of AHBs and look at few fields", "anchors": ["src/maus/mig_ahb_matching.py: to_deep_ahb", "src/maus/__init__.py: merge_lines_with_same_data_element", "src/maus/models/edifact_components.py: DataElementFreeText, DataElementValuePool, Segment"]}
{"id": "C84", "title": "Every segment carries the expression of its own line", "statement": "If to_deep_ahb returns, the segments of the deep AHB, in document order, carry exactly the expressions of the segment lines (segment code, no data element) of the flat AHB, in the same order and number.", "quantifier": "every flat AHB, hierarchy and MIG reader for which to_deep_ahb returns", "why_tests_cant": "depends on the interplay of group headings, segment lines and the grouping of lines in every possible order", "anchors": ["src/maus/mig_ahb_matching.py: to_deep_ahb", "src/maus/__init__.py: merge_lines_with_same_data_element", "src/maus/models/edifact_components.py: DataElementFreeText, DataElementValuePool, Segment"]}
{"id": "C85", "title": "Exactly the JSON documents are read", "statement": "json.loads accepts a text if and only if it is a JSON document by the grammar of RFC 8259 (white space, escapes and surrogate pairs, no leading zeros, no trailing commas, nothing behind the value; in addition NaN, Infinity and -Infinity), and returns the value it denotes, where of several members with the same key the last one counts and a number with a fraction or an exponent is the nearest double; so the text of a file is read as a flat AHB, deep AHB or segment group hierarchy if and only if it is a JSON document that describes it, however it is formatted.", "quantifier": "every text, of any length and nesting", "why_tests_cant": "infinitely many spellings of the same document (white space, escapes, order of the keys) and infinitely many malformed texts", "anchors": ["src/maus/cli.py: main (json.load)", "src/maus/maus_provider.py: MausProvider.get_maus (json.load)", "src/maus/models/anwendungshandbuch.py: FlatAnwendungshandbuchSchema", "src/maus/models/message_implementation_guide.py: SegmentGroupHierarchySchema"]}
{"id": "C86", "title": "The command line tool depends on the content of its files only", "statement": "Whether a MAUS is generated, and which bytes are written to the output file, depends only on what the input files say: however the JSON files are formatted, in whatever order their keys occur, whatever comments, quotes, indentation and attribute order the MIG has, and whatever GUIDs, condition texts, segment ids and line indices the flat AHB carries, the result is the same file, byte by byte, and a check against the same stored MAUS has the same outcome.", "quantifier": "every pair of file systems and option sets whose input files have the same content", "why_tests_cant": "infinitely many spellings of the same inputs; tests compare a few outputs with stored files", "anchors": ["src/maus/cli.py: main", "src/maus/mig_ahb_matching.py: to_deep_ahb", "src/maus/reader/mig_xml_reader.py: MigXmlReader", "src/maus/models/anwendungshandbuch.py: FlatAnwendungshandbuchSchema, DeepAnwendungshandbuchSchema"]}
{"id": "C87", "title": "The exceptions of loading, exactly", "statement": "Loading a JSON value as a flat AHB, deep AHB or segment group hierarchy builds the nested objects of the document in a fixed order. The first of them whose keys and values are as documented but which is refused by its constructor (a blank expression, a malformed code, a missing argument) determines the exception that is raised, a TypeError or a ValueError, even if something else in the document is malformed. If there is no such object, a ValidationError is raised exactly if the document does not describe an object of the class.", "quantifier": "every JSON value, of any size and nesting depth", "why_tests_cant": "the combinations of malformed places, nesting levels and kinds of malformation are infinite; which exception wins depends on all of them", "anchors": ["src/maus/models/anwendungshandbuch.py: FlatAnwendungshandbuchSchema, DeepAnwendungshandbuchSchema, AhbLineSchema, AhbMetaInformationSchema", "src/maus/models/edifact_components.py: SegmentGroupSchema, SegmentSchema, DataElementFreeTextSchema, DataElementValuePoolSchema, ValuePoolEntrySchema", "src/maus/models/message_implementation_guide.py: SegmentGroupHierarchySchema"]}
{"id": "C88", "title": "The constructors accept exactly the documented arguments", "statement": "An AHB line, meta information, value pool entry, free text, value pool, segment, segment group, location layer or location can be constructed if and only if its arguments are as documented (expressions that are not blank, indices that are not negative, data elements of four digits, segment ids of five digits, segment codes of three capital letters, group keys SG with a number, acceptable qualifiers), and then carries exactly these arguments; otherwise the first argument that is not in order decides between TypeError (None where a text is required) and ValueError.", "quantifier": "all arguments of every constructor", "why_tests_cant": "infinitely many texts per argument and all combinations of wrong arguments", "anchors": ["src/maus/models/anwendungshandbuch.py: AhbLine, AhbMetaInformation", "src/maus/models/edifact_components.py: ValuePoolEntry, DataElementFreeText, DataElementValuePool, Segment, SegmentGroup", "src/maus/navigation.py: AhbLocationLayer, AhbLocation", "src/maus/models/__init__.py: _check_that_string_is_not_whitespace_or_empty"]}
{"id": "C89", "title": "to_deep_ahb returns exactly for flat AHBs whose runs and group order fit", "statement": "to_deep_ahb returns if and only if the locations can be determined, each run of lines with a segment code is fine (the MIG reader answers or raises ValueError; in a value pool each line with an expression has a name and an acceptable qualifier; a free text with any expression has one in its first line; the last line of a segment has the segment code), the first thing that is created is the group of the message root, and each further group can be inserted: it lies inside of the location used before, or shares at least one layer with it, does not lead further up than the depth reached, and further down by at most one more level than up. It is sufficient that groups are opened one layer at a time. If it raises, it raises ValueError, TypeError, IndexError, AttributeError, AssertionError, UnboundLocalError or what the MIG reader raised.", "quantifier": "all flat AHBs whose lines pass the AhbLine constructor, all hierarchies, all MIG readers", "why_tests_cant": "the condition speaks about all orders of groups at any depth and all combinations of missing fields", "anchors": ["src/maus/mig_ahb_matching.py: to_deep_ahb, merge_lines_with_same_data_element", "src/maus/navigation.py: determine_locations, calculate_distance"]}
{"id": "C90", "title": "The result of to_deep_ahb is completely determined by the located lines", "statement": "to_deep_ahb returns a deep AHB if and only if the conditions of C89 hold and the deep AHB has the metadata of the flat AHB with the version of the package, reads from top to bottom exactly as the groups, segments and data elements that are created run by run, and has each group at the depth that the locations give. No other deep AHB has these properties: a tree whose attributes are lists is determined by its document order and the depths of its groups.", "quantifier": "all flat AHBs whose lines pass the AhbLine constructor, all hierarchies, all MIG readers, all deep AHBs", "why_tests_cant": "a complete functional specification for trees of any size and depth", "anchors": ["src/maus/mig_ahb_matching.py: to_deep_ahb", "src/maus/models/anwendungshandbuch.py: DeepAnwendungshandbuch"]}
{"id": "C91", "title": "The result of determine_locations is completely determined by the reported group changes", "statement": "For a hierarchy with distinct well-formed keys and root key None, and lines that enter no group whose parent is not open, determine_locations returns if and only if the segment codes have three letters, the data elements four digits, a segment follows each group change, and the first qualifier and the next qualifier at each group change are letters followed by digits. It then gives each line the location with one layer per group on the path from the root to the line's group; each layer names the segment code and the qualifier that come next from the most recent opening of its group on (the root before any opening: the opening segment of the hierarchy and the first qualifier of all lines). The location further has the next segment code and the line's own data element and value pool entry. No other result is possible. The conditions on the codes are necessary for any hierarchy and any lines.", "quantifier": "all hierarchies, all lists of lines of any length, all group nestings and repetitions, all results", "why_tests_cant": "an equivalence over all flat AHBs: what a layer contains depends on an unbounded history of openings", "anchors": ["src/maus/navigation.py: determine_locations"]}
{"id": "C92", "title": "An interrupted run never leaves a wrong MAUS behind; after a successful run the provider returns it", "statement": "At whatever moment the command line tool is interrupted, with whatever options, every valid MAUS then found in any file was there before or is, up to the line indices, the MAUS of the input files in the output file; so a file based MAUS provider returns a MAUS only if it is one of these two, returns None only if it would have done so before, and otherwise raises: the exception it would have raised before, a ValueError if the output file is incomplete, a ValidationError if it is complete but a segment has no section name, or an OSError if the output file cannot be opened or lies in the place of a directory. An incompletely written file is never taken for a MAUS: more generally, reading any proper part of the bytes of a dumped JSON object raises a ValueError. After a successful run the provider that looks at the output path returns the MAUS without line indices if every segment has a section name, and raises a ValidationError otherwise.", "quantifier": "all file systems, options, input files, interruption points (every byte), provider parameters and path functions", "why_tests_cant": "the moment of an interruption and the number of bytes that have reached the file are arbitrary, and so is the text", "anchors": ["src/maus/cli.py:main", "src/maus/maus_provider.py:FileBasedMausProvider.get_maus", "src/maus/models/anwendungshandbuch.py:DeepAnwendungshandbuchSchema"]}
{"id": "C93", "title": "AHB expressions, names, section names and line numbers are only copied", "statement": "What the texts of an AHB say does not influence the conversion of a flat into a deep AHB. If the line numbers, AHB expressions, names and section names of all lines are replaced by others (empty expressions stay empty and others do not become empty, and stripping commutes with the replacement), then those of the deep AHB (groups, segments, free texts, value pool entries) are replaced in the same way and nothing else changes, or the same exception is raised. Two flat AHBs whose lines agree in segment group, segment, data element and value pool entry and have non-blank expressions and names in the same lines give deep AHBs of the same structure, or the same exception. The locations of the lines depend on these four columns only.", "quantifier": "all flat AHBs, hierarchies, MIG readers and replacements of texts", "why_tests_cant": "it compares the results for all possible texts; a test compares two", "anchors": ["src/maus/mig_ahb_matching.py:to_deep_ahb", "src/maus/mig_ahb_matching.py:merge_lines_with_same_data_element", "src/maus/navigation.py:determine_locations"]}
{"id": "C94", "title": "The locations of the first lines do not depend on the lines behind them", "statement": "determine_locations looks ahead to the next segment code and the next value pool entry only: if the first lines are continued in two ways with the same next segment code and the same next value pool entry, they get the same locations. If the last one of the first lines has a segment code and a value pool entry, they get the locations that they get alone, whatever follows, and if they raise an exception alone, they raise the same one whatever follows.", "quantifier": "all hierarchies, lists of lines and continuations", "why_tests_cant": "the continuations are unbounded, and the loop works on the whole list", "anchors": ["src/maus/navigation.py:determine_locations", "src/maus/navigation.py:determine_hierarchy_changes", "src/maus/navigation.py:_enhance_with_next_line_that_fulfills_predicate"]}
{"id": "C95", "title": "A transformation that is stopped leaves no value pool half transformed", "statement": "Look at the deep AHB at any moment while transform_all_value_pools is under way, after it has raised an exception, or after it has been cancelled: every value pool is unchanged or completely replaced by a dictionary that generate_value_pool_replacement returned for it. The only exception is a pool whose dictionary has a value that is no acceptable qualifier (there a ValueError leaves it half replaced). For converters that read what they need before they await anything, the replacement is the described one. A cancelled call has raised, none of its tasks goes on, and cancelling it changes no pool.", "quantifier": "all deep AHBs, converters, mappings, application data, schedules of the event loop and moments of observation or cancellation", "why_tests_cant": "the schedules and the points at which the transformation may be stopped are unbounded", "anchors": ["src/maus/transformation.py:transform_all_value_pools", "src/maus/transformation.py:generate_value_pool_replacement", "src/maus/models/edifact_components.py:DataElementValuePool.replace_value_pool"]}
{"id": "C96", "title": "Histories of edits of a deep AHB, and edits interrupted by an exception", "statement": "After any number of calls of reset_ahb_line_index and replace_inputs_based_on_discriminator in any order, the entered input of each data element is the one of the last call whose function reports a replacement for its discriminator (also None), otherwise the original one; the line indices are gone iff they were reset at least once; nothing else has changed. Hence the two kinds of calls commute, and a repeated call changes nothing. If the replacement function has a state and may raise, the data elements are visited one after the other (those of the groups below a group first), each replacement is applied at once, and when the function raises, this exception is raised, the data elements visited before keep their replacements and the others stay as they are.", "quantifier": "all deep AHBs, histories of calls, replacement functions, states of such functions and points at which they raise", "why_tests_cant": "histories, nesting and the point of the exception are unbounded", "anchors": ["src/maus/models/anwendungshandbuch.py:DeepAnwendungshandbuch.replace_inputs_based_on_discriminator", "src/maus/models/anwendungshandbuch.py:_replace_inputs_based_on_discriminator", "src/maus/models/anwendungshandbuch.py:DeepAnwendungshandbuch.reset_ahb_line_index"]}
{"id": "C97", "title": "Further lines only extend the deep AHB", "statement": "Cut the lines of a flat AHB behind a line with segment code and value pool entry whose location (up to the qualifier) differs from the one of the next line. If all lines can be converted, the lines before the cut can be converted alone, and their deep AHB is the beginning of the deep AHB of all lines: it has the same metadata, and read from top to bottom (groups, segments, data elements) and in the depths of its groups it is an initial part of it. So what an AHB says first is never changed by what it says later.", "quantifier": "all flat AHBs (with non-blank expressions), hierarchies, MIG readers and such cuts", "why_tests_cant": "the lines behind the cut are unbounded, and the loops keep references into the tree under construction", "anchors": ["src/maus/mig_ahb_matching.py:to_deep_ahb", "src/maus/navigation.py:determine_locations"]}
{"id": "C98", "title": "The conversion of a flat into a deep AHB can be repeated", "statement": "to_deep_ahb writes the version of the package into the metadata of the flat AHB it is given, but the version noted there has no influence on the result or on an exception. A second call with the same flat AHB returns an equal deep AHB and leaves the flat AHB unchanged. The same holds if the flat AHB (before or after the first conversion) and the hierarchy are dumped to JSON text in any style and loaded again in between.", "quantifier": "all flat AHBs, hierarchies, MIG readers and JSON styles", "why_tests_cant": "it ranges over all inputs, and over all ways to store them", "anchors": ["src/maus/mig_ahb_matching.py:to_deep_ahb", "src/maus/models/anwendungshandbuch.py:FlatAnwendungshandbuchSchema", "src/maus/models/message_implementation_guide.py:SegmentGroupHierarchySchema"]}
{"id": "C99", "title": "Runs of the command line tool that take place at the same time do not influence each other", "statement": "Let any number of runs of the command line tool take place at the same time, as processes that act on one file system in any order. If no run writes to a path that is given to another run (or to a path above), then every run that has ended has ended as it would have ended alone, and its files are as if it had been alone, whether the other runs have ended, still go on or have been killed. At any time the output of a run contains what it contained before, or a first part of what the run alone would write; no other file and no directory is changed. The runs do not wait for each other and cannot go on for ever. If a run does write to an input file of another run, the other run may fail although it would succeed alone.", "quantifier": "all lists of runs (options, contents of the files, permissions, space), all schedules of their operations and all points at which runs are killed", "why_tests_cant": "the number of schedules of several processes is unbounded, and a test sees only the schedule that happens", "anchors": ["src/maus/cli.py:main"]}
{"id": "C100", "title": "From a CSV file to a MAUS file nothing depends on the way the data are stored in between", "statement": "If FlatAhbCsvReader(...).to_flat_ahb() returns a flat AHB for a CSV file, and the flat AHB and a segment group hierarchy are stored with their schemas and json.dump in any style, then the command line tool with an output path succeeds if and only if its paths are acceptable, to_deep_ahb returns for that very flat AHB, and the output can be written. The output file then is the JSON text of the MAUS that to_deep_ahb returned, and no other file is changed. If every line stands below a heading of the CSV file, the written MAUS is loaded again and equals the one that to_deep_ahb returned up to line indices. Reading the same CSV file again, with other random GUIDs, other styles and other places of the JSON files, leads to the same bytes.", "quantifier": "every content of a CSV file, delimiter and Prüfidentifikator, all random GUIDs, all JSON styles, every hierarchy, MIG, options, file system, permissions and space", "why_tests_cant": "a property of the composition of four components for every input and every style of the files in between; tests check each component with a few files", "anchors": ["src/maus/reader/flat_ahb_reader.py: FlatAhbCsvReader, to_flat_ahb", "src/maus/models/anwendungshandbuch.py: FlatAnwendungshandbuchSchema", "src/maus/mig_ahb_matching.py: to_deep_ahb", "src/maus/cli.py: main"]}
{"id": "C101", "title": "The discriminators of a MAUS lead to the template", "statement": "If to_deep_ahb returns a deep AHB for the reader of an XML template, then: the discriminator of every data element at any depth is the JSON path to a field of the template whose meta.id is the id of the data element, along classes that begin with the document class; a data element without discriminator has a line whose location is not found in the template. Every segment group has been opened by a line of the flat AHB, whose index and (stripped) expression it has, and its discriminator is the JSON path to a class of the template whose ref is the segment group key of that line (UNH for the message). Every segment has as discriminator the JSON path to a class or, if its location is not found in the template, the printed location. If the template has one document class, field and class are those which the location of a line singles out (groups by their keys and opening qualifiers, fields by id and qualifier). If the elements of the template have names without square brackets and siblings have different names, a JSON path leads to one element only, so data elements with the same discriminator have the same id, even in MAUS of different AHBs. If the names in the template are neither empty nor contain square brackets, EdifactStack.from_json_path reads such a path back as one level for each element on the way, with its name, groupable and with the index 0 for a class, not groupable for a field.", "quantifier": "every template, flat AHB, segment group hierarchy, data element, segment group and segment at any depth", "why_tests_cant": "relates every discriminator in every result to an element of an arbitrary template; tests compare the discriminators of a few AHBs with expected values", "anchors": ["src/maus/mig_ahb_matching.py: to_deep_ahb, merge_lines_with_same_data_element", "src/maus/reader/mig_xml_reader.py: MigXmlReader.get_edifact_stack, element_to_edifact_stack", "src/maus/models/edifact_components.py: EdifactStack.to_json_path"]}
{"id": "C102", "title": "Segments and data elements are placed in the group they belong to", "statement": "In a deep AHB returned by to_deep_ahb, a segment is in the group that was opened last by its own or an earlier run of lines, and a data element is in the segment created last before it. For the reader of an XML template the discriminators show the nesting: the discriminator of a data element begins with that of the segment group it is in, and a segment whose discriminator is a JSON path of the template has the discriminator of its group.", "quantifier": "every template, flat AHB, segment group hierarchy, segment group, segment in it and data element in the segment, at any depth", "why_tests_cant": "the group of a segment depends on all lines before it; tests compare a few MAUS with expected files, in which misplaced segments look as plausible as any", "anchors": ["src/maus/mig_ahb_matching.py: to_deep_ahb", "src/maus/reader/mig_xml_reader.py: MigXmlReader.get_edifact_stack", "src/maus/models/edifact_components.py: EdifactStack.to_json_path"]}
{"id": "C103", "title": "A segment that the template does not know is identified by its printed location", "statement": "When to_deep_ahb does not find the location of a segment in the template, it takes str(location) as the discriminator. Printing a location is injective: two locations that are printed alike are equal, whatever quotes, backslashes, line breaks or non-printable characters their qualifiers contain. A printed location is never a JSON path of the template. So the discriminator of every segment says unambiguously either which class of the template the segment belongs to or which location was not found.", "quantifier": "every location, template, flat AHB, segment group hierarchy and segment at any depth; every version of the Unicode table of printable characters", "why_tests_cant": "injectivity of a printing function over all strings, including escapes, and all lengths of layers", "anchors": ["src/maus/mig_ahb_matching.py: to_deep_ahb (discriminator = str(position))", "src/maus/navigation.py: AhbLocation, AhbLocationLayer (attrs.define: __repr__)"]}
{"id": "C104", "title": "No requirement on a segment group is lost or invented", "statement": "If to_deep_ahb returns, the segment groups of the deep AHB below the message, in document order, carry exactly the (stripped) expressions of the headings of segment groups of the flat AHB (lines with a segment group key, without segment code and data element): same order and number. Every segment group at any depth has the index and the expression of a line that opens a group, and every group the lines ask for exists.", "quantifier": "every flat AHB, segment group hierarchy and MIG reader for which to_deep_ahb returns; segment groups at any depth", "why_tests_cant": "whether a group is left out depends on all groups opened before it and on the answers of the reader; it has to hold for all of them", "anchors": ["src/maus/mig_ahb_matching.py: to_deep_ahb (used_stacks, append_next_sg_here)", "src/maus/navigation.py: determine_locations"]}
{"id": "C105", "title": "Unpacking virtual groups", "statement": "MigXmlReader._unpack_virtual_groups (at present not called) replaces every class with meta.virtual=\"true\" by its children, in its place: no element that is no virtual group is lost, duplicated or changed, the order of the document is kept, and no virtual group remains below the root. (False of the code: the children are put in front of the sibling before the group, in reverse order, or, if the group is the first child, in front of the last child; a virtual group in a virtual group remains.)", "quantifier": "every XML tree; every number, position, content and nesting of virtual groups", "why_tests_cant": "the result depends on the position of each group among its siblings and on their number, while the tree is changed during the iteration over it", "anchors": ["src/maus/reader/mig_xml_reader.py:MigXmlReader._unpack_virtual_groups"]}
{"id": "C106", "title": "MIGs as strings and as files", "statement": "MigXmlReader(text) gives the same reader, or the same error, as MigXmlReader(path) for a file with this text in UTF-8, except for one case: a string that begins with \"<?xml\" and mentions a quoted encoding before the first \">\" is refused with a ValueError. In particular, a MIG whose XML declaration names its encoding (as the MIG templates do) can be read from a file only, whatever follows; one with no XML declaration or with one that names no encoding can be given in both ways. An argument that is neither a string nor a path is refused with a ValueError.", "quantifier": "all texts: all XML declarations with all kinds of quotes and white space, all documents after them, and texts that are no XML at all", "why_tests_cant": "all texts", "anchors": ["src/maus/reader/mig_xml_reader.py:MigXmlReader.__init__"]}
{"id": "C107", "title": "MIGs with XML namespaces", "statement": "A MIG file is read with its namespaces resolved. A document without prefixes and without xmlns attributes is read as it is written. The root is in a namespace iff it is written with a prefix or declares a non-empty default namespace; such a MIG cannot be used: check_file_can_be_parsed_as_mig_xml raises although the local name of the root may be an EDIFACT format, and every lookup of an edifact stack raises lxml's error (no ValueError). A document with an element or attribute whose prefix is declared neither at the element nor at an element above it cannot be read.", "quantifier": "all texts, all sets of formats (without curly brackets), all locations with at least one layer, all URIs and prefixes, declarations at any depth, whatever URIs the parser accepts", "why_tests_cant": "all texts", "anchors": ["src/maus/reader/mig_xml_reader.py: check_file_can_be_parsed_as_mig_xml, MigXmlReader.__init__, get_format_name, get_element"]}
{"id": "C108", "title": "to_deep_ahb raises the exception of the first run that cannot be converted", "statement": "to_deep_ahb raises e if and only if the location search raises e, or the locations are found and the first run of lines (with a segment code) that cannot be converted raises e: what the MIG reader raises for it (unless ValueError; for a run of several lines the location of its first line is tried as well); AttributeError or ValueError for the first entry of a value pool without a name or with a refused qualifier; TypeError for a free text without expression in its first line; ValueError for a data element before any segment; AssertionError if the last line of a segment has no segment code; UnboundLocalError for a segment before the message root; ValueError for a group that cannot be inserted. Lines after this run do not change the exception.", "quantifier": "all flat AHBs whose lines pass the AhbLine constructor, all hierarchies, all MIG readers (also those that raise)", "why_tests_cant": "the order of checks must decide correctly for every combination of defects in lines at any position", "anchors": ["src/maus/mig_ahb_matching.py: to_deep_ahb, merge_lines_with_same_data_element", "src/maus/navigation.py: calculate_distance"]}
{"id": "C109", "title": "determine_locations: exact outcome for lines in any order", "statement": "For a hierarchy with distinct, acceptable group keys and opening segments and root key None, and any list of lines (also lines that skip levels of the hierarchy or name unknown groups): determine_locations raises e if and only if some line raises e while the lines before it raise nothing. A line raises ValueError if it is the first one and the first qualifier is refused, if it is the first one and its group is unknown, if it returns to an open group that was entered by skipping a level right below the root, or if its next segment code, its data element or (where a group is opened) the next qualifier is refused; AttributeError if a later line names an unknown group; TypeError if a group is opened and no segment follows. Otherwise it returns one location per line, whose layers are the open groups after that line; they are an ordered selection of the path from the root to the line's group, beginning with the root and ending with the line's group. No IndexError and no NotImplementedError occurs.", "quantifier": "all well-formed hierarchies of any depth, all lists of AHB lines of any length in any order", "why_tests_cant": "the open groups depend on the whole history of lines; skipped levels at any depth must be followed for every order of lines", "anchors": ["src/maus/navigation.py: determine_locations, find_common_ancestor_from_sgh, calculate_distance"]}
{"id": "C110", "title": "Command line tool: exact exception of every failing run", "statement": "A run of the command line tool fails with e if and only if e belongs to the first thing that goes wrong, in this order: a path click does not accept (usage error); not exactly one of output path and check path (click.Abort); the flat AHB file (a directory, no UTF-8, no JSON, no valid flat AHB), the hierarchy file (likewise), the template (a directory, no XML); to_deep_ahb; then, with an output path, writing (permission, missing directory: FileNotFoundError, full device), or, with a check path, reading the stored MAUS (a directory, no UTF-8, no JSON, no valid MAUS) and comparing it (click.Abort if it differs up to line indices). In particular click.Abort means exactly: ambiguous mode, or a valid stored MAUS that differs. A failing run changes no file and no directory, unless the device gets full while the output is written.", "quantifier": "all file systems, all contents of the files, all options, all permissions and amounts of free space", "why_tests_cant": "the order of the checks matters whenever several inputs are wrong at once; all combinations of broken inputs of any content have to be covered", "anchors": ["src/maus/cli.py: main", "src/maus/mig_ahb_matching.py: to_deep_ahb", "src/maus/reader/mig_xml_reader.py: MigXmlReader.__init__"]}
{"id": "C111", "title": "MIG lookup: exact outcome for every document with one message class", "statement": "For a MIG document with one message class whose root is in no namespace and a location with at least one layer: get_element raises IndexError if and only if the lookup examines an attribute that cannot be read (a list of qualifiers with a dangling pipe): the key of any of several classes for a layer (also of one behind the class that is looked for), the key of one of several classes for the segment in front of the first one with the opening qualifier, or the ref of one of several fields with the id in front of the second one with the qualifier. Otherwise it returns the element that keys, opening qualifiers, segment code, id and qualifier single out, and raises ValueError if and only if there is none. Without message class it raises ValueError. The same holds for documents with several message classes of which at most one has classes for the first layer of the location.", "quantifier": "all documents with at most one message class that has classes for the first layer, of any depth and width, with any attributes; all locations", "why_tests_cant": "attributes at any depth and position and their order among the candidates decide between the exceptions", "anchors": ["src/maus/reader/mig_xml_reader.py: MigXmlReader.get_element, _get_candidate_index_from_key", "src/maus/reader/etree_element_helpers.py: get_nested_qualifiers"]}
{"id": "C112", "title": "Any text can be read as a JSON path", "statement": "EdifactStack.from_json_path returns, for any text (indices within the limit of digits of int()), exactly the levels [\"name\"] and [\"name\"][index] that occur in it from left to right (names are not empty and have no square brackets); everything else is skipped. The levels read are groupable iff they have an index. Reading the path of what was read gives the same stack; no level is read iff [\"name\"] occurs nowhere; a text is written again character by character iff it is the path of a stack.", "quantifier": "all texts", "why_tests_cant": "the texts are not limited to what to_json_path writes; the regular expression has a lazy and an optional part", "anchors": ["src/maus/models/edifact_components.py:EdifactStack.from_json_path", "src/maus/models/edifact_components.py:EdifactStack.to_json_path"]}
{"id": "C113", "title": "The exact exception of the CSV reader", "statement": "FlatAhbCsvReader(file) raises exactly the exception of the first thing that goes wrong, in this order: no Prüfidentifikator is given and no column name consists of five digits (ValueError); the first row below a heading whose number cannot be read (KeyError without a column '', TypeError if the row has no cell there, ValueError if it holds no integer); the first of the rows left by the merging of headings that cannot be read (KeyError if a column is missing, TypeError if there is no cell for the segment group, ValueError if the row is no heading and its expression consists of blanks). It raises nothing else and otherwise succeeds. If the tokeniser stops with csv.Error, this is raised instead of everything but the missing expression column.", "quantifier": "all records and texts, any delimiter, any given Prüfidentifikator", "why_tests_cant": "the exception depends on the position of several defects relative to each other in files of any length", "anchors": ["src/maus/reader/flat_ahb_reader.py:FlatAhbCsvReader", "src/maus/reader/flat_ahb_reader.py:FlatAhbCsvReader.merge_section_only_lines"]}
{"id": "C114", "title": "Flat AHBs that are edited in place", "statement": "Through any history of assignments to the attributes of lines, assignments to flat.lines, changes of the list flat.lines in place and sorts (exceptions caught in between), every AhbLine stays as its constructor demands; a step that raises raises a ValueError and changes nothing; an assignment to an attribute changes this attribute of this line only, wherever the line is used. Assigning flat.lines succeeds iff the constructor would accept the lines. Sorting succeeds iff every line has a well formed segment group, segment code and data element at that moment, moves references only, keeps the order inside the groups, and its result is acceptable to the constructor again. A handbook stays acceptable as long as the list is not changed in place and no segment group, segment code, data element or section name of a line is assigned; such an assignment does get past the validators of the handbook.", "quantifier": "all lines (also lines that occur several times in the handbook), all finite histories of edits", "why_tests_cant": "the histories are unbounded and every line can be shared between places", "anchors": ["src/maus/models/anwendungshandbuch.py:AhbLine", "src/maus/models/anwendungshandbuch.py:FlatAnwendungshandbuch"]}
{"id": "C115", "title": "A CSV file that passes the sanity check becomes a flat AHB", "statement": "If check_file_can_be_parsed_as_ahb_csv accepts a CSV file, FlatAhbCsvReader(file).to_flat_ahb() returns a flat AHB. (False of the code: the check only reads the file. Proved instead: to_flat_ahb succeeds iff in every row that is no heading and holds any information, segment group, segment and data element are empty or look as they should, and the lines of the section 'Abschnitts-Kontrollsegment' are in at most two of the pieces that begin with a segment group after lines without one; it raises a ValueError otherwise. Without a heading 'Abschnitts-Kontrollsegment' the condition on the rows alone decides.)", "quantifier": "all records of a CSV file, any given Prüfidentifikator", "why_tests_cant": "the outcome depends on every row of files of any length and on the sequence of the lines with and without segment group", "anchors": ["src/maus/reader/flat_ahb_reader.py:FlatAhbCsvReader.to_flat_ahb", "src/maus/reader/flat_ahb_reader.py:check_file_can_be_parsed_as_ahb_csv", "src/maus/models/anwendungshandbuch.py:FlatAnwendungshandbuch"]}
{"id": "C116", "title": "Results do not depend on hash randomisation", "statement": "Python iterates sets of strings in an order that differs from process to process. Whatever this order is, FlatAhbCsvReader reads the same lines, Prüfidentifikator and conditions or raises the same exception, merge_section_only_lines returns equal dictionaries, and get_all_expressions returns the same list.", "quantifier": "all orders in which the sets may be iterated, all records of a CSV file, all given Prüfidentifikatoren, all deep AHBs", "why_tests_cant": "a test process has one hash seed and thus sees one iteration order per set", "anchors": ["src/maus/reader/flat_ahb_reader.py:FlatAhbCsvReader.merge_section_only_lines", "src/maus/reader/flat_ahb_reader.py:FlatAhbCsvReader", "src/maus/models/anwendungshandbuch.py:DeepAnwendungshandbuch.get_all_expressions"]}
{"id": "C117", "title": "Assignments to attributes of a deep AHB and its parts", "statement": "After any number of assignments to attributes of a deep AHB, its meta information, groups, segments, data elements and value pool entries, wherever these objects are used and whatever is refused in between, every object is one its constructor accepts; a deep AHB that is read afterwards is one that can be constructed, and if no field required by the schema is None, it can be dumped and loaded. An assignment is accepted iff the object has the attribute and the value is as documented, and then changes this attribute of this object only. Otherwise nothing changes, and an AttributeError (no such attribute), a TypeError (None instead of a text) or a ValueError is raised. The groups below a group are not validated: a group can be made to contain itself.", "quantifier": "all deep AHBs including those that use an object at several places, all histories of assignments of values of the documented types or None", "why_tests_cant": "histories, values and the way the objects refer to each other are unbounded", "anchors": ["src/maus/models/edifact_components.py:ValuePoolEntry, DataElementFreeText, DataElementValuePool, Segment, SegmentGroup", "src/maus/models/anwendungshandbuch.py:DeepAnwendungshandbuch, AhbMetaInformation"]}
{"id": "C118", "title": "The lists of a converted AHB are separate objects", "statement": "The conversion to a deep AHB appends through references to lists inside of the tree it builds. In the result no group, no segment, no list of groups, of segments or of data elements is used at two places, so a later change of one of these lists is seen at one place only; and the tree that the references build, as well as the exceptions, are those of a conversion that addresses the lists by their position in the tree.", "quantifier": "all flat AHBs, segment group hierarchies and MIG readers", "why_tests_cant": "sharing depends on the whole history of lists opened, left and returned to, which is unbounded; equal trees with shared lists compare equal in tests", "anchors": ["src/maus/mig_ahb_matching.py:to_deep_ahb (append_next_sg_here, append_next_segments_here, append_next_data_elements_here, parent_group_lists)"]}
{"id": "C119", "title": "A MAUS file that is read while it is written", "statement": "If FileBasedMausProvider.get_maus reads a file while the command line tool writes it, get_maus returns None (only if there was no file), the MAUS that was there before or the new MAUS, or it raises; it never returns anything else.", "quantifier": "all contents of the file before, all MAUS written, all interleavings of the operations of reader and writer, all sizes of the pieces read and written, all points at which the writer is killed", "why_tests_cant": "the outcome depends on the schedule of two processes, of which there are unboundedly many; a test observes one", "anchors": ["src/maus/maus_provider.py:FileBasedMausProvider.get_maus", "src/maus/cli.py:main (json.dump into output_path)"]}
{"id": "C120", "title": "Objects made from one CSV reader are independent", "statement": "A program may call to_flat_ahb of one FlatAhbCsvReader several times, convert the flat AHBs and edit everything it has got. Each call of to_flat_ahb and to_deep_ahb returns what the lines at this time give, and an edit of one object (a flat AHB, a deep AHB, the dictionary of condition texts) is not seen in the others.", "quantifier": "all readers, all histories of to_flat_ahb, to_deep_ahb, edits of lists, lines, meta information, groups and condition texts, including steps that raise", "why_tests_cant": "which objects are shared shows only for particular orders of calls and edits; there are unboundedly many histories", "anchors": ["src/maus/reader/flat_ahb_reader.py:FlatAhbCsvReader.to_flat_ahb, extract_condition_texts", "src/maus/mig_ahb_matching.py:to_deep_ahb (result.meta)", "src/maus/models/anwendungshandbuch.py:FlatAnwendungshandbuch, AhbMetaInformation"]}
{"id": "C121", "title": "Runs of the tool that write the same MAUS file at the same time", "statement": "Several runs of the command line tool may write the same output file at the same time. When all of them have ended, the file contains the MAUS of one of the runs; if runs are killed, reading the file raises, or gives the MAUS of one of the runs.", "quantifier": "any number of runs, all MAUS they write, all schedules in which they open the file and write it in pieces of any size, all points at which runs are killed, all previous contents of the file", "why_tests_cant": "depends on the schedule of the processes and on the sizes of the pieces the runtime writes, of which there are unboundedly many", "anchors": ["src/maus/cli.py:main (open(output_path, \"w\"), json.dump)", "src/maus/maus_provider.py:FileBasedMausProvider.get_maus"]}
{"id": "C122", "title": "From the rows of a CSV file to the requirements of a MAUS", "statement": "The requirements of a MAUS that is made from a CSV file (reader, flat AHB, conversion, command line tool), read from top to bottom, are exactly those which the rows of the CSV file state, from top to bottom: for each row with a data element and an expression the data element, its code and meaning and the expression; for each segment row its expression. Nothing is lost, invented, changed, repeated or moved.", "quantifier": "all CSV files, delimiters and Prüfidentifikatoren for which the reader succeeds, all MIG readers and hierarchies for which the conversion succeeds, all file systems in which the intermediate files are stored", "why_tests_cant": "a statement about every row of every CSV file and every combination of rows; a lost or shifted requirement shows only for particular combinations", "anchors": ["src/maus/reader/flat_ahb_reader.py:FlatAhbCsvReader", "src/maus/mig_ahb_matching.py:to_deep_ahb, merge_lines_with_same_data_element", "src/maus/cli.py:main"]}
{"id": "C123", "title": "A run of the tool that fails keeps the MAUS of the last run", "statement": "If the command line tool fails, the file at the output path is what it was before the run: a MAUS that a provider returned before, it returns afterwards. In particular this holds if the flat AHB or hierarchy contains text which cannot be encoded in UTF-8 (escapes of lone surrogates in JSON).", "quantifier": "all input files, including JSON files with escapes of single surrogates anywhere, all file systems, options and MIG readers; all providers that look at the output path", "why_tests_cant": "only particular texts make the encoder fail, in the middle of writing; where the written part ends depends on where in the MAUS the text occurs", "anchors": ["src/maus/cli.py:main", "src/maus/maus_provider.py:FileBasedMausProvider.get_maus"]}
{"id": "C124", "title": "Every text of a MAUS comes from the flat AHB or from the template", "statement": "to_deep_ahb invents no text: every text in the result (meta information, discriminators, expressions, section names, ids, qualifiers, meanings, at every depth) is the version of the library, a text of the flat AHB (as it is or trimmed), the path to an element of the template, or the printed location of a line. A segment has index and section name of one line and the untrimmed expression of a line without data element; the texts of a data element come from consecutive lines with its id. Consequently a run of the command line tool can stumble over a text that cannot be encoded only if the file of the flat AHB contains one: otherwise a failing run changes nothing unless the device is full.", "quantifier": "all flat AHBs, hierarchies and templates for which to_deep_ahb returns, all texts at every depth of the result; all runs of the tool on all files", "why_tests_cant": "tests compare single results; that no text anywhere in any result has another origin, and which inputs can make the writer fail half way, ranges over all inputs", "anchors": ["src/maus/mig_ahb_matching.py:to_deep_ahb", "src/maus/mig_ahb_matching.py:merge_lines_with_same_data_element", "src/maus/cli.py:main"]}
{"id": "C125", "title": "Histories of runs of the command line tool", "statement": "The tool is run again and again on the same file system, with any options; each run may succeed, fail or be interrupted at any moment, and between the runs other programs may change files. A file that no step is about is never changed. A valid MAUS that is found in a file at the end was there from the beginning, was stored by another program, or is (up to line indices) the MAUS of the input files of the run that changed the file last, as they were at that run. After a successful run the output file contains its MAUS, get_maus returns it and a check against unchanged inputs passes (if all segments have section names, otherwise a ValidationError), whatever takes place later that is not about these files. Without interruptions and with enough space, the output files behave like a dictionary: each contains the MAUS of the last successful run that was to write it.", "quantifier": "all file systems, all finite histories of runs and foreign changes, all options, permissions and amounts of free space of each run, all interruption points, all files", "why_tests_cant": "tests run the tool once in a fresh directory; the claim is about histories of any length with failures, crash points and foreign changes", "anchors": ["src/maus/cli.py:main", "src/maus/maus_provider.py:FileBasedMausProvider.get_maus"]}
{"id": "C126", "title": "The discriminator of a data element identifies it", "statement": "\"The discriminator uniquely identifies the data element\": in a deep AHB made by to_deep_ahb from a template whose names tell its elements apart, the data elements the template knows have pairwise different discriminators, so that get_all_value_pools (one value pool per discriminator) leaves none out. False in general: the same reference number in two segments of the message, or a repeated group, gives data elements with one discriminator, and then value pools are lost. What holds: the same discriminator means the same data element id and the same segment groups (and the same segment, unless the template has the field directly in the class of the group); the discriminators are distinct if no data element is described at two places that are the same in this sense, or whose layers lead to the same class of the template.", "quantifier": "all templates with distinguishing names, flat AHBs and segment group hierarchies for which to_deep_ahb returns", "why_tests_cant": "uniqueness is a statement about all pairs of data elements of all AHBs; tests look at a few AHBs without repetitions", "anchors": ["src/maus/models/edifact_components.py: DataElement.discriminator", "src/maus/models/anwendungshandbuch.py: DeepAnwendungshandbuch.get_all_value_pools", "src/maus/mig_ahb_matching.py: to_deep_ahb, merge_lines_with_same_data_element", "src/maus/reader/mig_xml_reader.py: MigXmlReader.get_edifact_stack"]}
{"id": "C127", "title": "Merging section headings a second time changes nothing", "statement": "FlatAhbCsvReader.merge_section_only_lines applied to its own result returns this result. (False of the code: of three blanks in a row, e.g. one at the end of a heading line and one at the start of the next one, two are left and a second call removes one of them. Exactly: a second call changes nothing if and only if no heading in the result of the first one contains two blanks in a row, in particular if the headings have no surrounding whitespace and no two blanks in a row; a second call never fails and keeps the number of rows.)", "quantifier": "all lists of rows with any columns and texts for which the first call returns", "why_tests_cant": "whether blanks accumulate depends on the texts of all adjacent headings; runs of headings may have any length", "anchors": ["src/maus/reader/flat_ahb_reader.py: FlatAhbCsvReader.merge_section_only_lines"]}
{"id": "C128", "title": "Further records of a CSV file only add lines", "statement": "If FlatAhbCsvReader reads a file, then it also reads the file that is cut behind any of its records (the header is kept): the rows of the cut file are the first rows of the whole file, with the same indexes, section names and contents, the pruefidentifikator is the same, and every condition key of the cut file is a condition key of the whole file. If to_flat_ahb succeeds for the whole file, it succeeds for the cut file and its lines are the first lines. Conversely, if the first records cannot be read, no file that begins with them can be read. The same holds for the text of a file that is cut behind a line feed that is not inside quotation marks.", "quantifier": "all lists of CSV records, all positions of the cut behind the header, all given or missing pruefidentifikators; the random guids are drawn in the same order", "why_tests_cant": "the rows are read with state that is carried along (current section name, accumulated heading, conditions) and the check of the flat AHB counts blocks over all lines; the claim is about any file and any cut", "anchors": ["src/maus/reader/flat_ahb_reader.py: FlatAhbCsvReader.__init__", "src/maus/reader/flat_ahb_reader.py: FlatAhbCsvReader.merge_section_only_lines", "src/maus/reader/flat_ahb_reader.py: FlatAhbCsvReader.to_flat_ahb", "src/maus/models/anwendungshandbuch.py: FlatAnwendungshandbuch"]}
{"id": "C129", "title": "The sections of a CSV file are read independently of each other", "statement": "Divide the records of a CSV file above a heading (a row that only holds a section name), where the row in front is no heading. FlatAhbCsvReader reads the whole file if and only if it reads the two parts as files of their own, each with the header. The rows of the whole file are the rows of the first part followed by those of the second part, with the same section names and contents, apart from the random guids and the indexes; its conditions are those of the first part, overwritten by those of the second part. (A given pruefidentifikator must not be the name of one of the other columns; otherwise the claim is false.)", "quantifier": "all headers, all lists of records, all places above a heading, all given or missing pruefidentifikators that are no names of other columns, all guids", "why_tests_cant": "the reader carries the current section name, an accumulated heading and the conditions from row to row; that none of it leaks across a heading must hold for all contents", "anchors": ["src/maus/reader/flat_ahb_reader.py: FlatAhbCsvReader.__init__", "src/maus/reader/flat_ahb_reader.py: FlatAhbCsvReader.merge_section_only_lines", "src/maus/reader/flat_ahb_reader.py: FlatAhbCsvReader.raw_ahb_row_to_ahbline", "src/maus/reader/flat_ahb_reader.py: FlatAhbCsvReader.extract_condition_texts"]}
{"id": "C130", "title": "The order of the columns of a CSV file and other columns do not matter", "statement": "If two CSV files say the same, record by record, in the columns of an AHB (the unnamed column, Segment Gruppe, Segment, Datenelement, Codes und Qualifier, Beschreibung, Bedingung) and in the column with the expressions, then FlatAhbCsvReader yields the same rows and conditions for both, or raises the same exception. In particular the columns may be put into any order. The column with the expressions is the given pruefidentifikator or the only column named by five digits.", "quantifier": "all pairs of headers (of several columns with the same name the last one counts), all lists of records, all cells, all further columns, all guids; all permutations of columns with different names", "why_tests_cant": "there are arbitrarily many further columns, orders and contents, and missing columns and short records have to be treated alike, too", "anchors": ["src/maus/reader/flat_ahb_reader.py: FlatAhbCsvReader.get_raw_rows", "src/maus/reader/flat_ahb_reader.py: FlatAhbCsvReader.merge_section_only_lines", "src/maus/reader/flat_ahb_reader.py: FlatAhbCsvReader.raw_ahb_row_to_ahbline"]}
{"id": "C131", "title": "The pruefidentifikator only selects the expressions of a CSV file", "statement": "If the same CSV file can be read with two pruefidentifikators, then the two readings have the same rows with the same positions, section names and guids, apart from the expressions, and the same conditions. The lines of the two flat AHBs are the same apart from the expressions, too, if every row says something besides its expression; then determine_locations gives them the same locations or raises the same exception. A file that can be read with one pruefidentifikator can be read with every other column of the header whose cells are missing, empty or not blank.", "quantifier": "all lists of records, all pairs of pruefidentifikators (given or found in the header), all guids", "why_tests_cant": "there are arbitrarily many files and pairs of columns; a section name or a position that depends on the chosen column shows up only in particular files", "anchors": ["src/maus/reader/flat_ahb_reader.py: FlatAhbCsvReader.get_raw_rows", "src/maus/reader/flat_ahb_reader.py: FlatAhbCsvReader.merge_section_only_lines", "src/maus/reader/flat_ahb_reader.py: FlatAhbCsvReader.raw_ahb_row_to_ahbline"]}
{"id": "C132", "title": "Only the identifying attributes and the names of a MIG matter", "statement": "If two MIG documents have the same elements with the same tags and the same values of ref, key and meta.id, then every lookup of a location finds the element at the same position in both, or raises the same exception; in particular the original tree and the tree with the comparable names agree. If migName, ahbName and name agree, too, then every lookup yields the same EdifactStack, every flat AHB is converted into the same MAUS, and runs of the command line tool that differ only in such MIGs and succeed write the same bytes. Texts, the order of attributes and all other attributes (status, max, meta.type, ...) do not matter.", "quantifier": "all pairs of element trees of any depth and width, all attributes and texts, all locations, all flat AHBs and segment group hierarchies", "why_tests_cant": "there are arbitrarily many documents and further attributes; a lookup that relies on another attribute only fails for particular documents", "anchors": ["src/maus/reader/mig_xml_reader.py: MigXmlReader.get_element, _get_candidate_index_from_key", "src/maus/reader/etree_element_helpers.py: get_nested_qualifiers", "src/maus/reader/mig_ahb_name_helpers.py: make_tree_names_comparable", "src/maus/reader/mig_xml_reader.py: MigXmlReader.element_to_edifact_stack, get_edifact_stack"]}
{"id": "C133", "title": "What a MIG lookup reads of a location", "statement": "Locations whose layers have the same segment groups and opening qualifiers, with the same segment code and data element and, if there is a data element, the same qualifier, are looked up alike: get_element and get_edifact_stack return the same or raise the same exception. The opening segments of the layers do not matter; a missing segment group, an empty key and UNH mean the same, and so do a missing segment code and UNH.", "quantifier": "all MIG documents, all pairs of locations with any number of layers", "why_tests_cant": "there are arbitrarily many documents and locations; that an attribute is never read cannot be seen from examples", "anchors": ["src/maus/reader/mig_xml_reader.py: MigXmlReader.get_element, _get_candidate_index_from_key", "src/maus/reader/etree_element_helpers.py: get_nested_qualifiers"]}
