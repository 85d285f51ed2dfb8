{
 "claims": [
  {
   "property": "C01",
   "status": "proved",
   "theorems": [
    "Verif.C01_flattened_preorder"
   ],
   "note": "all hierarchies"
  },
  {
   "property": "C02",
   "status": "proved",
   "theorems": [
    "Verif.C02_is_hierarchically_below"
   ],
   "note": "all hierarchies and keys"
  },
  {
   "property": "C03",
   "status": "proved",
   "theorems": [
    "Verif.C03_sg_below_iff",
    "Verif.C03_sg_below_irrefl",
    "Verif.C03_sg_below_trans",
    "Verif.C03_sg_below_asymm",
    "Verif.C03_line_below_iff"
   ],
   "note": "order laws for distinct keys as stated"
  },
  {
   "property": "C04",
   "status": "proved",
   "theorems": [
    "Verif.C04_is_sub_location_of",
    "Verif.C04_is_parent_of",
    "Verif.C04_partial_order"
   ],
   "note": ""
  },
  {
   "property": "C05",
   "status": "proved",
   "theorems": [
    "Verif.C05_common_ancestor",
    "Verif.C05_common_ancestor_error",
    "Verif.C05_common_ancestor_comm"
   ],
   "note": ""
  },
  {
   "property": "C06",
   "status": "proved",
   "theorems": [
    "Verif.C06_distance_defined",
    "Verif.C06_distance_path",
    "Verif.C06_distance_swap",
    "Verif.C06_distance_zero",
    "Verif.C06_distance_triangle"
   ],
   "note": ""
  },
  {
   "property": "C07",
   "status": "proved",
   "theorems": [
    "Verif.C07_hierarchy_changes"
   ],
   "note": ""
  },
  {
   "property": "C08",
   "status": "proved",
   "theorems": [
    "Verif.C08_move_to_neighbour"
   ],
   "note": ""
  },
  {
   "property": "C09",
   "status": "proved",
   "theorems": [
    "Verif.C09_locations_describe_lines"
   ],
   "note": ""
  },
  {
   "property": "C10",
   "status": "proved",
   "theorems": [
    "Verif.C10_innermost_outermost"
   ],
   "note": ""
  },
  {
   "property": "C100",
   "status": "proved",
   "theorems": [
    "Verif.C100_stored_flat_ahb",
    "Verif.C100_command",
    "Verif.C100_read_back",
    "Verif.C100_same_bytes"
   ],
   "note": "Composition of C43, C58, C66 and C78; the reader of XML and the printed form of a location are parameters, as in C58."
  },
  {
   "property": "C101",
   "status": "proved",
   "theorems": [
    "Verif.C101_data_elements",
    "Verif.C101_no_discriminator",
    "Verif.C101_groups",
    "Verif.C101_segments",
    "Verif.C101_data_elements_found",
    "Verif.C101_groups_found",
    "Verif.C101_unambiguous",
    "Verif.C101_same_discriminator",
    "Verif.C101_read_back"
   ],
   "note": "str(location) is an arbitrary function in the model"
  },
  {
   "property": "C102",
   "status": "partial",
   "theorems": [
    "Verif.C102_last_group",
    "Verif.C102_last_segment",
    "Verif.C102_partial",
    "Verif.C102_false"
   ],
   "note": "The placement in the group opened last and the segment created last is proved without restriction. That the discriminators show the nesting is false of the code when segments of an outer group follow after an inner group (C102_false); C102_partial proves it for AHBs in which everything created has the layers of the group opened last."
  },
  {
   "property": "C103",
   "status": "proved",
   "theorems": [
    "Verif.C103_identifies",
    "Verif.C103_no_path",
    "Verif.C103_segments",
    "Verif.C103_nesting"
   ],
   "note": "Printing is injective and never yields a JSON path; combined with C101 and C102."
  },
  {
   "property": "C104",
   "status": "partial",
   "theorems": [
    "Verif.C104_exact",
    "Verif.C104_parts_unique",
    "Verif.C104_asked_partial",
    "Verif.C104_nothing_invented",
    "Verif.C104_counterexample"
   ],
   "note": "False of the code as stated: a second group with the same path in the template is lost, with the expression of its heading. Proved instead: the exact list of groups, and that nothing else is lost or invented."
  },
  {
   "property": "C105",
   "status": "partial",
   "theorems": [
    "Verif.C105_same_children_partial",
    "Verif.C105_one_group",
    "Verif.C105_no_group",
    "Verif.C105_elements_kept",
    "Verif.C105_none_remains_partial",
    "Verif.C105_order_is_wrong",
    "Verif.C105_nested_group_remains"
   ],
   "note": "Dead code of the repository (the call is commented out), modelled from its text and the semantics of lxml. The documented order is false (counterexample and exact order for one group); nested virtual groups remain (counterexample). Comments and text behind elements are not modelled."
  },
  {
   "property": "C106",
   "status": "proved",
   "theorems": [
    "Verif.C106_str_or_file",
    "Verif.C106_declared_encoding",
    "Verif.C106_no_declared_encoding"
   ],
   "note": "Files are taken to be in UTF-8; the regular expression is the one of lxml 5.3.0."
  },
  {
   "property": "C107",
   "status": "proved",
   "theorems": [
    "Verif.C107_no_namespaces",
    "Verif.C107_root",
    "Verif.C107_unusable",
    "Verif.C107_undeclared_prefix",
    "Verif.C49_namespace"
   ],
   "note": "Which URIs libxml2 accepts as names of namespaces is a parameter. C107_unusable holds for every document whose root is in a namespace; C49_namespace is the same for element trees."
  },
  {
   "property": "C108",
   "status": "proved",
   "theorems": [
    "Verif.C108_to_deep_ahb_raises",
    "Verif.C108_later_lines"
   ],
   "note": "exact exception, for every flat AHB of valid lines and every MIG reader"
  },
  {
   "property": "C109",
   "status": "proved",
   "theorems": [
    "Verif.C109_determine_locations_raises",
    "Verif.C109_determine_locations_returns",
    "Verif.C109_layers_on_path",
    "Verif.C109_which_exceptions"
   ],
   "note": "Exact exceptions and exact result for every list of lines; hierarchies with distinct acceptable keys and root key None."
  },
  {
   "property": "C11",
   "status": "proved",
   "theorems": [
    "Verif.C11_locations_follow_hierarchy",
    "Verif.C11_skipped_level"
   ],
   "note": "C11_skipped_level shows that the assumption on skipped levels is needed"
  },
  {
   "property": "C110",
   "status": "proved",
   "theorems": [
    "Verif.C110_exception",
    "Verif.C110_flat_first",
    "Verif.C110_abort",
    "Verif.C110_failed_run_changes_nothing"
   ],
   "note": "Exact exception of every run; usage errors of click, OSErrors other than FileNotFoundError and errors of the XML parser are one kind of exception in the model. C110_abort assumes that the XML parser does not raise click.Abort."
  },
  {
   "property": "C111",
   "status": "proved",
   "theorems": [
    "Verif.C111_indexError",
    "Verif.C111_returns",
    "Verif.C111_valueError",
    "Verif.C111_no_message",
    "Verif.C111_several_messages",
    "Verif.C111_other_messages",
    "Verif.C111_no_first_layer"
   ],
   "note": "Exact outcome without premise on the attributes, for documents in which at most one message class has classes for the first layer; without this restriction it is false (C111_several_messages)."
  },
  {
   "property": "C112",
   "status": "proved",
   "theorems": [
    "Verif.C112_exact",
    "Verif.C112_levels",
    "Verif.C112_reread",
    "Verif.C112_empty",
    "Verif.C112_canonical"
   ],
   "note": "Complete for all texts; the limit of 4300 digits of int() is not modelled."
  },
  {
   "property": "C113",
   "status": "proved",
   "theorems": [
    "Verif.C113_reader",
    "Verif.C113_text",
    "Verif.C113_unique"
   ],
   "note": "Exact exception for every list of records and every text; exceptions of the decoding of a file are in C69."
  },
  {
   "property": "C114",
   "status": "proved",
   "theorems": [
    "Verif.C114_lines_stay_sound",
    "Verif.C114_assign",
    "Verif.C114_refused",
    "Verif.C114_set_lines",
    "Verif.C114_sort",
    "Verif.C114_stays_acceptable",
    "Verif.C114_bypass"
   ],
   "note": "any history of edits; the premise of stays_acceptable is needed (bypass)"
  },
  {
   "property": "C115",
   "status": "partial",
   "theorems": [
    "Verif.C115_exact",
    "Verif.C115_no_control_section_partial",
    "Verif.C115_check_does_not_suffice"
   ],
   "note": "False of the code: the sanity check only reads the file (witness). Proved: the exact condition on the rows under which to_flat_ahb succeeds, ValueError otherwise."
  },
  {
   "property": "C116",
   "status": "proved",
   "theorems": [
    "Verif.C116_reader",
    "Verif.C116_model",
    "Verif.C116_merge",
    "Verif.C116_expressions"
   ],
   "note": "The iteration order of the two iterated sets is a parameter of the model; the results are the same for every order."
  },
  {
   "property": "C117",
   "status": "proved",
   "theorems": [
    "Verif.C117_stays_constructed",
    "Verif.C117_assign",
    "Verif.C117_outcome",
    "Verif.C117_value_unique",
    "Verif.C117_cycle",
    "Verif.C117_value_shows"
   ],
   "note": "Heap model with shared objects; values of other types than the documented ones are not modelled."
  },
  {
   "property": "C118",
   "status": "proved",
   "theorems": [
    "Verif.C118_same",
    "Verif.C118_nothing_shared",
    "Verif.C118_change"
   ],
   "note": "Refinement of the address model of to_deep_ahb by a model with references on a heap; no sharing; local effect of a later change of a list."
  },
  {
   "property": "C119",
   "status": "partial",
   "theorems": [
    "Verif.C119_reads",
    "Verif.C119_get_maus",
    "Verif.C119_new_file_partial",
    "Verif.C119_opened_later_partial",
    "Verif.C119_ended_before_partial",
    "Verif.C119_mixture"
   ],
   "note": "The claim is false for a file that is overwritten while it is read (C119_mixture); what can be read is characterised exactly for all schedules (C119_reads). Proved for new files, unchanged content, and readers that open after or end before the writer opens the file."
  },
  {
   "property": "C12",
   "status": "proved",
   "theorems": [
    "Verif.C12_locations_succeed",
    "Verif.C12_locations_errors",
    "Verif.C12_skipped_level"
   ],
   "note": "segment code / qualifier assumptions only at lines where a group is opened (weaker hypotheses than in the English statement)"
  },
  {
   "property": "C120",
   "status": "partial",
   "theorems": [
    "Verif.C120_to_flat",
    "Verif.C120_to_deep",
    "Verif.C120_frame",
    "Verif.C120_meta_shared",
    "Verif.C120_lines_shared",
    "Verif.C120_to_flat_again",
    "Verif.C120_conditions",
    "Verif.C120_assign_line",
    "Verif.C120_assign_meta",
    "Verif.C120_lines_not_independent",
    "Verif.C120_meta_not_independent",
    "Verif.C120_reader"
   ],
   "note": "Independence is false of the code: lines, meta information and the dictionary of conditions are shared. Proved: what each call returns at any time, exactly what is shared, and that everything else is independent."
  },
  {
   "property": "C121",
   "status": "partial",
   "theorems": [
    "Verif.C121_bytes",
    "Verif.C121_same_partial",
    "Verif.C121_killed_partial",
    "Verif.C121_mixture"
   ],
   "note": "False of the code for runs that write different MAUS (C121_mixture: proved counterexample). Proved for every schedule: what the file can contain (C121_bytes), and the full claim for runs that write the same (C121_same_partial, C121_killed_partial)."
  },
  {
   "property": "C122",
   "status": "partial",
   "theorems": [
    "Verif.C122_stated",
    "Verif.C122_nothing_invented",
    "Verif.C122_kept_partial",
    "Verif.C122_command",
    "Verif.C122_counterexample"
   ],
   "note": "False of the code: requirements can be lost (C122_counterexample). Proved for all CSV files: nothing is invented, changed, repeated or moved (C122_nothing_invented, C122_command); under the premises of C83/C84 nothing is lost either (C122_kept_partial)."
  },
  {
   "property": "C123",
   "status": "partial",
   "theorems": [
    "Verif.C123_reading",
    "Verif.C123_without_surrogates",
    "Verif.C123_written",
    "Verif.C123_lone",
    "Verif.C123_refused",
    "Verif.C123_failed_run_changes_nothing_partial",
    "Verif.C123_counterexample"
   ],
   "note": "False of the code: a lone surrogate in the flat AHB makes the tool fail after it has emptied the output file (C123_counterexample); C123_lone says exactly what is left, C123_refused that providers refuse it. The claim holds for MAUS without lone surrogates on a device with space (C123_failed_run_changes_nothing_partial); without surrogates in the JSON files the tool is the one of C58 and C110 (C123_without_surrogates)."
  },
  {
   "property": "C124",
   "status": "proved",
   "theorems": [
    "Verif.C124_segments",
    "Verif.C124_data_elements",
    "Verif.C124_texts",
    "Verif.C124_printed_locations",
    "Verif.C124_lone_surrogates",
    "Verif.C124_flat_texts",
    "Verif.C124_failed_run_changes_nothing"
   ],
   "note": "Every text of the result is traced to a line of the flat AHB, the template, a printed location or the version. For the tool: an input file without surrogates cannot make it fail half way. The premises about the template (no name holds a lone surrogate) and the printed locations (proved for the model of repr: C124_printed_locations) are facts about XML and repr."
  },
  {
   "property": "C125",
   "status": "proved",
   "theorems": [
    "Verif.C125_other_files",
    "Verif.C125_found",
    "Verif.C125_last_run",
    "Verif.C125_provider",
    "Verif.C125_check",
    "Verif.C125_dictionary"
   ],
   "note": "histories of any length; every step is a run of the modelled command (ended or interrupted at any moment) or any change by another program"
  },
  {
   "property": "C126",
   "status": "partial",
   "theorems": [
    "Verif.C126_counterexample",
    "Verif.C126_same_discriminator",
    "Verif.C126_groups_partial",
    "Verif.C126_segments_partial",
    "Verif.C126_classes_partial",
    "Verif.C126_value_pools",
    "Verif.C126_value_pool_lost"
   ],
   "note": "False of the code in general; proved: what a shared discriminator implies, three sufficient conditions for distinctness, the consequence for get_all_value_pools. Missing: AHBs with repeated groups or segments, for which it is false."
  },
  {
   "property": "C127",
   "status": "partial",
   "theorems": [
    "Verif.C127_counterexample",
    "Verif.C127_exact",
    "Verif.C127_second_pass",
    "Verif.C127_tidy_partial"
   ],
   "note": "false of the code (witness); exact condition proved"
  },
  {
   "property": "C128",
   "status": "proved",
   "theorems": [
    "Verif.C128_lines",
    "Verif.C128_error",
    "Verif.C128_flat",
    "Verif.C128_text",
    "Verif.C128_plain"
   ],
   "note": "for all records and cuts behind the header; guids drawn in the same order"
  },
  {
   "property": "C129",
   "status": "proved",
   "theorems": [
    "Verif.C129_sections",
    "Verif.C129_all_sections",
    "Verif.C129_other_column"
   ],
   "note": "C129_other_column shows that the condition on a given pruefidentifikator is needed"
  },
  {
   "property": "C13",
   "status": "proved",
   "theorems": [
    "Verif.C13_layers_change"
   ],
   "note": ""
  },
  {
   "property": "C130",
   "status": "proved",
   "theorems": [
    "Verif.C130_columns",
    "Verif.C130_order"
   ],
   "note": ""
  },
  {
   "property": "C131",
   "status": "proved",
   "theorems": [
    "Verif.C131_only_expressions",
    "Verif.C131_every_column",
    "Verif.C131_flat",
    "Verif.C131_locations"
   ],
   "note": "C131_flat and C131_locations assume that every row says something besides its expression; C131_every_column assumes that the pruefidentifikator is not one of the fixed columns of an AHB."
  },
  {
   "property": "C132",
   "status": "proved",
   "theorems": [
    "Verif.C132_element",
    "Verif.C132_sanitised",
    "Verif.C132_stack",
    "Verif.C132_maus",
    "Verif.C132_command"
   ],
   "note": ""
  },
  {
   "property": "C133",
   "status": "proved",
   "theorems": [
    "Verif.C133_question",
    "Verif.C133_stack"
   ],
   "note": ""
  },
  {
   "property": "C14",
   "status": "partial",
   "theorems": [
    "Verif.C14_next_segment_partial",
    "Verif.C14_next_value_pool_entry_partial",
    "Verif.C14_exact",
    "Verif.C14_lines_not_kept"
   ],
   "note": "False of the code for lines behind the last segment code / value pool entry: the preceding line is returned instead (witness C14_lines_not_kept). Exact: C14_exact says which line is returned in every position."
  },
  {
   "property": "C15",
   "status": "proved",
   "theorems": [
    "Verif.C15_document_order",
    "Verif.C15_runs"
   ],
   "note": "document order of the result = items specified by createdItems over the runs of located lines"
  },
  {
   "property": "C16",
   "status": "partial",
   "theorems": [
    "Verif.C16_discriminators_unique",
    "Verif.C16_first_is_root",
    "Verif.C16_single_root_partial",
    "Verif.C16_two_roots",
    "Verif.C16_roots_exact"
   ],
   "note": "uniqueness proved in full; at most one top level group is false of the code without the one-layer-at-a-time premise (C16_two_roots is the counterexample), proved under it Exact: C16_roots_exact counts the outermost groups."
  },
  {
   "property": "C17",
   "status": "proved",
   "theorems": [
    "Verif.C17_no_blank_expression"
   ],
   "note": ""
  },
  {
   "property": "C18",
   "status": "proved",
   "theorems": [
    "Verif.C18_merge_value_error",
    "Verif.C18_merge_result",
    "Verif.C18_merge_succeeds"
   ],
   "note": ""
  },
  {
   "property": "C19",
   "status": "proved",
   "theorems": [
    "Verif.C19_nesting"
   ],
   "note": ""
  },
  {
   "property": "C20",
   "status": "proved",
   "theorems": [
    "Verif.C20_indices_ascend"
   ],
   "note": ""
  },
  {
   "property": "C21",
   "status": "proved",
   "theorems": [
    "Verif.C21_metadata"
   ],
   "note": "the metadata object is shared: the flat AHB carries the MAUS version afterwards as well"
  },
  {
   "property": "C22",
   "status": "proved",
   "theorems": [
    "Verif.C22_sort",
    "Verif.C22_incomplete_order"
   ],
   "note": "Both stable sorts, get_segment_groups and re-validation on assignment are modelled."
  },
  {
   "property": "C23",
   "status": "proved",
   "theorems": [
    "Verif.C23_get_segment_groups"
   ],
   "note": ""
  },
  {
   "property": "C24",
   "status": "partial",
   "theorems": [
    "Verif.C24_acceptance_partial",
    "Verif.C24_exact_acceptance",
    "Verif.C24_gap_accepted"
   ],
   "note": "The patterns and the absence of false alarms are proved, the exact acceptance condition too. The claim that lines without segment group occur only at the ends is false of the code: C24_gap_accepted is a counterexample (the filter for Abschnitts-Kontrollsegment is inverted)."
  },
  {
   "property": "C25",
   "status": "proved",
   "theorems": [
    "Verif.C25_discriminator_without_name",
    "Verif.C25_discriminator_with_name"
   ],
   "note": ""
  },
  {
   "property": "C26",
   "status": "proved",
   "theorems": [
    "Verif.C26_holds_any_information",
    "Verif.C26_other_fields"
   ],
   "note": ""
  },
  {
   "property": "C27",
   "status": "proved",
   "theorems": [
    "Verif.C27_no_index",
    "Verif.C27_equal_up_to_index",
    "Verif.C27_idempotent"
   ],
   "note": "all depths; equality up to indices as a separate relation"
  },
  {
   "property": "C28",
   "status": "proved",
   "theorems": [
    "Verif.C28_replace_inputs",
    "Verif.C28_document_order"
   ],
   "note": "the function is any pure function, run in a monad that records the calls"
  },
  {
   "property": "C29",
   "status": "proved",
   "theorems": [
    "Verif.C29_find_segments",
    "Verif.C29_not_recursive",
    "Verif.C29_document_order"
   ],
   "note": ""
  },
  {
   "property": "C30",
   "status": "proved",
   "theorems": [
    "Verif.C30_find_segment_groups",
    "Verif.C30_order",
    "Verif.C30_once",
    "Verif.C30_distinct_groups"
   ],
   "note": ""
  },
  {
   "property": "C31",
   "status": "partial",
   "theorems": [
    "Verif.C31_find_segments_partial",
    "Verif.C31_outermost_match_partial",
    "Verif.C31_all_segments",
    "Verif.C31_root_ignores_group_predicate",
    "Verif.C31_duplicates",
    "Verif.C31_multiplicity"
   ],
   "note": "false of the code: outermost groups ignore the group predicate, nested segments are returned repeatedly (both proved with a witness); proved: exact membership C31_multiplicity says how often each segment is returned."
  },
  {
   "property": "C32",
   "status": "proved",
   "theorems": [
    "Verif.C32_get_all_value_pools"
   ],
   "note": ""
  },
  {
   "property": "C33",
   "status": "proved",
   "theorems": [
    "Verif.C33_get_all_expressions"
   ],
   "note": ""
  },
  {
   "property": "C34",
   "status": "proved",
   "theorems": [
    "Verif.C34_replace_value_pool",
    "Verif.C34_repeated_qualifiers",
    "Verif.C34_unacceptable",
    "Verif.C34_acceptable_qualifiers"
   ],
   "note": "also the general case of repeated qualifiers and the exact error condition"
  },
  {
   "property": "C35",
   "status": "partial",
   "theorems": [
    "Verif.C35_container_partial",
    "Verif.C35_iterator",
    "Verif.C35_iterator_false",
    "Verif.C35_free_text"
   ],
   "note": "false for one-shot iterators (witness), where the exact meaning (subsequence) is proved; exact for containers"
  },
  {
   "property": "C36",
   "status": "proved",
   "theorems": [
    "Verif.C36_round_trip",
    "Verif.C36_normalisation",
    "Verif.C36_injective"
   ],
   "note": ""
  },
  {
   "property": "C37",
   "status": "proved",
   "theorems": [
    "Verif.C37_prefix",
    "Verif.C37_path_prefix"
   ],
   "note": ""
  },
  {
   "property": "C38",
   "status": "proved",
   "theorems": [
    "Verif.C38_flat_round_trip"
   ],
   "note": "Every constructed flat AHB; for the JSON text layer see C66."
  },
  {
   "property": "C39",
   "status": "partial",
   "theorems": [
    "Verif.C39_deep_round_trip_exact",
    "Verif.C39_deep_round_trip_partial",
    "Verif.C39_round_trip_fails",
    "Verif.C39_round_trip_fails'",
    "Verif.C39_loaded_fails"
   ],
   "note": "Exact characterisation: the round trip succeeds iff no discriminator of a group/segment, no section name and no value type is None (the schemas dump them as null but do not accept null). The unrestricted statement is false of the code; witnesses are given. C39_loaded_fails: not even what has just been loaded can always be dumped and loaded again."
  },
  {
   "property": "C40",
   "status": "proved",
   "theorems": [
    "Verif.C40_sgh_round_trip"
   ],
   "note": ""
  },
  {
   "property": "C41",
   "status": "partial",
   "theorems": [
    "Verif.C41_location_round_trip_exact",
    "Verif.C41_locations_round_trip_exact",
    "Verif.C41_location_round_trip_partial",
    "Verif.C41_locations_round_trip_partial",
    "Verif.C41_round_trip_fails",
    "Verif.C41_texts_change"
   ],
   "note": "The exact theorem says what reading a written location gives. The round trip as claimed is false: a single-layer location cannot be read again, an empty opening qualifier becomes None and a padded qualifier is trimmed (witnesses proved)."
  },
  {
   "property": "C42",
   "status": "proved",
   "theorems": [
    "Verif.C42_merge",
    "Verif.C42_merge_succeeds",
    "Verif.C42_rows_kept",
    "Verif.C42_joined_text"
   ],
   "note": "Relation Merged in Spec/Csv; a run of headings at the very end of the file is dropped."
  },
  {
   "property": "C43",
   "status": "proved",
   "theorems": [
    "Verif.C43_reader_succeeds",
    "Verif.C43_lines",
    "Verif.C43_guids",
    "Verif.C43_to_flat_ahb",
    "Verif.C43_to_flat_ahb_succeeds",
    "Verif.C43_rows",
    "Verif.C43_identifier"
   ],
   "note": "Exact line contents, GUIDs, indices, section names and success condition."
  },
  {
   "property": "C44",
   "status": "partial",
   "theorems": [
    "Verif.C44_separate",
    "Verif.C44_entry_first",
    "Verif.C44_idempotent_exact",
    "Verif.C44_idempotent_partial",
    "Verif.C44_not_idempotent"
   ],
   "note": "Idempotence is false for pairs without value pool entry (witness); exact characterisation proved."
  },
  {
   "property": "C45",
   "status": "proved",
   "theorems": [
    "Verif.C45_extract",
    "Verif.C45_well_formed",
    "Verif.C45_keys_and_texts",
    "Verif.C45_reader_conditions"
   ],
   "note": "Exact characterisation for arbitrary texts and the reader as a whole."
  },
  {
   "property": "C46",
   "status": "partial",
   "theorems": [
    "Verif.C46_expression_column_exact",
    "Verif.C46_expression_column_none",
    "Verif.C46_expression_column_partial",
    "Verif.C46_newline"
   ],
   "note": "False for column names with a trailing newline (witness); exact characterisation proved."
  },
  {
   "property": "C47",
   "status": "partial",
   "theorems": [
    "Verif.C47_replace_exact",
    "Verif.C47_replace_none",
    "Verif.C47_replace_partial",
    "Verif.C47_key_error",
    "Verif.C47_reader_total"
   ],
   "note": "KeyError for outdated names surrounded by whitespace (witness); the reader itself never passes such names."
  },
  {
   "property": "C48",
   "status": "proved",
   "theorems": [
    "Verif.C48_lineage",
    "Verif.C48_walk",
    "Verif.C48_complete",
    "Verif.C48_two_messages"
   ],
   "note": "C48_lineage is the property for every document and location. C48_walk/C48_complete: with a unique message class the element is exactly the one singled out by keys and qualifiers. C48_two_messages: with several message classes a segment group with another qualifier can be returned."
  },
  {
   "property": "C49",
   "status": "partial",
   "theorems": [
    "Verif.C49_valueError_partial",
    "Verif.C49_errors",
    "Verif.C49_namespace",
    "Verif.C49_counterexample",
    "Verif.C49_layers",
    "Verif.C49_valueError_iff"
   ],
   "note": "False of the code: a key or ref attribute with a dangling pipe raises IndexError (C49_counterexample), and in a document whose root is in a namespace every lookup raises lxml's XPathEvalError (C49_namespace). Proved: in a document without such attributes and namespaces only ValueErrors; these two are the only other failures."
  },
  {
   "property": "C50",
   "status": "partial",
   "theorems": [
    "Verif.C50_levels",
    "Verif.C50_names_partial",
    "Verif.C50_error",
    "Verif.C50_descendant",
    "Verif.C50_of_location",
    "Verif.C50_counterexample"
   ],
   "note": "False of the code for elements without any name attribute, which get the name of an ancestor (C50_counterexample) or raise UnboundLocalError (C50_error). Proved: exact description of all levels, the property for named elements, sub stack property."
  },
  {
   "property": "C51",
   "status": "partial",
   "theorems": [
    "Verif.C51_exact_partial",
    "Verif.C51_all_qualifiers",
    "Verif.C51_single",
    "Verif.C51_counterexample"
   ],
   "note": "'never raises' is false of the code for a dangling pipe (C51_counterexample). Proved: exact result for every attribute, all well formed lists of qualifiers."
  },
  {
   "property": "C52",
   "status": "partial",
   "theorems": [
    "Verif.C52_equivalence",
    "Verif.C52_comparable",
    "Verif.C52_characters",
    "Verif.C52_insertion_partial",
    "Verif.C52_casing_partial",
    "Verif.C52_german_letters",
    "Verif.C52_sharp_s",
    "Verif.C52_insertion_counterexample"
   ],
   "note": "Equivalence relation, idempotence and absence of removed characters proved for all names. Insertion of separators and change of case proved for names without capital sigma; false with it (C52_insertion_counterexample)."
  },
  {
   "property": "C53",
   "status": "proved",
   "theorems": [
    "Verif.C53_tree"
   ],
   "note": "For every document, by induction over the tree."
  },
  {
   "property": "C54",
   "status": "proved",
   "theorems": [
    "Verif.C54_division",
    "Verif.C54_lower",
    "Verif.C54_names",
    "Verif.C54_not_both_false"
   ],
   "note": "Also shows that searching in Python's lower-cased name amounts to ignoring the case of the letters A to Z."
  },
  {
   "property": "C55",
   "status": "proved",
   "theorems": [
    "Verif.C55_consistent",
    "Verif.C55_constructible_iff",
    "Verif.C55_default_format",
    "Verif.C55_exceptions"
   ],
   "note": "efoli's lookup is an arbitrary function that may raise; C55_exceptions gives the exception of every refused combination of arguments."
  },
  {
   "property": "C56",
   "status": "partial",
   "theorems": [
    "Verif.C56_counterexample",
    "Verif.C56_schedule_partial",
    "Verif.C56_same_result_partial",
    "Verif.C56_single_partial",
    "Verif.C56_keys",
    "Verif.C56_value_error",
    "Verif.C56_terminates",
    "Verif.C56_progress"
   ],
   "note": "Schedule independence is false of the code: all tasks share one edifact object, so a converter that awaits before it reads gets another entry's qualifier (C56_counterexample, in asyncio's own order). Proved for converters that read before they first await, and for pools with one entry; keys, ValueError, termination and progress are proved for every converter and schedule."
  },
  {
   "property": "C57",
   "status": "partial",
   "theorems": [
    "Verif.C57_counterexample",
    "Verif.C57_frame",
    "Verif.C57_transform_partial",
    "Verif.C57_same_result_partial",
    "Verif.C57_ahb_frame",
    "Verif.C57_ahb_partial",
    "Verif.C57_terminates",
    "Verif.C57_progress"
   ],
   "note": "False for converters that await before they read (C57_counterexample, inherited from C56). The frame (everything else unchanged, object by object, at every point of time), termination and progress are proved for every converter and schedule; the replacement and its independence of the schedule for converters that read before they first await."
  },
  {
   "property": "C58",
   "status": "proved",
   "theorems": [
    "Verif.C58_ambiguous",
    "Verif.C58_output",
    "Verif.C58_check",
    "Verif.C58_interrupted"
   ],
   "note": "Every option record, file system, permission table and interruption point. For any XML parser (parameter; instantiated with the modelled one in C86); click's option parsing is outside the model (result records)."
  },
  {
   "property": "C59",
   "status": "partial",
   "theorems": [
    "Verif.C59_check_after_output_exact",
    "Verif.C59_check_after_output_partial",
    "Verif.C59_fails_without_section_name"
   ],
   "note": "Exact: the check after the output succeeds iff the written MAUS can be loaded. This holds if every segment has a section name; it is false without (counterexample), because the schema refuses a missing section name."
  },
  {
   "property": "C60",
   "status": "partial",
   "theorems": [
    "Verif.C60_get_maus",
    "Verif.C60_exceptions",
    "Verif.C60_none_iff_missing_partial",
    "Verif.C60_not_a_directory"
   ],
   "note": "Exact characterisation of None / MAUS / each exception. 'None iff the file does not exist' holds if the expected directory exists; it is false if a regular file lies on the way (NotADirectoryError, counterexample)."
  },
  {
   "property": "C61",
   "status": "proved",
   "theorems": [
    "Verif.C61_nothing_to_check",
    "Verif.C61_not_a_directory",
    "Verif.C61_youngest"
   ],
   "note": "For every file system and parser; the Lark parser is a parameter."
  },
  {
   "property": "C62",
   "status": "proved",
   "theorems": [
    "Verif.C62_opening_segment_line_border"
   ],
   "note": ""
  },
  {
   "property": "C63",
   "status": "proved",
   "theorems": [
    "Verif.C63_loaded_flat_is_valid",
    "Verif.C63_loaded_deep_is_valid"
   ],
   "note": ""
  },
  {
   "property": "C64",
   "status": "proved",
   "theorems": [
    "Verif.C64_complete_file",
    "Verif.C64_check_file",
    "Verif.C64_check_complete_file",
    "Verif.C64_capital_heading"
   ],
   "note": "The witness shows that the condition on headings cannot be dropped."
  },
  {
   "property": "C65",
   "status": "proved",
   "theorems": [
    "Verif.C65_boilerplate"
   ],
   "note": ""
  },
  {
   "property": "C66",
   "status": "proved",
   "theorems": [
    "Verif.C66_loads_dumps",
    "Verif.C66_loads_dumps_unsorted",
    "Verif.C66_sorted_text_is_canonical",
    "Verif.C66_flat_text_round_trip",
    "Verif.C66_sgh_text_round_trip",
    "Verif.C66_deep_text_round_trip_exact",
    "Verif.C66_style_irrelevant",
    "Verif.C66_no_nesting_limit"
   ],
   "note": "Concrete text model of CPython's json (no lone surrogates; no float is dumped)."
  },
  {
   "property": "C67",
   "status": "proved",
   "theorems": [
    "Verif.C67_load_exceptions"
   ],
   "note": "All JSON values, all three schemas."
  },
  {
   "property": "C68",
   "status": "proved",
   "theorems": [
    "Verif.C68_csv_text",
    "Verif.C68_reader",
    "Verif.C68_file",
    "Verif.C68_formatting",
    "Verif.C68_tokeniser_total",
    "Verif.C68_long_cell",
    "Verif.C68_complete_file"
   ],
   "note": "Model of the UTF-8 decoding, universal newlines, the line iterator and the state machine of Python's csv module."
  },
  {
   "property": "C69",
   "status": "proved",
   "theorems": [
    "Verif.C69_reader_exceptions",
    "Verif.C69_file_exceptions",
    "Verif.C69_to_flat_ahb_exceptions",
    "Verif.C69_check_exceptions"
   ],
   "note": "All texts and all byte contents."
  },
  {
   "property": "C70",
   "status": "partial",
   "theorems": [
    "Verif.C70_entries_partial",
    "Verif.C70_never_conforms",
    "Verif.C70_no_segment_conforms",
    "Verif.C70_no_data_element_conforms",
    "Verif.C70_conforming_not_loadable",
    "Verif.C70_documents",
    "Verif.C70_loaded"
   ],
   "note": "False of the code: the published schema is outdated; no dumped deep AHB conforms to it (proved for every deep AHB, every segment, every data element) and a conforming document need not load (witness). Proved: value pool entries conform; C70_documents says exactly which documents conform; C70_loaded: what can be loaded from a conforming document has no data elements."
  },
  {
   "property": "C71",
   "status": "proved",
   "theorems": [
    "Verif.C71_documents",
    "Verif.C71_not_well_formed",
    "Verif.C71_location_text",
    "Verif.C71_formatting",
    "Verif.C71_tostring",
    "Verif.C71_element_or_text",
    "Verif.C71_round_trip_text",
    "Verif.C71_round_trip_texts"
   ],
   "note": "the parser is proved equivalent to a declarative grammar (Spec/XmlText.lean); no DOCTYPE, namespaces unresolved, names beyond ASCII simplified"
  },
  {
   "property": "C72",
   "status": "proved",
   "theorems": [
    "Verif.C72_check",
    "Verif.C72_check_errors",
    "Verif.C72_lookup",
    "Verif.C72_formatting"
   ],
   "note": "the values of EdifactFormat (package efoli) are a parameter"
  },
  {
   "property": "C73",
   "status": "proved",
   "theorems": [
    "Verif.C73_element",
    "Verif.C73_elements",
    "Verif.C73_text",
    "Verif.C73_exceptions",
    "Verif.C73_text_exceptions"
   ],
   "note": "iff with a declarative specification (Spec/LocationRead.lean)"
  },
  {
   "property": "C74",
   "status": "proved",
   "theorems": [
    "Verif.C74_helpers"
   ],
   "note": ""
  },
  {
   "property": "C75",
   "status": "proved",
   "theorems": [
    "Verif.C75_text",
    "Verif.C75_refused",
    "Verif.C75_wrong_type",
    "Verif.C75_no_blanks_inside",
    "Verif.C75_file",
    "Verif.C75_youngest"
   ],
   "note": "Lark is modelled by its regular expression for the terminal SEGMENT_GROUP_CHAIN and the ignored characters around it; the proof shows that the first match of the backtracking engine is the right one for every text"
  },
  {
   "property": "C76",
   "status": "proved",
   "theorems": [
    "Verif.C76_value_pool_objects",
    "Verif.C76_exactly_one"
   ],
   "note": "Objects are pairs of place and content; the order of the search is given independently (SearchedBefore)."
  },
  {
   "property": "C77",
   "status": "partial",
   "theorems": [
    "Verif.C77_counterexample",
    "Verif.C77_all_pools_partial",
    "Verif.C77_second_untouched"
   ],
   "note": "False if value pools share a discriminator: only the first one is transformed, the others are never modified. Proved if the discriminators are distinct."
  },
  {
   "property": "C78",
   "status": "proved",
   "theorems": [
    "Verif.C78_deep_ahb",
    "Verif.C78_csv_reader",
    "Verif.C78_flat_ahb",
    "Verif.C78_maus"
   ],
   "note": "Non-interference: two runs with arbitrary GUID generators have the same outcome."
  },
  {
   "property": "C79",
   "status": "proved",
   "theorems": [
    "Verif.C79_renumber",
    "Verif.C79_equal_up_to_index"
   ],
   "note": "Naturality in the line numbers."
  },
  {
   "property": "C80",
   "status": "proved",
   "theorems": [
    "Verif.C80_known_groups",
    "Verif.C80_to_deep_ahb_refuses"
   ],
   "note": "No assumption on the hierarchy."
  },
  {
   "property": "C81",
   "status": "partial",
   "theorems": [
    "Verif.C81_counterexample",
    "Verif.C81_first_line_partial",
    "Verif.C81_behind_partial",
    "Verif.C81_common_ancestor"
   ],
   "note": "False of the code: AttributeError unless it is the first line. The full statement is C81_statement; proved: ValueError for the first line, AttributeError for every later line that is reached (C81_behind_partial), and the exceptions of the helper function exactly."
  },
  {
   "property": "C82",
   "status": "proved",
   "theorems": [
    "Verif.C82_flat_ahb",
    "Verif.C82_deep_ahb",
    "Verif.C82_hierarchy"
   ],
   "note": "iff with a key by key relation between documents and objects; library conversions uuid.UUID and int as modelled in Py/Json, Py/Int"
  },
  {
   "property": "C83",
   "status": "partial",
   "theorems": [
    "Verif.C83_requirements_kept_partial",
    "Verif.C83_nothing_invented",
    "Verif.C83_exact",
    "Verif.C83_counterexample"
   ],
   "note": "False of the code: only the first of several consecutive free text lines with the same data element survives. Proved: equality of the lists of requirements if free texts have one line and data element lines have a segment code; without premise the deep list is a sublist of the flat list; and, without premise, exactly which requirements survive."
  },
  {
   "property": "C84",
   "status": "partial",
   "theorems": [
    "Verif.C84_segments_kept_partial",
    "Verif.C84_exact",
    "Verif.C84_counterexample"
   ],
   "note": "False of the code: the opening segment of a group gets the expression of the group heading. Proved: equality of the lists of expressions if headings agree with their segments and segments with the same code are separated by a data element line; and, without premise, exactly which expressions the segments carry."
  },
  {
   "property": "C85",
   "status": "proved",
   "theorems": [
    "Verif.C85_documents",
    "Verif.C85_unambiguous",
    "Verif.C85_dumps",
    "Verif.C85_flat_texts",
    "Verif.C85_deep_texts",
    "Verif.C85_hierarchy_texts"
   ],
   "note": "Equivalence with a separately written grammar. Numbers with fraction or exponent denote the nearest double, ties to even (specified over the rationals). Lone surrogates (accepted by Python) are outside the model and are reported by it as Exc.other; the limit on the digits of an int and the recursion limit are not modelled."
  },
  {
   "property": "C86",
   "status": "proved",
   "theorems": [
    "Verif.C86_inputs",
    "Verif.C86_same_maus",
    "Verif.C86_same_output",
    "Verif.C86_same_check"
   ],
   "note": "CLI with the modelled XML parser (documents in UTF-8, no DTD). Input files described by grammars and field-by-field descriptions only."
  },
  {
   "property": "C87",
   "status": "proved",
   "theorems": [
    "Verif.C87_flat_ahb",
    "Verif.C87_deep_ahb",
    "Verif.C87_hierarchy",
    "Verif.C87_hierarchy_only_missing",
    "Verif.C87_which_exceptions"
   ],
   "note": "Both kinds of exceptions, in both directions. Messages of the exceptions are not modelled."
  },
  {
   "property": "C88",
   "status": "proved",
   "theorems": [
    "Verif.C88_line",
    "Verif.C88_meta",
    "Verif.C88_value_pool_entry",
    "Verif.C88_free_text",
    "Verif.C88_value_pool",
    "Verif.C88_segment",
    "Verif.C88_group",
    "Verif.C88_location_layer",
    "Verif.C88_location"
   ],
   "note": "Arguments are of the annotated type or None. The acceptance condition of FlatAnwendungshandbuch is C24_exact_acceptance."
  },
  {
   "property": "C89",
   "status": "proved",
   "theorems": [
    "Verif.C89_to_deep_ahb_returns",
    "Verif.C89_one_layer_at_a_time",
    "Verif.C89_exceptions"
   ],
   "note": "exact condition in both directions, sufficient condition, and the exceptions"
  },
  {
   "property": "C90",
   "status": "proved",
   "theorems": [
    "Verif.C90_to_deep_ahb",
    "Verif.C90_document_order_and_depths"
   ],
   "note": "equivalence; the second theorem shows that the right-hand side describes one tree only"
  },
  {
   "property": "C91",
   "status": "proved",
   "theorems": [
    "Verif.C91_determine_locations",
    "Verif.C91_codes"
   ],
   "note": "Equivalence under the well-formedness assumptions of C11/C12; necessity of the code conditions without assumptions."
  },
  {
   "property": "C92",
   "status": "proved",
   "theorems": [
    "Verif.C92_part_is_unreadable",
    "Verif.C92_interrupted",
    "Verif.C92_provider_after_interruption",
    "Verif.C92_incomplete_file",
    "Verif.C92_provider_after_output"
   ],
   "note": "The content of an interrupted file is any first part of the bytes (Spec/Files.lean Interrupted). UTF-8 as encoding of the provider. UnicodeDecodeError and JSONDecodeError are ValueErrors; OSErrors other than FileNotFoundError are not distinguished."
  },
  {
   "property": "C93",
   "status": "proved",
   "theorems": [
    "Verif.C93_copied",
    "Verif.C93_structure",
    "Verif.C93_locations"
   ],
   "note": "Any fair relabelling; the erasing relabelling gives the structure theorem; locations depend on four columns."
  },
  {
   "property": "C94",
   "status": "proved",
   "theorems": [
    "Verif.C94_look_ahead",
    "Verif.C94_prefix",
    "Verif.C94_error"
   ],
   "note": "Witness that the condition on the last line is needed is given as an example."
  },
  {
   "property": "C95",
   "status": "proved",
   "theorems": [
    "Verif.C95_all_or_nothing",
    "Verif.C95_described",
    "Verif.C95_cancelled"
   ],
   "note": "At every reachable state of every schedule, also after a cancellation. Converters that catch a CancelledError are not modelled. An example shows the half replaced pool after an unacceptable qualifier."
  },
  {
   "property": "C96",
   "status": "proved",
   "theorems": [
    "Verif.C96_history",
    "Verif.C96_commute",
    "Verif.C96_idempotent",
    "Verif.C96_in_place",
    "Verif.C96_interrupted"
   ],
   "note": "Exact for histories of functions without state; exact for a single call with state and exceptions."
  },
  {
   "property": "C97",
   "status": "proved",
   "theorems": [
    "Verif.C97_extends"
   ],
   "note": "The beginning is expressed by document order and depths, which determine the tree (C90)."
  },
  {
   "property": "C98",
   "status": "proved",
   "theorems": [
    "Verif.C98_version_irrelevant",
    "Verif.C98_second_call",
    "Verif.C98_stored"
   ],
   "note": ""
  },
  {
   "property": "C99",
   "status": "proved",
   "theorems": [
    "Verif.C99_same_as_alone",
    "Verif.C99_output",
    "Verif.C99_other_files",
    "Verif.C99_all_end",
    "Verif.C99_terminates",
    "Verif.C99_shared_file"
   ],
   "note": "Every schedule of the operations of any number of runs."
  }
 ]
}