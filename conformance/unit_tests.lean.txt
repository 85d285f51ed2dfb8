import Verif
open Verif
abbrev D := List (PyStr × Json)
def o : Option PyStr → Json := dumpStr
def g (d : D) (k : String) : Json := (dictGet k.toList d).getD .null
def sO : Json → Option PyStr | .str s => some s | _ => none
def gs (d : D) (k : String) : Option PyStr := sO (g d k)
def arr : Json → List Json | .arr l => l | _ => []
def obj : Json → D | .obj l => l | _ => []
def bo (b : Bool) : Json := .bool b
def lineOf (j : Json) : PyRes AhbLine :=
  let d := obj j
  AhbLine.new { guid := (gs d "guid").bind parseUuid, segmentGroupKey := gs d "segment_group_key", segmentCode := gs d "segment_code", dataElement := gs d "data_element", segmentId := gs d "segment_id", valuePoolEntry := gs d "value_pool_entry", name := gs d "name", ahbExpression := gs d "ahb_expression", conditions := gs d "conditions", sectionName := gs d "section_name", index := match g d "index" with | .num i => some i | _ => none }
def locOf (j : Json) : PyRes AhbLocation := do
  let d := obj j
  let ls ← (arr (g d "layers")).mapM fun y => AhbLocationLayer.new (gs (obj y) "segment_group_key") (gs (obj y) "opening_segment_code") (gs (obj y) "opening_qualifier")
  AhbLocation.new ls (gs d "segment_code") (gs d "data_element_id") (gs d "qualifier")
def locJ (l : AhbLocation) : Json := .arr [.arr (l.layers.map fun y => .arr [o y.segmentGroupKey, o y.openingSegmentCode, o y.openingQualifier]), o l.segmentCode, o l.dataElementId, o l.qualifier]
def obJ : Option Bool → Json | none => .null | some b => .bool b
def dictJ (l : List (PyStr × PyStr)) : Json := .obj (l.map fun p => (p.1, .str p.2))
def xmlOf (j : Json) : PyRes Xml := match j with | .str s => (match parseXml s with | some x => .ok x | none => .error .other) | _ => .error .typeError
def stackOf (j : Json) : EdifactStack := { levels := (arr (g (obj j) "levels")).map fun l => { name := (gs (obj l) "name").getD [], isGroupable := match g (obj l) "is_groupable" with | .bool true => true | _ => false, index := match g (obj l) "index" with | .num i => some i | _ => none } }
def stackJ (s : EdifactStack) : Json := .arr (s.levels.map fun l => .arr [.str l.name, .bool l.isGroupable, match l.index with | some i => .num i | none => .null])
def pathOf (j : Json) : List Nat := (arr j).map fun x => match x with | .num i => i.toNat | _ => 0
def opt {α} (f : α → Json) : Option α → Json | none => .null | some a => f a
def handle (op : String) (d : D) : PyRes Json :=
  match op with
  | "test_ahbline_holds_any_information" => do pure (bo (← lineOf (g d "ahb_line")).holdsAnyInformation)
  | "test_ahbline_get_discriminator" => do pure (.str ((← lineOf (g d "ahb_line")).getDiscriminator (match g d "include_name" with | .bool b => b | _ => false)))
  | "test_get_segment_groups" => do
      let ls ← (arr (g d "lines")).mapM lineOf
      pure (.arr ((availableSegmentGroups [] ls).map o))
  | "test_sorted_segment_groups" => do
      let ls ← (arr (g d "unsorted_input")).mapM lineOf
      let r ← sortedLinesBySegmentGroups ls ((arr (g d "sg_order")).map sO)
      pure (.arr (r.map AhbLine.dump))
  | "test_ahb_expression_column_finder" => pure (o (getNameOfExpressionColumn (match g d "field_names" with | .arr l => some (l.filterMap sO) | _ => none)))
  | "test_is_value_pool_entry" => pure (bo (isValuePoolEntry (gs d "value")))
  | "test_is_segment_group" => pure (bo (isSegmentGroup (gs d "value")))
  | "test_code_description_separation" => let r := separateValuePoolEntryAndName (gs d "csv_code") (gs d "csv_beschreibung"); pure (.arr [o r.1, o r.2])
  | "test_merging_of_section_only_lines" => do
      let r ← mergeSectionOnlyLines ((arr (g d "input_lines")).map fun x => (obj x).map fun p => (p.1, sO p.2))
      pure (.arr (r.map fun x => .obj (x.map fun p => (p.1, o p.2))))
  | "test_extract_bedingungen" => pure (dictJ (extractBedingungen (gs d "candidate")))
  | "test_is_strom_field" => pure (obJ (isElectricityName ((gs d "field_name").getD []) false))
  | "test_is_gas_field" => pure (obJ (isGasName ((gs d "field_name").getD []) false))
  | "test_get_division" => pure (match getDivision (gs d "field_name") with | none => .null | some .gas => .str py!"@GAS" | some .electricity => .str py!"@ELECTRICITY")
  | "test_is_boilerplate_segment" => pure (bo (isEdifactBoilerplate (gs d "segment_code")))
  | "test_get_segment_group_key_or_none" => do pure (o (getSegmentGroupKeyOrNone (← xmlOf (g d "xml_string"))))
  | "test_get_ahb_name_or_none" => do pure (o (getAhbNameOrNone (← xmlOf (g d "xml_string"))))
  | "test_get_nested_qualifier" => do
      let r ← getNestedQualifiers ((gs d "ref_or_key").getD []) (← xmlOf (g d "xml_string"))
      pure (opt (fun l => .arr (l.map .str)) r)
  | "test_data_element_merging" | "test_nest_segment_groups_into_each_other" | "test_data_element_value_error" => do
      let ls ← (arr (g d "ahb_lines")).mapM lineOf
      pure (← mergeLinesWithSameDataElement ls (some {levels := []})).dump
  | "flattening" => do pure (.arr ((← Sgh.load (g d "sgh")).flattened.map fun p => .arr [o p.1, .str p.2]))
  | "test_is_hierarchically_below" => do pure (bo ((← Sgh.load (g d "sgh")).isHierarchicallyBelow (gs d "sg_key")))
  | "test_sg_is_hierarchically_below" => do pure (bo ((← Sgh.load (g d "sgh")).sgIsHierarchicallyBelow (gs d "sg_key_x") (gs d "sg_key_y")))
  | "test_make_name_comparable" => pure (.str (makeNameComparable ((gs d "x").getD [])))
  | "test_are_similar_names" => pure (bo (areSimilarNames (gs d "x") (gs d "y")))
  | "test_get_edifact_format" => do pure (.str (← xmlOf (g d "xml_string")).tag)
  | "test_element_to_edifact_stack" => do
      let x ← xmlOf (g d "xml_string")
      let x := match g d "use_sanitized" with | .bool true => makeTreeNamesComparable x | _ => x
      pure (stackJ (← elementToEdifactStack x (pathOf (g d "path"))))
  | "test_get_segment_group_element" => do
      let x ← xmlOf (g d "xml_string")
      pure (.arr ((← getElement x (← locOf (g d "ahb_location"))).path.map fun n => .num n))
  | "test_enhance_line_with_next_segment" => do
      let r ← enhanceWithNextSegment (← (arr (g d "lines")).mapM lineOf)
      pure (.arr (r.map fun p => .arr [p.1.dump, o p.2]))
  | "test_enhance_line_with_next_value_pool_entry" => do
      let r ← enhanceWithNextValuePoolEntry (← (arr (g d "lines")).mapM lineOf)
      pure (.arr (r.map fun p => .arr [p.1.dump, o p.2]))
  | "test_is_opening_segment_line_border" => do
      pure (bo (isOpeningSegmentLineBorder (← lineOf (g d "this_line")) (← lineOf (g d "next_line")) (gs d "next_filled_segment") ((gs d "opening_segment").getD [])))
  | "test_ahb_position_is_sub_or_parent_of" => do
      let x ← locOf (g d "location_x"); let y ← locOf (g d "location_y")
      pure (.arr [bo (x.isSubLocationOf y), bo (y.isParentOf x)])
  | "test_find_common_ancestor" | "test_find_no_common_ancestor" => do
      pure (locJ (← findCommonAncestor (← locOf (g d "location_x")) (← locOf (g d "location_y"))))
  | "test_find_common_ancestor_from_sgh" => do
      pure (locJ (← findCommonAncestorFromSgh (gs d "sg_x") (gs d "sg_y") (← Sgh.load (g d "sgh"))))
  | "test_calculate_distance" => do
      let r ← calculateDistance (← locOf (g d "location_x")) (← locOf (g d "location_y"))
      pure (.arr [.num r.layersUp, .num r.layersDown])
  | "test_edifact_stack_is_sub_or_parent_of" => let x := stackOf (g d "stack_x"); let y := stackOf (g d "stack_y"); pure (.arr [bo (x.isSubStackOf y), bo (x.isParentOf y)])
  | "test_edifact_stack_to_from_json_path" => pure (.str (EdifactStack.fromJsonPath ((gs d "json_path").getD [])).toJsonPath)
  | "deep" => do pure (← DeepAhb.load (g d "j")).dump
  | "flat" => do pure (← FlatAhb.load (g d "j")).dump
  | "line" => do pure (← AhbLine.load (g d "j")).dump
  | "meta" => do pure (← AhbMetaInformation.load (g d "j")).dump
  | "sgh" => do pure (← Sgh.load (g d "j")).dump
  | "de" => do pure (← DataElement.load (g d "j")).dump
  | "seg" => do pure (← Segment.load (g d "j")).dump
  | "sg" => do pure (← SegmentGroup.load (g d "j")).dump
  | "pools" => do pure (.num (← DeepAhb.load (g d "j")).getAllValuePools.length)
  | "sgpools" => do pure (.num (← SegmentGroup.load (g d "j")).getAllValuePools.length)
  | "segpools" => do pure (.num (← Segment.load (g d "j")).getAllValuePools.length)
  | "exprs" => do pure (.arr ((← DeepAhb.load (g d "j")).getAllExpressions.map .str))
  | "locxml" => do pure (.arr ((← fromXmlTexts ((gs d "xml_str").getD [])).map locJ))
  | "locround" => do
      let ls ← (arr (g d "locations")).mapM locOf
      let t ← toXmlElements ls
      pure (.arr ((← fromXmlTexts t.tostring).map locJ))
  | "csv" => do
      let r ← CsvReader.ofBytes (fun n => Fin.ofNat _ n) (((gs d "delim").getD [',']).headD ',') (encodeUtf8 ((gs d "text").getD [])) none
      let f ← r.toFlatAhb
      pure (.obj [(py!"n", .num r.rows.length), (py!"c", dictJ r.extractConditionTexts), (py!"g", .arr (f.getSegmentGroups.map o)), (py!"flat", f.dump)])
  | "deepahb" => do
      let r ← CsvReader.ofBytes (fun n => Fin.ofNat _ n) ',' (encodeUtf8 ((gs d "text").getD [])) none
      let f ← r.toFlatAhb
      let root ← xmlOf (g d "xml")
      let r ← toDeepAhb (migLookup root) (fun _ => []) f (← Sgh.load (g d "sgh"))
      pure r.2.dump
  | _ => pure (.str py!"??")
partial def loop (h : IO.FS.Stream) (out : IO.FS.Stream) : IO Unit := do
  let l ← h.getLine
  if l.isEmpty then return
  match jsonLoads (l.trimAscii.toString).toList with
  | .ok (.arr [.str op, .obj d]) => match handle (String.ofList op) d with
    | .ok j => out.putStrLn (String.ofList (jsonDumps {indent := none, ensureAscii := true, sortKeys := false} j))
    | .error e => out.putStrLn ("E" ++ reprStr e)
  | _ => out.putStrLn "bad"
  loop h out
def main : IO Unit := do loop (← IO.getStdin) (← IO.getStdout)
