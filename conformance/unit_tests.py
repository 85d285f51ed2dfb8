import sys,json,glob,subprocess,re; sys.path.insert(0,'/verif/conformance')
from literals import *
T='/repo/tests/unit_tests/'
cases=[]
def add(op,d,e,lab=""): cases.append((op,d,e,lab))
tests={};envs={}
for p in sorted(glob.glob(T+'test_*.py')):
    e,t=mod(p); tests.update({k:v for k,v in t.items()}); envs.update(e)
loc=lambda l: [[[y.get('segment_group_key'),y.get('opening_segment_code'),y.get('opening_qualifier')] for y in l['layers']],l.get('segment_code'),l.get('data_element_id'),l.get('qualifier')]
LD=["guid","segment_group_key","segment_code","segment_id","data_element","value_pool_entry","name","ahb_expression","conditions","section_name","index"]
line=lambda l:{k:l.get(k) for k in LD}
simple={"test_ahbline_holds_any_information":"expected_holds_any_information","test_ahbline_get_discriminator":"expected_discriminator","test_get_segment_groups":"expected_group_names","test_ahb_expression_column_finder":"expected_column_name","test_is_value_pool_entry":"expected_is_value_pool_entry","test_is_segment_group":"expected_is_segment_group","test_merging_of_section_only_lines":"expected_lines","test_extract_bedingungen":"expected","test_is_strom_field":"expected_is_strom","test_is_gas_field":"expected_is_gas","test_get_division":"expected_division","test_is_boilerplate_segment":"expected_is_boilerplate","test_get_segment_group_key_or_none":"expected","test_get_ahb_name_or_none":"expected","test_get_nested_qualifier":"expected","test_make_name_comparable":"expected_result","test_are_similar_names":"expected_result","test_get_edifact_format":"expected_format","test_is_opening_segment_line_border":"expected_result"}
for t,k in simple.items():
    for r in tests[t]: add(t,r,r[k],t)
for r in tests["test_sorted_segment_groups"]: add("test_sorted_segment_groups",r,[line(x) for x in r["expected_result"]])
for r in tests["test_code_description_separation"]: add("test_code_description_separation",r,[r["expected_code"],r["expected_beschreibung"]])
for t in ("test_data_element_merging","test_nest_segment_groups_into_each_other"):
    for r in tests[t]: add(t,r,r["expected_data_element"])
for r in tests["test_data_element_value_error"]: add("test_data_element_value_error",r,"ERR")
for t in ("test_find_common_ancestor","test_find_common_ancestor_from_sgh"):
    for r in tests[t]: add(t,r,loc(r["expected"]))
for r in tests["test_find_no_common_ancestor"]: add("test_find_no_common_ancestor",r,"ERR")
for r in tests["test_calculate_distance"]: add("test_calculate_distance",r,[r["expected"]["layers_up"],r["expected"]["layers_down"]])
for r in tests["test_ahb_position_is_sub_or_parent_of"]: add("test_ahb_position_is_sub_or_parent_of",r,[r["x_is_sub_of_y"],r["y_is_parent_of_x"]])
for t in ("test_enhance_line_with_next_segment","test_enhance_line_with_next_value_pool_entry"):
    for r in tests[t]: add(t,r,[[line(a),b] for a,b in r["expected"]])
for r in tests["test_edifact_stack_is_sub_or_parent_of"]: add("test_edifact_stack_is_sub_or_parent_of",r,[r["x_is_sub_stack_of_y"],r["x_is_parent_of_y"]])
for r in tests["test_edifact_stack_to_from_json_path"]: add("test_edifact_stack_to_from_json_path",r,r["json_path"])
import xml.etree.ElementTree as ET
def xpath(xml,xp):
    root=ET.fromstring(xml); steps=[s for s in xp.split('/') if s]; assert steps[0]==root.tag,(xp,root.tag)
    cur=root;path=[]
    for s in steps[1:]:
        m=re.match(r"(\w+)(?:\[(\d+)\])?$",s)
        ks=[i for i,c in enumerate(cur) if c.tag==m[1]]
        i=ks[int(m[2])-1] if m[2] else ks[0]
        path.append(i);cur=cur[i]
    return path
for r in tests["test_element_to_edifact_stack"]:
    r["path"]=xpath(r["xml_string"],r["element_xpath"])
    add("test_element_to_edifact_stack",r,[[l["name"],l["is_groupable"],l.get("index")] for l in r["expected_result"]["levels"]] if "levels" in r["expected_result"] else [["asd",False,None],["qwe",False,None]])
for r in tests["test_get_segment_group_element"]: add("test_get_segment_group_element",r,xpath(r["xml_string"],r["expected_result_xpath"]))
for f in glob.glob(T+"migs/*/segment_group_hierarchies/*.json"):
    j=json.load(open(f)); add("sgh",{"j":j},j,f)
for r in tests["test_flattening"]: add("flattening",{"sgh":json.load(open(T+"migs/FV2204/segment_group_hierarchies/"+r["sgh_file_path"]))},r["expected_flattened"])
for f in glob.glob(T+"ahbs/*/*/*.json"):
    j=json.load(open(f)); add("deep",{"j":j},j,f)
for t,op in (("test_ahb_meta_information_serialization_roundtrip","meta"),("test_ahbline_serialization_roundtrip","line"),("test_flatahb_serialization_roundtrip","flat"),("test_deep_ahb_serialization_roundtrip","deep"),("test_free_text_serialization_roundtrip","de"),("test_value_pool_serialization_roundtrip","de"),("test_segment_serialization_roundtrip","seg"),("test_segment_group_serialization_roundtrip","sg"),("test_segment_group_hierarchy_serialization_roundtrip","sgh")):
    for r in tests[t]: add(op,{"j":r["expected_json_dict"]},r["expected_json_dict"],t)
add("locround",{"locations":tests["test_xml_roundtrip_list"][0]["locations"]},[loc(x) for x in tests["test_xml_roundtrip_list"][0]["locations"]])
add("locround",{"locations":[tests["test_xml_roundtrip"][0]["location"]]},[loc(tests["test_xml_roundtrip"][0]["location"])])
for r in tests["test_element_to_locations"]: add("locxml",r,[loc(x) for x in r["expected"]])
for f in glob.glob(T+"ahbs/*/*/*.csv"): add("csv",{"text":open(f,encoding="utf-8",newline="").read()},None,f)
sgh={"sgh_utilmd":0}
fix=ast.parse(open(T+"test_mig.py").read())
inp="\n".join(json.dumps([c[0],{k:v for k,v in clean(c[1]).items()}]) for c in cases)+"\n"
r=subprocess.run("cd /verif/lean && lake env lean --run /tmp/conformance/unit_tests.lean",shell=True,input=inp,capture_output=True,text=True)
print(r.stderr[:800])
out=r.stdout.split("\n")
ok=0;bad=0
def drop(j):
    if isinstance(j,dict): return {k:drop(v) for k,v in j.items() if v is not None}
    if isinstance(j,list): return [drop(x) for x in j]
    return j
res={}
for c,l in zip(cases,out):
    if l.startswith("E"): got="ERR"
    else:
        try: got=json.loads(l)
        except Exception: got=("raw",l[:100])
    e=clean(c[2])
    if c[0]=="csv": res[c[3]]=got if got!="ERR" else l; continue
    if c[0] in("test_data_element_merging","test_nest_segment_groups_into_each_other"): got=drop(got);e=drop(e);got.pop('value_type',0)
    if got==e: ok+=1
    else: bad+=1; print("DIFF",c[0],c[3],json.dumps(clean(c[1]))[:200],"| exp",json.dumps(e)[:300],"| got",json.dumps(got)[:300], l[:40])
print(ok,bad,len(cases),len(out))
for k,v in res.items(): print(k, v if isinstance(v,str) else (v["n"],len(v["flat"]["lines"]),v["g"],len(v["c"]),v["c"].get("931"),v["c"].get("621")))
json.dump(res,open('/tmp/conformance/csv.json','w'))
