import sys,json; sys.path.insert(0,'/verif/conformance')
from literals import *
env,_=mod('/repo/tests/unit_tests/example_data_11042.py')
L=env['lines_locations_changes_11042']
print(len(L))
json.dump({"meta":{"pruefidentifikator":"11042","maus_version":"0.3.0","description":None,"direction":None},"lines":[clean(x[0]) for x in L]},open('/tmp/conformance/flat.json','w'))
json.dump(clean(env['example_sgh_11042']),open('/tmp/conformance/sgh.json','w'))
def loc(l): return [[[y.get('segment_group_key'),y.get('opening_segment_code'),y.get('opening_qualifier')] for y in l['layers']],l.get('segment_code'),l.get('data_element_id'),l.get('qualifier')]
json.dump([[loc(x[1]),x[2]] for x in L],open('/tmp/conformance/exp.json','w'))
import subprocess
r=subprocess.run("cd /verif/lean && lake env lean --run /tmp/conformance/navigation_11042.lean",shell=True,capture_output=True,text=True)
o=json.loads(r.stdout);e=json.load(open('/tmp/conformance/exp.json'))
NAMES={"@STAY":"@STAY","@NS":"@MOVE_TO_NEIGHBOUR_SAME_KEY","@ND":"@MOVE_TO_NEIGHBOUR_DIFFERENT_KEY","@DIVE":"@DIVE_INTO_SUB_GROUP","@LP":"@LEAVE_TO_PARENT","@LPD":"@LEAVE_TO_PARENT_AND_DIVE_INTO_SUB_GROUP"}
print(len(o),len(e),sum(a[0]!=b[0] or NAMES[a[1]]!=b[1] for a,b in zip(o,e)),"differences")
