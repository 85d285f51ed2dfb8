import random,re,subprocess,sys,csv,io,json,uuid,math,os
random.seed(int(sys.argv[1])); N=int(sys.argv[2])
pats=[r"^SG\d+$",r"^[A-Z]{3}$",r"^[A-Z]*\d*$",r"^\d{4}$",r"^(?!MP-ID)[A-Z0-9\-i]{2,}$",r"^\d+(?:\.\d+)?[a-z]?$",r"^([EG])_\d+$",r"\[(?P<key>\d+)\]\s*(?P<text>[^\[\]]+)\s*",r"^\d{5}$",r"^[1-9]\d{4}$",r"^([A-Z\d]+)|(\d+\.\d+[a-z])$",r"^(?!MP-ID)(GABi)?[A-Z\d\-]+(RLM(o|m)T)?$",r"^\d{5}$",r"\[\"(?P<level_name>[^\[\]]+?)\"\](?:\[(?P<index>\d+)\])?",r"^(?P<segment_code>[A-Z]+):\d+:(?:\d+|\(\d+,\d+\))\[(?:\w+:)+\w+:?=(?P<qualifier>[A-Z\d]+)\]$",r"(?P<segment_code>[A-Z]+):\d+:(?:\d+|\(\d+,\d+\))\[(?P<inner>(?:(?:[A-Z]+:)?\d+:\d+=[A-Z\d]+\|?)+)\]$",r"^\d{4}$|^\d{5}$|^[A-Za-z]+\d{4}$",r"^SG\d+$",r"^[A-Z]+$"]
P=[re.compile(p) for p in pats]
toks=[["SG","1","2","٣","\n","S"],["A","B","Z","\n","a","Ä"],["A","Z","1","9","٣","\n","a"],["1","٣","\n","0","a"],["MP-ID","A","i","-","0","9","\n","a","M"],["1","٣",".","a","z","\n","A"],["E","G","_","1","٣","\n"],["[","]","1","23","٣"," ","\t","Text","x\n"],["1","٣","\n"],["1","0","9","٣","\n"],["A","1",".","a","٣","\n","-"],["GABi","RLMoT","RLMmT","RLM","MP-ID","A","-","1","\n","٣","o"],["1","٣","\n"],["[\"","\"]","[","]","1","٣","\"","ab","ä","$"],["NAD",":","1","(2,3)","[","]","=","Z01","x_ä","2:0=","1:0","\n"],["NAD",":","1:2:","(2,3)","[","]","=","Z01","1:0=","|","SEQ:","NAD:1:2[","NAD:1:(1,2)[","\n"],["1","٣","\n","a","Z","1234"],["SG","1","٣","\n"],["A","Z","\n","a"]]
enc=lambda s:".".join(str(ord(c)) for c in s)
encb=lambda b:".".join(str(c) for c in b)
cases=[];exp=[]
def add(op,a,e): cases.append(op+"\t"+a); exp.append(e)
def mstr(m,n): return str(m.end())+";"+";".join("N" if m.group(i+1) is None else enc(m.group(i+1)) for i in range(n))
ng=[p.groups for p in P]
for i,p in enumerate(P):
    for _ in range(N):
        s="".join(random.choice(toks[i]) for _ in range(random.randint(0,9)))
        m=p.match(s)
        add(f"re{i}",enc(s),"none" if m is None else mstr(m,ng[i]))
for i in (7,13):
    for _ in range(N*3):
        s="".join(random.choice(toks[i]) for _ in range(random.randint(0,16)))
        add(f"fi{i}",enc(s),"/".join((lambda m:mstr(m,ng[i]))(m) for m in P[i].finditer(s)))
fn='/tmp/conformance/f.csv'
for d in ",;":
    for _ in range(N*3):
        s="".join(random.choice(['"',d,'\n','\r','\r\n','a','b ','"','""',' ','ä','\x0b','\u2028','\x1c','\x00' if random.random()<.05 else 'c']) for _ in range(random.randint(0,14)))
        b=s.encode()
        if random.random()<.05: b=b[:-1]+b'\xc3'
        open(fn,'wb').write(b)
        recs=[];err=""
        try:
            with open(fn,"r",encoding="utf-8") as f:
                for r in csv.reader(f,delimiter=d): recs.append(r)
            e="/".join(",".join(enc(c) for c in r) for r in recs)+"#"
        except UnicodeDecodeError: e="EV"
        except csv.Error as x: e="/".join(",".join(enc(c) for c in r) for r in recs)+"#O"
        add("csv" if d=="," else "csv;",encb(b),e)
def js(j):
    if j is None: return "n"
    if j is True: return "t"
    if j is False: return "f"
    if isinstance(j,int): return "i%d"%j
    if isinstance(j,float):
        if math.isnan(j): return "Fnan"
        if math.isinf(j): return "F-inf" if j<0 else "Finf"
        neg=math.copysign(1,j)<0
        if j==0: return "F-0" if neg else "F0"
        n,dd=abs(j).as_integer_ratio(); e=0
        while n%2==0: n//=2; e+=1
        while dd>1: dd//=2; e-=1
        return "F"+("-" if neg else "")+f"{n}e{e}"
    if isinstance(j,str): return "s"+enc(j)
    if isinstance(j,list): return "["+",".join(map(js,j))+"]"
    return "{"+",".join(enc(k)+":"+js(v) for k,v in j.items())+"}"
def rj(d=0):
    r=random.random()
    if d<3 and r<.2: return "["+random.choice([""," ","\n"])+random.choice([","," ,\t"]).join(rj(d+1) for _ in range(random.randint(0,3)))+"]"
    if d<3 and r<.45: return "{"+",".join(random.choice([""," "])+'"'+random.choice("abcA")+'"'+random.choice([":"," : "])+rj(d+1) for _ in range(random.randint(0,4)))+"}"
    if r<.6: return '"'+"".join(random.choice(["a","\\n","\\u00e4","\\ud83d\\ude00","ä","😀","\\/","\\\"","/","\\b","\x7f","\u2028","\\u0000"]) for _ in range(random.randint(0,4)))+'"'
    if r<.8: return random.choice(["0","-0","1","12","-7","1.5","0.1","1e5","1E-3","-0.0","1e400","-1e400","5e-324","2e-324","2.5e-324","1.7976931348623159e308","123456789012345678901234567890","0.1e1","9007199254740993.0","1e23","8.5e-5","NaN","Infinity","-Infinity"])
    return random.choice(["true","false","null",'""',"[]","{}"])
def mut(s):
    if random.random()<.6: return s
    s=list(s)
    for _ in range(random.randint(1,2)):
        k=random.randint(0,len(s))
        if random.random()<.5 and s: s.pop(min(k,len(s)-1))
        else: s.insert(k,random.choice(list('[]{},:"\\ 0123456789.eE+-nulltrf\t\n\r\x0b\u00a0ux')))
    return "".join(s)
def surr(j):
    if isinstance(j,str): return any(0xd800<=ord(c)<0xe000 for c in j)
    if isinstance(j,list): return any(map(surr,j))
    if isinstance(j,dict): return any(surr(k) or surr(v) for k,v in j.items())
    return False
for _ in range(N*8):
    s=mut(rj())
    if any(0xd800<=ord(c)<0xe000 for c in s): continue
    try: j=json.loads(s); e=js(j)
    except json.JSONDecodeError: j=None;e="EV"
    if surr(j): continue
    add("json",enc(s),e)
    def hf(j): return isinstance(j,float) or isinstance(j,list) and any(map(hf,j)) or isinstance(j,dict) and any(map(hf,j.values()))
    if e!="EV" and not hf(j):
        add("dumps",enc(s),"/".join(enc(json.dumps(j,indent=i,ensure_ascii=a,sort_keys=so)) for i,a,so in [(None,True,False),(2,False,True),(0,True,True),(4,False,False)]))
H="0123456789abcdefABCDEF"
for _ in range(N*4):
    h="".join(random.choice(H) for _ in range(32))
    r=random.random()
    s=h
    if r<.5: s=str(uuid.UUID(h))
    if random.random()<.3: s="{"+s+"}"
    if random.random()<.2: s="urn:uuid:"+s
    if random.random()<.5:
        s=list(s)
        for _ in range(random.randint(1,3)):
            k=random.randint(0,len(s)-1)
            q=random.random()
            if q<.3: s.pop(k)
            elif q<.6: s.insert(k,random.choice("-{}_ +xX0٣uidrn:"))
            else: s[k]=random.choice("-_ +x0gG٣{}")
        s="".join(s)
    try: e=str(uuid.UUID(s).int)
    except ValueError: e="E"
    add("uuid",enc(s),e)
for _ in range(N*4):
    s="".join(random.choice(["1","0","٣","_","+","-"," ","\n","\x1c","\u00a0","5","_7","."]) for _ in range(random.randint(0,6)))
    try: e=str(int(s))
    except ValueError: e="E"
    add("int",enc(s),e)
for _ in range(N*3):
    s="".join(random.choice([" ","\t","\x1c","\u00a0","\u2003","\x85","\u200b","a","b","\ufeff","\u180e"]) for _ in range(random.randint(0,7)))
    add("strip",enc(s),enc(s.strip()))
for _ in range(N*3):
    s="".join(random.choice([chr(random.choice([random.randint(0,0x24ff),random.randint(0,0xd7ff),random.randint(0xe000,0x1ffff)])),"Σ","a"," ","İ","ẞ","-","'"]) for _ in range(random.randint(0,7)))
    add("lower",enc(s),enc(s.lower()))
import xml.parsers.expat as X
def parse(s):
    p=X.ParserCreate(encoding="utf-8"); p.ordered_attributes=True; p.buffer_text=True
    root=[None];st=[]
    def start(n,a):
        e=[n,[(a[i],a[i+1]) for i in range(0,len(a),2)],"",[],False]
        if st: st[-1][3].append(e); st[-1][4]=True
        else: root[0]=e
        st.append(e)
    def end(n): st.pop()
    def cd(d):
        if st: st[-1][2]+=d
    p.StartElementHandler=start;p.EndElementHandler=end;p.CharacterDataHandler=cd
    p.Parse(s.encode(),True)
    return root[0]
def xst(e): return "<"+enc(e[0])+"|"+",".join(enc(k)+"="+enc(v) for k,v in e[1])+"|"+("N" if not e[2] else enc(e[2]))+"|"+"".join(map(xst,e[3]))+">"
def rx(d=0):
    n=random.choice(["a","b:c","_x","ä","a-1","x.y"]) if random.random()<.9 else random.choice(["1a","-a",":a","a b","é٣"])
    at="".join(random.choice([" ","\n","  "])+random.choice("pqr")+random.choice(["=","= "," ="])+random.choice(['"%s"',"'%s'"])%"".join(random.choice(["v","&lt;","&#10;","\n","\t","&amp;","&quot;","ü","&#x41;","  ",">"]) for _ in range(random.randint(0,3))) for _ in range(random.randint(0,2)))
    if random.random()<.25: return f"<{n}{at}/>"
    body="".join(random.choice(["t","&gt;","\n"," ","\r\n","&#13;","ö","<!-- c -->","<?pi d?>","<![CDATA[<&]]>","]]","&apos;"]) if random.random()<.7 or d>2 else rx(d+1) for _ in range(random.randint(0,5)))
    return f"<{n}{at}>{body}</{n}{random.choice(['',' '])}>"
def mx(s):
    if random.random()<.5: return s
    s=list(s)
    for _ in range(random.randint(1,2)):
        k=random.randint(0,len(s))
        if random.random()<.5 and s: s.pop(min(k,len(s)-1))
        else: s.insert(k,random.choice(list('<>/&;"\'=! -?]x#\x01 \n\ufffe[')))
    return "".join(s)
for _ in range(N*10):
    s=random.choice(["","<?xml version='1.0'?>","<!-- c -->","\ufeff","\n"])+rx()+random.choice(["","\n","<!-- d -->","<?q?>"])
    s=mx(s)
    if "<!DOCTYPE" in s: continue
    try: e=xst(parse(s))
    except X.ExpatError: e="E"
    except UnicodeEncodeError: continue
    add("xml",enc(s),e)
for _ in range(N*5):
    s="".join(random.choice(["'",'"',"\\","\n","\r","\t","\x00","\x1f"," ","~","\x7f","\x80","\xa0","\xad","ä","ÿ","Ā","\u2028","\u3000","\uffff","漢","😀","\U000e0001","a","Z","0"]) for _ in range(random.randint(0,8)))
    add("printed",enc(s)+"/"+enc("".join(c for c in s if c.isprintable())),enc(repr(s)))
for c in range(0x20000):
    if sys.argv[3:]==["chars"] and not 0xd800<=c<0xe000: add("printed",enc(chr(c))+"/"+(enc(chr(c)) if chr(c).isprintable() else ""),enc(repr(chr(c))))
for c in range(0x20000):
    if sys.argv[3:]==["chars"] and not 0xd800<=c<0xe000:
        ch=chr(c)
        add("re3",enc(ch*4),"4;" if P[3].match(ch*4) else "none")
        add("strip",enc(ch),enc(ch.strip()))
        add("lower",enc(ch),enc(ch.lower()))
        add("upper",enc(ch),"1" if ch.upper()==ch else "0")
print(len(cases))
open('/tmp/conformance/in','w').write("\n".join(cases)+"\n")
r=subprocess.run("cd /verif/lean && lake env lean --run /tmp/conformance/runtime_fuzz.lean < /tmp/conformance/in",shell=True,capture_output=True,text=True)
out=r.stdout.split("\n")
print(r.stderr[:500])
from collections import Counter
bad=Counter()
for c,e,o in zip(cases,exp,out):
    if e!=o:
        op,a=c.split("\t"); a=a.split("/")[0]; bad[op]+=1
        if bad[op]<=6 or (op=="xml" and ".".join(map(str,b"<?xml")) not in a): print("DIFF",op,repr("".join(chr(int(x)) for x in a.split(".") if x)),"| py",e[:120],"| lean",o[:120])
print(bad,len(out))
