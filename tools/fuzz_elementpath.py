import random, xml.etree.ElementTree as E, sys
random.seed(int(sys.argv[1]))
TAGS=["a","b","c","{u}a","{u}b","{v/w}a","x.y"]
def tree(d):
    e=E.Element(random.choice(TAGS))
    if random.random()<.5: e.set(random.choice(["k","{u}k"]),random.choice(["1","2",""]))
    if random.random()<.5: e.set("j","1")
    e.text=random.choice([None,"t","u","","1"])
    e.tail=random.choice([None,"t","z"])
    if d>0:
        for _ in range(random.choice([0,1,2,3])): e.append(tree(d-1))
    return e
ALPH=["/","//","..",".","*","[","]","(",")","@","=","!=","!",":","::","a","b","{u}a","{*}a","{u}*","{}a","{*}*","{}*","{*}","{u}","{","}"," ","'1'","\"2\"","'","k","last()","-1","-2","1","2","0","[1]","[2]","[@k]","[@k='1']","[@j!='2']","[a]","[a='t']","[b!='t']","[.='t']","[.!='']","[last()]","[last()-1]","{v/w}a","x.y","p:a","t","-","[-1]","[ 1 ]","[{*}a]","[{u}*]"]
STEP=["/a","/b","//a","//*","/*","/..","/.","//b","/{u}a","//{*}a","/{u}*","//{v/w}a","/x.y"]
PRED=[x for x in ALPH if x[0]=="[" and len(x)>1]
def path():
    m=random.random()
    if m<.6:
        s=""
        for _ in range(random.randint(1,4)):
            s+=random.choice(STEP)
            for _ in range(random.choice([0,0,1,1,2])): s+=random.choice(PRED)
        if random.random()<.7: s="."+s
        elif random.random()<.7: s=s.lstrip("/")
        if random.random()<.2:
            i=random.randrange(len(s)+1); s=s[:i]+random.choice(ALPH)+s[i+random.choice([0,1]):]
    else:
        s="".join(random.choice(ALPH) for _ in range(random.randint(0,7)))
    return s
def q(s): return '"'+s.replace('\\','\\\\').replace('"','\\"')+'"'
def o(s): return "none" if s is None else "(some %s.toList)"%q(s)
def lean(e): return "(.mk %s.toList [%s] %s %s [%s])"%(q(e.tag),", ".join("(%s.toList,%s.toList)"%(q(k),q(v)) for k,v in e.attrib.items()),o(e.text),o(e.tail),", ".join(map(lean,e)))
def pos(e,m,p):
    m[e]=p
    for i,c in enumerate(e): pos(c,m,p+[i])
out=[]; okc=0
print("import Verif.Model.XPath\nopen Xacml\ndef sh : Except Exc (List (List Nat)) → String\n | .ok l => toString l\n | .error .keyError => \"KeyError\" | .error .typeError => \"TypeError\" | .error (.other 0) => \"SyntaxError\" | _ => \"?\"")
print("set_option maxRecDepth 10000")
for t in range(12):
    r=tree(3); m={}; pos(r,m,[])
    print("def t%d : PElem := %s"%(t,lean(r)))
    cs=[]
    for _ in range(150):
        p=path()
        try:
            f=r.findall(p); s="["+", ".join("["+", ".join(map(str,m[e]))+"]" for e in f)+"]"
            if f: okc+=1
        except Exception as x: s=type(x).__name__
        cs.append("(%s,%s)"%(q(p),q(s)))
    print("def c%d : List (String × String) := [%s]"%(t,",\n".join(cs)))
    print("#eval (c%d.filterMap fun (p,s) => let g := sh (findall t%d p.toList); if g == s then none else some (p,s,g))"%(t,t))
print(okc,file=sys.stderr)
