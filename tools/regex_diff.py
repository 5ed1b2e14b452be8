import ast,re,random,json,sys
random.seed(5)
pats=[]
for f,ns in (('metar_regexp','MetarRegExp'),('taf_regexp','TafRegExp')):
    t=ast.parse(open(f'/repo/aeromet_py/utils/{f}.py').read())
    for c in t.body:
        if isinstance(c,ast.ClassDef):
            for a in c.body:
                if isinstance(a,(ast.Assign,ast.AnnAssign)):
                    n=(a.targets[0] if isinstance(a,ast.Assign) else a.target).id
                    pats.append((ns+'.'+n,ast.literal_eval(a.value)))
import sre_parse, sre_constants as C
def gen(p):
    out=''
    for op,av in p:
        if op==C.LITERAL: out+=chr(av)
        elif op==C.IN:
            it=random.choice(av)
            if it[0]==C.LITERAL: out+=chr(it[1])
            elif it[0]==C.RANGE: out+=chr(random.randint(*it[1]))
            elif it[0]==C.CATEGORY: out+=random.choice('0123456789') if 'DIGIT' in str(it[1]) else ' '
        elif op==C.SUBPATTERN: out+=gen(av[3])
        elif op==C.BRANCH: out+=gen(random.choice(av[1]))
        elif op in (C.MAX_REPEAT,):
            lo,hi,q=av
            hi=min(int(hi),lo+2) 
            for _ in range(random.randint(lo,hi)): out+=gen(q)
        elif op==C.AT: pass
        else: raise Exception(op)
    return out
toks=set(['','\n'])
for n,p in pats:
    q=sre_parse.parse(p)
    for _ in range(70):
        s=gen(q); toks.add(s)
        for _ in range(2):
            l=list(s)
            k=random.randint(0,3)
            if k==0 and l: l[random.randrange(len(l))]=random.choice('0123456789ABMPKTVSFZ/_+- \n٣')
            elif k==1: l.insert(random.randint(0,len(l)),random.choice('0123456789ABMPKTVSFZ/_\n'))
            elif k==2 and l: l.pop(random.randrange(len(l)))
            else: l+=list(gen(q))[:3]
            toks.add(''.join(l))
toks=sorted(toks)
caps=[]
exp=open('/tmp/t/exp.txt','w')
for n,p in pats:
    r=re.compile(p)
    for s in toks:
        m=r.match(s)
        if m:
            g=sorted((k,m.span(k)) for k in r.groupindex if m.group(k) is not None)
            exp.write(f"{n}|{' '.join(str(ord(c)) for c in s)}|{m.end()}|{','.join(f'{k}:{a}-{b}' for k,(a,b) in g)}\n")
        else: exp.write(f"{n}|{' '.join(str(ord(c)) for c in s)}|-|\n")
open('/tmp/t/toks.txt','w').write('\n'.join(' '.join(str(ord(c)) for c in s) for s in toks))
open('/tmp/t/run.lean','w').write('''import Verif
open Verif
def pats : List (String × RE) := ['''+',\n'.join(f'("{n}",{n})' for n,p in pats)+''']
def capN (c : Cap) : String := ((Read.capNames.find? (·.2 = c)).map (·.1)).getD "?"
def dedup (l : Caps) : Caps := l.foldr (fun x a => x :: a.filter (·.1 ≠ x.1)) []
#eval show IO Unit from do
  let t ← IO.FS.readFile "/tmp/t/toks.txt"
  let toks := (t.splitOn "\\n").map fun l => (l.splitOn " ").filterMap String.toNat?
  let h ← IO.FS.Handle.mk "/tmp/t/got.txt" .write
  for (n, r) in pats do
    for s in toks do
      let key := n ++ "|" ++ " ".intercalate (s.map toString) ++ "|"
      match r.match s with
      | none => h.putStrLn (key ++ "-|")
      | some m =>
        let g := (dedup m.caps).map fun (c,a,b) => s!"{capN c}:{a}-{b}"
        h.putStrLn (key ++ toString m.stop ++ "|" ++ ",".intercalate (g.toArray.qsort (· < ·)).toList)
''')
