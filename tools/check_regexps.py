import ast,re
L=open('/verif/lean/Verif/Model/Regexps.lean').read()
lean={}
for ns in ('MetarRegExp','TafRegExp'):
    body=L.split('namespace '+ns)[1].split('end '+ns)[0]
    for m in re.finditer(r'def (\w+) : RE := re! \[(.*?)"\]',body,re.S):
        lean[ns,m.group(1)]=''.join(re.findall(r'r"([^"]*)"',m.group(2)+'"'))
for f,ns in (('metar_regexp','MetarRegExp'),('taf_regexp','TafRegExp')):
    t=ast.parse(open(f'/repo/aeromet_py/utils/{f}.py').read())
    for c in t.body:
        if isinstance(c,ast.ClassDef):
            for a in c.body:
                if isinstance(a,(ast.Assign,ast.AnnAssign)):
                    n=(a.targets[0] if isinstance(a,ast.Assign) else a.target).id
                    v=ast.literal_eval(a.value)
                    print(ns,n,lean.get((ns,n))==v, a.lineno, a.end_lineno)
                    if lean.get((ns,n))!=v: print(repr(v),lean.get((ns,n)))
# the second copy of the texts, in Props/PatternText.lean
P=open('/verif/lean/Verif/Props/PatternText.lean').read()
texts=set(re.findall(r'py! r"([^"]*)"',P))
for f in ('utils/metar_regexp','utils/taf_regexp','utils/parser','reports/models/base/report','reports/models/base/wind'):
    t=ast.parse(open(f'/repo/aeromet_py/{f}.py').read())
    src=[n.value for n in ast.walk(t) if isinstance(n,ast.Constant) and isinstance(n.value,str)]
    for v in src:
        if v in texts: texts.discard(v)
        elif f.endswith('regexp'): print('not in Props/PatternText.lean',repr(v))
print('texts not found in /repo (strptime only):',texts)
