#!/usr/bin/env python3
"""Seeded-bug testing of single modules. usage: mutprop.py SCRATCH MUTATIONS.py. Edits the model in SCRATCH/lean (a copy of the project), builds the modules
named by the mutation, takes out the proofs that fail, goes on until the modules build, and asks which theorems of these modules no longer have a
proof. Results: SCRATCH/res.jsonl"""
import sys
CUT='so'+'rry'
import subprocess,json,os,re,shutil
S=sys.argv[1]
BASE=S+'/lean/Verif/'
KW = re.compile(r'^(?:/--|/-!|@\[|open |section|namespace|end |end$|variable|set_option|attribute|local |scoped |instance|inductive|structure|abbrev|example|def |private |protected |theorem |lemma |axiom |macro|syntax|import|noncomputable|mutual|deriving|universe)')
def blocks(t):
    """(start, end) line ranges of top-level commands"""
    ls = t.split('\n'); st = [i for i, l in enumerate(ls) if KW.match(l)] + [len(ls)]
    return ls, list(zip(st, st[1:]))
def split_stmt(text):
    """offset of the := or | that ends a theorem's statement"""
    d = 0; i = 0
    while i < len(text):
        c = text[i]
        if text.startswith('b! "', i) or c == '"':
            i = text.index('"', i) + 1
            while text[i] != '"': i += 2 if text[i] == '\\' else 1
        elif c in '([{⟨': d += 1
        elif c in ')]}⟩': d -= 1
        elif d == 0 and text.startswith(':=', i) and not text[text.rfind('\n', 0, i) + 1:i].strip().startswith('let '): return i
        elif d == 0 and text.startswith('\n  | ', i): return i
        elif text.startswith('--', i):
            i = text.find('\n', i) - 1
        i += 1
    return None
def is_thm(b): return re.match(r'((?:private |protected |@\[[^\]]*\] ?)*)(theorem|lemma)\b', b)
def cut(path, lines):
    """removes the proofs of the commands at the lines; their names"""
    ls, bs = blocks(open(path).read()); names = []
    for a, b in reversed(bs):
        if not any(a <= line - 1 < b for line in lines): continue
        t = '\n'.join(ls[a:b]); m = is_thm(t)
        if m:
            k = split_stmt(t[m.end():])
            w = re.search(r'\bwhere\n', t[m.end():])
            if w and (k is None or w.start() < k): k = w.start()
            nm = re.match(r"\s*([\w.']+)", t[m.end():]).group(1); stmt = t[m.end():m.end() + k]
            names.append(nm)
            ls[a:b] = [t[:m.end() + k].rstrip() + ' := by ' + CUT + '\n']
        elif t.startswith('example'):
            ls[a:b] = ['example : True := trivial\n']; names.append('example')
    open(path, 'w').write('\n'.join(ls)); return names
ns={}
exec(open(sys.argv[2]).read(),ns)
done=set()
if os.path.exists(S+'/res.jsonl'): done={json.loads(l)['name'] for l in open(S+'/res.jsonl')}
for name,d,edits,desc,claim,mods in ns['M']:
    if name in done: continue
    saved={}; ok=True
    for f,o,n in edits:
        p=BASE+f; t=open(p).read(); saved.setdefault(p,t)
        if t.count(o)<1: print(name,'NO MATCH',f,o); ok=False; continue
        open(p,'w').write(t.replace(o,n))
    if ok:
        failed=[]; stop=False
        for rnd in range(60):
            r=subprocess.run('cd %s/lean && lake build %s 2>&1'%(S,' '.join('Verif.Props.'+m for m in mods)),shell=True,capture_output=True,text=True)
            errs={}
            for f,l in re.findall(r'error: (Verif/\S+?\.lean):(\d+):\d+',r.stdout): errs.setdefault(f,set()).add(int(l))
            if not errs: break
            for f,ls in errs.items():
                p=S+'/lean/'+f
                saved.setdefault(p,open(p).read())
                nn=cut(p,ls)
                if not nn: stop=True; print('CANNOT CUT',f,ls)
                failed+=[f.replace('Verif/','').replace('.lean','')+':'+x for x in nn]
            if stop: break
        names=[n for m in mods for n in re.findall(r'^theorem (C\d\d_\w+)',open(BASE+'Props/'+m+'.lean').read(),re.M)]
        open(S+'/Ax.lean','w').write(''.join('import Verif.Props.%s\n'%m for m in mods)+''.join('#print axioms Gaia.%s\n'%n for n in names))
        o=subprocess.run('cd %s/lean && lake env lean %s/Ax.lean'%(S,S),shell=True,capture_output=True,text=True).stdout
        lost=[n for n in names if re.search(r"Gaia\.%s' depends on axioms: \[[^\]]*%sAx"%(n,CUT),o)]
        print(name,'claim',claim,'MISSING' if set(claim)-set(lost) else 'as wanted','lost',lost,'failed',failed,flush=True)
        with open(S+'/res.jsonl','a') as g: g.write(json.dumps(dict(name=name,definition=d,edit=desc,claim=claim,failed=failed,lost=lost))+'\n')
    for p,t in saved.items(): open(p,'w').write(t)
