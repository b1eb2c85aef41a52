#!/usr/bin/env python3
"""Check the citations of Model/*.lean against /repo: every definition carries one (or says that it models nothing of the code); every cited
file and range exists; where a comment names a C function after a range `file.c:a-b `name``, the function is defined in that range, and
the range starts at the function's head and ends at its closing brace when the comment gives the function as a whole."""
import re, sys, os, glob
repo = '/repo'; root = os.path.join(os.path.dirname(os.path.abspath(__file__)), '..')
files = {}
for d in ('src', 'opcodes', 'tests', 'example'):
    for r, _, fs in os.walk(os.path.join(repo, d)):
        for f in fs:
            try: files.setdefault(f, open(os.path.join(r, f)).read().split('\n'))
            except Exception: pass
funcs = {}   # name -> (file, first, last)
for f, ls in files.items():
    if not f.endswith('.c') or f.startswith('test_') or f == 'unity.c': continue
    i = 0
    while i < len(ls):
        m = re.match(r'^(?!\s|#|/|\*|typedef|struct \w+ \{)(?:static |const |unsigned |struct )*\w[\w\s\*]*?\b(\w+)\(', ls[i])
        if m and ';' not in ls[i]:
            j = i
            while j < len(ls) and not ls[j].startswith('}'):
                if ls[j].rstrip().endswith(';') and j == i: break
                j += 1
            funcs[m.group(1)] = (f, i + 1, j + 1)
            i = j
        i += 1
bad = 0; defs = 0; cites = 0; named = 0
for path in sorted(glob.glob(os.path.join(root, 'lean/Verif/Model/*.lean'))):
    src = open(path).read()
    for m in re.finditer(r'/--((?:(?!-/).)*)-/\s*\n(?:@\[[^\]]*\]\s*)?((?:private |partial |protected )?(?:def|structure|inductive|abbrev|instance|class)\b[^\n]*)', src, re.S):
        doc, head = m.group(1), m.group(2); defs += 1
        cs = re.findall(r'\b(\w+\.(?:c|h|csv|asm)):(\d+)(?:-(\d+))?((?:, \d+(?:-\d+)?)*)', doc)
        where = os.path.basename(path) + ': ' + head[:70]
        if not cs:
            if not re.search(r'not a construct|not part of|libc|no construct|history variable', doc):
                print('NO CITATION', where); bad += 1
            continue
        for f, a, b, more in cs:
            cites += 1
            if f not in files: print('NO FILE', f, where); bad += 1; continue
            n = len(files[f])
            for x in [a, b or a] + re.findall(r'\d+', more):
                if not 1 <= int(x) <= n: print('RANGE', f, x, where); bad += 1
        # a comment that begins with `file.c:a-b `name``
        mm = re.match(r'\s*(\w+\.c):(\d+)-(\d+)((?:, \d+-\d+)*) ((?:`\w+`(?:, )?)+)', doc)
        if mm:
            f, rngs = mm.group(1), [(int(mm.group(2)), int(mm.group(3)))] + [tuple(map(int, r.split('-'))) for r in re.findall(r'\d+-\d+', mm.group(4))]
            for name in re.findall(r'`(\w+)`', mm.group(5)):
                if name.isupper(): continue
                if name not in funcs: print('UNKNOWN FUNCTION', name, where); bad += 1; continue
                named += 1
                g, a, b = funcs[name]
                if g != f or not any(x <= a and b - 2 <= y for x, y in rngs):
                    print('MISMATCH', name, 'is at', f'{g}:{a}-{b}', 'cited', f, rngs, where); bad += 1
    for m in re.finditer(r'^(?:@\[[^\]]*\]\s*)?(?:def|structure|inductive|abbrev) \S+', src, re.M):
        pre = src[:m.start()].rstrip()
        if not pre.endswith('-/'): print('NO COMMENT', os.path.basename(path), m.group(0)); bad += 1
cited = ' '.join(open(p).read() for p in glob.glob(os.path.join(root, 'lean/Verif/Model/*.lean')))
for name, (f, a, b) in sorted(funcs.items(), key=lambda x: x[1]):
    if name.startswith('assemble_'): continue   # one definition models all 56
    if not re.search(r'\b' + name + r'\b', cited): print('NOT MENTIONED', name, f, a, b)
print(defs, 'definitions', cites, 'citations', named, 'named functions', len(funcs), 'C functions', bad, 'problems')
