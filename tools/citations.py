#!/usr/bin/env python3
"""Check that every definition of the model cites existing lines of /repo.

For each def/structure/inductive/abbrev/instance of the model modules: the doc comment must cite `file lines` with a file that exists in /repo and lines
inside it; and if the comment begins with a name in backquotes and a comma (a whole function or type), the last component of that name must occur in the cited lines.
"""
import re, os, sys
ROOT = os.path.dirname(os.path.dirname(os.path.abspath(__file__)))
MODEL = ('Basic Encoding Transcript Pki Responder Requester BuildCfg BuildText Build Buffers Unchecked Provider Making Equal Usize States Errors ParseErrors Loops '
         + ' '.join('Msgs/' + x for x in 'Header Common Version Capabilities Algorithms Digest Certificates Challenge Measurements Error'.split())).split()
FILE = r'([\w/\-.]+\.(?:rs|toml|template|adoc))'
RANGES = r'\s*:?\s*(\d+(?:-\d+)?(?:(?:,| and| to|,\s*and)\s+\d+(?:-\d+)?)*)'
DECL = re.compile(r'(/--(?:(?!-/).)*-/\s*)?(?:@\[[^\]]*\]\s*)?^(?:private |protected )?(def|structure|inductive|abbrev|instance)\s+(\S+)', re.S | re.M)
src = {}
def lines(fn):
    p = '/repo/' + fn
    if fn not in src:
        src[fn] = open(p).read().split('\n') if os.path.isfile(p) else None
    return src[fn]
total = 0
problems = []
for m in MODEL:
    s = open(f'{ROOT}/lean/Verif/{m}.lean').read()
    for k in DECL.finditer(s):
        total += 1
        doc = re.sub(r'\s+', ' ', k.group(1) or '')
        ln = s[:k.start(2)].count('\n') + 1
        where = f'{m}.lean:{ln} {k.group(3)}'
        text, n = '', 0
        for c in re.finditer(FILE + RANGES, doc):
            L = lines(c.group(1))
            if L is None:
                problems.append(f'{where}: no file {c.group(1)}')
                continue
            for r in re.findall(r'(\d+)(?:-(\d+))?', c.group(2)):
                a, b = int(r[0]), int(r[1] or r[0])
                if not (1 <= a <= b <= len(L)):
                    problems.append(f'{where}: lines {a}-{b} not in {c.group(1)}')
                text += '\n'.join(L[a - 1:b]) + '\n'
                n += 1
        if n == 0:
            problems.append(f'{where}: no citation | {doc[:110]}')
            continue
        name = re.match(r'/-- `(\w+(?:::\w+)*)`,', doc)
        if name and not re.search(r'\b' + re.escape(name.group(1).split('::')[-1]) + r'\b', text):
            problems.append(f'{where}: `{name.group(1)}` not in the cited lines | {doc[:160]}')
for p in problems:
    print(p)
print(f'{total} definitions, {len(problems)} problems')
sys.exit(1 if problems else 0)
