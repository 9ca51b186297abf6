#!/usr/bin/env python3
"""Seeded-bug runs.  usage: mutate.py BASE_DIR MUTATIONS.json LOG.jsonl
BASE_DIR is a built copy of /verif/lean outside /verif.  For each mutation: copy, edit the model, rebuild; every theorem whose proof breaks is
replaced by its bare statement (in the scratch copy only) and the build is continued, so that at the end the property theorems that rest on a broken
proof are found with #print axioms."""
import sys, os, re, json, subprocess, shutil
base, mfile, log = sys.argv[1:4]
work = base.rstrip('/') + '_work'
muts = json.load(open(mfile))
done = set()
if os.path.exists(log):
    for l in open(log):
        d = json.loads(l); done.add((d['definition'], d['edit']))
DECL = re.compile(r'^(?:@\[[^\]]*\]\s*)?(?:private |protected |noncomputable )*(theorem|lemma|example|def|abbrev|structure|inductive|instance|namespace|section|end|open|variable|/--|/-!|mutual)\b|^/-', re.M)
PH = 'so' + 'rry'
def targets(m):
    """the property modules that state the claims the mutation breaks (only these and what they import are rebuilt)"""
    ts = []
    import glob
    for f in sorted(glob.glob(base + '/Verif/Props/*.lean')):
        src = open(f).read()
        for e in m['claim'].split(':')[0].split(','):
            if re.search(r'^theorem %s_' % e.strip().lower(), src, re.M): ts.append('Verif.Props.' + os.path.basename(f)[:-5]); break
    return ts
def build(d, ts):
    p = subprocess.run(['lake', 'build'] + ts, cwd=d, capture_output=True, text=True, timeout=3600)
    return p.returncode, p.stdout + p.stderr
def stub(path, lines):
    """replace the proofs of the declarations containing the given lines; return their names"""
    src = open(path).read()
    starts = [m.start() for m in re.finditer(r'^(?:@\[[^\]]*\]\s*)?(?:private |protected )?(?:theorem|lemma|example|def|abbrev|structure|inductive|instance|namespace|section|end|open|variable|/--|/-!)(?=\s|$)', src, re.M)] + [len(src)]
    offs = [0]
    for l in src.split('\n'): offs.append(offs[-1] + len(l) + 1)
    names = []; repl = {}
    for ln in lines:
        o = offs[ln-1]
        i = max(k for k in range(len(starts)) if starts[k] <= o) if starts[0] <= o else None
        if i is None: return None
        a, b = starts[i], starts[i+1]
        text = src[a:b]
        m = re.match(r'(?:@\[[^\]]*\]\s*)?(?:private |protected )?(theorem|lemma|example|def|abbrev|instance)\s*(\S+)?', text)
        if not m or m.group(1) in ('def','abbrev','instance'):
            names.append('DEF:' + (m.group(2) if m else text[:40])); repl[a] = None; continue
        kind = m.group(1)
        name = m.group(2) if kind != 'example' else 'example@%s:%d' % (os.path.basename(path), src[:a].count('\n')+1)
        if a in repl: continue
        names.append(name)
        if kind == 'example':
            repl[a] = (b, '')
            # drop preceding doc comment is unnecessary: doc comment of next decl follows
        else:
            depth = 0; pos = None; k = 0
            while k < len(text):
                ch = text[k]
                if ch in '([{⟨': depth += 1
                elif ch in ')]}⟩': depth -= 1
                elif depth == 0 and text.startswith(':=', k):
                    # let-bindings inside a statement are written 'let x := ..' : skip
                    line_start = text.rfind('\n', 0, k) + 1
                    seg = text[line_start:k]
                    if re.search(r'\blet\b', seg.split(';')[-1]): pass
                    else: pos = k; break
                elif depth == 0 and text.startswith('\n  | ', k): pos = k; break
                k += 1
            if pos is None: return None
            repl[a] = (b, text[:pos] + ' := by ' + PH + '\n\n')
    out = src
    for a in sorted([x for x in repl if repl[x] is not None], reverse=True):
        b, t = repl[a]
        if t == '':
            # remove a doc comment directly before the example
            pre = out[:a]
            m = re.search(r'/--(?:(?!-/).)*-/\s*$', pre, re.S)
            s = m.start() if m else a
            out = out[:s] + out[b:]
        else:
            out = out[:a] + t + out[b:]
    open(path, 'w').write(out)
    return names
for m in muts:
    if (m['definition'], m['edit']) in done: continue
    shutil.rmtree(work, ignore_errors=True); shutil.copytree(base, work, symlinks=True)
    p = os.path.join(work, 'Verif', m['file'])
    s = open(p).read()
    if s.count(m['old']) != m.get('count', 1):
        print('SKIP (count %d)' % s.count(m['old']), m['definition'], m['edit'], flush=True); continue
    open(p, 'w').write(s.replace(m['old'], m['new']))
    for e in m.get('also', []):  # the same edit in the version with typed errors
        q = os.path.join(work, 'Verif', e['file']); t = open(q).read()
        assert t.count(e['old']) == 1, e['old']
        open(q, 'w').write(t.replace(e['old'], e['new']))
    broken = []; note = ''; tgts = targets(m)
    if not tgts: print('NO TARGET', m['definition'], m['edit'], flush=True); continue
    for rnd in range(25):
        rc, out = build(work, tgts)
        if rc == 0: break
        errs = {}
        for f, l in re.findall(r'^error: (Verif/\S+\.lean):(\d+):\d+:', out, re.M):
            errs.setdefault(f, set()).add(int(l))
        if not errs: note = 'build stopped: ' + out[-300:]; break
        stop = False
        for f, ls in errs.items():
            n = stub(os.path.join(work, f), sorted(ls))
            if n is None: note = 'could not continue at %s' % f; stop = True; break
            broken += n
            if any(x.startswith('DEF:') for x in n): note = 'model no longer compiles at ' + ', '.join(x for x in n if x.startswith('DEF:')); stop = True
        if stop: break
    failed = []
    if rc == 0 and broken:
        ths = []
        import glob
        for f in [work + '/' + t.replace('.', '/') + '.lean' for t in tgts]:
            ths += re.findall(r'^theorem (c\d\d+_\w+)', open(f).read(), re.M)
        chk = os.path.join(work, 'Chk.lean')
        open(chk, 'w').write(''.join('import %s\n' % t for t in tgts) + '\n'.join('#print axioms Spdm.%s' % t for t in ths) + '\n')
        r = subprocess.run(['lake', 'env', 'lean', 'Chk.lean'], cwd=work, capture_output=True, text=True)
        for t, ax in re.findall(r"'Spdm\.(c\d\d+_\w+)' depends on axioms: \[([^\]]*)\]", r.stdout, re.S):
            if PH + 'Ax' in ax: failed.append(t)
    rec = dict(definition=m['definition'], file='lean/Verif/' + m['file'], edit=m['edit'], claim=m['claim'], proofs_broken=broken, theorems_failed=failed, theorems_tightened=m.get('tightened', []))
    if note: rec['note'] = note
    exp = m['claim'].split(':')[0].split(',')
    miss = [e.strip() for e in exp if not any(t.startswith(e.strip().lower() + '_') for t in failed)]
    rec['claims_not_detected'] = [] if note else miss
    open(log, 'a').write(json.dumps(rec) + '\n')
    print(m['definition'], '|', m['edit'], '| broken', len(broken), '| failed', failed[:8], len(failed), '| MISSED' if miss else '', miss, note, flush=True)
