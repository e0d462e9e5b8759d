#!/usr/bin/env python3
"""Mutation testing of the theorems.

usage: mutate.py mutants.json [--quick] [ids...]

Works in a scratch copy (/tmp/mut/lean) of /verif/lean.  For each mutant (file, old, new) the model is
edited, and the whole project is rebuilt.  Where a proof fails, its proof is replaced by a hole in the
scratch copy and the build goes on, so that in the end every theorem is known to be either untouched,
directly broken (its own proof fails), or broken through a lemma it depends on.  One JSON line per mutant
is appended to /verif/seeded/LOG.jsonl.
"""
import json, os, re, subprocess, sys, shutil, time
SRC, BASE, MUT = '/verif/lean', '/tmp/mut/base', '/tmp/mut/lean'
LOG = '/verif/seeded/LOG.jsonl'
DECL = re.compile(r'^(?:@\[[^\]]*\]\s*)?(?:private |protected |noncomputable )*(theorem|lemma|def|instance|example|structure|inductive|abbrev)\b')
TOP = re.compile(r'^(/--|/-!|theorem|lemma|def|instance|example|structure|inductive|abbrev|end |namespace |open |set_option|private |@\[|deriving|#|section|variable|noncomputable|termination_by|decreasing_by)')
QUICK = False
HOLE = 'so' + 'rry'

def sync():
    shutil.rmtree(MUT, ignore_errors=True)
    subprocess.run(['cp', '-a', BASE, MUT], check=True)

def build():
    r = subprocess.run(['lake', 'build'], cwd=MUT, stdout=subprocess.PIPE, stderr=subprocess.STDOUT, text=True, timeout=3000)
    errs = {}
    for m in re.finditer(r'^error: (Verif/[\w/]+\.lean):(\d+):(\d+)', r.stdout, re.M):
        errs.setdefault(m.group(1), set()).add(int(m.group(2)))
    return r.returncode, errs, r.stdout

def decl_at(lines, ln):
    """index range [a,b) of the declaration containing 1-based line ln"""
    a = ln - 1
    while a >= 0 and not DECL.match(lines[a]): a -= 1
    if a < 0: return None
    b = a + 1
    while b < len(lines) and not (TOP.match(lines[b]) and not lines[b].startswith(('termination_by', 'decreasing_by'))): b += 1
    return a, b

def hole(lines, a, b):
    """replace the proof of lines[a:b] by a hole; returns new lines"""
    text = '\n'.join(lines[a:b])
    if lines[a].startswith('example'):
        return [''] * (b - a)
    depth, i = 0, 0
    pos = None
    skip_let = 0
    while i < len(text):
        c = text[i]
        if c in '([{⟨': depth += 1
        elif c in ')]}⟩': depth -= 1
        elif text.startswith(':=', i) and depth == 0:
            # not a `let x := ...` inside a statement
            line = text[text.rfind('\n', 0, i) + 1:i]
            if re.search(r'\blet \S+( : .*)? $', line):
                i += 2; continue
            pos = i; break
        elif text.startswith('\n  | ', i) and depth == 0 and ':' in text[:i] and re.match(r'\n  \| .*=>', text[i:]):
            pos = i; break
        i += 1
    if pos is None: return None
    new = (text[:pos] + ':= by ' + HOLE).split('\n')
    new += [''] * ((b - a) - len(new))
    return new

def name(lines, a):
    m = re.match(r'(?:@\[[^\]]*\]\s*)?(?:private |protected |noncomputable )*\w+\s+([^\s:({\[]+)', lines[a])
    return m.group(1) if m and not lines[a].startswith('example') else 'example@%d' % (a + 1)

def run(m):
    sync()
    edits = m['edits'] if 'edits' in m else [m]
    for e in edits:
        p = os.path.join(MUT, 'Verif/Model', e['file']) if '/' not in e['file'] else os.path.join(MUT, 'Verif', e['file'])
        s = open(p).read()
        n = s.count(e['old'])
        if n == 0 or (n > 1 and 'nth' not in e): raise SystemExit('mutant %s: %d matches' % (m['id'], n))
        if n > 1:
            k = -1
            for _ in range(e['nth'] + 1): k = s.index(e['old'], k + 1)
            s = s[:k] + e['new'] + s[k + len(e['old']):]
        else:
            s = s.replace(e['old'], e['new'])
        open(p, 'w').write(s)
    broken, note = [], ''
    for it in range(40):
        rc, errs, out = build()
        if rc == 0: break
        if not errs:
            note = 'build failed without position: ' + out[-300:]; break
        progress = False
        for f, lns in errs.items():
            p = os.path.join(MUT, f)
            lines = open(p).read().split('\n')
            seen, orig = set(), list(lines)
            for ln in sorted(lns):
                r = decl_at(orig, ln)
                if r is None or r in seen: continue
                seen.add(r)
                a, b = r
                kind = DECL.match(lines[a]).group(1)
                if kind not in ('theorem', 'lemma', 'example'):
                    note = 'definition does not elaborate: %s %s:%d' % (name(lines, a), f, ln); continue
                h = hole(lines, a, b)
                if h is None or HOLE in '\n'.join(lines[a:b]):
                    note = 'cannot skip %s %s' % (f, name(lines, a)); continue
                broken.append(f.replace('Verif/', '').replace('.lean', '') + ':' + name(lines, a))
                lines[a:b] = h
                if kind == 'example' and a and lines[a - 1].endswith('-/'):
                    k = a - 1
                    while not lines[k].startswith('/--'): k -= 1
                    lines[k:a] = [''] * (a - k)
                progress = True
            open(p, 'w').write('\n'.join(lines))
        if not progress: break
        # mechanical mutants: enough to know that some theorem outside the model fails
        if QUICK and any(not x.startswith('Model/') and ':example@' not in x for x in broken): break
    # which claims depend on a hole
    claims = []
    if not note and not QUICK:
        thms = []
        for c in json.load(open('/tmp/mut/MANIFEST.json'))['claims']: thms += c['theorems']
        q = 'import Verif\n' + '\n'.join('#print axioms %s' % t for t in thms)
        open('/tmp/mut/q.lean', 'w').write(q)
        o = subprocess.run(['lake', 'env', 'lean', '/tmp/mut/q.lean'], cwd=MUT, stdout=subprocess.PIPE, stderr=subprocess.STDOUT, text=True).stdout
        for mm in re.finditer(r"'Elgas\.(\w+)' depends on axioms: \[([^\]]*)\]", o):
            if HOLE + 'Ax' in mm.group(2): claims.append(mm.group(1))
    direct = [x for x in broken if re.search(r':C\d+_', x)]
    rec = {'id': m['id'], 'definition': m.get('definition', edits[0]['file']), 'edit': m['desc'], 'breaks': m['claim'],
           'proofs_failed': broken, 'claims_failed': claims, 'tightened': [], 'note': note}
    rec['caught'] = any(not x.startswith('Model/') and ':example@' not in x for x in broken)
    exp = m['claim'].split(':')[0].replace(' ', '').split(',')
    rec['expected_caught'] = [e for e in exp if any(x.split(':')[-1].startswith(e + '_') for x in direct + claims)] if not note else None
    with open(LOG, 'a') as f: f.write(json.dumps(rec, ensure_ascii=False) + '\n')
    print(m['id'], 'caught' if rec['caught'] else 'SURVIVED', 'expected', exp, 'got', rec['expected_caught'], 'direct', len(broken), 'claims', sorted({c.split('_')[0] for c in claims}), note, flush=True)

if __name__ == '__main__':
    ms = json.load(open(sys.argv[1]))
    os.makedirs('/tmp/mut', exist_ok=True)
    shutil.rmtree(BASE, ignore_errors=True)
    subprocess.run(['cp', '-a', SRC, BASE], check=True)
    # the replayed tests and the AES instance state no property: they must not count as catching a mutant
    vp = os.path.join(BASE, 'Verif.lean')
    open(vp, 'w').write('\n'.join(l for l in open(SRC + '/Verif.lean').read().split('\n')
        if l.strip() not in ('import Verif.Conformance', 'import Verif.Lemmas.Aes', 'import Verif.Props.Witnesses')))
    shutil.copy('/verif/MANIFEST.json', '/tmp/mut/MANIFEST.json')
    QUICK = '--quick' in sys.argv
    ids = set(a for a in sys.argv[2:] if a != '--quick')
    for m in ms:
        if ids and m['id'] not in ids: continue
        t = time.time()
        try: run(m)
        except SystemExit as e: print('SKIP', e, flush=True)
        print('  %.0fs' % (time.time() - t), flush=True)
