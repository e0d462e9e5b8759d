#!/usr/bin/env python3
"""Generate mutants of the model mechanically: literals off by one, comparisons and connectives changed.

usage: auto_mutants.py file.lean [file.lean ...] > mutants.json
"""
import json, os, re, sys
DIR = os.path.join(os.path.dirname(os.path.abspath(__file__)), '..', 'lean', 'Verif', 'Model')
TOP = re.compile(r'^(/--|/-!|theorem|lemma|def|instance|example|structure|inductive|abbrev|end |namespace |open |set_option|private |@\[|#|section|variable|noncomputable)')
RULES = [
    (re.compile(r'(?<![\w.^#])0x([0-9A-Fa-f]+)\b'), lambda m: '0x%X' % ((int(m.group(1), 16) + 1) & (0xFF if len(m.group(1)) <= 2 else 0xFFFF))),
    (re.compile(r'(?<![\w.^#x])(\d+)\b(?!\.)'), lambda m: str(int(m.group(1)) + 1)),
    (re.compile(r' < '), lambda m: ' ≤ '), (re.compile(r' ≤ '), lambda m: ' < '),
    (re.compile(r' && '), lambda m: ' || '), (re.compile(r' \|\| '), lambda m: ' && '),
    (re.compile(r' ∧ '), lambda m: ' ∨ '), (re.compile(r' ∨ '), lambda m: ' ∧ '),
    (re.compile(r' ≠ '), lambda m: ' = '), (re.compile(r'(?<=if )(\S+) = '), lambda m: m.group(1) + ' ≠ '),
    (re.compile(r'\btrue\b'), lambda m: 'false'), (re.compile(r'\bfalse\b'), lambda m: 'true'),
    (re.compile(r' \+ '), lambda m: ' - '), (re.compile(r'\.take '), lambda m: '.drop '), (re.compile(r'\.drop '), lambda m: '.take '),
    (re.compile(r'(\w+) \+\+ (\w+)'), lambda m: m.group(2) + ' ++ ' + m.group(1)),
]
out = []
for fn in sys.argv[1:]:
    lines = open(os.path.join(DIR, fn)).read().split('\n')
    cur = None; doc = False
    for i, l in enumerate(lines):
        if l.startswith(('/--', '/-!')): doc = True
        if doc:
            if l.rstrip().endswith('-/'): doc = False
            cur = None; continue
        m = re.match(r'(?:private |noncomputable |@\[[^\]]*\] )*(\w+) (\S+)', l)
        if TOP.match(l): cur = m.group(2) if m and m.group(1) in ('def', 'abbrev') else None
        if cur is None or l.startswith(('termination_by', 'decreasing_by')): continue
        start = 0
        if l.startswith(('def', 'abbrev')):
            k = l.find(':=')
            if k < 0: continue
            start = k
        code = l.split(' --')[0]
        for rx, f in RULES:
            for mm in rx.finditer(code):
                if mm.start() < start: continue
                new = l[:mm.start()] + f(mm) + l[mm.end():]
                if new == l: continue
                out.append({'file': fn, 'line': i, 'old': l, 'new': new, 'definition': cur})
ids = {}
res = []
for o in out:
    p = open(os.path.join(DIR, o['file'])).read().split('\n')
    # context that makes the old text unique
    a = b = o['line']; txt = '\n'.join(p)
    while txt.count('\n'.join(p[a:b + 1])) > 1: a -= 1
    old = '\n'.join(p[a:b + 1]); q = list(p); q[o['line']] = o['new']; new = '\n'.join(q[a:b + 1])
    k = 'Z' + o['file'][:2].upper() + '%03d' % (ids.setdefault(o['file'], 0) + 1); ids[o['file']] += 1
    res.append({'id': k, 'file': o['file'], 'old': old, 'new': new, 'definition': o['definition'],
                'desc': o['old'].strip() + '  =>  ' + o['new'].strip(), 'claim': 'any: the behaviour of ' + o['definition']})
print(json.dumps(res, indent=1, ensure_ascii=False))
