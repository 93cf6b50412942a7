#!/usr/bin/env python3
"""Lists the lines of code in /repo/include/boost/hash2 that no comment of the model cites.
Not part of the proof: a help for reviewing how much of the code the model covers."""
import re, glob, os
ROOT = '/repo/include/boost/hash2'
HERE = os.path.dirname(os.path.abspath(__file__))
cov = {}
files = {os.path.relpath(p, ROOT): p for p in glob.glob(ROOT + '/**/*.hpp', recursive=True)}
for p in glob.glob(HERE + '/../lean/Verif/Model/*.lean'):
    s = open(p).read()
    for com in re.findall(r'/-[\s\S]*?-/|--[^\n]*', s):
        last = None
        for m in re.finditer(r'([\w/]+\.hpp)|(?<![\w.#])(\d+)(?:-(\d+))?', com):
            if m.group(1):
                last = m.group(1).replace('include/boost/hash2/', '')
            elif last:
                a = int(m.group(2)); b = int(m.group(3) or a)
                for k in files:
                    if k == last or k.endswith('/' + last):
                        cov.setdefault(k, set()).update(range(a, b + 1))
    if p.endswith(('HashAppend.lean', 'Overloads.lean')):
        for m in re.finditer(r'-- (\d+)(?:-(\d+))?\s*$', s, re.M):
            cov.setdefault('hash_append.hpp', set()).update(range(int(m.group(1)), int(m.group(2) or m.group(1)) + 1))
for k in sorted(files):
    miss = []
    for i, l in enumerate(open(files[k]).read().split('\n'), 1):
        t = l.strip()
        if i in cov.get(k, ()) or not t or t.startswith(('//', '#')) or t in ('{', '}', '};', 'public:', 'private:'):
            continue
        if re.match(r'(namespace|using|template|} //|struct \w+;|BOOST_FORCEINLINE)', t):
            continue
        miss.append((i, t))
    print(k, 'all cited' if not miss else miss)
