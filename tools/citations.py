#!/usr/bin/env python3
"""List every file:lines citation in the model with the first and last cited line
of the source, so that wrong line numbers can be spotted by eye.  Ranges outside
the file are reported as BAD and make the exit status 1."""
import os, re, sys
REPO, LEAN = '/repo', os.path.join(os.path.dirname(__file__), '..', 'lean', 'Verif')
index = {}
for d, _, fs in os.walk(REPO):
    for f in fs:
        index.setdefault(f, []).append(os.path.join(d, f))
pat = re.compile(r'([A-Za-z0-9_]+\.(?:go|cc|thrift|h)):((?:\d+(?:-\d+)?)(?:,\s*\d+(?:-\d+)?)*)')
bad = 0
for d, _, fs in sorted(os.walk(LEAN)):
    for f in sorted(fs):
        if not f.endswith('.lean') or (len(sys.argv) > 1 and sys.argv[1] not in os.path.join(d, f)):
            continue
        text = open(os.path.join(d, f)).read()
        for m in pat.finditer(text):
            after = re.search(r'-/\s*(?:@\[[^\]]*\]\s*)?\n*(?:private )?(?:def|structure|inductive|abbrev|theorem)\s+(\S+)', text[m.end():])
            name = after.group(1) if after else '?'
            cand = [p for p in index.get(m.group(1), []) if '/lib/go/' in p or m.group(1).endswith('.cc') or 'golden' in p]
            if not cand:
                print('BAD no such file', f, m.group(0)); bad = 1; continue
            src = open(cand[0], errors='replace').read().split('\n')
            for r in re.split(r',\s*', m.group(2)):
                lo, hi = (r.split('-') + [r])[:2] if '-' in r else (r, r)
                lo, hi = int(lo), int(hi)
                if not (1 <= lo <= hi <= len(src)):
                    print('BAD range', f, m.group(1), r); bad = 1; continue
                print('%s|%s|%s:%s| %s || %s' % (f[:-5], name, m.group(1), r, src[lo - 1].strip()[:70], src[hi - 1].strip()[:40]))
sys.exit(bad)
