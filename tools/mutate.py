#!/usr/bin/env python3
"""Mutation testing.  usage: mutate.py MUTANTS.jsonl

Each line: {"file": "Model/X.lean", "definition": name, "old": text, "new": text,
"claim": property id(s)}.  For each one the Lake project is copied to a scratch
directory outside /verif, the edit is made, the project is built, and the
theorems with errors are collected.  The result is appended to
/verif/seeded/LOG.jsonl.
"""
import json, os, re, shutil, subprocess, sys
root = "/verif"
scratch = os.environ.get("SCRATCH", "/tmp/mut/lean")

def enclosing(path, line):
    name = None
    for i, l in enumerate(open(path), 1):
        if i > line:
            break
        m = re.match(r"\s*(?:private |protected |@\[[^\]]*\] )*(theorem|example|def|instance|abbrev|lemma)\s*([^\s:({\[]*)", l)
        if m:
            name = m.group(2) or "example at line %d" % i
    return name

for l in open(sys.argv[1]):
    if not l.strip():
        continue
    m = json.loads(l)
    shutil.rmtree(scratch, ignore_errors=True)
    subprocess.run(["cp", "-a", os.environ.get("BASE", root + "/lean"), scratch], check=True)
    p = scratch + "/Verif/" + m["file"]
    s = open(p).read()
    k = m.get("nth", 0)
    parts = s.split(m["old"])
    if len(parts) < 2 + k or (len(parts) != 2 and "nth" not in m):
        print("BAD EDIT", m["definition"], len(parts) - 1); continue
    s = m["old"].join(parts[:k + 1]) + m["new"] + m["old"].join(parts[k + 1:])
    open(p, "w").write(s)
    r = subprocess.run(["lake", "build"], cwd=scratch, capture_output=True, text=True)
    out = r.stdout + r.stderr
    failed = []
    for f, ln in re.findall(r"error: (Verif/\S+\.lean):(\d+):", out):
        n = os.path.basename(f)[:-5] + ":" + str(enclosing(scratch + "/" + f, int(ln)))
        d = f.split("/")[1]
        n = d + "/" + n
        if n not in failed:
            failed.append(n)
    if any(x.startswith("Model/") for x in failed):
        print("DOES NOT COMPILE", m["definition"], m["new"]); print(out[-1500:]); continue
    rec = {"definition": m["definition"], "file": m["file"], "edit": m["old"] + "  ==>  " + m["new"],
           "claim": m["claim"], "failed": failed, "killed": r.returncode != 0,
           "tightened": m.get("tightened", []), "note": m.get("note", "")}
    open(root + "/seeded/LOG.jsonl", "a").write(json.dumps(rec, ensure_ascii=False) + "\n")
    print(("killed  " if rec["killed"] else "SURVIVED"), m["definition"], "|", m["new"][:60].replace("\n", " "), "|", failed[:3])
    sys.stdout.flush()
