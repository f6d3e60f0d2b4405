#!/usr/bin/env python3
"""Mutation testing of the model in a scratch copy.

usage: mutate.py FILE.jsonl   each line: {"def","file","old","new","edit","claim"}
Appends one record per mutant to /verif/seeded/LOG.jsonl and prints a summary.
"""
import json, os, re, subprocess, sys, shutil
SRC = "/verif/lean"; DST = "/tmp/mut/lean"
LOG = "/verif/seeded/LOG.jsonl"
subprocess.run(["rsync", "-a", "--delete", SRC + "/", DST + "/"], check=False) if shutil.which("rsync") else (
    shutil.rmtree(DST, ignore_errors=True), subprocess.run(["cp", "-a", SRC, DST], check=True))

def build():
    r = subprocess.run(["lake", "build"], cwd=DST, capture_output=True, text=True)
    return r.returncode, r.stdout + r.stderr

def enclosing(path, line):
    name = "?"
    for i, l in enumerate(open(os.path.join(DST, path)).read().split("\n"), 1):
        if i > line: break
        m = re.match(r"(?:@\[[^\]]*\] *)?(?:private |noncomputable )*(theorem|lemma|def|instance|example|structure|inductive)\b *([^\s:({\[]*)", l)
        if m: name = m.group(2) if m.group(1) != "example" else "example"
    return name

for line in open(sys.argv[1]):
    line = line.strip()
    if not line: continue
    m = json.loads(line)
    path = os.path.join(DST, "Verif", m["file"])
    orig = open(os.path.join(SRC, "Verif", m["file"])).read()
    if orig.count(m["old"]) != 1:
        print("BADMUT", m["def"], m["old"], orig.count(m["old"])); continue
    open(path, "w").write(orig.replace(m["old"], m["new"]))
    rc, out = build()
    failed = []; where = []
    for mm in re.finditer(r"^error: (Verif/\S+\.lean):(\d+):", out, re.M):
        n = enclosing(mm.group(1), int(mm.group(2)))
        if n not in failed: failed.append(n)
        where.append(mm.group(1))
    blocked = sorted(set(re.findall(r"^- (Verif\S+)", out, re.M)))
    open(path, "w").write(orig)
    if not failed: print("  (build rc", rc, ")", out[-400:] if rc else "")
    if any("/Model/" in w for w in where): print("  MODEL-ERROR", m["def"], out[:300])
    props = [f for f in failed if re.match(r"C\d\d", f)]
    print(("KILLED " if props else ("HELPER " if [f for f in failed if f != "example"] else ("EXONLY " if failed else "SURVIVED "))) + m["def"] + " :: " + m["edit"] + " => " + ", ".join(failed[:8]), flush=True)
    rec = {"definition": m["def"], "edit": m["edit"], "claim_broken": m["claim"], "theorems_failed": failed, "theorems_tightened": m.get("tightened", [])}
    if m.get("note"): rec["note"] = m["note"]
    with open("/tmp/mut/last.jsonl", "a") as f: f.write(json.dumps(rec) + "\n")
rc, out = build()
print("restored build rc", rc)
