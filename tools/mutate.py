#!/usr/bin/env python3
"""Seeded-bug testing. Usage: mutate.py BATCH.json [first-index]

Each entry of the batch: file (under lean/Verif/Model), old, new, definition, edit, claim, tightened.
Works on a scratch copy (/tmp/scratch), which is refreshed from /tmp/snap, itself a built copy of /verif/lean; appends one line per entry to
/verif/seeded/LOG.jsonl. Entries that already occur in the log (same definition and edit) are skipped.
"""
import json, os, re, shutil, subprocess, sys, time
SRC = "/tmp/snap"; DST = "/tmp/scratch"; LOG = "/verif/seeded/LOG.jsonl"

def refresh():
    subprocess.run(f"rm -rf {DST} && cp -a {SRC} {DST}", shell=True, check=True)

def decl_at(path, line):
    lines = open(path).read().split("\n")
    for i in range(min(line, len(lines)) - 1, -1, -1):
        m = re.match(r"(?:@\[.*\] )?(?:private )?(?:noncomputable )?(theorem|lemma|def|example|instance|abbrev)\b\s*([^\s:({\[]*)", lines[i])
        if m:
            return (m.group(2) or "example") if m.group(1) != "example" else f"example@{i+1}"
    return "?"

def build():
    t = time.time()
    r = subprocess.run(["lake", "build"], cwd=DST, capture_output=True, text=True)
    out = r.stdout + r.stderr
    failed = {}
    for m in re.finditer(r"error: (Verif/\S+\.lean):(\d+):\d+", out):
        f = m.group(1)
        failed.setdefault(f, [])
        d = decl_at(os.path.join(DST, f), int(m.group(2)))
        if d not in failed[f]:
            failed[f].append(d)
    return r.returncode, failed, out, time.time() - t

def main():
    if not os.path.exists(SRC) or '--fresh' in sys.argv:
        subprocess.run(f'rm -rf {SRC} && cp -a /verif/lean {SRC}', shell=True, check=True)
    batch = json.load(open(sys.argv[1]))
    done = set()
    if os.path.exists(LOG):
        for l in open(LOG):
            e = json.loads(l); done.add((e["definition"], e["edit"]))
    for e in batch:
        if (e["definition"], e["edit"]) in done: continue
        refresh()
        p = f"{DST}/Verif/Model/{e['file']}"
        orig = open(p).read()
        if orig.count(e["old"]) != 1:
            print("SKIP (occurrences %d)" % orig.count(e["old"]), e["definition"], e["edit"]); continue
        open(p, "w").write(orig.replace(e["old"], e["new"]))
        rc, failed, out, dt = build()
        open(p, "w").write(orig)
        thms = [f"{f.replace('Verif/','').replace('.lean','')}: {d}" for f, ds in failed.items() for d in ds]
        rec = {"definition": e["definition"], "edit": e["edit"], "claim_broken": e["claim"],
               "caught": rc != 0, "theorems_failed": thms, "theorems_tightened": e.get("tightened", [])}
        if e.get("note"): rec["note"] = e["note"]
        with open(LOG, "a") as f: f.write(json.dumps(rec) + "\n")
        print(f"[{dt:.0f}s] {'caught' if rc else 'SURVIVED'} {e['definition']}: {e['edit']} -> {thms[:6]}", flush=True)
        if rc and not failed: print(out[-2000:])

main()
