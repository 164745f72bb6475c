"""Mutation testing of the theorems (run by hand; works in /tmp/mut, never in /verif).
usage: mutate.py FILE.json [first]      each entry: {def, file, old, new, edit, claim}
Prints and appends to seeded/LOG.jsonl the theorems that no longer check."""
import json, os, re, subprocess, sys, shutil
SRC = os.environ.get("MUTSRC", "/verif/lean"); MUT = "/tmp/mut/lean"
os.makedirs("/tmp/mut", exist_ok=True)
shutil.rmtree(MUT, ignore_errors=True)
shutil.copytree(SRC, MUT, symlinks=True)
def enclosing(path, line):
    name = None
    for i, l in enumerate(open(path), 1):
        if i > line: break
        m = re.match(r"(?:private |protected |noncomputable |@\[.*?\] )*(theorem|lemma|def|abbrev|instance|example|inductive|structure)\s*(\S*)", l)
        if m: name = m.group(2) if m.group(1) != "example" else "example@%d" % i
    return name
for mu in json.load(open(sys.argv[1])):
    f = os.path.join(MUT, mu["file"])
    s = open(f).read()
    n = s.count(mu["old"])
    if n != 1:
        print("!! occurrences", n, mu["def"], mu["edit"]); continue
    open(f, "w").write(s.replace(mu["old"], mu["new"]))
    out = subprocess.run(["lake", "build"], cwd=MUT, capture_output=True, text=True)
    txt = out.stdout + out.stderr
    failed = []
    for m in re.finditer(r"^error: (Verif/\S+?\.lean):(\d+):\d+", txt, re.M):
        nm = enclosing(os.path.join(MUT, m.group(1)), int(m.group(2)))
        if nm not in failed: failed.append(nm)
    bad = sorted(set(re.findall(r"- (Verif\.\S+)", txt)))
    open(f, "w").write(s)
    rec = {"definition": mu["def"], "edit": mu["edit"], "claim": mu["claim"], "failed": failed,
           "failed_modules": bad, "tightened": mu.get("tightened", [])}
    print(("ok   " if failed else "SURVIVED ") + json.dumps(rec), flush=True)
    open("/verif/seeded/LOG.jsonl", "a").write(json.dumps(rec) + "\n")
