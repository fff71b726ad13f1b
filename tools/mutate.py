"""Mutation experiments: apply one edit to a scratch copy of the Lean project, rebuild, report.

usage: mutate.py SPEC.json   (list of {definition,file,old,new,claim,expect})
`expect` lists (prefixes of) the property theorems that must not survive; each outcome is appended to
seeded/LOG.jsonl.
"""
import json, os, re, shutil, subprocess, sys
ROOT = os.path.normpath(os.path.join(os.path.dirname(os.path.abspath(__file__)), ".."))
SCR = "/tmp/mut/lean"
BASE = "/tmp/mut/base"
def snapshot():
    shutil.rmtree(BASE, ignore_errors=True)
    subprocess.run(["cp", "-a", ROOT + "/lean", BASE], check=True)
    r = subprocess.run(["lake", "build"], cwd=BASE, capture_output=True, text=True)
    assert r.returncode == 0, "base does not build"
def sync():
    shutil.rmtree(SCR, ignore_errors=True)
    subprocess.run(["cp", "-a", BASE, SCR], check=True)
def decls(path):
    out = []
    for i, l in enumerate(open(path), 1):
        m = re.match(r"(?:@\[[^\]]*\]\s*)?(?:private |noncomputable )*(theorem|def|example|instance|structure|inductive)\s*([^\s:({\[]*)", l)
        if m: out.append((i, m.group(1), m.group(2)))
    return out
def expected(spec):
    exp = spec.get("expect", [])
    return [e.strip() for e in exp.split("/") if e.strip()] if isinstance(exp, str) else exp
def mod(path):
    return os.path.relpath(path, SCR)[:-5].replace("/", ".")
def run(spec):
    sync()
    p = os.path.join(SCR, spec["file"])
    t = open(p).read()
    assert t.count(spec["old"]) == 1, (spec["definition"], t.count(spec["old"]))
    open(p, "w").write(t.replace(spec["old"], spec["new"]))
    # only the modules with the theorems that should fail are rebuilt
    exp = expected(spec)
    targets = sorted({mod(os.path.join(dp, f)) for dp, _, fs in os.walk(os.path.join(SCR, "Verif")) for f in fs if f.endswith(".lean")
                      and any(n.startswith(e) for _, k, n in decls(os.path.join(dp, f)) if k == "theorem" for e in exp)})
    r = subprocess.run(["lake", "build"] + targets, cwd=SCR, capture_output=True, text=True)
    txt = r.stdout + r.stderr
    failed = []
    for m in re.finditer(r"^error: (Verif/\S+\.lean):(\d+):", txt, re.M):
        d = [x for x in decls(os.path.join(SCR, m.group(1))) if x[0] <= int(m.group(2))]
        if d:
            name = d[-1][2] or ("example in " + m.group(1))
            if name not in failed: failed.append(name)
    bad = set(re.findall(r"✖ \[\d+/\d+\] \S+ (Verif\.\S+)", txt))
    # modules importing a failed one are not built
    mods = {}
    for dp, _, fs in os.walk(os.path.join(SCR, "Verif")):
        for f in fs:
            if f.endswith(".lean"):
                path = os.path.join(dp, f)
                mods[mod(path)] = (path, re.findall(r"^import (Verif\.\S+)", open(path).read(), re.M))
    dead = set(bad)
    while True:
        more = {m for m, (_, im) in mods.items() if m not in dead and any(i in dead for i in im)}
        if not more: break
        dead |= more
    blocked = []
    for m in sorted(dead):
        for _, k, n in decls(mods[m][0]):
            if k == "theorem" and re.match(r"C\d\d+_", n) and n not in failed: blocked.append((m, n))
    return failed, blocked, sorted(bad), txt
if __name__ == "__main__":
    snapshot()
    for spec in json.load(open(sys.argv[1])):
        failed, blocked, bad, txt = run(spec)
        bl = [n for m, n in blocked if m not in bad]
        surv_same = [n for m, n in blocked if m in bad]
        exp = expected(spec)
        survivors = [e for e in exp if not any(n.startswith(e) for n in failed + bl)]
        rec = {"definition": spec["definition"], "edit": spec["old"].strip() + "  ==>  " + spec["new"].strip(),
               "claim_broken": spec["claim"], "theorems_failed": failed,
               "properties_not_rebuilt": sorted({n.split("_")[0] for n in bl}), "expected_to_fail_but_proved": survivors,
               "theorems_tightened": spec.get("tightened", [])}
        print(json.dumps({"def": spec["definition"], "failed": failed, "blocked": len(bl), "SURVIVE": survivors}), flush=True)
        if not failed: print("   NOTHING FAILED", spec["edit"] if "edit" in spec else spec["new"]); print(txt[-300:])
        with open(ROOT + "/seeded/LOG.jsonl", "a") as f: f.write(json.dumps(rec) + "\n")
