#!/usr/bin/env python3
"""Apply the mutants of tools/mutants.py one at a time to a scratch copy of the Lean project, rebuild, and
record what no longer checks.  Elaboration goes on after errors (tools/force.txt), so every theorem is tried:
"failed" are the declarations with an error of their own, "blocked" the theorems of the claim whose proof still
goes through but uses a declaration that failed (so that they are no longer proved).
Results go to /tmp/mut/results.jsonl; with --log they are appended to seeded/LOG.jsonl as well, for names not
logged yet.  Usage: mutate.py [--log] [name ...]
With FOCUS=1 only the modules that the theorems of the claim need are rebuilt (and "failed" is about those).
Before: mkdir -p /tmp/mut; cd lean; lake build; cp -a . /tmp/mut/base"""
import json, os, re, subprocess, sys, importlib.util
root = os.path.dirname(os.path.dirname(os.path.abspath(__file__)))
W = os.environ.get("MUT", "0/1")  # worker k of n
S = "/tmp/mut/lean" + W.split("/")[0]
spec = importlib.util.spec_from_file_location("mutants", root + "/tools/mutants.py")
M = importlib.util.module_from_spec(spec); spec.loader.exec_module(M)
args = sys.argv[1:]
log = "--log" in args
focus = os.environ.get("FOCUS") == "1"
names = [a for a in args if a != "--log"]
os.makedirs("/tmp/mut", exist_ok=True)
def fresh():
    subprocess.run(["rm", "-rf", S], check=True)
    subprocess.run(["cp", "-a", "/tmp/mut/base", S], check=True)

L = S + "/.lake/build/lib/lean/"
def modules():
    """Modules in dependency order with their direct imports."""
    imp = {}
    def go(m):
        if m in imp: return
        f = S + "/" + m.replace(".", "/") + ".lean"
        ds = re.findall(r"^import (Verif\.\S+)", open(f).read(), re.M)
        for d in ds: go(d)
        imp[m] = ds
    for m in re.findall(r"^import (Verif\.\S+)", open(S + "/Verif.lean").read(), re.M):
        if m != "Verif.Audit": go(m)
    return imp

def needed(claimed):
    """The modules with theorems of the claim, and those they use."""
    imp, out = modules(), set()
    def go(m):
        if m not in out:
            out.add(m)
            for d in imp[m]: go(d)
    for m in imp:
        t = open(S + "/" + m.replace(".", "/") + ".lean").read()
        if any(re.search(r"^theorem (\S+\.)?%s(_|\b)" % c.strip(), t, re.M) for c in claimed): go(m)
    return out

def run(cmd):
    return subprocess.run(["lake", "env"] + cmd, cwd=S, capture_output=True, text=True, timeout=3000)

def force(edited, only=None):
    """Rebuild everything that uses the edited module, going on after errors."""
    imp, dirty, out = modules(), set(), ""
    for m, ds in imp.items():
        f = m.replace(".", "/")
        if f != "Verif/" + edited[:-5] and not any(d in dirty for d in ds): continue
        if only is not None and m not in only: continue
        dirty.add(m)
        os.remove(L + f + ".olean")
        r = run(["lean", "-M", "6000", "--run", root + "/tools/force.txt", f + ".lean", m, L + f + ".olean"])
        out += r.stdout
        if r.returncode: out += "\nerror: %s.lean:1:0 crash %s\n" % (f, r.stderr[-300:])
    return out

def clean(only=None):
    """The theorems of the claims that are still proved."""
    open(S + "/Verif/All.lean", "w").write("".join("import %s\n" % m for m in modules() if only is None or m in only))
    run(["lean", "-o", L + "Verif/All.olean", "Verif/All.lean"])
    r = run(["lean", root + "/tools/clean.txt"])
    if r.returncode: print(r.stdout, r.stderr)
    return {l for l in r.stdout.split() if l.startswith("Bsp.")}

def decls(path):
    """(line, full name or None for an example)"""
    out, ns = [], []
    for i, line in enumerate(open(path), 1):
        m = re.match(r"namespace (\S+)", line)
        if m: ns.append(m.group(1)); continue
        m = re.match(r"section\b", line)
        if m: ns.append(None); continue
        m = re.match(r"mutual\b", line)
        if m: ns.append(None); continue
        m = re.match(r"end\b", line)
        if m and ns: ns.pop(); continue
        m = re.match(r"(?:@\[[^\]]*\]\s*)?(?:private |protected |noncomputable )*(theorem|def|instance|abbrev|inductive|structure|example|class|run_cmd)\s*(\S*)", line)
        if m:
            nm = ".".join([x for x in ns if x] + [m.group(2)]) if m.group(1) not in ("example", "run_cmd") else "(%s)" % m.group(1)
            out.append((i, nm))
    return out

done = set()
if log and os.path.exists(root + '/seeded/LOG.jsonl'):
    done = {json.loads(l)['name'] for l in open(root + '/seeded/LOG.jsonl')}

fresh()
allc = clean()
print(len(allc), "theorems")
for i, mu in enumerate(M.mutants):
    if i % int(W.split("/")[1]) != int(W.split("/")[0]): continue
    name = mu["name"]
    if names and name not in names or name in done: continue
    fresh()
    path = S + "/Verif/" + mu["file"]
    src = open(path).read()
    new = src
    for o, n in mu["edits"]:
        if new.count(o) != 1: print(name, "pattern occurs", new.count(o), "times:", o); break
        new = new.replace(o, n)
    else:
        open(path, "w").write(new)
        claimed = mu["claim"].split(":")[0].split(",")
        only = needed(claimed) if focus else None
        before = clean(only) if focus else allc
        out = force(mu["file"], only)
        bad = []
        for m in re.finditer(r"error: (Verif/\S+\.lean):(\d+):\d+", out):
            f, ln = m.group(1), int(m.group(2))
            if f == "Verif/Audit.lean": continue
            d = [x for x in decls(S + "/" + f) if x[0] <= ln]
            nm = d[-1][1] if d else "?"
            if not nm.startswith(("(", "Bsp.")): nm = "Bsp." + nm
            if nm.startswith("("): nm = "%s in %s after %s" % (nm, f, next((x[1] for x in reversed(d) if not x[1].startswith("(")), "?"))
            if nm not in bad: bad.append(nm)
        cs = sorted(before - clean(only), key=lambda x: re.search(r"C\d.*", x).group(0))
        caught = [c for c in claimed if any(re.search(r"(^|\.)%s(_|$)" % c.strip(), x) for x in cs)]
        print("%-28s failing: %s | claims hit: %s | %s" % (name, ", ".join(bad[:8]) + (" …" if len(bad) > 8 else ""),
              ",".join(sorted({re.search(r"C\d+", x.split(".")[-1]).group(0) for x in cs})), "CAUGHT " + ",".join(caught) if caught else "NOT CAUGHT"), flush=True)
        e = {"name": name, "definition": mu["definition"], "edit": mu["edit"], "claim": mu["claim"], "failed": bad,
             "blocked": [x.replace("Bsp.", "") for x in cs if x not in bad and any(re.search(r"(^|\.)%s(_|$)" % c.strip(), x) for c in claimed)],
             "tightened": mu.get("tightened", [])}
        if mu.get("note"): e["note"] = mu["note"]
        if focus: e["scope"] = "the modules that the theorems of the claim need"
        for f in ["/tmp/mut/results.jsonl"] + ([root + "/seeded/LOG.jsonl"] if log else []):
            open(f, "a").write(json.dumps(e, ensure_ascii=False) + "\n")
