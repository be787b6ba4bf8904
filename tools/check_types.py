#!/usr/bin/env python3
"""Compares the transcription of the struct definitions in tools/gen_types.py with the Rust source:
field names, wire names (rename_all / rename), types, skip conditions, defaults, cited lines."""
import re, os, glob
root = os.path.dirname(os.path.dirname(os.path.abspath(__file__)))
src = open(root + "/tools/gen_types.py").read()
g = {}
exec(src[:src.index("byname=")], g)
def camel(s):
    a = s.split("_"); return a[0] + "".join(x[:1].upper() + x[1:] for x in a[1:])
def rty(t):
    t = t.replace("super::", "").replace("serde_json::", "").replace("lsp_types::", "").replace(" ", "")
    m = re.fullmatch(r"Option<(.*)>", t)
    if m: return "O:" + rty(m.group(1))
    m = re.fullmatch(r"Vec<(.*)>", t)
    if m: return "L:" + rty(m.group(1))
    return {"String": "S", "Language": "S", "bool": "B", "u32": "U", "usize": "N", "Value": "V", "Url": "Url", 
            "TaskDataKind": "K"}.get(t) or ("E:" + t if t in ("MessageType", "TaskStatus", "BuildTargetEventKind", "SourceKind", "BuildTargetTag") else "T:" + t)
rust = {}
for f in glob.glob("/repo/bsp-types/src/**/*.rs", recursive=True):
    L = open(f).read().split("\n")
    i = 0
    while i < len(L):
        m = re.match(r"pub struct (\w+) \{", L[i])
        if not m: i += 1; continue
        name, start, attrs = m.group(1), i, ""
        j = i - 1
        while L[j].strip().startswith(("#[", "///", ")]", "rename", "default", "serde")) : attrs = L[j] + attrs; j -= 1
        camelall = 'rename_all = "camelCase"' in attrs
        sdef = bool(re.search(r"serde\([^)]*\bdefault\b", attrs))
        fields, buf = [], ""
        i += 1
        while L[i].strip() != "}":
            l = L[i].strip()
            if l.startswith("///") or l.startswith("//") or not l: i += 1; continue
            buf += " " + l
            m = re.search(r"(?:pub(?:\([^)]*\))? )?(\w+): (.*),$", l)
            if m and not l.startswith("#") and not l.startswith(("skip", "rename", "default")):
                a = buf[:buf.index(l)]
                ren = re.search(r'rename = "(\w+)"', a)
                wire = ren.group(1) if ren else camel(m.group(1)) if camelall else m.group(1)
                sk = re.search(r'skip_serializing_if = "([^"]*)"', a)
                skip = ""
                if sk:
                    s = sk.group(1).replace("serde_json::", "")
                    skip = "none" if s == "Option::is_none" else "empty" if s in ("String::is_empty", "Vec::is_empty") else "null" if s == "Value::is_null" else "kind" if s == "TaskDataKind::is_none" else "?" + s
                d = bool(re.search(r"\bdefault\b", a))
                fields.append((m.group(1), wire, rty(m.group(2)), skip, d))
                buf = ""
            i += 1
        rust[name] = (os.path.relpath(f, "/repo"), start + 1, i + 1, fields, sdef, camelall, j + 2)
bad = 0
for name, cite, fields, sd, _ in g["T"]:
    if "lsp_types" in cite: continue
    if name not in rust: print(name, "not found"); bad += 1; continue
    f, a, b, rf, rsd, ca, a0 = rust[name]
    want = []
    for n, k, t, at in fields:
        sk = [x[5:] for x in at.split() if x.startswith("skip=")]
        want.append((k, t, sk[0] if sk else "", "d" in at.split()))
    have = [(w, t, s, d) for _, w, t, s, d in rf]
    if want != have or sd != rsd:
        bad += 1; print(name, "differs\n  table", want, sd, "\n  rust ", have, rsd)
    m = re.match(r"(.*):(\d+)-(\d+)$", cite)
    if not m or m.group(1) != f or not (int(m.group(2)) <= a and int(m.group(3)) == b): print(name, "cited", cite, "is", f, a0, a, b); bad += 1
untabled = set(rust) - {t[0] for t in g["T"]}
print("structs not in the table:", sorted(untabled))
print("differences:", bad)
