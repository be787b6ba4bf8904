#!/usr/bin/env python3
"""Sweeps: one kind of edit applied to all definitions of a kind at once (elaboration goes on after errors, so each
definition shows separately).  For every edited definition the declarations that fail on its account are looked for; those
without any are reported as survivors.  Usage: sweep.py [--log] [name ...]; see mutate.py for the preparation."""
import os, re, sys, json
here = os.path.dirname(os.path.abspath(__file__))
argv, sys.argv = sys.argv, [sys.argv[0]]
os.environ["MUT"] = os.environ.get("MUT", "9/10")
exec(open(here + "/mutate.py").read().split("\ndone = set()")[0].replace("__file__", repr(here + "/mutate.py")))
args = argv[1:]
log = "--log" in args
names = [a for a in args if a != "--log"]

def blocks(src):
    """(type, start, end) of the namespaces of Types.lean"""
    for m in re.finditer(r"^namespace (?!Bsp$)(\S+)\n(.*?)^end \1$", src, re.M | re.S):
        yield m.group(1), m.start(), m.end()

def defs(text):
    """name -> (start, end) of the definitions in a text"""
    return {m.group(1): m.span() for m in re.finditer(r"^def (\S+).*?(?=\n\n|\Z)", text, re.M | re.S)}

def types(fn):
    def go(src):
        out, items, last = "", [], 0
        for T, a, b in blocks(src):
            blk = src[a:b]
            new = fn(T, blk)
            if new != blk: items.append(T)
            out += src[last:a] + new; last = b
        return out + src[last:], items
    return go

def within(blk, which, f):
    d = defs(blk)
    for w in sorted((w for w in which if w in d), key=lambda w: -d[w][0]):
        a, b = d[w]
        blk = blk[:a] + f(blk[a:b]) + blk[b:]
    return blk

def rename(i):
    def fn(T, blk):
        fs = re.search(r'def fields : List String := \[(.*?)\]', blk)
        if not fs: return blk
        ks = re.findall(r'"([^"]*)"', fs.group(1))
        if i >= len(ks): return blk
        return within(blk, ["fields", "enc", "dec"], lambda t: t.replace('"%s"' % ks[i], '"%s_"' % ks[i]))
    return fn

def sub(which, pat, rep, flags=0):
    return lambda T, blk: within(blk, which, lambda t: re.sub(pat, rep, t, flags=flags))

def positions(T, blk):
    n = len(re.findall(r"← s\.(?:req|opt|dflt) \d+", blk))
    if n < 2: return blk
    return within(blk, ["dec"], lambda t: re.sub(r"(← s\.(?:req|opt|dflt)) (\d+)", lambda m: "%s %d" % (m.group(1), n - 1 - int(m.group(2))), t))

def type_owner(T, bad):
    """The proof that the type follows its schema."""
    return [x for x in bad if x == "Bsp.%s.follows" % T]

def api(fn):
    def go(src):
        items = []
        def one(m):
            new = fn(m)
            if new != m.group(0): items.append(m.group(1))
            return new
        return re.sub(r"^def (\S+)(.*) : ([^:\n]*) :=\n(  [^\n]*)(?=\n\n)", one, src, flags=re.M), items
    return go

def const(ty, e):
    ty = ty.strip()
    if ty == "Bool": return "!(%s)" % e
    if ty == "String": return '(%s ++ "x")' % e
    if ty.startswith("Option"): return "none"
    if ty.startswith("List"): return "[]"
    if ty in ("UInt64", "UInt32"): return "(%s + 1)" % e
    return None

def setter(m):
    return re.sub(r"\n  \{ x with .* \}$", "\n  x", m.group(0)) if "{ x with" in m.group(4) and "set_" in m.group(1) or m.group(1).endswith("_mut") and "{ x with" in m.group(4) else m.group(0)

def getter(m):
    b = m.group(4).strip()
    if not re.fullmatch(r"x\.\w+", b): return m.group(0)
    c = const(m.group(3), b)
    return m.group(0)[:-len(m.group(4))] + "  " + c if c else m.group(0)

def ctor(m):
    b = m.group(4).strip()
    k = re.fullmatch(r"⟨(.*)⟩", b)
    if not k: return m.group(0)
    ps = dict()
    for names_, ty in re.findall(r"\((\w+) : ([^()]*(?:\([^()]*\))?[^()]*)\)", m.group(2)): ps[names_] = ty
    parts = [x.strip() for x in k.group(1).split(",")]
    for i, x in enumerate(parts):
        c = const(ps[x], x) if x in ps else None
        if c is None and x == '""': c = '"x"'
        if c:
            parts[i] = c
            return m.group(0)[:-len(m.group(4))] + "  ⟨" + ", ".join(parts) + "⟩"
    return m.group(0)

def api_owner(pre):
    def go(item, bad):
        return [x for x in bad if x.split(".")[-1] == pre + item.replace(".", "_")]
    return go

SWEEPS = []
def sweep(name, file, tr, owner, definition, edit, claim):
    SWEEPS.append(dict(name=name, file=file, tr=tr, owner=owner, definition=definition, edit=edit, claim=claim))

for i in range(10):
    sweep("sweep-rename-%d" % i, "Types.lean", types(rename(i)), type_owner, "fields, enc and dec of every type", "field number %d has another wire name, when written and when read" % i, "C98: names of the schema table")
sweep("sweep-write-null", "Types.lean", types(sub(["enc"], r'skipNone ("[^"]*") ((?:\([^()]*(?:\([^()]*\))?[^()]*\)|\S)+) (x\.\w+)', r'fld \1 (encOpt \2 \3)')), type_owner, "enc of every type", "absent optional members are written as null", "C99: what is written")
sweep("sweep-write-default", "Types.lean", types(sub(["enc"], r'skipIf \([^()]*(?:\([^()]*\))?[^()]*\) ("[^"]*")', r'fld \1')), type_owner, "enc of every type", "default values are written", "C99: what is written")
sweep("sweep-default-required", "Types.lean", types(sub(["dec"], r's\.dflt (\d+) ("[^"]*") ((?:\([^()]*\)|\[\]|""|\S)+) ', r's.req \1 \2 ')), type_owner, "dec of every type", "defaulted members are required", "C98: what may be absent")
sweep("sweep-opt-ignored", "Types.lean", types(sub(["dec"], r's\.opt (\d+) ("[^"]*") (.*)', r's.opt \1 (\2 ++ "_") (\3)')), type_owner, "dec of every type", "optional members are looked up under another name", "C98: optional members")
sweep("sweep-positions", "Types.lean", types(positions), type_owner, "dec of every type", "positional form read in reverse order", "C98: positional form")
sweep("sweep-setters", "Api.lean", api(setter), api_owner("set_"), "every setter", "does nothing", "C65: setters")
sweep("sweep-getters", "Api.lean", api(getter), api_owner("get_"), "every getter", "returns another value", "C66: getters")
sweep("sweep-ctors", "Api.lean", api(ctor), api_owner("new_"), "every constructor", "one argument is not taken over", "C67: constructors")

if __name__ == "__main__":
    fresh(); allc = clean()
    for sw in SWEEPS:
        if names and sw["name"] not in names: continue
        fresh()
        path = S + "/Verif/" + sw["file"]
        src = open(path).read()
        new, items = sw["tr"](src)
        open(path, "w").write(new)
        only = needed([sw["claim"].split(":")[0]]) if focus else None
        before = clean(only) if focus else allc
        out = force(sw["file"], only)
        bad = []
        for m in re.finditer(r"error: (Verif/\S+\.lean):(\d+):\d+", out):
            d = [x for x in decls(S + "/" + m.group(1)) if x[0] <= int(m.group(2))]
            nm = d[-1][1] if d else "?"
            if not nm.startswith(("(", "Bsp.")): nm = "Bsp." + nm
            if nm not in bad: bad.append(nm)
        broken = [x for x in bad if re.fullmatch(r"Bsp\.(?:\w+\.)*(enc|dec|norm|fields)|Bsp\.Api\..*", x)]
        cs = sorted(before - clean(only))
        left = [t for t in items if not sw["owner"](t, bad)]
        hit = [c for c in cs if re.search(r"(^|\.)%s_" % sw["claim"].split(":")[0], c)]
        print(sw["name"], "items", len(items), "failed", len(bad), "hit", hit, "survivors", left, "ill-typed", broken, flush=True)
        e = {"name": sw["name"], "definition": "%s (%d definitions)" % (sw["definition"], len(items)), "edit": sw["edit"], "claim": sw["claim"],
             "failed": bad[:40] + (["… %d in all" % len(bad)] if len(bad) > 40 else []), "blocked": [x.replace("Bsp.", "") for x in hit if x not in bad], "tightened": [],
             "note": "every edited definition has declarations of its own that fail" if not left else "without failing declaration of their own: " + ", ".join(left)}
        if focus: e["scope"] = "the modules that the theorems of the claim need"
        for f in ["/tmp/mut/results.jsonl"] + ([root + "/seeded/LOG.jsonl"] if log else []):
            open(f, "a").write(json.dumps(e, ensure_ascii=False) + "\n")
