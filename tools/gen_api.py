#!/usr/bin/env python3
"""Writes lean/Verif/Api.lean (the constructors, setters and getters of bsp-types, translated one by one from their
Rust bodies) and lean/Verif/Props/Api.lean (the tables of the specification and the proofs).

The model side is read off the function bodies; the specification side (which wire member a function is about) is
read off the function and parameter names only."""
import re, os, glob
root = os.path.dirname(os.path.dirname(os.path.abspath(__file__)))
src = open(root + "/tools/gen_types.py").read()
g = {}
exec(src[:src.index("out=[]")], g)
byname, ty, enc, par, skip, usesUrl = g["byname"], g["ty"], g["enc"], g["par"], g["skip"], g["usesUrl"]
def camel(s):
    a = s.split("_"); return a[0] + "".join(x[:1].upper() + x[1:] for x in a[1:])
fns = []   # (type, fn, params [(name, rust type)], ret, body, file, a, b)
for f in sorted(glob.glob("/repo/bsp-types/src/**/*.rs", recursive=True)):
    L = open(f).read().split("\n")
    cur = None
    i = 0
    while i < len(L):
        m = re.match(r"impl (?:(\w+)(?:<([^>]*)>)? for )?(\w+) \{", L[i])
        if m: cur = (m.group(3), m.group(1), m.group(2))
        m = re.match(r"    (?:pub )?fn (\w+)(<.*?>)?\(", L[i])
        if m and cur:
            a = i
            while L[i] != "    }" and not (i == a and L[i].endswith("}")): i += 1
            text = " ".join(x.strip() for x in L[a:i + 1])
            mm = re.match(r"(?:pub )?fn (\w+)(?:<.*?>)?\((.*?)\)(?: -> (.*?))? \{ (.*) \}$", text)
            if not mm: print("cannot parse", f, a + 1, text)
            else:
                ps = [tuple(x.strip().split(": ")) for x in mm.group(2).split(",") if ":" in x]
                fns.append((cur, mm.group(1), ps, mm.group(3), mm.group(4), os.path.relpath(f, "/repo"), a + 1, i + 1))
        if L[i] == "}": cur = None
        i += 1

LEANKW = {"from": "«from»", "mut": "mut_"}
PY = {}   # rust struct -> public fields?
for f in glob.glob("/repo/bsp-types/src/**/*.rs", recursive=True):
    for m in re.finditer(r"((?:#\[[^\n]*\n)*)pub struct (\w+) \{(.*?)\n\}", open(f).read(), re.S):
        PY[m.group(2)] = ("pub " in re.sub(r"///.*", "", m.group(3)), "Default" in m.group(1))
WIRE = {"msg": "message", "orid": "originId", "typ": "type"}
T = g["T"]
usesExt = {t[0]: any(usesUrl(f[2]) for f in t[2]) for t in T}
fld = lambda name, rust: next(f for f in byname[name][2] if f[0] == camel(rust))
wirefld = lambda name, wire: next(f for f in byname[name][2] if f[1] == wire)
def default(t):
    if t.startswith("L:"): return "[]"
    if t.startswith("O:"): return "none"
    if t.startswith("T:"): return "default_" + t[2:]
    return {"S": '""', "V": "Value.null", "K": "TaskDataKind.none", "B": "false", "N": "0", "U": "0",
            "E:TaskStatus": "TaskStatus.ok", "E:MessageType": "MessageType.log"}[t]
def djson(t):
    if t.startswith("L:"): return ".arr []"
    if t.startswith("O:") or t in ("V", "K"): return ".null"
    if t.startswith("T:"): return ".obj [" + ", ".join(f'("{f[1]}", {djson(f[2])})' for f in byname[t[2:]][2] if not skip(f)) + "]"
    return {"S": '.str ""', "B": ".bool false", "N": ".int 0", "U": ".int 0", "E:TaskStatus": ".int 1", "E:MessageType": ".int 4"}[t]
def valE(f, v, given=None):
    """how the value v of member f is written (an `Option Json` term); given: rust type if it differs"""
    t, s = f[2], skip(f)
    if given == "Value" and t == "O:V": return f"some {v}.json"
    if s == "none": return f"{v}.map {par(enc(t[2:]))}"
    if s == "empty": return f"if {v} = " + ('""' if t == "S" else "[]") + f" then none else some ({enc(t)} {v})"
    if s == "null": return f"if {v} = Value.null then none else some {v}.json"
    if s == "kind": return f"if {v} = TaskDataKind.none then none else some {v}.enc"
    return f"some ({enc(t)} {v})"
def expr(e, ft, params):
    e = e.strip()
    if e == "None": return "none"
    if e == "Default::default()": return default(ft)
    m = re.fullmatch(r"vec!\[(\w+)\]", e)
    if m: return f"[{m.group(1)}]"
    m = re.fullmatch(r"(\w+)(\.into\(\)|\.map\(Into::into\))?", e)
    assert m, e
    if ft == "O:V" and dict(params).get(m.group(1)) == "Value": return f"some {m.group(1)}"
    return m.group(1)
def pty(rt, ft=None):
    rt = rt.replace("serde_json::", "").replace("impl Into<TaskId>", "TaskId").replace("&str", "String")
    m = re.fullmatch(r"Option<(.*)>", rt)
    if m: return "Option " + par(pty(m.group(1)))
    m = re.fullmatch(r"Vec<(.*)>", rt)
    if m: return "List " + par(pty(m.group(1)))
    return {"S": "String", "Language": "String", "bool": "Bool", "usize": "UInt64", "Url": "Ext.Url"}.get(rt, rt)
model, setters, getters, ctors, seen, skipped = [], [], [], [], set(), []
needExt = lambda name: " [Ext]" if usesExt.get(name) else ""
defaults = []
def adddefault(n):
    if n in defaults: return
    for f in byname[n][2]:
        if f[2].startswith("T:"): adddefault(f[2][2:])
    defaults.append(n)
for t in T:
    if PY.get(t[0], (0, 0))[1]: adddefault(t[0])
for n in defaults:
    cite, fs = byname[n][1], byname[n][2]
    model.append(f"/-- Derived `Default for {n}`. {cite}. -/\ndef default_{n}{needExt(n)} : {n} :=\n  ⟨" + ", ".join(default(f[2]) for f in fs) + "⟩\n")
    ctors.append((n, "default", "default_" + n, [], [(f[1], "none" if skip(f) else f"some ({djson(f[2])})") for f in fs]))
for (name, tr, arg), fn, ps, ret, body, file, a, b in fns:
    if name not in byname or tr in ("Serialize", "Deserialize", "Debug", "Display", "Default"): continue
    cite = f"{file}:{a}-{b}"
    q = f"{name}.{fn}" + ("_" + {"String": "string", "&str": "str", "BuildTarget": "buildTarget"}[arg] if tr == "From" else "")
    E = needExt(name)
    what = f"`{name}::{fn}`" if not tr else f"`From<{arg}> for {name}`"
    def emit(sig, term): model.append(f"/-- {what}. {cite}. -/\ndef {q}{E} {sig} :=\n  {term}\n")
    fs = byname[name][2]
    m = re.fullmatch(r"self\.(\w+) = (\w+);", body)
    if m:
        f = fld(name, m.group(1)); assert [m.group(2)] == [p[0] for p in ps]
        emit(f"(x : {name}) ({ps[0][0]} : {pty(ps[0][1])}) : {name}", f"{{ x with {f[0]} := {ps[0][0]} }}")
        w = wirefld(name, camel(fn[4:])); setters.append((name, q, w)); continue
    m = re.fullmatch(r"&mut self\.(\w+)", body)
    if m:
        f = fld(name, m.group(1))
        model.append(f"/-- {what}: the object after writing `v` through the reference it returns. {cite}. -/\ndef {q}{E} (x : {name}) (v : {pty(ret[5:])}) : {name} :=\n  {{ x with {f[0]} := v }}\n")
        w = wirefld(name, camel(fn[:-4])); setters.append((name, q, w)); continue
    m = re.fullmatch(r"&?self\.(\w+)(\.as_ref\(\))?", body)
    if m:
        f = fld(name, m.group(1))
        if ret == "&str" and f[2] == "Url":
            emit(f"(x : {name}) : String", f"Ext.urlStr x.{f[0]}"); getters.append((name, q, wirefld(name, camel(fn)), "some (.str v)")); continue
        emit(f"(x : {name}) : {ty(f[2])}", f"x.{f[0]}")
        getters.append((name, q, wirefld(name, camel(fn)), None)); continue
    m = re.fullmatch(r"self\.(\w+)\.is_empty\(\)", body)
    if m:
        f = fld(name, m.group(1)); emit(f"(x : {name}) : Bool", f"x.{f[0]}.isEmpty"); continue
    m = re.fullmatch(r"self\.(\w+)\.push\((\w+)\)", body)
    if m:
        f = fld(name, m.group(1)); emit(f"(x : {name}) ({m.group(2)} : {pty(ps[0][1])}) : {name}", f"{{ x with {f[0]} := x.{f[0]} ++ [{m.group(2)}] }}"); continue
    m = re.fullmatch(r"Self \{ (.*?),? \}", body)
    if m:
        given, rest = {}, False
        for part in [x.strip() for x in m.group(1).split(",") if x.strip()]:
            if part == "..Self::default()": rest = True; continue
            k, _, v = part.partition(":")
            given[camel(k.strip())] = v.strip() or k.strip()
        assert rest or set(given) == {f[0] for f in fs}, (name, fn)
        args = " ".join(f"({p} : {pty(t)})" for p, t in ps)
        emit(f"{args} : {name}", "⟨" + ", ".join(expr(given[f[0]], f[2], ps) if f[0] in given else default(f[2]) for f in fs) + "⟩")
        mem = {}
        for p, t in ps:
            if name == "WorkspaceBuildTargetsResult" and fn == "from": mem["targets"] = "some (.arr [BuildTarget.enc target])"; continue
            w = WIRE.get(p, camel(p)); mem[w] = valE(wirefld(name, w), p, t)
        ctors.append((name, fn, q, ps, [(f[1], mem.get(f[1]) or ("none" if skip(f) else f"some ({djson(f[2])})")) for f in fs])); continue
    m = re.fullmatch(r"Self::new\(MessageType::(\w+), msg, task, orid\)", body)
    if m:
        args = " ".join(f"({p} : {pty(t)})" for p, t in ps)
        v = m.group(1); emit(f"{args} : {name}", f"{name}.new .{v[0].lower() + v[1:]} msg task orid")
        code = {"error": 1, "warn": 2, "info": 3, "log": 4}[fn]
        mem = {WIRE.get(p, camel(p)): valE(wirefld(name, WIRE.get(p, camel(p))), p, t) for p, t in ps}
        mem["type"] = f"some (.int {code})"
        ctors.append((name, fn, q, ps, [(f[1], mem[f[1]]) for f in fs])); continue
    skipped.append((name, fn, cite, body))
H = """/-
The constructors, setters and getters of bsp-types/src, translated one by one from their bodies by
tools/gen_api.py.  Names are those of the Rust functions; `&mut self` setters return the changed object;
`Into<String>` parameters are strings; a `f_mut` accessor is modelled by the object after writing through the
reference.  `Option<&T>`, `&[T]` and `&str` results are modelled by the value referred to.
Not modelled: %s.
-/
import Verif.Types

namespace Bsp.Api
"""
open(root + "/lean/Verif/Api.lean", "w").write(H % "; ".join(f"`{n}::{f}` ({c})" for n, f, c, _ in skipped) + "\n" + "\n".join(model) + "\n/-- `BuildTargetTag::custom`. bsp-types/src/bt_tag.rs:47-49. -/\ndef BuildTargetTag.custom (value : String) : BuildTargetTag := .custom value\n\n/-- `TaskStatus::is_ok`. bsp-types/src/task/status.rs:20-22. -/\ndef TaskStatus.is_ok (x : TaskStatus) : Bool := x == .ok\n/-- `TaskStatus::is_error`. bsp-types/src/task/status.rs:27-29. -/\ndef TaskStatus.is_error (x : TaskStatus) : Bool := x == .error\n/-- `TaskStatus::is_cancelled`. bsp-types/src/task/status.rs:34-36. -/\ndef TaskStatus.is_cancelled (x : TaskStatus) : Bool := x == .cancelled\n/-- `Display for TaskStatus`. bsp-types/src/task/status.rs:55-63. -/\ndef TaskStatus.display : TaskStatus → String\n  | .ok => \"Ok\"\n  | .error => \"Error\"\n  | .cancelled => \"Cancelled\"\n\nend Bsp.Api\n")
print(len(model), len(setters), len(getters), len(ctors), skipped)

# ------------------------------------------------------------------------------------------------ Props/Api.lean
out = []
P = out.append
P('''/-
The constructors, setters and getters of the payload types and the wire: C65 (setters), C66 (getters),
C67 (constructors and defaults), C68 (which values the public functions can build).
Generated by tools/gen_api.py.  In the tables the member a function is about is derived from the name of the
function or parameter, and how its value is written from the schema; the functions themselves (Verif/Api.lean)
are translated from their bodies.
-/
import Verif.Api
import Verif.Payload

set_option linter.unusedSimpArgs false
set_option linter.unusedVariables false

namespace Bsp
open Json

namespace Spec
/-- The (first) member of that name of an object. -/
def member (k : String) : Json → Option Json
  | .obj ms => (ms.find? (fun m => m.1 = k)).map (·.2)
  | _ => none

/-- A setter: what it sets on objects of type `T`, written `enc`, is the member `wire`; a value `v` is written
`val v` (`none`: left out). -/
structure Setter where
  fn : String
  T : Type
  A : Type
  enc : T → Json
  set : T → A → T
  wire : String
  val : A → Option Json

/-- Setting changes that member and no other. -/
def Setter.Law (s : Setter) : Prop :=
  ∀ x v k, member k (s.enc (s.set x v)) = if k = s.wire then s.val v else member k (s.enc x)

/-- A getter: what it returns is the value of the member `wire`. -/
structure Getter where
  fn : String
  T : Type
  A : Type
  enc : T → Json
  get : T → A
  wire : String
  val : A → Option Json

/-- The value returned is what is written under that name. -/
def Getter.Law (s : Getter) : Prop := ∀ x, member s.wire (s.enc x) = s.val (s.get x)

/-- A constructor with its parameters as a tuple, and the members the object it makes has, in order (`none`:
left out). -/
structure Ctor where
  fn : String
  T : Type
  A : Type
  enc : T → Json
  new : A → T
  members : A → List (String × Option Json)

/-- The object made is written with exactly these members, in this order. -/
def Ctor.Law (s : Ctor) : Prop :=
  ∀ a, s.enc (s.new a) = .obj ((s.members a).filterMap fun m => m.2.map (m.1, ·))
''')
P("/-- The setters. -/\ndef setters [Ext] : List Setter := [")
P(",\n".join(f'  ⟨"{q}", {n}, _, {n}.enc, Api.{q}, "{w[1]}",\n    fun v => {valE(w, "v")}⟩' for n, q, w in setters) + "]\n")
P("/-- The getters. -/\ndef getters [Ext] : List Getter := [")
P(",\n".join(f'  ⟨"{q}", {n}, _, {n}.enc, Api.{q}, "{w[1]}",\n    fun v => {o or valE(w, "v")}⟩' for n, q, w, o in getters) + "]\n")
def tup(ps): return ("Unit" if not ps else " × ".join(pty(t) for _, t in ps))
def pat(ps): return "_" if not ps else "(" + ", ".join(p for p, _ in ps) + ")" if len(ps) > 1 else ps[0][0]
P("/-- The constructors and the default values. -/\ndef ctors [Ext] : List Ctor := [")
P(",\n".join(f'  ⟨"{n}.{fn}", {n}, {tup(ps)}, {n}.enc, fun {pat(ps)} => Api.{q}{"".join(" " + p for p, _ in ps)},\n    fun {pat(ps)} => [' +
      ",\n      ".join(f'("{w}", {v})' for w, v in mem) + "]⟩" for n, fn, q, ps, mem in ctors) + "]\n")
P('''end Spec
open Spec (member)

theorem member_obj_append (k : String) (a b : Members) :
    member k (.obj (a ++ b)) = (member k (.obj a)).or (member k (.obj b)) := by
  simp only [member, List.find?_append]
  cases h : List.find? (fun m => decide (m.1 = k)) a <;> simp

theorem member_fld (k k' : String) (j : Json) : member k' (.obj (fld k j)) = if k' = k then some j else none := by
  by_cases h : k' = k
  · simp [member, fld, h]
  · have : k ≠ k' := fun e => h e.symm
    simp [member, fld, h, this]

theorem member_skipNone (k k' : String) (enc : α → Json) (o : Option α) :
    member k' (.obj (skipNone k enc o)) = if k' = k then o.map enc else none := by
  cases o with
  | none => simp [member, skipNone]
  | some x => simpa [fld, skipNone] using member_fld k k' (enc x)

theorem member_skipIf (k k' : String) (c : Bool) (j : Json) :
    member k' (.obj (skipIf c k j)) = if k' = k then (if c then none else some j) else none := by
  cases c with
  | true => simp [member, skipIf]
  | false => simpa [fld, skipIf] using member_fld k k' j

theorem value_isNull (v : Value) : v.isNull = decide (v = Value.null) := by
  have := v.isNull_iff
  cases h : v.isNull <;> simp_all

theorem kind_isNone (v : TaskDataKind) : v.isNone = decide (v = TaskDataKind.none) := by
  cases v <;> simp [TaskDataKind.isNone]

/-- One member, if it is written. -/
def Spec.mem (k : String) (o : Option Json) : Members := o.toList.map (k, ·)

theorem fld_mem (k : String) (j : Json) : fld k j = Spec.mem k (some j) := rfl
theorem skipNone_mem' (k : String) (enc : α → Json) (o : Option α) : skipNone k enc o = Spec.mem k (o.map enc) := by
  cases o <;> rfl
theorem skipIf_mem' (k : String) (c : Bool) (j : Json) :
    skipIf c k j = Spec.mem k (if c = true then none else some j) := by
  cases c <;> rfl
theorem mems_cons (k : String) (o : Option Json) (l : List (String × Option Json)) :
    ((k, o) :: l).filterMap (fun m => m.2.map (m.1, ·)) =
      Spec.mem k o ++ l.filterMap (fun m => m.2.map (m.1, ·)) := by
  cases o <;> simp [Spec.mem]
theorem mems_nil : ([] : List (String × Option Json)).filterMap (fun m => m.2.map (m.1, ·)) = [] := rfl
theorem mem_none (k : String) : Spec.mem k none = [] := rfl
''')
for i, (n, q, w) in enumerate(setters):
    P(f"theorem set_{q.replace('.', '_')} [Ext] (x : {n}) (v) (k : String) :\n    member k ({n}.enc (Api.{q} x v)) = if k = \"{w[1]}\" then {valE(w, 'v')} else member k ({n}.enc x) := by")
    P(f"  simp only [{n}.enc, Api.{q}, member_obj_append, member_fld, member_skipNone, member_skipIf]")
    P(f"  by_cases h : k = \"{w[1]}\"\n  · subst h; simp [value_isNull, kind_isNone]\n  · simp [h]\n")
P("/-- C65: every setter changes on the wire exactly the member it is named after. -/\ntheorem C65_setters [Ext] : ∀ s ∈ Spec.setters, s.Law := by")
P("  simp only [Spec.setters, List.forall_mem_cons, List.not_mem_nil, false_imp_iff, forall_const, implies_true, and_true]")
P("  exact ⟨" + ", ".join(f"set_{q.replace('.', '_')}" for n, q, w in setters) + "⟩\n")
for n, q, w, o in getters:
    P(f"theorem get_{q.replace('.', '_')} [Ext] (x : {n}) :\n    member \"{w[1]}\" ({n}.enc x) = (fun v => {o or valE(w, 'v')}) (Api.{q} x) := by")
    P(f"  simp only [{n}.enc, Api.{q}, member_obj_append, member_fld, member_skipNone, member_skipIf]")
    c = {"null": "Value.null", "empty": '""' if w[2] == "S" else "[]"}.get(skip(w))
    P(f"  by_cases h : x.{w[0]} = {c} <;> simp [h, value_isNull]\n" if c else "  simp [encUrl]\n")
P("/-- C66: every getter returns what is written under the name it has. -/\ntheorem C66_getters [Ext] : ∀ s ∈ Spec.getters, s.Law := by")
P("  simp only [Spec.getters, List.forall_mem_cons, List.not_mem_nil, false_imp_iff, forall_const, implies_true, and_true]")
P("  exact ⟨" + ", ".join(f"get_{q.replace('.', '_')}" for n, q, w, o in getters) + "⟩\n")
def ctorsrc(n, fn):
    return next(x for x in model if f"def default_{n} " in x or f"def default_{n}{needExt(n)} " in x) if fn == 'default' else ''
for n, fn, q, ps, mem in ctors:
    nm = q.replace(".", "_")
    ap = " ".join(f"({p} : {pty(t)})" for p, t in ps)
    P(f"theorem new_{nm} [Ext] {ap} :\n    {n}.enc (Api.{q}{''.join(' ' + p for p, _ in ps)}) = .obj (([" + ",\n      ".join(f'("{w}", {v})' for w, v in mem) +
      "] : List (String × Option Json)).filterMap fun m => m.2.map (m.1, ·)) := by")
    nest = "".join(f", {f[2][2:]}.enc, Api.default_{f[2][2:]}" for f in byname[n][2] if f[2].startswith("T:") and f[2][2:] in defaults and fn in ("default", "new", "new_simple") and ("default_" + f[2][2:]) in ctorsrc(n, fn))
    if fn in ("info", "log", "warn", "error"): nest += f", Api.{n}.new"
    P(f"  simp only [{n}.enc, Api.{q}{nest}, fld_mem, skipNone_mem', skipIf_mem', mems_cons, mems_nil, List.append_nil, List.append_assoc]")
    P("  try simp [value_isNull, mem_none, encOpt, encList, MessageType.enc, MessageType.code, TaskStatus.enc, TaskStatus.code, TaskDataKind.isNone]\n  try simp [Spec.mem]\n")
P("/-- C67: every constructor makes the object with the members its parameters are named after, and every derived\n`Default` the object with every member left out, null, false, 0 or empty. -/\ntheorem C67_constructors [Ext] : ∀ s ∈ Spec.ctors, s.Law := by")
P("  simp only [Spec.ctors, List.forall_mem_cons, List.not_mem_nil, false_imp_iff, forall_const, implies_true, and_true]")
P("  exact ⟨" + ",\n    ".join("fun " + pat(ps) + f" => new_{q.replace('.', '_')}{''.join(' ' + p for p, _ in ps)}" for n, fn, q, ps, mem in ctors) + "⟩\n")

P(r"""/-! The remaining functions. -/

/-- C66: `is_empty` tells whether the `targets` written are empty. -/
theorem C66_is_empty [Ext] :
    (∀ x, Api.BuildTargetCleanCache.is_empty x = true ↔ member "targets" x.enc = some (.arr [])) ∧
    (∀ x, Api.BuildTargetDependencyModules.is_empty x = true ↔ member "targets" x.enc = some (.arr [])) := by
  refine ⟨fun x => ?_, fun x => ?_⟩
  · simp [Api.BuildTargetCleanCache.is_empty, BuildTargetCleanCache.enc, member_fld, encList]
  · simp [Api.BuildTargetDependencyModules.is_empty, BuildTargetDependencyModules.enc, member_fld, encList]

/-- C66: the predicates on a task status are about the code that is written. -/
theorem C66_status (x : TaskStatus) :
    (Api.TaskStatus.is_ok x = true ↔ x.enc = .int 1) ∧
    (Api.TaskStatus.is_error x = true ↔ x.enc = .int 2) ∧
    (Api.TaskStatus.is_cancelled x = true ↔ x.enc = .int 3) := by
  cases x <;> decide

/-- C65: adding a parent appends it to the `parents` written, and changes nothing else. -/
theorem C65_add_parent (x : TaskId) (v : String) (k : String) :
    member k (Api.TaskId.add_parent x v).enc =
      if k = "parents" then
        some (.arr ((match member "parents" x.enc with
          | some (.arr l) => l
          | _ => []) ++ [.str v]))
      else member k x.enc := by
  obtain ⟨id, ps⟩ := x
  by_cases h : k = "parents"
  · subst h
    cases ps <;> simp [Api.TaskId.add_parent, TaskId.enc, member_obj_append, member_fld, member_skipIf, encList]
  · simp [Api.TaskId.add_parent, TaskId.enc, member_obj_append, member_fld, member_skipIf, h]

section
attribute [local instance] Ext.sample
/-- Beside C65: the setter for the origin of a run request on an object with other members. -/
example (u : Ext.Url) : let x : BuildTargetRun := ⟨⟨u⟩, none, some "a", none, some Value.null⟩
    member "originId" (Api.BuildTargetRun.set_origin_id x (some "o")).enc = some (.str "o") ∧
    member "arguments" (Api.BuildTargetRun.set_origin_id x (some "o")).enc = some (.str "a") ∧
    member "originId" (Api.BuildTargetRun.set_origin_id x none).enc = none := by
  refine ⟨?_, ?_, ?_⟩ <;> rw [set_BuildTargetRun_set_origin_id] <;> rfl
/-- Beside C65: a second parent. -/
example : member "parents" (Api.TaskId.add_parent ⟨"t", ["a"]⟩ "b").enc = some (.arr [.str "a", .str "b"]) := rfl
/-- Beside C66: a getter on an object with and without the member. -/
example (u : Ext.Url) : member "data" (BuildTargetRun.enc ⟨⟨u⟩, none, none, none, some Value.null⟩) = some .null ∧
    Api.BuildTargetRun.data ⟨⟨u⟩, none, none, none, some Value.null⟩ = some Value.null := ⟨rfl, rfl⟩
/-- Beside C67: `InitializeBuild::new` with null data writes the null, `new_simple` does not. -/
example (u : Ext.Url) :
    (Api.InitializeBuild.new "n" "" "2" u ⟨[]⟩ Value.null).enc = .obj [("displayName", .str "n"),
      ("bspVersion", .str "2"), ("rootUri", encUrl u), ("capabilities", .obj [("languageIds", .arr [])]), ("data", .null)] ∧
    (Api.InitializeBuild.new_simple "n" "" "2" u ⟨[]⟩).enc = .obj [("displayName", .str "n"),
      ("bspVersion", .str "2"), ("rootUri", encUrl u), ("capabilities", .obj [("languageIds", .arr [])])] :=
  ⟨rfl, rfl⟩
end

/-! ### C68 -/
""")
low = lambda n: n[0].lower() + n[1:]
LSP = ["TextDocumentIdentifier", "Position", "Range", "CodeDescription", "Location", "DiagnosticRelatedInformation", "Diagnostic"]
def cond(t, v, given=""):
    """the values of payload type in v (of type code t) can be built"""
    if t.startswith("T:"): return f"Built .{low(t[2:])} {v}"
    if t.startswith(("L:T:", "O:T:")): return f"(∀ y ∈ {v}, Built .{low(t[4:])} y)"
    if t.startswith("O:L:T:"): return f"(∀ l ∈ {v}, ∀ y ∈ l, Built .{low(t[6:])} y)"
    return None
def codeof(rt):
    rt = rt.replace("serde_json::", "").replace("impl Into<TaskId>", "TaskId")
    m = re.fullmatch(r"Option<(.*)>", rt)
    if m: return "O:" + codeof(m.group(1))
    m = re.fullmatch(r"Vec<(.*)>", rt)
    if m: return "L:" + codeof(m.group(1))
    return "T:" + rt if rt in byname else rt
P(r"""/-- The severity and the tags of the diagnostic are those with a name (the fields of `DiagnosticSeverity` and
`DiagnosticTag` are private, there are only their associated constants).
Specification about lsp_types::Diagnostic (bsp-types/src/publish_diagnostics.rs:1, 22). -/
def Spec.Named [Ext] (x : Diagnostic) : Prop :=
  (∀ s ∈ x.severity, s ∈ ([1, 2, 3, 4] : List Int32)) ∧ ∀ l ∈ x.tags, ∀ t ∈ l, t ∈ ([1, 2] : List Int32)
""")
P("/-- The payload values a user of the crate can build without decoding one: struct literals for types whose fields\nare public, the constructors and derived defaults, the setters; applied to parts that can be built.\nbsp-types/src/*.rs (visibility of the fields, `impl` blocks). -/")
P("inductive Api.Built [Ext] : (p : Payload) → p.Carrier → Prop where")
for t in T:
    n = t[0]
    if n in LSP or PY.get(n, (True,))[0]:
        cs = [c for c in (cond(f[2], "x." + f[0]) for f in t[2]) if c]
        if n == "Diagnostic": cs = ["Spec.Named x"] + cs
        P(f"  | {n}_literal (x : {n}) : " + "".join(c + " → " for c in cs) + f"Built .{low(n)} x")
    for cn, fn, q, ps, mem in ctors:
        if cn != n: continue
        cs = [c for c in (cond(codeof(rt), p) for p, rt in ps) if c]
        P(f"  | {q.replace('.', '_')}" + "".join(f" ({p} : {pty(rt)})" for p, rt in ps) + " : " + "".join(c + " → " for c in cs) + f"Built .{low(n)} (Api.{q}{''.join(' ' + p for p, _ in ps)})")
    for sn, q, w in setters:
        if sn != n: continue
        c = cond(w[2], "v")
        P(f"  | {q.replace('.', '_')} (x : {n}) (v) : Built .{low(n)} x → " + (c + " → " if c else "") + f"Built .{low(n)} (Api.{q} x v)")
P("  | TaskId_add_parent (x : TaskId) (v) : Built .taskId x → Built .taskId (Api.TaskId.add_parent x v)\n")
P(r"""namespace Spec
/-- The payload types of which no value can be built. -/
def unbuildable : List Payload :=
  [.buildTargetCleanCache, .buildTargetDependencyModules, .publishDiagnostics, .dependencySourcesItem]
/-- The payload types of which only the empty value can be built. -/
def onlyEmpty : List Payload := [.buildTargetInverseSourcesResult, .buildTargetDependencySourcesResult]
end Spec

/-- C68 (violated): of these types nothing can be built. -/
theorem C68_violated [Ext] (p : Payload) (x : p.Carrier) (h : Api.Built p x) : p ∉ Spec.unbuildable := by
  induction h <;> first | decide | assumption

/-- C68 (violated): of these types only the empty list can be built. -/
theorem C68_empty [Ext] :
    (∀ x : BuildTargetInverseSourcesResult, Api.Built .buildTargetInverseSourcesResult x → x.targets = []) ∧
    (∀ x : BuildTargetDependencySourcesResult, Api.Built .buildTargetDependencySourcesResult x → x.items = []) := by
  constructor
  · intro x h; cases h; rfl
  · intro x h; cases h; rfl
""")
closed = {"BuildTargetCleanCache", "BuildTargetDependencyModules", "PublishDiagnostics", "DependencySourcesItem", "BuildTargetInverseSourcesResult", "BuildTargetDependencySourcesResult"}
def part(t, v):
    if t.startswith("T:"): return f"(built_{t[2:]} {v})"
    if t.startswith(("L:T:", "O:T:")): return f"(fun y _ => built_{t[4:]} y)"
    if t.startswith("O:L:T:"): return f"(fun _ _ y _ => built_{t[6:]} y)"
    return None
done = []
def built(n):
    if n in done or n in closed: return
    done.append(n)
    for f in byname[n][2]:
        m = re.search(r"T:(\w+)$", f[2])
        if m: built(m.group(1))
    fs = byname[n][2]
    if n == "Diagnostic":
        P("/-- C68 (violated): a diagnostic can be built exactly if its severity and its tags have names; others can be received.\n-/\ntheorem C68_diagnostic [Ext] (x : Diagnostic) : Api.Built .diagnostic x ↔ Spec.Named x :=\n  ⟨fun h => by cases h; assumption, fun h => .Diagnostic_literal x h " + " ".join(c for c in (part(f[2], "x." + f[0]) for f in fs) if c) + "⟩\n"); return
    P(f"theorem built_{n} [Ext] (x : {n}) : Api.Built .{low(n)} x :=")
    if n in LSP or PY[n][0]:
        P(f"  .{n}_literal x " + " ".join(c for c in (part(f[2], "x." + f[0]) for f in fs) if c) + "\n"); return
    mine = {fn: (q, ps) for cn, fn, q, ps, mem in ctors if cn == n}
    setq = {w[0]: (q, w) for sn, q, w in setters if sn == n}
    start = None
    for fn in ("new", "new_simple", "default"):
        if fn not in mine: continue
        q, ps = mine[fn]
        ok = all(pty(rt) == ty(fld(n, p)[2]) for p, rt in ps)
        missing = [f for f in fs if f[0] not in [camel(p) for p, _ in ps]]
        if ok and all(f[0] in setq for f in missing): start = (q, ps, missing); break
    q, ps, missing = start
    term = f"Api.Built.{q.replace('.', '_')}" + "".join(f" x.{camel(p)}" for p, _ in ps) + "".join(" " + c for c in (part(fld(n, p)[2], "x." + camel(p)) for p, _ in ps) if c)
    for f in missing:
        sq, w = setq[f[0]]
        c = part(f[2], "x." + f[0])
        term = f"Api.Built.{sq.replace('.', '_')} _ x.{f[0]} ({term})" + (" " + c if c else "")
    if len(missing) > 6:
        P("  by\n  have h := " + term + "\n  simpa only [" + ", ".join(["Api." + q] + ["Api." + setq[f[0]][0] for f in missing]) + "] using h\n")
    else: P("  have h := " + term + "\n  h\n")
for t in T: built(t[0])
P("/-- C68 (partial; missing: the types above, for which it is false): of every other payload type, every value can be\nbuilt. -/")
P("theorem C68_partial [Ext] (p : Payload) (h : p ∉ Spec.unbuildable) (h' : p ∉ Spec.onlyEmpty)\n    (hd : p ≠ .diagnostic) (x : p.Carrier) :\n    Api.Built p x := by\n  cases p")
for t in T:
    n = t[0]
    P(f"  case {low(n)} => exact " + ("absurd (by decide) h" if n in closed and "Result" not in n else "absurd (by decide) h'" if n in closed else "absurd rfl hd" if n == "Diagnostic" else f"built_{n} x"))
P("")
P(r"""section
attribute [local instance] Ext.sample
/-- Beside C68: a compile request can be built, a clean-cache request cannot, though it can be received. -/
example (u : Ext.Url) : Api.Built .buildTargetCompile (⟨⟨u⟩, some "o", none⟩ : BuildTargetCompile) ∧
    ¬ Api.Built .buildTargetCleanCache (⟨[⟨u⟩]⟩ : BuildTargetCleanCache) ∧
    BuildTargetCleanCache.dec (.obj [("targets", .arr [])]) = some ⟨[]⟩ :=
  ⟨C68_partial _ (by decide) (by decide) (by decide) _, fun h => C68_violated _ _ h (by decide), rfl⟩
/-- Beside C68_diagnostic: a diagnostic of severity 7 can be received but not built, one of severity 2 can be built. -/
example : (Diagnostic.dec (.obj [("range", .arr [.arr [.int 0, .int 0], .arr [.int 0, .int 1]]), ("message", .str "m"),
      ("severity", .int 7)]) = some ⟨⟨⟨0, 0⟩, ⟨0, 1⟩⟩, some 7, none, none, none, "m", none, none, none⟩ ∧
    ¬ Api.Built .diagnostic (⟨⟨⟨0, 0⟩, ⟨0, 1⟩⟩, some 7, none, none, none, "m", none, none, none⟩ : Diagnostic)) ∧
    Api.Built .diagnostic (⟨⟨⟨0, 0⟩, ⟨0, 1⟩⟩, some 2, none, none, none, "m", none, none, none⟩ : Diagnostic) :=
  ⟨⟨rfl, fun h => absurd ((C68_diagnostic _).1 h).1 (by simp)⟩, (C68_diagnostic _).2 (by simp [Spec.Named])⟩
end
""")
P("end Bsp")
open(root + "/lean/Verif/Props/Api.lean", "w").write("\n".join(out) + "\n")
