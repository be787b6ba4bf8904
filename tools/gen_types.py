#!/usr/bin/env python3
"""Writes lean/Verif/Types.lean: one structure, encoder, decoder and proofs per bsp-types struct.

The table below is the transcription of the struct definitions of bsp-types/src (names, serde
attributes, line numbers).  Types: S String, B bool, U u32, I i32, N usize, V Value, Url, K TaskDataKind,
E:<enum>, T:<struct>, L:<t> Vec, O:<t> Option.  Attributes: skip=none|empty|null|kind, d=default.
"""
R = "required"
T = []
def st(name, cite, fields, sdefault=False, comment=""):
    T.append((name, cite, fields, sdefault, comment))

st("BuildTargetIdentifier", "bsp-types/src/bt_identifier.rs:4-7", [("uri","uri","Url","")])
st("TextDocumentIdentifier", "lsp_types::TextDocumentIdentifier (bt_inverse_sources.rs:1, bt_dependency_sources.rs:16)", [("uri","uri","Url","")])
st("ClientCapabilities", "bsp-types/src/client_capabilities.rs:3-11", [("languageIds","languageIds","L:S","")])
st("InitializeBuild", "bsp-types/src/initialize_params.rs:8-39", [
  ("displayName","displayName","S",""),("version","version","S","skip=empty d"),("bspVersion","bspVersion","S","skip=empty d"),
  ("rootUri","rootUri","Url",""),("capabilities","capabilities","T:ClientCapabilities","d"),("data","data","O:V","skip=none d")])
for n,c in [("BuildTargetCleanCache","bsp-types/src/bt_clean_cache.rs:13-17"),("BuildTargetDependencyModules","bsp-types/src/bt_dependency_modules.rs:8-12"),
            ("BuildTargetResources","bsp-types/src/bt_resources.rs:11-14"),("BuildTargetSources","bsp-types/src/bt_sources.rs:5-12")]:
    st(n,c,[("targets","targets","L:T:BuildTargetIdentifier","")])
st("BuildTargetCompile","bsp-types/src/bt_compile.rs:7-21",[("target","target","T:BuildTargetIdentifier",""),("originId","originId","O:S","skip=none"),("arguments","arguments","O:S","skip=none")])
for n,c in [("BuildTargetRun","bsp-types/src/bt_run.rs:7-30"),("BuildTargetTest","bsp-types/src/bt_test.rs:8-31")]:
    st(n,c,[("target","target","T:BuildTargetIdentifier",""),("originId","originId","O:S","skip=none"),("arguments","arguments","O:S","skip=none"),
            ("dataKind","dataKind","O:S","skip=none"),("data","data","O:V","skip=none")])
for n,c in [("BuildTargetDependencySources","bsp-types/src/bt_dependency_sources.rs:13-17"),("TextDocumentInverseSources","bsp-types/src/bt_inverse_sources.rs:10-14")]:
    st(n,c,[("textDocument","textDocument","T:TextDocumentIdentifier","")])
st("DebugSessionStart","bsp-types/src/debug_session_start.rs:8-22",[("targets","targets","L:T:BuildTargetIdentifier",""),("dataKind","dataKind","S",""),("data","data","V","skip=null")],True)
# notifications
st("TaskId","bsp-types/src/task/id.rs:3-18",[("id","id","S",""),("parents","parents","L:S","skip=empty")],True)
st("ShowMessage","bsp-types/src/show_message.rs:13-30",[("typ","type","E:MessageType",""),("message","message","S",""),("task","task","O:T:TaskId","skip=none"),("originId","originId","O:S","skip=none")])
st("LogMessage","bsp-types/src/log_message.rs:13-30",[("typ","type","E:MessageType",""),("task","task","O:T:TaskId","skip=none"),("originId","originId","O:S","skip=none"),("message","message","S","")])
# lsp_types 0.93.0 (Cargo.lock:101), reached through publish_diagnostics.rs:22
lc=lambda n: "lsp_types::"+n+" (bsp-types/src/publish_diagnostics.rs:1, 22)"
st("Position",lc("Position"),[("line","line","U",""),("character","character","U","")])
st("Range",lc("Range"),[("start","start","T:Position",""),("end_","end","T:Position","")])
st("CodeDescription",lc("CodeDescription"),[("href","href","Url","")])
st("Location",lc("Location"),[("uri","uri","Url",""),("range","range","T:Range","")])
st("DiagnosticRelatedInformation",lc("DiagnosticRelatedInformation"),[("location","location","T:Location",""),("message","message","S","")])
st("Diagnostic",lc("Diagnostic"),[("range","range","T:Range",""),("severity","severity","O:I","skip=none"),("code","code","O:E:NumberOrString","skip=none"),
  ("codeDescription","codeDescription","O:T:CodeDescription","skip=none"),("source","source","O:S","skip=none"),("message","message","S",""),
  ("relatedInformation","relatedInformation","O:L:T:DiagnosticRelatedInformation","skip=none"),("tags","tags","O:L:I","skip=none"),("data","data","O:V","skip=none")])
st("PublishDiagnostics","bsp-types/src/publish_diagnostics.rs:6-27",[("textDocument","textDocument","T:TextDocumentIdentifier",""),("buildTarget","buildTarget","T:BuildTargetIdentifier",""),
  ("originId","originId","O:S",""),("diagnostics","diagnostics","L:T:Diagnostic",""),("reset","reset","B","")])
st("TaskStart","bsp-types/src/task/start.rs:6-30",[("taskId","taskId","T:TaskId",""),("eventTime","eventTime","O:U","skip=none"),("message","message","S","skip=empty"),
  ("dataKind","dataKind","K","skip=kind"),("data","data","V","skip=null")],True)
st("TaskFinish","bsp-types/src/task/finish.rs:7-34",[("taskId","taskId","T:TaskId",""),("eventTime","eventTime","O:U","skip=none"),("message","message","S","skip=empty"),("status","status","E:TaskStatus",""),
  ("dataKind","dataKind","K","skip=kind"),("data","data","V","skip=null")],True)
st("TaskProgress","bsp-types/src/task/progress.rs:7-41",[("taskId","taskId","T:TaskId",""),("eventTime","eventTime","O:U","skip=none"),("message","message","S","skip=empty"),
  ("total","total","O:U",""),("progress","progress","O:U",""),("unit","unit","S","skip=empty"),("dataKind","dataKind","K","skip=kind"),("data","data","V","skip=null")],True)
st("BuildTargetEvent","bsp-types/src/bt_did_change.rs:16-26",[("target","target","T:BuildTargetIdentifier",""),("kind","kind","O:E:BuildTargetEventKind","skip=none"),("data","data","O:V","skip=none")])
st("BuildTargetDidChange","bsp-types/src/bt_did_change.rs:7-10",[("changes","changes","L:T:BuildTargetEvent","")])
# results
for n,l in [("CompileProvider","3-7"),("TestProvider","9-13"),("RunProvider","15-19"),("DebugProvider","21-25")]:
    st(n,"bsp-types/src/providers.rs:"+l,[("languageIds","languageIds","L:S","")])
st("ServerCapabilities","bsp-types/src/server_capabilities.rs:5-57",
  [(k,k,"O:T:"+t,"skip=none") for k,t in [("compileProvider","CompileProvider"),("testProvider","TestProvider"),("runProvider","RunProvider"),("debugProvider","DebugProvider")]]+
  [(k,k,"O:B","skip=none") for k in ["inverseSourcesProvider","dependencySourcesProvider","dependencyModulesProvider","resourcesProvider","canReload","buildTargetChangedProvider"]])
st("InitializeBuildResult","bsp-types/src/initialize_result.rs:6-20",[("displayName","displayName","S",""),("version","version","S",""),("bspVersion","bspVersion","S",""),
  ("capabilities","capabilities","T:ServerCapabilities",""),("data","data","O:V","skip=none")])
st("BuildTargetCapabilities","bsp-types/src/bt_capabilities.rs:4-18",[(k,k,"B","") for k in ["canCompile","canTest","canRun","canDebug"]])
st("BuildTarget","bsp-types/src/workspace_build_targets.rs:15-54",[("id","id","T:BuildTargetIdentifier",""),("displayName","displayName","O:S","skip=none"),("baseDirectory","baseDirectory","O:S","skip=none"),
  ("tags","tags","L:E:BuildTargetTag",""),("capabilities","capabilities","T:BuildTargetCapabilities",""),("languageIds","languageIds","L:S",""),("dependencies","dependencies","L:T:BuildTargetIdentifier","")])
st("WorkspaceBuildTargetsResult","bsp-types/src/workspace_build_targets.rs:9-12",[("targets","targets","L:T:BuildTarget","")])
st("DebugSessionStartResult","bsp-types/src/debug_session_start.rs:64-68",[("uri","uri","Url","")])
st("Sources","bsp-types/src/bt_sources.rs:85-98",[("uri","uri","Url",""),("kind","kind","E:SourceKind",""),("generated","generated","B","")])
st("SourcesCollection","bsp-types/src/bt_sources.rs:51-57",[("target","target","T:BuildTargetIdentifier",""),("sources","sources","L:T:Sources","")])
st("BuildTargetSourcesResult","bsp-types/src/bt_sources.rs:30-33",[("items","items","L:T:SourcesCollection","")])
for n,c in [("BuildTargetCompileResult","bsp-types/src/bt_compile.rs:75-93"),("BuildTargetTestResult","bsp-types/src/bt_test.rs:111-129")]:
    st(n,c,[("originId","originId","O:S","skip=none"),("statusCode","statusCode","N",""),("dataKind","dataKind","O:S","skip=none"),("data","data","O:V","skip=none")])
st("BuildTargetRunResult","bsp-types/src/bt_run.rs:110-119",[("originId","originId","O:S","skip=none"),("statusCode","statusCode","N","")])
st("Resources","bsp-types/src/bt_resources.rs:58-63",[("target","target","T:BuildTargetIdentifier",""),("resources","resources","L:S","")])
st("BuildTargetResourcesResult","bsp-types/src/bt_resources.rs:37-40",[("items","items","L:T:Resources","")])
st("DependencyModule","bsp-types/src/bt_dependency_modules.rs:83-98",[("name","name","S",""),("version","version","S",""),("dataKind","dataKind","O:S",""),("data","data","O:V","")])
st("DependencyModulesItem","bsp-types/src/bt_dependency_modules.rs:56-60",[("target","target","T:BuildTargetIdentifier",""),("modules","modules","L:T:DependencyModule","")])
st("BuildTargetDependencyModulesResult","bsp-types/src/bt_dependency_modules.rs:35-38",[("items","items","L:T:DependencyModulesItem","")])
st("BuildTargetCleanCacheResult","bsp-types/src/bt_clean_cache.rs:40-47",[("message","message","O:S","skip=none"),("cleaned","cleaned","B","")])
st("BuildTargetInverseSourcesResult","bsp-types/src/bt_inverse_sources.rs:32-35",[("targets","targets","L:T:BuildTargetIdentifier","")])
st("DependencySourcesItem","bsp-types/src/bt_dependency_sources.rs:40-47",[("target","target","T:BuildTargetIdentifier",""),("sources","sources","L:S","")])
st("BuildTargetDependencySourcesResult","bsp-types/src/bt_dependency_sources.rs:35-38",[("items","items","L:T:DependencySourcesItem","")])

byname={t[0]:t for t in T}
def usesUrl(t):
    if t.startswith(("L:","O:")): return usesUrl(t[2:])
    if t=="Url": return True
    if t.startswith("T:"): return any(usesUrl(f[2]) for f in byname[t[2:]][2])
    return False
def needsNorm(t):
    if t=="O:V" or t=="K": return True
    if t.startswith(("L:","O:")): return needsNorm(t[2:])
    if t.startswith("T:"): return any(needsNorm(f[2]) for f in byname[t[2:]][2])
    return False
def ty(t):
    if t.startswith("L:"): return "List "+par(ty(t[2:]))
    if t.startswith("O:"): return "Option "+par(ty(t[2:]))
    if t[:2] in("T:","E:"): return t[2:]
    return {"S":"String","B":"Bool","U":"UInt32","N":"UInt64","V":"Value","Url":"Ext.Url","I":"Int32","K":"TaskDataKind"}[t]
def par(s): return "("+s+")" if " " in s else s
def enc(t):
    if t.startswith("L:"): return "encList "+par(enc(t[2:]))
    if t.startswith("O:"): return "encOpt "+par(enc(t[2:]))
    if t[:2] in("T:","E:"): return t[2:]+".enc"
    return {"S":"Json.str","B":"Json.bool","U":"encU32","N":"encUsize","V":"Value.json","Url":"encUrl","I":"encI32","K":"TaskDataKind.enc"}[t]
def dec(t):
    if t.startswith("L:"): return "decList "+par(dec(t[2:]))
    if t.startswith("O:"): return "decOpt "+par(dec(t[2:]))
    if t[:2] in("T:","E:"): return t[2:]+".dec"
    return {"S":"decStr","B":"decBool","U":"decU32","N":"decUsize","V":"decValue","Url":"decUrl","I":"decI32","K":"TaskDataKind.dec"}[t]
def lem(t):
    """proof of: forall x, dec (canon (enc x)) = some (norm x)"""
    if t.startswith("L:"):
        return ("dec_list " if needsNorm(t[2:]) else "dec_list_id ")+par(lem(t[2:]))
    if t[:2] in("T:","E:"): return t[2:]+".dec_enc"
    return {"S":"dec_str","B":"dec_bool","U":"dec_u32","N":"dec_usize","V":"dec_value","Url":"dec_url","I":"dec_i32","K":"TaskDataKind.dec_enc"}[t]
def nenull(t):
    if t in("S","B"): return "(by simp)"
    if t=="U": return "(by simp [encU32])"
    if t=="I": return "(by simp [encI32])"
    if t=="E:NumberOrString": return "NumberOrString.canon_enc_ne_null"
    if t.startswith("L:"): return "(by simp [encList])"
    if t.startswith("E:"): return "(fun x => by simp ["+t[2:]+".enc])"
    if t.startswith("T:"): return "(fun _ => canon_obj_ne_null _)"
    raise Exception(t)
def normE(t,x):
    if not needsNorm(t): return x
    if t=="O:V": return f"normData {x}"
    if t=="K": return f"{x}.norm"
    if t.startswith("L:"): return f"{x}.map {t[2:].split(':')[-1]}.norm"
    if t.startswith("T:"): return f"{x}.norm"
    raise Exception(t)
def default(t):
    if t.startswith("L:"): return "[]"
    if t.startswith("O:"): return "none"
    return {"S":'""',"V":"Value.null","K":"TaskDataKind.none","E:TaskStatus":"TaskStatus.ok","T:TaskId":"TaskId.default","T:ClientCapabilities":"ClientCapabilities.default"}[t]
def djson(t):
    if t.startswith("L:"): return ".arr []"
    if t.startswith("O:") or t in("V","K"): return ".null"
    return {"S":'.str ""',"E:TaskStatus":".int 1","T:TaskId":'.obj []',"T:ClientCapabilities":'.obj [("languageIds", .arr [])]'}[t]
def isdefault(f,sd): return sd or " d" in " "+f[3]
def skip(f):
    for a in f[3].split():
        if a.startswith("skip="): return a[5:]
    return ""
def encmem(f):
    n,k,t,_=f; s=skip(f)
    if s=="none": return f'skipNone "{k}" {par(enc(t[2:]))} x.{n}'
    if s=="empty":
        c=f'(x.{n} == "")' if t=="S" else f"x.{n}.isEmpty"
        return f'skipIf {c} "{k}" ({enc(t)} x.{n})'
    if s=="null": return f'skipIf x.{n}.isNull "{k}" x.{n}.json'
    if s=="kind": return f'skipIf x.{n}.isNone "{k}" x.{n}.enc'
    return f'fld "{k}" ({enc(t)} x.{n})'
def get(i,f,sd):
    n,k,t,_=f
    if isdefault(f,sd): return f's.dflt {i} "{k}" {default(t)} {par(dec(t))}'
    if t.startswith("O:"): return f's.opt {i} "{k}" {par(dec(t[2:]))}'
    return f's.req {i} "{k}" {par(dec(t))}'
out=[]
P=out.append
P('''/-
The data types of bsp-types/src, with their derived serialisers and deserialisers.
Generated by tools/gen_types.py from a transcription of the struct definitions; the enumerations
with hand-written or `serde_repr` code are in Verif/Enums.lean.

Naming: `T.enc` = `Serialize` (members in declaration order), `T.dec` = `Deserialize`,
`T.norm` = what is left after the wire (`Some(null)` data becomes `None`, a custom task data kind
with a reserved name becomes the reserved kind); types without `norm` come back unchanged.
`T.fields` = wire names in declaration order.
-/
import Verif.Enums

set_option linter.unusedSimpArgs false

namespace Bsp
open Json
''')
for name,cite,fields,sd,comment in T:
    u=any(usesUrl(f[2]) for f in fields)
    nn=any(needsNorm(f[2]) for f in fields)
    ext=" [Ext]" if u else ""
    lext=" [LawfulExt]" if u else ""
    P(f"/-! ### {name} -/\n")
    P(f"/-- {cite}. -/\nstructure {name}{ext} where")
    for f in fields: P(f"  {f[0]} : {ty(f[2])}")
    P("")
    P(f"namespace {name}\n")
    P(f"/-- Wire names of the fields, in declaration order. {cite}. -/\ndef fields : List String := ["+", ".join(f'"{f[1]}"' for f in fields)+"]\n")
    P(f"/-- Derived `Serialize`. {cite}. -/\ndef enc{ext} (x : {name}) : Json :=\n  .obj ("+"\n    ++ ".join(encmem(f) for f in fields)+")\n")
    if name in("ClientCapabilities","TaskId"):
        P(f"/-- Derived `Default`. {cite}. -/\ndef default : {name} := ⟨"+", ".join(default(f[2]) for f in fields)+"⟩\n")
    P(f"/-- Derived `Deserialize`{' with struct-level `default`' if sd else ''}. {cite}. -/\ndef dec{ext} (j : Json) : Option {name} := do")
    P("  let s ← structSrc fields j")
    for i,f in enumerate(fields): P(f"  let {f[0]} ← {get(i,f,sd)}")
    P("  return { "+", ".join(f[0] for f in fields)+" }\n")
    if nn:
        P(f"/-- What is left of a value after the wire. {cite}. -/\ndef norm{ext} (x : {name}) : {name} :=\n  {{ x with "+", ".join(f"{f[0]} := {normE(f[2],'x.'+f[0])}" for f in fields if needsNorm(f[2]))+" }\n")
    # round trip
    res="x.norm" if nn else "x"
    P(f"theorem dec_enc{lext} (x : {name}) : dec (canon (enc x)) = some {res} := by")
    P("  simp only [dec, enc, structSrc_canon_obj]")
    L="lookupLast_append, lookupLast_fld, lookupLast_skipNone, lookupLast_skipIf"
    P(f"  generalize hms : ({' ++ '.join(encmem(f) for f in fields)} : Members) = ms")
    for i,f in enumerate(fields):
        n,k,t,_=f; s=skip(f); hl=f"(by subst hms; simp [{L}])"
        if isdefault(f,sd):
            nv=normE(t,'x.'+n)
            P(f'  have h{i} : (Src.map (canonMembers ms [])).dflt {i} "{k}" {default(t)} {par(dec(t))} = some ({nv}) := by')
            if t.startswith("O:") and s=="none":
                P(f"    refine dflt_canon {i} (o := x.{n}.map {par(enc(t[2:]))}) {hl} ?_ ?_")
                P(f"    · intro h; cases hx : x.{n} with")
                P(f"      | none => rfl")
                P(f"      | some v => simp [hx] at h")
                P(f"    · intro j hj; cases hx : x.{n} with")
                P(f"      | none => simp [hx] at hj")
                if t=="O:V":
                    P(f"      | some v => rw [hx] at hj; cases hj; exact decOpt_value v")
                else:
                    P(f"      | some v => rw [hx] at hj; cases hj; exact decOpt_canon (n := _root_.id) {nenull(t[2:])} {par(lem(t[2:]))} v")
            elif t.startswith("O:"):
                P(f"    refine dflt_canon {i} (o := some (encOpt {par(enc(t[2:]))} x.{n})) {hl} (by simp) ?_")
                P(f"    intro j hj; cases hj; cases hx : x.{n} with")
                P(f"      | none => simp [encOpt, decOpt]")
                P(f"      | some v => exact decOpt_canon (n := _root_.id) {nenull(t[2:])} {par(lem(t[2:]))} v")
            elif s:
                c={"empty":f'(x.{n} == "")' if t=="S" else f"x.{n}.isEmpty","null":f"x.{n}.isNull","kind":f"x.{n}.isNone"}[s]
                P(f"    refine dflt_canon {i} (o := if {c} then none else some ({enc(t)} x.{n})) {hl} ?_ ?_")
                pf={"empty":"simp at h; simp [h]","null":"simp [Value.isNull_iff] at h; simp [h]","kind":"simp at h; exact (TaskDataKind.norm_of_isNone h).symm"}[s]
                P(f"    · intro h; {pf}")
                P(f"    · intro j hj; split at hj\n      · cases hj\n      · cases hj; exact {lem(t)} x.{n}")
            else:
                P(f"    refine dflt_canon {i} (o := some ({enc(t)} x.{n})) {hl} (by simp) ?_")
                P(f"    intro j hj; cases hj; exact {lem(t)} x.{n}")
        elif t.startswith("O:"):
            it=t[2:]
            l="opt_canon_skip" if s=="none" else "opt_canon_keep"
            if t=="O:V":
                P(f'  have h{i} : (Src.map (canonMembers ms [])).opt {i} "{k}" {par(dec(it))} = some (normData x.{n}) :=')
                P(f"    {l} (enc := {enc(it)}) (o := x.{n}) (n := normData) {i} {hl} rfl decOpt_value")
            else:
                P(f'  have h{i} : (Src.map (canonMembers ms [])).opt {i} "{k}" {par(dec(it))} = some x.{n} := by')
                P(f'    have := {l} (k := "{k}") (ms := ms) (dec := {dec(it)}) (enc := {enc(it)}) (o := x.{n}) (n := Option.map _root_.id) {i} {hl} rfl (decOpt_canon (n := _root_.id) {nenull(it)} {par(lem(it))})')
                P(f"    simpa using this")
        else:
            P(f'  have h{i} : (Src.map (canonMembers ms [])).req {i} "{k}" {par(dec(t))} = some ({normE(t,"x."+n)}) :=')
            P(f"    req_canon (j := {enc(t)} x.{n}) {i} {hl} ({lem(t)} x.{n})")
    P("  exact (bind_of_some rfl).trans "+"".join(f"((bind_of_some h{i}).trans " for i in range(len(fields)-1))+f"(bind_of_some h{len(fields)-1})"+")"*(len(fields)-1)+"\n")
    # congruence
    P(f"theorem dec_congr{ext} {{a b : Members}} (h : SameOn fields a b) : dec (.obj a) = dec (.obj b) := by")
    for i,f in enumerate(fields): P(f'  have h{i} : List.lookup "{f[1]}" a = List.lookup "{f[1]}" b := h.lookup (by simp [fields])')
    P("  simp only [dec, structSrc, h.dup]")
    P("  split\n  · rfl")
    P("  · simp only [Option.bind_eq_bind, Option.bind_some, Src.req, Src.opt, Src.dflt, Src.get, "+", ".join(f"h{i}" for i in range(len(fields)))+"]\n")
    for i,f in enumerate(fields):
        n,k,t,_=f
        if not isdefault(f,sd) and not t.startswith("O:"):
            P(f'theorem dec_missing_{n}{ext} {{ms : Members}} (h : List.lookup "{k}" ms = none) :\n    dec (.obj ms) = none := by')
            P("  simp only [dec, structSrc]")
            P("  split\n  · rfl\n  · simp [Src.req, Src.get, h]\n")
        else:
            P(f'theorem dec_absent_{n}{ext} {{ms : Members}} (h : List.lookup "{k}" ms = none) :\n    dec (.obj ms) = dec (.obj (("{k}", {djson(t)}) :: ms)) := by')
            P("  simp only [dec, structSrc, dupKnown_cons fields _ _ h]")
            d=[]
            if t.startswith("L:"): d=["decList"]
            elif t=="S": d=["decStr"]
            elif t=="V": d=["decValue"]
            elif t=="K": d=["TaskDataKind.dec","decStr"]
            elif t.startswith("O:"): d=["decOpt"]
            elif t=="E:TaskStatus": d=["TaskStatus.dec"]
            extra=""
            if t=="T:TaskId": d=["TaskId.dec_default"]
            if t=="T:ClientCapabilities": d=["ClientCapabilities.dec_default"]
            rw="simp [Src.req, Src.opt, Src.dflt, Src.get, lookup_cons', h, "+", ".join(d)+"]"
            P("  split\n  · rfl\n  · "+rw+("" if t!="V" else "; rfl")+"\n")
    if name=="ClientCapabilities":
        P('theorem dec_default : dec (.obj [("languageIds", .arr [])]) = some default := by')
        P('  simp [dec, structSrc, dupKnown, fields, named, Src.req, Src.get, decList, default, List.lookup]\n')
    if name=="TaskId":
        P('theorem dec_default : dec (.obj []) = some default := by')
        P('  simp [dec, structSrc, dupKnown, fields, named, Src.dflt, Src.get, default]\n')
    P(f"end {name}\n")
P("end Bsp")
open("/verif/lean/Verif/Types.lean","w").write("\n".join(out)+"\n")

# ---------------------------------------------------------------- Payload.lean
out=[]
P=out.append
low=lambda n: n[0].lower()+n[1:]
P('''/-
All payload types under one index, their schema (a specification written as a table, independent of
the encoders and decoders), and the generic statements about them.
Generated by tools/gen_types.py.
-/
import Verif.Types

set_option linter.unusedSimpArgs false

namespace Bsp
open Json

/-- The names of the built-in task data kinds (specification of bsp-types/src/task/kind.rs:8-53). -/
def reservedKinds : List String :=
  ["compile-task", "compile-report", "test-task", "test-report", "test-start", "test-finish"]

theorem normData_plain {o : Option Value} (h : o ≠ some Value.null) : normData o = o := by
  cases o with
  | none => rfl
  | some v =>
    have : v.isNull = false := by
      cases hn : v.isNull with
      | false => rfl
      | true => rw [Value.isNull_iff] at hn; exact absurd (by rw [hn]) h
    simp [normData, this]

theorem TaskDataKind.norm_plain {k : TaskDataKind} (h : ∀ s ∈ reservedKinds, k ≠ .custom s) :
    k.norm = k := by
  cases k with
  | custom s =>
    have hs : s ∉ reservedKinds := fun hs => h s hs rfl
    simp [reservedKinds] at hs
    simp [norm, ofString, hs]
  | _ => rfl

theorem map_plain {f : α → α} {xs : List α} (h : ∀ x ∈ xs, f x = x) : xs.map f = xs := by
  induction xs with
  | nil => rfl
  | cons x xs ih =>
    rw [List.map_cons, h x (by simp), ih (fun y hy => h y (by simp [hy]))]

/-- Index of the payload types exported by bsp-types/src/lib.rs:1-56. -/
inductive Payload where''')
for t in T: P(f"  | {low(t[0])}")
P("deriving DecidableEq, Repr\n")
P("namespace Payload\n")
P("/-- The Lean type modelling the Rust type (bsp-types/src/lib.rs:1-56; lines at each type in Types). -/\n@[reducible] def Carrier [Ext] : Payload → Type")
for t in T: P(f"  | .{low(t[0])} => {t[0]}")
P("\n/-- Its serialiser (bsp-types/src/lib.rs:1-56; lines at each type in Types). -/\ndef enc [Ext] : (p : Payload) → p.Carrier → Json")
for t in T: P(f"  | .{low(t[0])}, x => {t[0]}.enc x")
P("\n/-- Its deserialiser (bsp-types/src/lib.rs:1-56; lines at each type in Types). -/\ndef dec [Ext] : (p : Payload) → Json → Option p.Carrier")
for t in T: P(f"  | .{low(t[0])}, j => {t[0]}.dec j")
P("\n/-- What is left after the wire: specification of the types of bsp-types/src/lib.rs:1-56. -/\ndef norm [Ext] : (p : Payload) → p.Carrier → p.Carrier")
for t in T:
    nn=any(needsNorm(f[2]) for f in t[2])
    P(f"  | .{low(t[0])}, x => {t[0]+'.norm x' if nn else 'x'}")
P('''
/-- When a member is left out of the encoding: specification of the `skip_serializing_if` of the types
of bsp-types/src/lib.rs:1-56. -/
inductive Omit where
  /-- never -/
  | never
  /-- when its value would be this one -/
  | whenEq (j : Json)
  /-- when the optional JSON datum is absent (a present null is written) -/
  | absentData

/-- Specification of one member of the types of bsp-types/src/lib.rs:1-56. -/
structure FieldSpec where
  /-- wire name -/
  name : String
  /-- `none`: required; `some d`: when absent, the same as if it were `d` -/
  absent : Option Json
  /-- when it is left out -/
  skip : Omit

/-- The schema of every payload type: what the doc comments and serde attributes promise
(bsp-types/src/lib.rs:1-56 and the files it names). -/
def schema : Payload → List FieldSpec''')
def fspec(f,sd):
    n,k,t,_=f
    a="none" if not isdefault(f,sd) and not t.startswith("O:") else f"some ({djson(t)})"
    s=skip(f)
    if s=="": o=".never"
    elif t=="O:V": o=".absentData"
    else: o=".whenEq ("+{"none":".null","empty":'.str ""' if t=="S" else ".arr []","null":".null","kind":".null"}[s]+")"
    return f'⟨"{k}", {a}, {o}⟩'
for t in T:
    P(f"  | .{low(t[0])} => [\n      "+",\n      ".join(fspec(f,t[3]) for f in t[2])+"]")
P('''
/-- Wire names of a payload type of bsp-types/src/lib.rs:1-56, in order. -/
def names (p : Payload) : List String := p.schema.map (·.name)

/-- Every payload value is decoded from its encoding (converted to a `Value`) to itself,
up to `norm`. -/
theorem dec_enc [LawfulExt] (p : Payload) (x : p.Carrier) :
    p.dec (canon (p.enc x)) = some (p.norm x) := by
  cases p''')
for t in T: P(f"  · exact {t[0]}.dec_enc x")
P('''
/-- Only the members named in the schema matter, and not their order relative to others. -/
theorem dec_congr [Ext] (p : Payload) {a b : Members} (h : SameOn p.names a b) :
    p.dec (.obj a) = p.dec (.obj b) := by
  cases p''')
for t in T: P(f"  · exact {t[0]}.dec_congr h")
P('''
/-- A known member that occurs twice is rejected. -/
theorem dec_dup [Ext] (p : Payload) {ms : Members} (h : dupKnown p.names ms = true) :
    p.dec (.obj ms) = none := by
  cases p <;> (simp only [names, schema, List.map_cons, List.map_nil] at h)''')
for t in T: P(f"  · simp only [dec, {t[0]}.dec, structSrc, {t[0]}.fields, h]; rfl")
P('''
/-- A required member is required. -/
theorem dec_missing [Ext] (p : Payload) (f : FieldSpec) (hf : f ∈ p.schema) (hr : f.absent = none)
    {ms : Members} (h : List.lookup f.name ms = none) : p.dec (.obj ms) = none := by
  cases p <;> simp only [schema, List.mem_cons, List.not_mem_nil, or_false] at hf''')
def alts(t,fn):
    fs=t[2]
    if len(fs)==1: pat="rfl"
    else: pat=" | ".join(["rfl"]*len(fs))
    P(f"  · rcases hf with {pat}")
    for f in fs: P("    · "+fn(t,f))
isreq=lambda t,f: not isdefault(f,t[3]) and not f[2].startswith("O:")
for t in T: alts(t,lambda t,f: f"exact {t[0]}.dec_missing_{f[0]} h" if isreq(t,f) else "cases hr")
P('''
/-- An absent optional or defaulted member is the same as its default. -/
theorem dec_absent [Ext] (p : Payload) (f : FieldSpec) (hf : f ∈ p.schema) (d : Json)
    (hd : f.absent = some d) {ms : Members} (h : List.lookup f.name ms = none) :
    p.dec (.obj ms) = p.dec (.obj ((f.name, d) :: ms)) := by
  cases p <;> simp only [schema, List.mem_cons, List.not_mem_nil, or_false] at hf''')
for t in T: alts(t,lambda t,f: "cases hd" if isreq(t,f) else f"cases hd; exact {t[0]}.dec_absent_{f[0]} h")
P('''
/-- The members of an encoding, in order: specification for bsp-types/src/lib.rs:1-56. -/
def members [Ext] (p : Payload) (x : p.Carrier) : Members :=
  match p.enc x with
  | .obj ms => ms
  | _ => []

theorem enc_eq_obj [Ext] (p : Payload) (x : p.Carrier) : p.enc x = .obj (p.members x) := by
  cases p <;> rfl

private theorem keys_fld (k : String) (j : Json) :
    ((fld k j).map (·.1)).Sublist [k] := List.Sublist.refl _
private theorem keys_skipNone (k : String) (enc : α → Json) (o : Option α) :
    ((skipNone k enc o).map (·.1)).Sublist [k] := by cases o <;> simp [skipNone]
private theorem keys_skipIf (k : String) (c : Bool) (j : Json) :
    ((skipIf c k j).map (·.1)).Sublist [k] := by cases c <;> simp [skipIf]

/-- Only members of the schema are written, each at most once, in schema order. -/
theorem enc_keys [Ext] (p : Payload) (x : p.Carrier) :
    ((p.members x).map (·.1)).Sublist p.names := by
  cases p <;> simp only [members, enc, names, schema, List.map_cons, List.map_nil, List.map_append]''')
def ksub(f):
    s=skip(f)
    if s=="": return f'(keys_fld "{f[1]}" _)'
    if s=="none": return f'(keys_skipNone "{f[1]}" _ _)'
    return f'(keys_skipIf "{f[1]}" _ _)'
for t in T:
    e=ksub(t[2][0])
    for f in t[2][1:]: e=f"({e}.append {ksub(f)})"
    P(f"  · simp only [{t[0]}.enc, List.map_append]; exact {e}")
P('''
/-- Members never omitted are always there. -/
theorem enc_present [Ext] (p : Payload) (x : p.Carrier) (f : FieldSpec) (hf : f ∈ p.schema)
    (hn : f.skip = .never) : List.lookup f.name (p.members x) ≠ none := by
  intro h
  rw [lookup_none_iff] at h
  cases p <;> simp only [schema, List.mem_cons, List.not_mem_nil, or_false] at hf''')
for t in T: alts(t,lambda t,f: "cases hn" if skip(f) else f"simp [members, enc, {t[0]}.enc, named, fld] at h")
P('''
/-- A member with an omission rule is never written with the omitted value. -/
theorem enc_omitted [Ext] (p : Payload) (x : p.Carrier) (f : FieldSpec) (hf : f ∈ p.schema) (j : Json)
    (hj : f.skip = .whenEq j) : (f.name, j) ∉ p.members x := by
  intro h
  cases p <;> simp only [schema, List.mem_cons, List.not_mem_nil, or_false] at hf''')
def om(t,f):
    if not skip(f) or f[2]=="O:V": return "cases hj"
    tt=f[2]; n=f[0]
    it=tt[2:] if tt.startswith("O:") else tt
    encs="NumberOrString.enc_ne_null" if it=="E:NumberOrString" else f"{it[2:]}.enc, " if it[:2] in("E:","T:") else "encU32, " if it=="U" else "encI32" if it=="I" else "encList" if it[:2]=="L:" else ""
    if tt=="S": fin=f"simp [members, enc, {t[0]}.enc, fld, skipNone_mem, skipIf_mem] at h"
    elif tt=="L:S": fin=f"simp [members, enc, {t[0]}.enc, fld, skipNone_mem, skipIf_mem, encList] at h"
    elif tt=="V": fin=f"simp [members, enc, {t[0]}.enc, fld, skipNone_mem, skipIf_mem, Value.isNull] at h; exact h.1 h.2.symm"
    elif tt=="K": fin=f"simp [members, enc, {t[0]}.enc, fld, skipNone_mem, skipIf_mem] at h; exact TaskDataKind.enc_ne_null h.1 h.2"
    else: fin=f"simp [members, enc, {t[0]}.enc, fld, skipNone_mem, skipIf_mem, {encs}] at h"
    return "cases hj; "+fin
for t in T: alts(t,om)
P("""
/-- Values that come back from the wire unchanged: no optional datum that is present but null, no
custom task data kind with a reserved name (specification for the types of bsp-types/src/lib.rs:1-56,
used in C29-C31). -/
def Plain [Ext] : (p : Payload) → p.Carrier → Prop""")
def plainE(t,x):
    if t=="O:V": return f"{x} ≠ some Value.null"
    if t=="K": return f"(∀ s ∈ reservedKinds, {x} ≠ .custom s)"
    if t.startswith("L:T:"):
        inner=byname[t[4:]]
        y={"x":"e","e":"f","f":"g"}[x.split(".")[0]]
        return f"(∀ {y} ∈ {x}, "+" ∧ ".join(plainE(f[2],y+"."+f[0]) for f in inner[2] if needsNorm(f[2]))+")"
    raise Exception(t)
for t in T:
    nn=[f for f in t[2] if needsNorm(f[2])]
    if nn: P(f"  | .{low(t[0])}, x => "+" ∧ ".join(plainE(f[2],"x."+f[0]) for f in nn))
P("  | _, _ => True")
P("")
for t in T:
    nn=[f for f in t[2] if needsNorm(f[2])]
    if not nn: continue
    n=t[0]
    f=nn[0]
    P(f"private theorem {low(n)}_plain [Ext] (x : {n}) (h : Plain .{low(n)} x) : {n}.norm x = x := by")
    if f[2]=="O:V": P(f"  simp only [{n}.norm, normData_plain h]")
    elif f[2]=="K": P(f"  simp only [{n}.norm, TaskDataKind.norm_plain h]")
    else:
        P(f"  simp only [{n}.norm]")
        P(f"  rw [map_plain (fun e he => {low(f[2][4:])}_plain e (h e he))]")
P("""
theorem norm_plain [Ext] (p : Payload) (x : p.Carrier) (h : p.Plain x) : p.norm x = x := by
  cases p <;> try rfl""")
for t in T:
    if any(needsNorm(f[2]) for f in t[2]): P(f"  · exact {low(t[0])}_plain x h")
P("\nend Payload\nend Bsp")
open("/verif/lean/Verif/Payload.lean","w").write("\n".join(out)+"\n")

# ---------------------------------------------------------------- Received.lean
out=[]
P=out.append
P("""/-
What the decoders of the payload types deliver: every field in terms of the tree (`dec_inv`), values
that are plain (`plain_of_dec`), and values that, encoded again, do not nest deeper than the tree
(`keeps`).  Generated by tools/gen_types.py.
-/
import Verif.Keeps

set_option linter.unusedVariables false

namespace Bsp
open Json Spec
""")
def cst(t):
    if t.startswith("L:"): return 1+cst(t[2:])
    if t.startswith("O:"): return cst(t[2:])
    if t.startswith("T:"): return 1+max(cst(f[2]) for f in byname[t[2:]][2])
    if t=="E:BuildTargetTag": return 1
    return 0
def kp(t):
    if t.startswith("L:"): return f"(keeps_list' (by omega) {kp(t[2:])})"
    if t.startswith("O:"): return f"(keeps_opt {kp(t[2:])})"
    if t.startswith("T:"): return f"({t[2:]}.keeps (by omega))"
    if t=="E:BuildTargetTag": return "(keeps_buildTargetTag (by omega))"
    if t.startswith("E:"): return f"(keeps_{low(t[2:])} _)"
    return {"S":"(keeps_str _)","B":"(keeps_bool _)","U":"(keeps_u32 _)","I":"(keeps_i32 _)","N":"(keeps_usize _)","V":"(keeps_value _)","Url":"(keeps_url _)","K":"(keeps_kind _)"}[t]
def dflt(t):
    if t.startswith("L:"): return "(fits_nil (by omega))"
    if t.startswith("O:"): return "(y := none) (fits_null _)"
    return {"S":"(fits_str _ _)","V":"(y := Value.null) (fits_null _)","K":"(y := TaskDataKind.none) (fits_null _)",
      "E:TaskStatus":"(y := TaskStatus.ok) (fits_int _ (by decide) (by decide))",
      "T:TaskId":"(y := TaskId.default) (TaskId.keeps (by omega) _ _ TaskId.dec_default (fits_mono (a := 1) (by omega) (fits_obj.2 (fun m hm => by simp at hm))))",
      "T:ClientCapabilities":"(y := ClientCapabilities.default) (ClientCapabilities.keeps (by omega) _ _ ClientCapabilities.dec_default (fits_mono (a := 2) (by omega) (fits_obj.2 (fitsAll_fld (k := \"languageIds\") (fits_nil (by omega))))))"}[t]
for name,cite,fields,sd,comment in T:
    u=any(usesUrl(f[2]) for f in fields)
    nn=any(needsNorm(f[2]) for f in fields)
    ext=" [Ext]" if u else ""
    n=len(fields)
    P(f"/-! ### {name} -/\n")
    P(f"namespace {name}\n")
    P(f"theorem dec_inv{ext} {{j : Json}} {{x : {name}}} (h : dec j = some x) :\n    ∃ s, structSrc fields j = some s ∧ "+" ∧\n      ".join(f"{get(i,f,sd)} = some x.{f[0]}" for i,f in enumerate(fields))+" := by")
    P("  simp only [dec, Option.bind_eq_bind, Option.bind_eq_some_iff] at h")
    P("  obtain ⟨s, hs, "+", ".join(f"a{i}, h{i}" for i in range(n))+", e⟩ := h")
    P("  cases e")
    P("  exact ⟨s, hs, "+", ".join(f"h{i}" for i in range(n))+"⟩\n")
    P(f"theorem keeps{ext} {{d : Nat}} (hd : {cst('T:'+name)} ≤ d) : Keeps d {'dec' if not u else 'dec'} enc := by")
    P("  intro j x h hj")
    P("  obtain ⟨d, rfl⟩ : ∃ e, d = e + 1 := ⟨d - 1, by omega⟩")
    P("  obtain ⟨s, hs, "+", ".join(f"h{i}" for i in range(n))+"⟩ := dec_inv h")
    ts=[]
    for i,f in enumerate(fields):
        _,k,t,_2=f; s=skip(f)
        if isdefault(f,sd):
            if t.startswith("O:") and s=="none": g=f"fitsAll_skipNone (dflt_opt_fits {kp(t[2:])} hs hj h{i})"
            else:
                g=f"(dflt_fits {kp(t)} hs hj {dflt(t)} h{i})"
                g=("fitsAll_skipIf " if s else "fitsAll_fld ")+g
        elif t.startswith("O:"):
            g=f"fitsAll_skipNone (opt_fits {kp(t[2:])} hs hj h{i})" if s=="none" else f"fitsAll_fld (opt_keep_fits {kp(t[2:])} hs hj h{i})"
        else:
            g=("fitsAll_skipIf " if s else "fitsAll_fld ")+f"(req_fits {kp(t)} hs hj h{i})"
        ts.append("("+g+")")
    a=ts[0]
    for b in ts[1:]: a=f"(fitsAll_append {a}\n    {b})"
    P(f"  exact fits_obj.2 {a}\n")
    if nn:
        P(f"theorem plain_of_dec [Ext] {{j : Json}} {{x : {name}}} (h : dec j = some x) : Payload.Plain .{low(name)} x := by")
        P("  obtain ⟨s, hs, "+", ".join(f"h{i}" for i in range(n))+"⟩ := dec_inv h")
        fs=[(i,f) for i,f in enumerate(fields) if needsNorm(f[2])]
        assert len(fs)==1
        i,f=fs[0]; t=f[2]
        if t=="O:V": P(f"  exact {'dflt' if isdefault(f,sd) else 'opt'}_value_plain h{i}\n")
        elif t=="K": P(f"  exact dflt_kind_plain h{i}\n")
        elif t.startswith("L:T:"): P(f"  exact req_list_plain (fun _ _ h => {t[4:]}.plain_of_dec h) h{i}\n")
        else: raise Exception(t)
    P(f"end {name}\n")
P("theorem Payload.plain_of_dec [Ext] (p : Payload) {j : Json} {x : p.Carrier} (h : p.dec j = some x) : p.Plain x := by")
P("  cases p <;> try trivial")
for name,cite,fields,sd,comment in T:
    if any(needsNorm(f[2]) for f in fields): P(f"  · exact {name}.plain_of_dec h")
P("")
P("theorem Payload.keeps [Ext] (p : Payload) {d : Nat} (hd : 10 ≤ d) :\n    Keeps d p.dec p.enc := by")
P("  cases p")
for name,cite,fields,sd,comment in T:
    P(f"  · exact {name}.keeps (by omega)")
P("")
P("end Bsp")
open("/verif/lean/Verif/Received.lean","w").write("\n".join(out)+"\n")

# ---------------------------------------------------------------- SchemaTable.lean
out=[]
P=out.append
P("""/-
The schema of every payload type in the language of Verif/Schema.lean (a table: the members in order, what
their absence means, when they are left out, what they hold), and the proof that the decoders and encoders
of Verif/Types.lean follow it.  Generated by tools/gen_types.py.
-/
import Verif.Schema
import Verif.Received

set_option linter.unusedVariables false
set_option linter.unusedSimpArgs false

namespace Bsp
open Json Spec
""")
def sty(t):
    if t.startswith("L:"): return ".list "+par(sty(t[2:]))
    if t.startswith("O:"): return ".opt "+par(sty(t[2:]))
    if t.startswith("T:"): return t[2:]+".ty"
    return {"S":".str","B":".bool","U":".int 0 (2 ^ 32)","N":".int 0 (2 ^ 64)","V":".any","Url":".url","I":".int (-2 ^ 31) (2 ^ 31)","K":".kind",
      "E:MessageType":".codes [1, 2, 3, 4]","E:TaskStatus":".codes [1, 2, 3]","E:BuildTargetEventKind":".codes [1, 2, 3]","E:SourceKind":".codes [1, 2]",
      "E:BuildTargetTag":".tag","E:NumberOrString":".numOrStr"}[t]
def fol(t):
    if t.startswith("L:"): return "(follows_list "+fol(t[2:])+")"
    if t.startswith("O:"): return "(follows_opt "+fol(t[2:])+")"
    if t.startswith("T:"): return t[2:]+".follows"
    if t.startswith("E:"): return "follows_"+low(t[2:])
    return {"S":"follows_str","B":"follows_bool","U":"follows_u32","N":"follows_usize","V":"follows_value","Url":"follows_url","I":"follows_i32","K":"follows_kind"}[t]
def sabs(f,sd):
    t=f[2]
    if isdefault(f,sd): return f"(.default ({djson(t)}))"
    return ".optional" if t.startswith("O:") else ".required"
def somit(f):
    s=skip(f); t=f[2]
    if not s: return "none"
    return "(some ("+{"none":".null","empty":'.str ""' if t=="S" else ".arr []","null":".null","kind":".null"}[s]+"))"
def dclean(t):
    if t=="T:TaskId": return "(by simp [TaskId.enc, TaskId.default, TaskId.ty, TaskId.tyFields, clean, cleanMap, put, fld, skipIf, Absent.tree])"
    if t=="T:ClientCapabilities": return "(by simp [ClientCapabilities.enc, ClientCapabilities.default, ClientCapabilities.ty, ClientCapabilities.tyFields, clean, cleanMap, put, fld, List.lookup, encList])"
    if t.startswith("L:"): return "(by simp [encList, clean])"
    if t.startswith("O:"): return "(by simp [encOpt, clean])"
    return {"S":"(by simp [clean])","L:S":"(by simp [encList, clean])","K":"(by simp [TaskDataKind.enc, clean])","V":"(by simp only [clean, canon_null]; rfl)","E:TaskStatus":"(by simp [TaskStatus.enc, TaskStatus.code, clean])"}[t]
def nn2(t,h,f,sd):
    if t=="V": return f"(fun v hv => Value.json_ne_null ({'dflt' if isdefault(f,sd) else 'opt'}_value_plain {h}) hv)"
    if t in("S","B"): return "(by simp)"
    if t=="U": return "(by simp [encU32])"
    if t=="I": return "(by simp [encI32])"
    if t=="E:NumberOrString": return "(fun v _ => v.enc_ne_null)"
    if t.startswith("L:"): return "(by simp [encList])"
    return f"(by simp [{t[2:]}.enc])"
for name,cite,fields,sd,comment in T:
    u=any(usesUrl(f[2]) for f in fields)
    n=len(fields)
    P(f"/-! ### {name} -/\n")
    P(f"namespace {name}\n")
    e=".nil"
    rows=[f'.cons "{f[1]}" {sabs(f,sd)} {somit(f)} {par(sty(f[2]))} <|' for f in fields]
    P(f"/-- The members. {cite}. -/\ndef tyFields : Fields :=\n  "+"\n  ".join(rows)+"\n  .nil\n")
    P(f"/-- The schema. {cite}. -/\ndef ty : Ty := .struct tyFields\n")
    # dec_of
    P(f"theorem follows [Ext] : Follows ty dec enc := by")
    for i,f in enumerate(fields):
        t=f[2]
        if isdefault(f,sd): g=f"got_dflt {fol(t)} {dclean(t)} s"
        elif t.startswith("O:"): g=f"got_opt {fol(t[2:])} s"
        else: g=f"got_req {fol(t)} s"
        P(f'  have g{i} : ∀ s : Src, Got s {i} "{f[1]}" {sabs(f,sd)} ({sty(t)}) ({get(i,f,sd)}) ({enc(t)}) :=\n    fun s => {g}')
    P("  refine follows_struct (fields := fields) rfl (fun j h => by simp only [dec, h]; rfl) ?_ ?_")
    P("  · intro j s hs")
    P("    constructor")
    P("    · intro h")
    P("      obtain ⟨x, hx⟩ := Option.isSome_iff_exists.1 h")
    P("      obtain ⟨s', hs', "+", ".join(f"h{i}" for i in range(n))+"⟩ := dec_inv hx")
    P("      cases hs'.symm.trans hs")
    P("      exact ⟨"+", ".join(f"(g{i} s).ok h{i}" for i in range(n))+", trivial⟩")
    P("    · rintro ⟨"+", ".join(f"o{i}" for i in range(n))+", -⟩")
    for i in range(n): P(f"      obtain ⟨a{i}, h{i}⟩ := (g{i} s).some o{i}")
    P("      have : dec j = some _ := (bind_of_some hs).trans "+"".join(f"((bind_of_some h{i}).trans " for i in range(n-1))+f"(bind_of_some h{n-1})"+")"*(n-1))
    P("      rw [this]; rfl")
    P("  · intro j s x hs hx")
    P("    obtain ⟨s', hs', "+", ".join(f"h{i}" for i in range(n))+"⟩ := dec_inv hx")
    P("    cases hs'.symm.trans hs")
    for i,f in enumerate(fields):
        nm,k,t,_=f; s=skip(f)
        v=f"((g{i} s).2 _ h{i})"
        if s=="": pf=f"put_fld {v}"
        elif s=="none": pf=f"put_skipNone {v} {nn2(t[2:],f'h{i}',f,sd)}"
        elif s=="empty" and t=="S": pf=f"put_skipIf {v} str_empty"
        elif s=="empty": pf=f"put_skipIf {v} (by simp [encList])"
        elif s=="null": pf=f"put_skipIf {v} value_null_json"
        elif s=="kind": pf=f"put_skipIf {v} (by cases x.{nm} <;> simp [TaskDataKind.isNone, TaskDataKind.enc])"
        P(f'    have e{i} : {encmem(f)} = put "{k}" {somit(f)} (clean ({sty(t)}) ((s.get {i} "{k}").getD {sabs(f,sd) if sabs(f,sd)[0]=="(" else "Absent"+sabs(f,sd)}.tree)) :=\n      {pf}'.replace(".getD (.default",".getD (Absent.default"))
    P("    simp only [enc, "+", ".join(f"e{i}" for i in range(n))+", tyFields, allClean, List.append_assoc, List.append_nil]\n")
    P(f"end {name}\n")
P("/-- The schema of every payload type of bsp-types/src/lib.rs:1-56. -/\ndef Payload.ty : Payload → Ty")
for t in T: P(f"  | .{low(t[0])} => {t[0]}.ty")
P("\ntheorem Payload.follows [Ext] (p : Payload) : Follows p.ty p.dec p.enc := by\n  cases p")
for t in T: P(f"  · exact {t[0]}.follows")
P("")
P("end Bsp")
open("/verif/lean/Verif/SchemaTable.lean","w").write("\n".join(out)+"\n")
