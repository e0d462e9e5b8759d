#!/usr/bin/env python3
"""Reads /repo/elgas/parameters/*.py (as text, with `ast`) and writes the class tables
/verif/lean/Verif/Model/Parameters.lean.  Every statement of every from_bytes body must match one of
the forms below, otherwise the script stops."""
import ast, glob, os, sys, re

REPO = "/repo/elgas/parameters"
OUT = os.path.join(os.path.dirname(__file__), "..", "lean", "Verif", "Model", "Parameters.lean")

files = {}
classes = {}      # name -> (file, node)
for f in sorted(glob.glob(REPO + "/*.py")):
    t = ast.parse(open(f).read())
    for c in t.body:
        if isinstance(c, ast.ClassDef):
            classes[c.name] = (os.path.basename(f), c)

def u(x): return ast.unparse(x)

names = []
def nm(s):
    if s == "_": s = "underscore"
    if s not in names: names.append(s)
    return "." + s

def simple(st):
    """one simple assignment -> Lean Simple"""
    assert isinstance(st, ast.Assign) and len(st.targets) == 1, u(st)
    x = st.targets[0].id
    e = u(st.value)
    m = re.fullmatch(r"data\.pop\(0\)", e)
    if m: return f".popByte {nm(x)}"
    m = re.fullmatch(r"int\.from_bytes\(pop_many\(data, (\d+)\), 'little'\)", e)
    if m: return f".popInt {nm(x)} {m[1]}"
    m = re.fullmatch(r"pretty_text\(pop_many\(data, (\d+)\)\)", e)
    if m: return f".popText {nm(x)} {m[1]}"
    m = re.fullmatch(r"pop_many\(data, (\d+)\)\.hex\(\)", e)
    if m: return f".popHex {nm(x)} {m[1]}"
    m = re.fullmatch(r"parse_ip_address\(pop_many\(data, (\d+)\)\)", e)
    if m: return f".popIp {nm(x)} {m[1]}"
    m = re.fullmatch(r"struct\.unpack\('<f', pop_many\(data, 4\)\)\[0\]", e)
    if m: return f".popF32 {nm(x)}"
    m = re.fullmatch(r"struct\.unpack\('<d', pop_many\(data, 8\)\)\[0\]", e)
    if m: return f".popF64 {nm(x)}"
    m = re.fullmatch(r"round\(struct\.unpack\('<f', pop_many\(data, 4\)\)\[0\], (\d+)\)", e)
    if m: return f".popF32Round {nm(x)} {m[1]}"
    m = re.fullmatch(r"bool\((\w+) & (\d+)\)", e)
    if m: return f".flag {nm(x)} {nm(m[1])} 0b{int(m[2]):08b}"
    m = re.fullmatch(r"int\(\((\w+) & (\d+)\) >> (\d+)\)", e)
    if m: return f".bits {nm(x)} {nm(m[1])} 0b{int(m[2]):08b} {m[3]}"
    m = re.fullmatch(r"GasComposition\.from_bytes\(pop_many\(data, (\d+) \* (\d+)\)\)", e)
    if m: return f".popGas {nm(x)} ({m[1]} * {m[2]})"
    m = re.fullmatch(r"pop_many\(data, (\d+)\)", e)
    if m: return f".skip {m[1]}"
    m = re.fullmatch(r"None", e)
    if m: return f".setNone {nm(x)}"
    raise SystemExit("unknown statement: " + u(st))

def fields_of(c):
    return [st.target.id for st in c.body if isinstance(st, ast.AnnAssign) and "ClassVar" not in u(st.annotation)]

def resolve(name, what):
    """look along the (single) base classes"""
    while name in classes:
        f, c = classes[name]
        r = what(c)
        if r: return f, c, r
        b = [x.id for x in c.bases if isinstance(x, ast.Name)]
        name = b[0] if b else None
    return None

def frombytes(c):
    for m in c.body:
        if isinstance(m, ast.FunctionDef) and m.name == "from_bytes": return m
def objtype(c):
    for st in c.body:
        if isinstance(st, ast.AnnAssign) and st.target.id == "object_type": return u(st.value).split(".")[-1]

enum = [(st.targets[0].id, st.value.value, st.lineno) for st in classes["ParameterObjectType"][1].body if isinstance(st, ast.Assign)]

def mapping(cls):
    f, c = classes[cls]
    for st in c.body:
        if isinstance(st, ast.AnnAssign) and st.target.id == "object_map":
            return [(u(k).split(".")[-1], u(v)) for k, v in zip(st.value.keys, st.value.values)], st.lineno, st.end_lineno
omap, ol0, ol1 = mapping("ParameterFactory")
smap, sl0, sl1 = mapping("ParameterSchemaFactory")

used = []
for _, k in omap:
    if k not in used: used.append(k)
for k in classes:
    if resolve(k, objtype) and k not in used and not k.endswith("Schema"): used.append(k)   # e.g. CorrectionCounter
allcls = used + ["GasComposition"]

out_cls = []
def camel(s): return s[0].lower() + s[1:]

for k in used:
    f0, c0 = classes[k]
    ot = resolve(k, objtype)[2]
    r = resolve(k, frombytes)
    deco = resolve(k, lambda c: c.decorator_list)
    fl = fields_of(deco[1]) if deco else []
    d = f"/-- `{k}` elgas/parameters/{f0}:{c0.lineno}-{c0.end_lineno}"
    if r:
        f, c, m = r
        if c is not c0: d += f" (attributes and `from_bytes` of `{c.name}`, {f}:{c.lineno}-{c.end_lineno})"
        assert m.args.args[1].arg in ("in_data", "in_bytes")
        body = []
        kwargs = None
        stmts = m.body
        i = 0
        assert u(stmts[0]) in ("data = bytearray(in_data)", "data = bytearray(in_bytes)"), u(stmts[0])
        i = 1
        while i < len(stmts):
            st = stmts[i]
            if isinstance(st, ast.If):
                assert u(st.test) == "data"
                a = [simple(x) for x in st.body]; b = [simple(x) for x in st.orelse]
                body.append(f".ifData\n      [{', '.join(a)}]\n      [{', '.join(b)}]")
            elif isinstance(st, ast.Assert):
                assert u(st) == "assert not data"
                body.append(".assertEmpty")
            elif isinstance(st, ast.Return):
                call = st.value
                assert u(call.func) == "cls" and not call.args
                kwargs = [(kw.arg, u(kw.value)) for kw in call.keywords]
                for _, v in kwargs: assert re.fullmatch(r"\w+", v)
                assert i == len(stmts) - 1
            elif isinstance(st, ast.Assign) and u(st.value) == "list()":
                x = st.targets[0].id
                lo = stmts[i+1]
                mm = re.fullmatch(r"for _ in range\(0, (\w+)\):\n    (\w+)\.append\(pop_many\(data, (\d+)\)\.hex\(\)\)", u(lo))
                assert mm and mm[2] == x
                body.append(f".popRows {nm(x)} {nm(mm[1])} {mm[3]}")
                i += 1
            else:
                body.append(f".simple ({simple(st)})")
            i += 1
        d += f"; `from_bytes` {f}:{m.lineno}-{m.end_lineno}. -/"
        bodytxt = "some [\n    " + ",\n    ".join(body) + "]"
        kwtxt = "[" + ", ".join(f"({nm(a)}, {nm(b)})" for a, b in kwargs) + "]"
    else:
        d += "; no `from_bytes`, no attributes. -/"
        bodytxt, kwtxt = "none", "[]"
    fltxt = "[" + ", ".join(nm(x) for x in fl) + "]"
    out_cls.append((k, d, ot, fltxt, bodytxt, kwtxt))

# gas composition
gf, gc = classes["GasComposition"]
gm = frombytes(gc)
gfields = fields_of(gc)
ret = gm.body[-1].value
gkw = []
for kw in ret.keywords:
    assert u(kw.value) == "struct.unpack('<f', pop_many(data, 4))[0]"
    gkw.append(kw.arg)
assert sorted(gkw) == sorted(gfields)

# schemas
FK = {"Integer": ".integer", "String": ".string", "Boolean": ".boolean"}
def field(v):
    """marshmallow field constructor -> (kind, allow_none)"""
    s = u(v)
    m = re.fullmatch(r"marshmallow\.fields\.(\w+)\((.*)\)", s)
    assert m, s
    args = [a.strip() for a in m[2].split(",")]
    assert "required=True" in args, s
    args.remove("required=True")
    an = "allow_none=True" in args
    if an: args.remove("allow_none=True")
    if m[1] == "Float":
        if "as_string=True" in args: args.remove("as_string=True"); k = ".floatStr"
        else: k = ".float"
    elif m[1] == "Number": k = ".number"
    elif m[1] == "List":
        assert args == ["marshmallow.fields.String"], s; args = []; k = ".stringList"
    elif m[1] == "Nested":
        assert args == ["GasCompositionSchema"], s; args = []; k = ".gas"
    else: k = FK[m[1]]
    assert not args, s
    return k, an
def schfields(c):
    r = [(st.targets[0].id, field(st.value)) for st in c.body if isinstance(st, ast.Assign)]
    return r
def schload(c):
    for m in c.body:
        if isinstance(m, ast.FunctionDef):
            assert m.name == "make_object" and [u(d) for d in m.decorator_list] == ["post_load"]
            mm = re.fullmatch(r"return (\w+)\(\*\*data\)", u(m.body[-1])); assert mm and len(m.body) == 1
            return mm[1]
gsch = schfields(classes["GasCompositionSchema"][1])
assert [x for x, _ in gsch] == gfields and all(k == (".floatStr", False) for _, k in gsch)
assert schload(classes["GasCompositionSchema"][1]) == "GasComposition"

out_sch = []
for _, k in smap:
    f0, c0 = classes[k]
    f, c, fs = resolve(k, schfields)
    pl = resolve(k, schload)
    d = f"/-- `{k}` elgas/parameters/{f0}:{c0.lineno}-{c0.end_lineno}"
    if c is not c0: d += f" (fields of `{c.name}`, {f}:{c.lineno}-{c.end_lineno})"
    d += ". -/"
    fstxt = "[\n    " + ",\n    ".join(f"({nm(x)}, {kk}, {'true' if an else 'false'})" for x, (kk, an) in fs) + "]"
    out_sch.append((k, d, fstxt, "some ." + pl[2] if pl else "none"))

L = []
w = L.append
w('import Verif.Model.ParamLang')
w('/-!')
w('The parameter classes of /repo/elgas/parameters/*.py as data for the interpreter of')
w('`Verif.Model.ParamLang`.  Written by tools/gen_parameters.py, which reads the `from_bytes` bodies,')
w('attribute lists and keyword arguments statement by statement; committed as an ordinary module.')
w('-/')
w('namespace Elgas')
w('')
for (k, d, ot, fl, body, kw) in out_cls:
    w(d)
    w(f"def {camel(k)} : ParamClass where")
    w(f"  cls := .{k}")
    w(f"  objectType := .{ot}")
    w(f"  fields := {fl}")
    w(f"  body := {body}")
    w(f"  kwargs := {kw}")
    w('')
w(f"/-- `ParameterFactory.object_map` elgas/parameters/factory.py:{ol0}-{ol1}. -/")
w("def objectMap : ObjType → Option ParamClass")
for t, k in omap: w(f"  | .{t} => some {camel(k)}")
miss = [n for n, _, _ in enum if n not in dict(omap)]
w("  | _ => none" if miss else "")
w('')
w("/-- The class a `post_load` hook names (elgas/parameters/*.py module scope). -/")
w("def classOf : Cls → Option ParamClass")
for (k, *_ ) in out_cls: w(f"  | .{k} => some {camel(k)}")
w("  | .GasComposition => none")
w('')
for (k, d, fs, pl) in out_sch:
    w(d)
    w(f"def {camel(k)} : SchemaDef where")
    w(f"  fields := {fs}")
    w(f"  postLoad := {pl}")
    w('')
w(f"/-- `ParameterSchemaFactory.object_map` elgas/parameters/factory.py:{sl0}-{sl1}. -/")
w("def schemaMap : ObjType → Option SchemaDef")
for t, k in smap: w(f"  | .{t} => some {camel(k)}")
w("  | _ => none")
w('')
w('end Elgas')
open(OUT, "w").write("\n".join(L) + "\n")

# names file
N = []
w = N.append
w('/-!')
w('Names used by /repo/elgas/parameters: object types, classes, attributes and local variables.')
w('Written by tools/gen_parameters.py.')
w('-/')
w('namespace Elgas')
w('')
e0 = classes["ParameterObjectType"][1]
w(f"/-- `ParameterObjectType` elgas/parameters/enumerations.py:{e0.lineno}-{e0.end_lineno}. -/")
w("inductive ObjType")
for n, v, l in enum: w(f"  | {n}")
w("  deriving DecidableEq, Repr")
w('')
w(f"/-- The value of an enumeration member (same lines). enumerations.py. -/")
w("def ObjType.value : ObjType → Nat")
for n, v, l in enum: w(f"  | .{n} => {v}")
w('')
w(f"/-- All members in order of definition (same lines). enumerations.py. -/")
w("def ObjType.all : List ObjType := [" + ",\n  ".join("." + n for n, _, _ in enum) + "]")
w('')
w("/-- The classes of elgas/parameters/*.py that `from_bytes` can construct. -/")
w("inductive Cls")
for k in allcls: w(f"  | {k}")
w("  deriving DecidableEq, Repr")
w('')
w("/-- Attribute and local variable names in elgas/parameters/*.py (`underscore` is `_`). -/")
w("inductive Attr")
for x in names: w(f"  | {x}")
w("  deriving DecidableEq, Repr")
w('')
w(f"/-- The attributes of `GasComposition` elgas/parameters/gas_composition.py:{gc.lineno}-{gc.end_lineno}. -/")
w("inductive GasAttr")
for x in gfields: w(f"  | {x}")
w("  deriving DecidableEq, Repr")
w('')
w(f"/-- `GasComposition` attributes in order, gas_composition.py:12-34. -/")
w("def gasFields : List GasAttr := [" + ", ".join("." + x for x in gfields) + "]")
w('')
w(f"/-- Order in which `GasComposition.from_bytes` reads them, gas_composition.py:{gm.lineno}-{gm.end_lineno}. -/")
w("def gasOrder : List GasAttr := [" + ", ".join("." + x for x in gkw) + "]")
w('')
w('end Elgas')
open(os.path.join(os.path.dirname(OUT), "ParamNames.lean"), "w").write("\n".join(N) + "\n")
print(len(out_cls), "classes", len(out_sch), "schemas", len(names), "names")
