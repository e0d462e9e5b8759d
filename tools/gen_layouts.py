#!/usr/bin/env python3
"""Writes /verif/lean/Verif/Spec/Layouts.lean: the byte layout (field, offset, width) of every parameter
class.  Offsets are running sums computed here; the Lean proofs check them against the interpreter."""
import ast, glob, os, re
REPO="/repo/elgas/parameters"
cl={}
for f in sorted(glob.glob(REPO+"/*.py")):
    for c in ast.parse(open(f).read()).body:
        if isinstance(c,ast.ClassDef): cl[c.name]=c
def up(n,what):
    while n in cl:
        r=what(cl[n])
        if r: return r
        b=[x.id for x in cl[n].bases if isinstance(x,ast.Name)]
        n=b[0] if b else None
def fb(c):
    for m in c.body:
        if isinstance(m,ast.FunctionDef) and m.name=="from_bytes": return m
def ot(c):
    for s in c.body:
        if isinstance(s,ast.AnnAssign) and s.target.id=="object_type": return ast.unparse(s.value).split(".")[-1]
def attrs(n):
    c=up(n,lambda c: c if c.decorator_list else None)
    return [s.target.id for s in c.body if isinstance(s,ast.AnnAssign) and "ClassVar" not in ast.unparse(s.annotation)]
def walk(stmts,loc,off):
    for st in stmts:
        if not isinstance(st,ast.Assign): continue
        x=st.targets[0].id; e=ast.unparse(st.value)
        m=re.search(r"pop_many\(data, ([\d* ]+)\)",e)
        w=eval(m[1]) if m else (1 if "data.pop(0)" in e else 0)
        if "data.pop(0)" in e: loc[x]=f".uint {off} 1"
        elif "from_bytes(pop_many" in e and "'little'" in e: loc[x]=f".uint {off} {w}"
        elif "pretty_text" in e: loc[x]=f".text {off} {w}"
        elif ".hex()" in e: loc[x]=f".hex {off} {w}"
        elif "parse_ip" in e: loc[x]=f".ip {off}"
        elif "round(" in e: loc[x]=f".float32Rounded {off} 7"
        elif "'<f'" in e: loc[x]=f".float32 {off}"
        elif "'<d'" in e: loc[x]=f".float64 {off}"
        elif "Gas" in e: loc[x]=f".gas {off}"
        elif e.startswith("bool("):
            src,mask=re.match(r"bool\((\w+) & (\d+)\)",e).groups(); mask=int(mask)
            assert mask&(mask-1)==0
            o=re.match(r"\.uint (\d+) 1",loc[src])[1]
            loc[x]=f".flag {o} {mask.bit_length()-1}"
        elif e.startswith("int(("):
            src,mask,sh=re.match(r"int\(\((\w+) & (\d+)\) >> (\d+)\)",e).groups(); mask=int(mask)
            assert mask==48 and sh=="4"
            o=re.match(r"\.uint (\d+) 1",loc[src])[1]
            loc[x]=f".bits {o} 4 2"
        elif e=="None": pass
        off+=w
    return off
omap=[s for s in cl["ParameterFactory"].body if isinstance(s,ast.AnnAssign)][0].value
out=[]
allk=[v.id for v in omap.values]+["CorrectionCounter"]
for k in allk:
    m=up(k,fb)
    if not m or k=="TimeWindow": continue
    loc={}
    body=m.body[1:-1]
    ifs=[s for s in body if isinstance(s,ast.If)]
    strict=any(isinstance(s,ast.Assert) for s in body)
    size=walk(body,loc,0)
    tail=0; tl={}
    if ifs:
        end=walk(ifs[0].body,tl,size); tail=end-size
    kw={a.arg:ast.unparse(a.value) for a in m.body[-1].value.keywords}
    rows=[]
    for a in attrs(k):
        if a not in kw: rows.append((a,None)); continue
        x=kw[a]
        if x in tl: rows.append((a,f".optional ({tl[x]})"))
        else: rows.append((a,loc[x]))
    out.append((k,size,tail,strict,rows))
L=["import Verif.Spec.Parameters","/-!","Byte layouts of the parameter objects: size of the fixed part, size of the optional tail (0: none),","whether surplus bytes are rejected, and for every attribute where it is found.","Written by tools/gen_layouts.py.","-/","namespace Spec","open Elgas",""]
def camel(s): return s[0].lower()+s[1:]
for k,size,tail,strict,rows in out:
    miss=[a for a,l in rows if l is None]
    if miss: L.append(f"/-- `{k}`; its constructor also needs {', '.join('`'+a+'`' for a in miss)}, which the body does not contain. -/")
    else: L.append(f"/-- `{k}`. -/")
    L.append(f"def {camel(k)}Layout : Layout where")
    L.append(f"  size := {size}"); L.append(f"  tail := {tail}"); L.append(f"  strict := {'true' if strict else 'false'}")
    L.append("  fields := [\n    "+",\n    ".join(f"(.{a}, {l})" for a,l in rows if l is not None)+"]"); L.append("")
L.append("/-- The layout of each class with a fixed layout (`TimeWindow` has a variable number of rows and"); L.append("`DifferenceBaseCounter` no decoder). -/")
L.append("def layoutOf : Cls → Option Layout")
for k,*_ in out: L.append(f"  | .{k} => some {camel(k)}Layout")
L.append("  | _ => none"); L.append("")
ot_=lambda k: up(k,ot)
L.append("""/-- `TimeWindow` with `n` rows (byte 34 of the body). -/
def timeWindowLayout (n : Nat) : Layout where
  size := 35 + 10 * n
  tail := 27
  strict := true
  fields := [
    (.number, .uint 0 2),
    (.id, .uint 2 2),
    (.bit_order_in_actual_values, .uint 4 2),
    (.bit_order_in_data_archive_record, .uint 6 2),
    (.bit_order_in_binary_archive_record, .uint 8 2),
    (.bit_control, .uint 10 1),
    (.in_binary_archive, .flag 10 0),
    (.in_data_archive, .flag 10 1),
    (.name, .text 11 23),
    (.rows_in_window, .uint 34 1),
    (.rows, .hexRows 35 n 10),
    (.action_during_change, .optional (.uint (35 + 10 * n) 1)),
    (.text_log_0, .optional (.text (36 + 10 * n) 13)),
    (.text_log_1, .optional (.text (49 + 10 * n) 13))]

/-- The layout that applies to a body `d` of the class. -/
def layout (k : Cls) (d : List UInt8) : Option Layout :=
  match k with
  | .TimeWindow => some (timeWindowLayout (d.getD 34 0).toNat)
  | _ => layoutOf k
""")
L.append("/-- The object types a device can send and the class of the object they stand for. -/")
L.append("def classFor : ObjType → Cls")
for k in allk: L.append(f"  | .{ot_(k)} => .{k}")
L.append(""); L.append("end Spec")
open(os.path.join(os.path.dirname(__file__),"..","lean","Verif","Spec","Layouts.lean"),"w").write("\n".join(L)+"\n")
print(len(out))
