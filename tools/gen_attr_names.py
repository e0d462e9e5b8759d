#!/usr/bin/env python3
"""Writes lean/Verif/Model/AttrNames.lean: the strings that attribute names become as dictionary keys."""
import os, re
here = os.path.dirname(os.path.abspath(__file__))
src = open(os.path.join(here, "../lean/Verif/Model/ParamNames.lean")).read()
def members(name):
    body = re.search(r"inductive %s\n((?:  \| \w+\n)+)" % name, src).group(1)
    return re.findall(r"\| (\w+)", body)
out = ['''import Verif.Model.ParamNames
/-!
The attribute names of elgas/parameters/*.py as the dictionary keys that `Schema.dump` writes.
Written by tools/gen_attr_names.py.
-/
namespace Elgas
''']
for ty, doc, src_ in (("Attr", "Key of an attribute (the name of the schema field, the same in class and schema).\nAttribute names of parameters/*.py.", "Attribute names of parameters/*.py."),
                ("GasAttr", "Key of an attribute of a gas composition. gas_composition.py:12-34.", "gas_composition.py:12-34.")):
    out.append(f"/-- {doc} -/\ndef {ty}.key : {ty} → String")
    for m in members(ty):
        out.append(f'  | .{m} => "{"_" if m == "underscore" else m}"')
    out.append("")
    out.append(f"/-- All members. {src_} -/\ndef {ty}.all : List {ty} :=\n  [" + ",\n   ".join("." + m for m in members(ty)) + "]\n")
    out.append(f"theorem {ty}.key_inj {{a b : {ty}}} (h : a.key = b.key) : a = b := by\n"
               f"  have mem : ∀ a : {ty}, a ∈ {ty}.all := by intro a; cases a <;> decide\n"
               f"  have all : ∀ a ∈ {ty}.all, {ty}.all.find? (fun b => b.key = a.key) = some a := by decide +kernel\n"
               f"  have key := fun a => all a (mem a)\n"
               f"  have h1 := key a\n  rw [h, key b] at h1\n  exact (Option.some.inj h1).symm\n")
out.append("end Elgas")
open(os.path.join(here, "../lean/Verif/Model/AttrNames.lean"), "w").write("\n".join(out) + "\n")
