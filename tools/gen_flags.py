"""Writes lean/Verif/Data/Flags.lean: the flag masks of every flag word of the specs and of the
hand-written accessors in src/block.rs and src/class.rs."""
import re, xml.etree.ElementTree as ET
def loc(e): return e.tag.split('}')[-1]
words = []
for f in ["EntitiesSpec.xml", "ObjectsSpec.xml", "HeaderVariablesSpec.xml"]:
    t = ET.parse("/repo/spec/" + f)
    parent = {c: p for p in t.iter() for c in p}
    for e in t.iter():
        fl = [c for c in e if loc(c) == "Flag"]
        if fl:
            ctx = parent[e].get("Name") or "Header"
            words.append(("spec/" + f, ctx + "." + (e.get("Field") or e.get("Name")),
                          [(c.get("Name"), int(c.get("Mask"), 0)) for c in fl]))
for f, w in [("src/block.rs", "Block.flags"), ("src/class.rs", "Class.proxy_capability_flags")]:
    src = open("/repo/" + f).read()
    words.append((f, w, [(n, int(m)) for n, m in
                         re.findall(r"pub fn (\w+)\(&self\) -> bool \{\s*self\.flag\((\d+)\)", src)]))
o = ["/-! Generated by tools/gen_flags.py from spec/*.xml, src/block.rs and src/class.rs: for each",
     "flag word its flags with their masks. -/", "", "namespace Dxf", "",
     "def flagWords : List (String × List (String × Nat)) := ["]
rows = []
for f, w, fl in words:
    rows.append(f"  -- {f}\n  (\"{w}\", [" + ", ".join(f'("{n}", {m})' for n, m in fl) + "])")
# a comment line may not be followed by the separating comma, so put commas first
o.append("\n".join(r if i == len(rows) - 1 else r + "," for i, r in enumerate(rows)))
o += ["]", "", "end Dxf", ""]
open("/verif/lean/Verif/Data/Flags.lean", "w").write("\n".join(o))
