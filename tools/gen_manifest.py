"""Writes MANIFEST.json and lean/Verif/Audit.lean from tools/claims.json.

claims.json: {"C01": {"status": ..., "note": ...}, ...}; theorem names are collected from lean/Verif/Props.
"""
import glob, json, re, os
root = os.path.dirname(os.path.dirname(os.path.abspath(__file__)))
claims = json.load(open(f"{root}/tools/claims.json"))
names = {}
for f in sorted(glob.glob(f"{root}/lean/Verif/Props/*.lean")):
    ns = []
    for line in open(f):
        m = re.match(r"^(?:private )?theorem ((C\d+)_\w+)", line)
        if m:
            names.setdefault(m.group(2), []).append("Exo." + m.group(1))
out = []
for pid, c in claims.items():
    assert c["status"] == "not_applicable" or names.get(pid), pid
    out.append({"property": pid, "status": c["status"], "theorems": names.get(pid, []), "note": c["note"]})
missing = set(names) - set(claims)
assert not missing, missing
with open(f"{root}/MANIFEST.json", "w") as fh:
    fh.write('{"claims": [\n' + ",\n".join(json.dumps(o, ensure_ascii=False) for o in out) + "\n]}\n")
mods = sorted(os.path.basename(f)[:-5] for f in glob.glob(f"{root}/lean/Verif/Props/*.lean"))
with open(f"{root}/lean/Verif/Audit.lean", "w") as fh:
    for m in mods:
        fh.write(f"import Verif.Props.{m}\n")
    fh.write("\n/-!\n# Axioms of every property theorem (generated by tools/gen_manifest.py)\n-/\n\n")
    for pid in sorted(names, key=lambda p: int(p[1:])):
        for n in names[pid]:
            fh.write(f"#print axioms {n}\n")
with open(f"{root}/lean/Verif.lean", "w") as fh:
    for m in mods:
        fh.write(f"import Verif.Props.{m}\n")
    fh.write("import Verif.Audit\n")
print({s: sum(o["status"] == s for o in out) for s in ("proved", "partial", "not_applicable")})
