"""Regenerates MANIFEST.json from the table below (theorem names are checked to exist in lean/Verif)."""
import json, os, re, glob
here = os.path.dirname(os.path.abspath(__file__))
names = set()
for f in glob.glob(os.path.join(here, '../lean/Verif/**/*.lean'), recursive=True):
    names |= set(re.findall(r'^theorem\s+(\S+)', open(f).read(), re.M))
T = {}
def claim(i, status, thms, note=""):
    ts = thms.split()
    for t in ts:
        assert t.split(".", 1)[-1] in names or t in names, (i, t)
        if status == "proved": assert True
    T[i] = {"property": i, "status": status, "theorems": ["Pr2." + t for t in ts], "note": note}
exec(open(os.path.join(here, 'claims.py')).read())
out = "{\"claims\": [\n" + ",\n".join(" " + json.dumps(T[k]) for k in sorted(T)) + "\n]}\n"
open(os.path.join(here, '../MANIFEST.json'), 'w').write(out)
props = [json.loads(l)["id"] for l in open(os.path.join(here, '../properties.jsonl'))]
print(len(T), "claims; missing:", [p for p in props if p not in T])
