"""Writes /verif/MANIFEST.json from the theorem names in lean/Verif/Props and the notes below."""
import json, re, glob
NOTES = {
 "C01": "Texts below 2^31 bytes; C01_bound_needed shows that longer texts can overflow the i32 brace counter of imageattr; C01_only_imageattr shows that this is the only way to panic, for texts of any length.",
 "C02": "parse_media_vector panics exactly on an empty list; the public mutators are covered too.",
 "C08": "Holds for the first a=simulcast of a section (and for sections with a single one); C08_second_simulcast_unchecked is a counterexample for further ones.",
 "C67": "Texts below 2^31 characters, the bound of C01.",
 "C12": "C12_parse_sdp_iff characterises success and result of parse_sdp completely in terms of parse_sdp_line.",
}
STATUS = {}
try:
    exec(open('/verif/scripts/notes.py').read())
except FileNotFoundError:
    pass
thms = {}
for f in sorted(glob.glob('/verif/lean/Verif/Props/*.lean')):
    src = open(f).read()
    for m in re.finditer(r'^theorem\s+((C\d+)_\S+)', src, re.M):
        thms.setdefault(m.group(2), []).append("Sdp." + m.group(1))
claims = []
for line in open('/verif/properties.jsonl'):
    p = json.loads(line)["id"]
    if p not in thms: continue
    st = STATUS.get(p, "partial" if all(t.endswith("_partial") for t in thms[p]) else "proved")
    claims.append({"property": p, "status": st, "theorems": thms[p], "note": NOTES.get(p, "")})
json.dump({"claims": claims}, open('/verif/MANIFEST.json', 'w'), indent=1, ensure_ascii=False)
print({c["property"]: len(c["theorems"]) for c in claims})
