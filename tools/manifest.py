"""Write MANIFEST.json from the theorem names in lean/Verif/Props and the notes below."""
import collections, glob, json, re
PARTIAL = {
 "C13": "The full statement is false of the code (C13_counterexample: assigning d1 or d2 afterwards is not checked); proved for construction and for all histories that do not assign d1 or d2; C13_step says exactly which calls change the two timescales, and how.",
 "C44": "Temperatures: proved in full. Heat uptake: false of the code in general (C44_counterexample); proved for the unit choices in C44_partial; C44_iff says exactly when two descriptions of one model give the same uptake.",
 "C45": "False of the code (C45_counterexample); C45_iff says exactly when a run with efficacy other than 1 succeeds.",
 "C52": "False of the code for a two-point December-January axis, which gets a step of one year (C52_counterexample); proved for yearly axes, for month axes of three or more points at any offset (C52_partial) and for all other two-point month axes (C52_two_points).",
 "C53": "Second half false of the code (C53_counterexample: a gap inside a driver is closed up); proved for drivers whose missing values are only at the ends; C53_gaps_two_layer and C53_gaps_impulse_response say exactly when the steps a run takes between two values equal their distance on the axis.",
 "C80": "False of the code for versions containing a double quote, backslash or control character (C80_iff, C80_quote); proved for texts of characters U+0020 to U+FFFF without those and without three apostrophes in a row.",
}
NOTES = {}
props = [json.loads(l) for l in open("/verif/properties.jsonl")]
names = collections.defaultdict(list)
for f in sorted(glob.glob("/verif/lean/Verif/Props/**/*.lean", recursive=True)):
    ns = []
    for line in open(f):
        if m := re.match(r"namespace (\S+)", line): ns.append(m[1])
        elif m := re.match(r"end (\S+)", line):
            if ns and ns[-1] == m[1]: ns.pop()
        elif m := re.match(r"(?:omit .* in\s+)?(?:protected )?theorem ((?:\w+\.)*C(\d{2,3})(?!\d)\w*)", line):
            names["C" + m[2]].append(".".join(ns + [m[1]]))
claims = []
for p in props:
    i = p["id"]
    claims.append({"property": i, "status": "partial" if i in PARTIAL else "proved", "theorems": names[i],
                   "note": PARTIAL.get(i, NOTES.get(i, ""))})
    if not names[i]: print("no theorem for", i)
json.dump({"claims": claims}, open("/verif/MANIFEST.json", "w"), indent=1)
print(len(claims), sum(len(c["theorems"]) for c in claims))
