"""Regenerate MANIFEST.json from the theorem names in lean/Verif/Props and the notes below."""
import collections, glob, json, re

PARTIAL = {}
NOTES = {
    "C19": "The expectation that adapters keep `fixed` is false of the code; C19_exact says what happens instead.",
    "C22": "The expectation that nothing is lost is false of the code; C22_exact_iff_unit delimits it exactly.",
    "C27": "The expectation is false for Armenian; C27_armenian_exact delimits it exactly.",
    "C30": "The expectation is false of the code ; C30_standard_reading_iff delimits it exactly.",
    "C50": "The SAFETY comment is false of the code; C50_slice_initialised_iff delimits it exactly.",
    "C52": "C52_diverges_exactly is the exact statement; C52_self_fallback_diverges is the proved witness of non-termination.",
    "C15": "C15_two_symbols_corner records the corner n = len of a fixed one-based collection with a zero digit.",
    "C17": "One-symbol zero-digit collections are excluded and proved to diverge (alloc) or to run out of memory (no alloc).",
    "C44": "C44_override_bypassed is the parenthesis about overrides: what a pointer to a system does depends on try_format_nominal alone.",
}

names = collections.defaultdict(list)
for path in sorted(glob.glob("/verif/lean/Verif/Props/*.lean")):
    for name in re.findall(r"^theorem (C\d\d+_\w+)", open(path).read(), re.M):
        names[name.split("_")[0]].append("Nominals.Props." + name)
claims = []
for line in open("/verif/properties.jsonl"):
    pid = json.loads(line)["id"]
    assert names[pid], pid
    status = "partial" if pid in PARTIAL else "proved"
    claims.append({"property": pid, "status": status, "theorems": names[pid], "note": PARTIAL.get(pid, NOTES.get(pid, ""))})
json.dump({"claims": claims}, open("/verif/MANIFEST.json", "w"), indent=1, ensure_ascii=False)
print(len(claims), sum(len(c["theorems"]) for c in claims))
