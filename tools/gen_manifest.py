#!/usr/bin/env python3
"""Regenerates /verif/MANIFEST.json from the theorems in lean/Verif/Props."""
import json, os, re, glob
root = os.path.join(os.path.dirname(os.path.abspath(__file__)), "..")
props = [json.loads(l) for l in open(os.path.join(root, "properties.jsonl"))]
thms = {}
for f in sorted(glob.glob(os.path.join(root, "lean/Verif/Props/*.lean"))):
    for line in open(f):
        m = re.match(r"theorem (C\d\d+)_(\w+)", line)
        if m:
            thms.setdefault(m.group(1), []).append(f"Ripcalc.{m.group(1)}_{m.group(2)}")
# properties the code violates or that are only partly proved, with what is missing
PARTIAL = {
 "C06": "The full claim is false of the code (C06_counterexample): sub_internal borrows wrongly when the top halves differ and the bottom half underflows. Proved: exact wherever the code does not take that path, and the exact wrong result there.",
 "C07": "The full claim is false of the code (C07_counterexample): offset i32::MIN panics in checked builds and recurses forever in unchecked ones. Proved for every other offset.",
 "C10": "The full claim is false of the code (C10_counterexample). Proved: exactly which addresses round-trip and that the others give an error.",
 "C13": "The claim is false of the code: to_full_string always returns the empty string (C13_counterexample, C13_full_string_is_empty), which is never the text described (C13_never). Proved: there is exactly one such text for each address (C13_intended, C13_intended_unique), and the bound of the loop is the only fault (C13_only_the_bound).",
 "C29": "The full claim is false for lopsided masks (C29_counterexample). Proved for CIDR networks; for all networks a common address is always detected and the answer is overlap of the first..last ranges.",
 "C30": "Partial for IPv6 because of C10; proved for IPv4 and for IPv6 networks whose base (and mask) text round-trips.",
 "C39": "The full claim is false of the code for ranges ending at the greatest address (counterexamples); proved for every other range.",
 "C45": "The full claim is false for lopsided input (C45_counterexample); proved for CIDR input and for all networks that are nested or disjoint, whatever the masks (C45_nested_partial), for all masks that nothing is left to merge (C45_nothing_to_merge), for all masks a condition under which the claim fails (C45_fails_partial), which is exact if no network arises in two ways (C45_exact_partial); what the result consists of for all masks is C88.",
 "C47": "The full claim is false for lopsided input (C47_counterexample); proved for CIDR input and for all networks that are nested or disjoint, whatever the masks (C47_nested_partial), and for all masks exactly which lists are left unchanged (C47_fixed_points).",
 "C53": "The full claim is false (C53_counterexample); proved: for every mask exactly when the results are inside the network (C53_exactly_when), for CIDR networks exactly when the report is right (C53_command_exact_v4/_v6).",
 "C54": "The full claim is false at the end of the address space (C54_counterexample); proved elsewhere.",
 "C55": "The full claim is false when nothing is left or at the end of the address space (C55 counterexamples), and for masks with gaps; proved: for every mask exactly when the listed networks are the unused addresses and exactly when the program panics (C55_exactly_when, C55_command_exact_v4/_v6).",
 "C68": "The full claim is false (C68_counterexample: 64.0.0.0/2 is labelled class A without a highlighted bit). Proved: highlighted bits always define the class of the label; for every mask exactly when the claim holds (C68_exactly_when).",
 "C82": "The full claim is false of the code (C82_counterexample, and C82_network for upper-case digits in networks). Proved: exactly which texts of RFC 4291 are read (all but those with eight colons) and with what error the others are rejected (C82_reads_partial), and exactly which accepted texts are not of RFC 4291 (C82_strict_partial).",
 "C83": "The full claim is false of the code (C83_counterexample): a single zero group is shortened. Proved: exactly which addresses are displayed as prescribed (C83_display_partial); the prescribed text is unique and is read for every address.",
 "C92": "The full claim is false of the code (C92_counterexample): with colours, the colour test and the display whose last network has at most two addresses leave the last line open. Proved: exactly for which arguments the claim holds (C92_lines_partial), and always without colours (C92_plain).",
 "C93": "The full claim is false of the code (C93_counterexample, C93_color_test, C93_silent): in the runs of C92 with an open last line, that line stays in the buffer until the last flush, whose error std ignores, so it can be missing with status 0. Proved for all other runs (C93_noticed_partial); for all runs: the prefix (C93_prefix), reliable devices (C93_reliable), that at most the open last line is missing (C93_complete), devices of limited room exactly (C93_limited, C93_stdout, C93_stderr).",
 "C104": "The full claim is false of the code (C104_arguments_counterexample, C104_target_counterexample, C104_mixing_counterexample). Proved: exactly which numbers of arguments bring the usage text in every mode, and that only derange and enumerate deviate from their synopsis (C104_arguments_partial), with synopses determined by the text (C104_synopses_unique); that what can follow a slash can be a resize target exactly without a minus sign (C104_target_partial); that minimize, derange and resize refuse mixed families while showing and enumerating accept them (C104_mixing_partial).",
 "C61": "The full claim is false (C61_counterexample): every fragment is followed by a line break when colours are disabled. Proved: the characters are the same apart from line breaks (C61_uncolored_partial); exactly which lines are written without colours is C100_piped.",
}
NOTE = {}
claims = []
for p in props:
    i = p["id"]
    t = thms.get(i)
    if not t: continue
    claims.append(dict(property=i, status="partial" if i in PARTIAL else "proved", theorems=t,
                       note=PARTIAL.get(i, NOTE.get(i, ""))))
json.dump({"claims": claims}, open(os.path.join(root, "MANIFEST.json"), "w"), indent=1)
print(len(claims), "claims;", "missing:", " ".join(p["id"] for p in props if p["id"] not in thms))
