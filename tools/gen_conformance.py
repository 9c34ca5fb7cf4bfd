#!/usr/bin/env python3
"""Writes lean/Verif/Conformance/{Addr,Cidr,Net,Derange,Enumerate,Minimize,Resize,Split}.lean from the unit tests in
/repo/src: each assertion becomes an `example` about the model, evaluated by the kernel."""
import os, re, sys

OUT = os.path.join(os.path.dirname(os.path.abspath(__file__)), "..", "lean", "Verif", "Conformance")

def tests(path):
    src = open("/repo/src/" + path).read().split("\n")
    start = next(i for i, l in enumerate(src) if "cfg(test)" in l)
    return list(enumerate(src, 1))[start:]

def statements(path):
    """(first line number, statement text) for each statement, split at `;`, inside test functions."""
    cur, first = "", None
    for n, l in tests(path):
        l = re.sub(r"//.*", "", l).strip()
        if not l:
            continue
        if first is None:
            first = n
        cur += " " + l
        while True:
            m = re.match(r"\s*([^;{}]*?[;{}])(.*)", cur)
            if not m:
                break
            yield first, m.group(1).strip()
            cur, first = m.group(2), (n if m.group(2).strip() else None)

def term(e):
    """Translate a Rust expression of the tests into Lean."""
    e = e.strip()
    m = re.fullmatch(r'parse_ipv([46])\("([^"]*)"\)', e)
    if m: return f'(ip{m[1]} (chars! "{m[2]}"))'
    m = re.fullmatch(r'parse_ipv([46])net\("([^"]*)", (\d+)\)', e)
    if m: return f'(net{m[1]} (chars! "{m[2]}") {m[3]})'
    m = re.fullmatch(r'parse_ipv([46])netm\("([^"]*)", "([^"]*)"\)', e)
    if m: return f'(netm{m[1]} (chars! "{m[2]}") (chars! "{m[3]}"))'
    m = re.fullmatch(r"Some\((.*)\)", e)
    if m: return f"(some {term(m[1])})"
    if e == "None": return "none"
    m = re.fullmatch(r"Ipv4Address::new\((\w+)\)", e)
    if m: return f"(⟨{m[1]}#32⟩ : V4)"
    m = re.fullmatch(r"Ipv6Address::new\((\w+), (\w+)\)", e)
    if m: return f"(⟨{m[1]}#64, {m[2]}#64⟩ : V6)"
    m = re.fullmatch(r"&?vec!\[(.*)\]", e)
    if m: return "[" + ", ".join(x.strip().replace("_", "") + "#8" for x in m[1].split(",")) + "]"
    m = re.fullmatch(r"Ok\((.*)\)", e)
    if m: return f"(.ok {term(m[1])})"
    m = re.fullmatch(r"Err\(IpAddressParseError::(\w+)\((.*)\)\)", e)
    if m: return f"(.error (.{m[1][0].lower() + m[1][1:]} {' '.join(m[2].replace(',', ' ').split())}))"
    m = re.fullmatch(r"Big(?:U?int|Int)::from\((-?\d+)(?:u32|u64)?\)", e, re.I)
    if m: return f"({m[1]})"
    m = re.fullmatch(r'parse_bigu?int\("(\d+)"\)', e)
    if m: return m[1]
    if re.fullmatch(r"\d+", e): return e
    raise ValueError(e)

HEAD = """import Verif.Conformance.Basic
/-!
# The unit tests of `/repo/src/{path}`, run on the model

Written by `tools/gen_conformance.py`.  These are tests of the model on literals, not proofs of properties.
-/
set_option maxRecDepth 100000
namespace Ripcalc.Conformance
open Ripcalc

"""

class Out:
    def __init__(self, name, path):
        self.name, self.path, self.text, self.n = name, path, HEAD.format(path=path), 0
    def ex(self, lines, stmt, proof="by decide +kernel", count=1):
        self.text += f"-- lines {lines}\nexample : {stmt} :=\n  {proof}\n\n"
        self.n += count
    def close(self):
        self.text += "end Ripcalc.Conformance\n"
        open(os.path.join(OUT, self.name + ".lean"), "w").write(self.text)
        print(self.name, self.n, "assertions")

def args2(s):
    """the two arguments of a macro call, splitting at the top-level comma"""
    d, out, cur = 0, [], ""
    q = False
    for c in s:
        if c == '"': q = not q
        if not q:
            if c in "([{": d += 1
            if c in ")]}": d -= 1
            if c == "," and d == 0:
                out.append(cur.strip()); cur = ""; continue
        cur += c
    if cur.strip(): out.append(cur.strip())
    return out

# ---------------------------------------------------------------- addr.rs
o = Out("Addr", "addr.rs")
fn, pend = "", None
for n, s in statements("addr.rs"):
    m = re.match(r".*fn (\w+)\(", s)
    if m:
        fn = m[1]; continue
    m = re.fullmatch(r"assert_eq!\((.*)\);", s)
    if m:
        a, b = args2(m[1])
        if pend:
            pend[1].append((a, b))
            if len(pend[1]) == 2:
                (idx, _), (txt, _) = pend[1]
                f, arg = pend[0]
                o.ex(f"{pend[2]}-{n}", f"∃ e, {f} (chars! \"{arg}\") = {'' if f == 'V4.parse' else '.ok '}(.error (.chunkParseError {idx} (chars! {txt}) e))",
                     "⟨.invalidDigit, by decide +kernel⟩", 2)
                pend = None
            continue
        mm = re.fullmatch(r"(Ipv[46]Address::new\(.*\))\.to_string\(\)", b)
        if mm:
            o.ex(n, f"IpAddr.display {term(mm[1])} = chars! {a}"); continue
        mm = re.fullmatch(r'parse_ipv4\("(.*)"\)', b)
        if mm:
            o.ex(n, f'V4.parse (chars! "{mm[1]}") = {term(a)}'); continue
        mm = re.fullmatch(r'p6\("(.*)"\)', b)
        if mm:
            o.ex(n, f'V6.parse (chars! "{mm[1]}") = .ok {term(a)}'); continue
        mm = re.fullmatch(r"(Ipv[46]Address::new\(.*\))\.to_bytes\(\)", b)
        if mm:
            o.ex(n, f"IpAddr.toBytes {term(mm[1])} = {term(a)}"); continue
        mm = re.fullmatch(r"Ipv([46])Address::from_bytes\((.*)\)", b)
        if mm:
            o.ex(n, f"(IpAddr.fromBytes {term(mm[2])} : Option V{mm[1]}) = {term(a)}"); continue
        if a in ("left", "expected_addr", "exp", "ip.to_bytes()", "2", "7", "0") or "Ipv6Address::new(top_half" in a or "new(t, b)" in a:
            continue
        raise ValueError(s)
    m = re.match(r"if let Err\(IpAddressParseError::ChunkParseError\(idx, s, _\)\) = (parse_ipv4|p6)\(\"(.*)\"\) \{", s)
    if m:
        pend = (("V4.parse" if m[1] == "parse_ipv4" else "V6.parse", m[2]), [], n); continue
    m = re.fullmatch(r"(teq|tand|tp|tb|tfb)\((.*)\);", s)
    if m:
        a = args2(m[2])
        if m[1] == "teq":
            t = term("Ipv4Address::new(%s)" % a[0] if len(a) == 1 else "Ipv6Address::new(%s, %s)" % tuple(a))
            o.ex(n, f"{t} = {t}"); continue
        if m[1] == "tand" and len(a) == 3:
            x, y, z = (term(f"Ipv4Address::new({v})") for v in a)
            o.ex(n, f"{x} = IpAddr.and {y} {z}"); continue
        if m[1] == "tand":
            x, y, z = (term(f"Ipv6Address::new({a[2*i]}, {a[2*i+1]})") for i in range(3))
            o.ex(n, f"{x} = IpAddr.and {y} {z}"); continue
        if m[1] == "tp":
            o.ex(n, f"V6.parse (chars! {a[2]}) = .ok (.ok {term(f'Ipv6Address::new({a[0]}, {a[1]})')})"); continue
        if m[1] == "tb":
            o.ex(n, f"IpAddr.toBytes {term(f'Ipv6Address::new({a[1]}, {a[2]})')} = {term(a[0])}"); continue
        if m[1] == "tfb":
            o.ex(n, f"(IpAddr.fromBytes {term(a[2])} : Option V6) = some {term(f'Ipv6Address::new({a[0]}, {a[1]})')}"); continue
o.close()

# ---------------------------------------------------------------- cidr.rs
o = Out("Cidr", "cidr.rs")
for n, s in statements("cidr.rs"):
    m = re.fullmatch(r"assert_eq!\((.*)\);", s)
    if m:
        a, b = args2(m[1])
        mm = re.fullmatch(r"subnet_mask_bytes_from_prefix\((\d+), (\d+)\)", b)
        o.ex(n, f"{term(a)} = subnetMaskBytesFromPrefix {mm[1]} {mm[2]}")
o.close()

# ---------------------------------------------------------------- net.rs
o = Out("Net", "net.rs")
net, checks, first, fam = None, [], None, None
def flush(last):
    global net, checks
    if net:
        body = " ∧\n    ".join(checks)
        st = f"∃ net : Net V{fam}, {net} = .ok net ∧\n    {body}"
        if fam == "4":
            o.ex(f"{first}-{last}", st, "holdsOf (by decide +kernel)", len(checks))
        else:
            o.ex(f"{first}-{last}", st, f"evalV6 (fun _i : IpAddr V6 => {st}) (holdsOf (by decide +kernel))", len(checks))
    net, checks = None, []
def access(e):
    e = e.strip()
    for r, l in (("net.base_addr()", "(.ok net.baseAddr)"), ("net.subnet_mask()", "(.ok net.subnetMask)"),
                 ("net.cidr_prefix()", "(.ok net.cidrPrefix)"), ("net.cidr_prefix", "(.ok net.cidrPrefix)"),
                 ("net.cisco_wildcard()", "(.ok net.ciscoWildcard)"), ("net.first_host_addr()", "(net.firstHostAddr .checked)"),
                 ("net.broadcast_addr()", "net.broadcastAddr"), ("net.last_host_addr()", "(net.lastHostAddr .checked)"),
                 ("net.next_subnet_base_addr()", "(net.nextSubnetBaseAddr .checked)"),
                 ("net.address_count()", "(.ok net.addressCount)"), ("net.host_count()", "(.ok net.hostCount)")):
        if e == r: return l
    raise ValueError(e)
last = None
for n, s in statements("net.rs"):
    m = re.fullmatch(r"let net: IpNetwork<Ipv([46])Address> = IpNetwork::new_with_(mask|prefix)\((.*)\);", s)
    if m:
        flush(last)
        fam, first = m[1], n
        a = args2(m[3])
        net = f"Exec.ok (Net.newWithMask {term(a[0])} {term(a[1])})" if m[2] == "mask" else f"Net.newWithPrefix {term(a[0])} {term(a[1])}"
        last = n
        continue
    m = re.fullmatch(r"assert_eq!\((.*)\);", s)
    if m and net:
        a, b = args2(m[1])
        checks.append(f"{access(b)} = Exec.ok {term(a)}"); last = n; continue
    m = re.fullmatch(r"assert!\((!?)net\.contains\(&(.*)\)\);", s)
    if m and net:
        v = "false" if m[1] else "true"
        e = m[2]
        if e.endswith(".unwrap()"):
            checks.append(f"containsE net {access(e[:-9])} = .ok {v}")
        elif e == "net.base_addr()":
            checks.append(f"net.contains net.baseAddr = {v}")
        else:
            checks.append(f"net.contains {term(e)} = {v}")
        last = n; continue
    m = re.fullmatch(r"assert!\( ?IpNetwork::new_with_mask_strict\( ?(.*?),? ?\) ?\.is_(some|none)\(\) ?\);", s)
    if m:
        flush(last)
        a = args2(m[1])
        o.ex(n, f"(Net.newWithMaskStrict {term(a[0])} {term(a[1])}).is{m[2].capitalize()} = true"); continue
    if re.match(r".*fn test_", s):
        flush(last)
flush(last)
o.close()

# ---------------------------------------------------------------- derange.rs
def listing(vals):
    return "[" + ",\n      ".join(vals) + "]"
def grouped(path, opening, result):
    """Groups of an opening `let` and the following assertions."""
    group, lets = None, {}
    for n, s in statements(path):
        m = re.fullmatch(r"let (?:mut )?([\w(), ]+?)(?:: [^=]*)? = (.*);", s)
        if m:
            if re.match(opening, m[2]):
                if group: yield group
                group = [n, n, m[2], [], dict(lets)]
            else:
                lets[m[1]] = m[2]
            continue
        if s.startswith("assert") and group:
            group[1] = n
            group[3].append(s)
        if re.match(r".*fn test_", s) and group:
            yield group
            group = None
    if group: yield group

def elements(asserts, var):
    """(length asserted, elements asserted in order)"""
    ln, els, rest = None, [], []
    for a in asserts:
        m = re.fullmatch(r"assert_eq!\((.*)\);", a)
        x, y = args2(m[1]) if m else (None, a)
        if y == f"{var}.len()": ln = int(x)
        elif m and re.fullmatch(rf"{var}\[\d+\]", y):
            assert y == f"{var}[{len(els)}]", y
            els.append(term(x))
        else: rest.append(a)
    assert ln == len(els), (ln, len(els))
    return els, rest

o = Out("Derange", "cmds/derange.rs")
for f, l, call, asserts, lets in grouped("cmds/derange.rs", r"range_to_subnets\(", None):
    m = re.fullmatch(r"range_to_subnets\((\w+), (\w+)\)", call)
    a, b = term(lets[m[1]]), term(lets[m[2]])
    els, rest = elements(asserts, "subnet")
    assert not rest
    e = listing(els)
    if "ip4" in a:
        o.ex(f"{f}-{l}", f"rangeToSubnets .checked {a} {b} = .ok\n    {e}",
             "(rangeToSubnetsE_approx 1000 _ _ _).eq (by decide +kernel) (by intro h; cases h)", len(asserts))
    else:
        o.ex(f"{f}-{l}", f"rangeToSubnets .checked {a} {b} = .ok\n    {e}",
             "evalV6 (fun i => @rangeToSubnets V6 i .checked _ _ = .ok _) ((@rangeToSubnetsE_approx V6 v6E 1000 _ _ _).eq (by decide +kernel) (by intro h; cases h))", len(asserts))
o.close()

# ---------------------------------------------------------------- enumerate.rs
o = Out("Enumerate", "cmds/enumerate.rs")
for f, l, call, asserts, lets in grouped("cmds/enumerate.rs", r"NetworkIter::new\(", None):
    m = re.fullmatch(r"NetworkIter::new\((.*)\)", call)
    a = term(m[1])
    vals = []
    for s in asserts:
        mm = re.fullmatch(r"assert_eq!\((.*)\);", s)
        x, y = args2(mm[1])
        assert y == "iter.next()"
        vals.append(term(x))
    st = f"(NetworkIter.new {a} >>= fun it => it.nexts .checked {len(vals)}) = .ok\n    {listing(vals)}"
    if "net4" in a or "netm4" in a:
        o.ex(f"{f}-{l}", st, "by decide +kernel", len(asserts))
    else:
        o.ex(f"{f}-{l}", st, f"evalV6 (fun i => (@NetworkIter.new V6 i _ >>= fun it => @NetworkIter.nexts V6 i .checked {len(vals)} it) = .ok _) (by decide +kernel)", len(asserts))
o.close()

# ---------------------------------------------------------------- minimize.rs
o = Out("Minimize", "cmds/minimize.rs")
for f, l, call, asserts, lets in grouped("cmds/minimize.rs", r"minimize_subnets\(", None):
    nets = [term(x) for x in args2(re.fullmatch(r"vec!\[(.*)\]", lets["minimize_us"])[1])]
    els, rest = elements(asserts, "minimized")
    assert not rest
    v4 = "net4" in nets[0] or "netm4" in nets[0]
    st = f"minimizeSubnets (evalRuntime .checked true)\n    {listing(nets)} = .ok\n    {listing(els)}"
    if v4:
        o.ex(f"{f}-{l}", st, "(minimizeSubnetsE_approx 100 _ _).eq (by decide +kernel) (by intro h; cases h)", len(asserts))
    else:
        o.ex(f"{f}-{l}", st, "evalV6 (fun i => @minimizeSubnets V6 i _ _ = .ok _) ((@minimizeSubnetsE_approx V6 v6E 100 _ _).eq (by decide +kernel) (by intro h; cases h))", len(asserts))
o.close()

# ---------------------------------------------------------------- resize.rs
o = Out("Resize", "cmds/resize.rs")
for f, l, call, asserts, lets in grouped("cmds/resize.rs", r"resize_network\(", None):
    m = re.fullmatch(r"resize_network\( ?(.*?),? ?\)", call)
    a = [term(x) for x in args2(m[1])]
    els, rest = elements(asserts, "resized")
    order = {"Less": ".lt", "Equal": ".eq", "Greater": ".gt"}[re.fullmatch(r"assert_eq!\(Ordering::(\w+), ordure\);", rest[0])[1]]
    assert len(rest) == 1
    st = f"resizeNetwork .checked {a[0]} {a[1]} = .ok\n    ({listing(els)}, {order})"
    if "net4" in a[0]:
        o.ex(f"{f}-{l}", st, "(resizeNetworkE_approx 100 _ _ _).eq (by decide +kernel) (by intro h; cases h)", len(asserts))
    else:
        o.ex(f"{f}-{l}", st, "evalV6 (fun i => @resizeNetwork V6 i .checked _ _ = .ok _) ((@resizeNetworkE_approx V6 v6E 100 _ _ _).eq (by decide +kernel) (by intro h; cases h))", len(asserts))
o.close()

# ---------------------------------------------------------------- split.rs
o = Out("Split", "cmds/split.rs")
for f, l, call, asserts, lets in grouped("cmds/split.rs", r"split_subnet\(", None):
    m = re.fullmatch(r"split_subnet\( ?(.*?),? ?\)( ?\.unwrap\(\))?", call)
    n, v = args2(m[1])
    n = term(n)
    counts = [re.sub(r"(?:u64)?\.into\(\)$", "", x) for x in args2(re.fullmatch(r"vec!\[(.*)\]", v)[1])]
    counts = [term(c) if not c.isdigit() else c for c in counts]
    if m[2]:
        els, rest = elements(asserts, "nets")
        assert not rest
        res = f"(some {listing(els)})"
    else:
        assert asserts == ["assert!(none_subnet.is_none());"]
        res = "none"
    st = f"splitSubnet (evalRuntime .checked true) {n} [{', '.join(counts)}] = .ok\n    {res}"
    if "net4" in n:
        o.ex(f"{f}-{l}", st, "(splitSubnetE_approx 200 _ _ _).eq (by decide +kernel) (by intro h; cases h)", len(asserts))
    else:
        o.ex(f"{f}-{l}", st, "evalV6 (fun i => @splitSubnet V6 i _ _ _ = .ok _) ((@splitSubnetE_approx V6 v6E 200 _ _ _).eq (by decide +kernel) (by intro h; cases h))", len(asserts))
o.close()

# ---------------------------------------------------------------- README.md
readme = open("/repo/README.md").read().split("\n")
blocks, i = [], 0
while i < len(readme):
    if readme[i].startswith("    "):
        j = i
        while j < len(readme) and (readme[j].startswith("    ") or (readme[j] == "" and j + 1 < len(readme) and readme[j + 1].startswith("    "))):
            j += 1
        blocks.append((i + 1, j, [l[4:] for l in readme[i:j]]))
        i = j
    i += 1
o = Out("Readme", "../README.md")
o.text = o.text.replace("The unit tests of `/repo/src/../README.md`, run on the model", "The examples of `/repo/README.md`, run on the model")
o.text = o.text.replace("Written by", "What is visible on a terminal with colours; trailing blanks of a line are not compared.  `--resize` ends with an empty line,\nwhich the document does not show.\n\nWritten by")
for (f, _, cmd), (_, l, out) in zip(blocks[::2], blocks[1::2]):
    assert len(cmd) == 1 and cmd[0].startswith("ripcalc ")
    args = ", ".join(f'chars! "{a}"' for a in cmd[0].split())
    if "--resize" in cmd[0]:
        out = out + [""]
    lines = ",\n      ".join(f'chars! "{x.rstrip()}"' if x else "[]" for x in out + [""])
    o.ex(f"{f}-{l}", f"ShowsLines (doMain (evalRuntime .checked true) [{args}]) 0\n    [{lines}]",
         "(doMainE_approx 1000 _ _).shows (by decide +kernel)")
o.close()
