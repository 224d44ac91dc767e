#!/usr/bin/env python3
"""Embed the circuits of data/circ and the certificates for them in lean/Verif/Data.

usage: gen_circuits.py [--check] [sub64|aes|sha|sub64sort|aessort|shasort]...

With --check nothing is written; the generated text is compared with the files.  The theorems about the
embedded circuits do not depend on this script: the certificates are checked by the kernel, and the text
of a circuit file is in lean/Verif/Data/*Text*.lean as string literals.  What has to be trusted is that these
literals are the contents of the files in the repository; `--check` compares them.
"""
import os, sys

REPO = os.environ.get("REPO", "/repo")
OUT = os.path.join(os.path.dirname(os.path.abspath(__file__)), "..", "lean", "Verif", "Data")
KIND = {"XOR": 0, "AND": 1, "INV": 2}
BLOCK = 128


def load(name):
    text = open(f"{REPO}/data/circ/{name}.txt").read()
    lines = text.split("\n")
    ng, nw = map(int, lines[0].split())
    gates = []
    for l in lines[4:4 + ng]:
        t = l.split()
        k = KIND[t[-1]]
        gates.append((k, int(t[2]), int(t[3]) if k < 2 else 0, int(t[-2])))
    return text, lines, ng, nw, gates


def tree(name, doc, vals):
    """Source of a BTree with the given leaves; the lowest bit of the position selects at the root.
    Subtrees of depth three are definitions of their own."""
    n = 1
    while n < len(vals):
        n *= 2
    vals = vals + [None] * (n - len(vals))
    out = []

    def go(vs):
        if all(v is None for v in vs):
            return ".lf 0"
        if len(vs) == 1:
            return f".lf 0x{vs[0]:x}"
        s = f".nd ({go(vs[0::2])}) ({go(vs[1::2])})"
        if len(vs) == 8 and n > 8:
            out.append(f"def {name}{len(out)} : BTree :=\n  " + wrap(s) + "\n\n")
            return f"{name}{len(out) - 1}"
        return s
    s = go(vals)
    return "".join(out) + f"/-- {doc} -/\ndef {name} : BTree :=\n  " + wrap(s) + "\n\n"


def pack(entries, bits, per):
    leaves = []
    for i in range(0, len(entries), per):
        v = 0
        for j, e in enumerate(entries[i:i + per]):
            assert 0 <= e < 1 << bits, e
            v |= e << (bits * j)
        leaves.append(v)
    return leaves


def wrap(s, width=160):
    """Break a long line at spaces."""
    out, cur = [], ""
    for w in s.split(" "):
        if cur and len(cur) + 1 + len(w) > width:
            out.append(cur)
            cur = w
        else:
            cur = cur + " " + w if cur else w
    out.append(cur)
    return "\n  ".join(out)


def lit(s):
    return '"' + s.replace("\n", "\\n") + '"'


def text_modules(prefix, cname, name, per_module):
    """The text of the file: head, blocks of gate lines (in modules of `per_module` blocks), tail."""
    text, lines, ng, nw, gates = load(name)
    head = "".join(l + "\n" for l in lines[:4])
    blocks = ["".join(l + "\n" for l in lines[4 + i:4 + min(i + BLOCK, ng)]) for i in range(0, ng, BLOCK)]
    tail = text[len(head) + sum(map(len, blocks)):]
    assert head + "".join(blocks) + tail == text
    mods = {}
    nmod = (len(blocks) + per_module - 1) // per_module
    for j in range(nmod):
        part = blocks[j * per_module:(j + 1) * per_module]
        suffix = "" if nmod == 1 else f"{j:02d}"
        s = f"/-!\n# Text of `data/circ/{name}.txt`" + ("" if nmod == 1 else f", part {j + 1} of {nmod}") + "\n\n"
        s += "Generated by `tools/gen_circuits.py`.\n-/\n\nnamespace Verif.Data\n\n"
        if j == 0:
            s += f"/-- The first four lines of `data/circ/{name}.txt`. -/\ndef {prefix}Head : String := {lit(head)}\n\n"
            s += f"/-- What follows the last gate of `data/circ/{name}.txt`. -/\ndef {prefix}Tail : String := {lit(tail)}\n\n"
        first = j * per_module * BLOCK
        last = min(first + per_module * BLOCK, ng)
        s += f"/-- Lines {first + 5}-{last + 4} of `data/circ/{name}.txt`, {BLOCK} per string. -/\n"
        s += f"def {prefix}Blocks{suffix} : List String := [\n" + ",\n".join(lit(b) for b in part) + "]\n\n"
        s += "end Verif.Data\n"
        mods[f"{cname}Text{suffix}"] = s
    return mods


def gate_slots(gates):
    return [k | a << 2 | b << 20 | o << 38 for k, a, b, o in gates]


def data_module(cname, doc, defs):
    s = "import Verif.Cut\n\n/-!\n# " + doc + "\n\nGenerated by `tools/gen_circuits.py`.\n-/\n\nnamespace Verif.Data\n\n"
    for name, d, vals in defs:
        s += tree(name, d, vals)
    s += "end Verif.Data\n"
    return {cname + "Data": s}


def check_modules(prefix, cname, ng, per_module, step):
    """Modules in which the kernel checks the text and the gates."""
    mods = {}
    size = per_module * BLOCK
    nmod = (ng + size - 1) // size
    for j in range(nmod):
        lo, hi = j * size, min((j + 1) * size, ng)
        s = f"import Verif.{cname}\nimport Verif.CutLemmas\nimport Verif.KernelRfl\n\n"
        s += f"/-!\n# Checks of the gates {lo} to {hi - 1} of the circuit in `{cname}`\n\n"
        s += "Generated by `tools/gen_circuits.py`.\n-/\n\nnamespace Verif\n\nopen Data\n\n"
        nb = (hi - lo + BLOCK - 1) // BLOCK
        s += f"theorem {prefix}_blocks{j:02d} : {prefix}Blocks{j:02d} = (List.range' {j * per_module} {nb}).map " \
             f"({prefix}Net.block {BLOCK}) := by krfl\n\n"
        for what, pred in (("gates", f"(fun q => {prefix}Cert.okCode ({prefix}Net.slot q))"),
                           ("topo", f"({prefix}Net.gateOk {prefix}Rank)")):
            cuts = list(range(lo, hi, step)) + [hi]
            for i in range(len(cuts) - 1):
                s += f"theorem {prefix}_{what}{j:02d}_{i} : allFrom {pred} {cuts[i]} {cuts[i + 1] - cuts[i]} = true := by\n"
                s += "  decide +kernel\n\n"
            goal = f"{prefix}Cert.okCode ({prefix}Net.slot q) = true" if what == "gates" \
                else f"{prefix}Net.gateOk {prefix}Rank q = true"
            s += f"theorem {prefix}_{what}{j:02d} (q : Nat) (h1 : {lo} ≤ q) (h2 : q < {hi}) : {goal} := by\n"
            for i in range(len(cuts) - 2):
                s += f"  by_cases c{i} : q < {cuts[i + 1]}\n"
                s += f"  · exact allFrom_iff {prefix}_{what}{j:02d}_{i} q (by omega) (by omega)\n"
            i = len(cuts) - 2
            s += f"  exact allFrom_iff {prefix}_{what}{j:02d}_{i} q (by omega) (by omega)\n\n"
        s += "end Verif\n"
        mods[f"{cname}Check{j:02d}"] = s
    return mods


def sub64():
    text, lines, ng, nw, gates = load("sub64")
    mods = text_modules("sub64", "Sub64", "sub64", 1000)
    A, B, C = 0xAA, 0xCC, 0xF0
    claim = {}
    for i in range(64):
        claim[i] = ("sig", i)
        claim[64 + i] = ("sig", 64 + i)
    rank = {}

    def tab(b, c):
        if c[0] == "box":
            if c[1] == b:
                return c[2]
            o = out(c[1], c[2])
            if o is None:
                return None
            v = o
        else:
            v = c[1]
        return {b: A, 64 + b: B, 128 + b: C}.get(v)

    def out(b, n):
        if n == (0x66 if b == 0 else 0x96):
            return 192 + b
        if n == (0x44 if b == 0 else 0xD4) and b < 63:
            return 129 + b
        return None
    for q, (k, a, b, o) in enumerate(gates):
        rank[o] = q
        found = None
        for x in range(64):
            s = tab(x, claim[a])
            t = tab(x, claim[b]) if k < 2 else 0
            if s is None or t is None:
                continue
            found = ("box", x, s ^ t if k == 0 else s & t if k == 1 else s ^ 255)
            break
        claim[o] = found
        assert found, (q, k, a, b, o)
    for i in range(64):
        c = claim[503 + i]
        assert c[0] == "box" and out(c[1], c[2]) == 192 + i, (i, c)
    slots = []
    for w in range(nw):
        c = claim[w]
        e = 1 | c[1] << 1 if c[0] == "sig" else c[2] << 1 | c[1] << 9
        slots.append(e | rank.get(w, 0) << 26)
    mods.update(data_module("Sub64", "Gates of `data/circ/sub64.txt` and a certificate for them", [
        ("sub64GateTree", "Gate codes: 56 bits each, 64 per leaf.", pack(gate_slots(gates), 56, 64)),
        ("sub64WireTree", "Claims and ranks of the wires: 44 bits each, 64 per leaf.", pack(slots, 44, 64))]))
    return mods


# AES-128: reference implementation with the inputs of all S-boxes

def xt(a):
    a <<= 1
    return a ^ 0x11b if a & 0x100 else a


def gmul(a, b):
    r = 0
    while b:
        if b & 1:
            r ^= a
        a = xt(a)
        b >>= 1
    return r


def make_sbox():
    sb = []
    for a in range(256):
        b = 1
        for _ in range(254):
            b = gmul(b, a)
        r = 0x63
        for k in range(5):
            r ^= (b << k | b >> (8 - k)) & 255
        sb.append(r)
    return sb


SB = make_sbox()
RC = [1]
for _ in range(9):
    RC.append(xt(RC[-1]))


def shift(i):
    """Source byte of ShiftRows."""
    return (i + 4 * (i % 4)) % 16


def aes_trace(key, pt):
    """The inputs of the S-boxes, by box: 16 r + i in the rounds, 160 + 4 r + j in the key schedule."""
    boxes = {}
    w = [key[4 * i:4 * i + 4] for i in range(4)]
    for i in range(4, 44):
        t = list(w[i - 1])
        if i % 4 == 0:
            t = t[1:] + t[:1]
            for j in range(4):
                boxes[160 + 4 * (i // 4 - 1) + j] = t[j]
            t = [SB[x] for x in t]
            t[0] ^= RC[i // 4 - 1]
        w.append([a ^ b for a, b in zip(w[i - 4], t)])
    rk = [sum(w[4 * r:4 * r + 4], []) for r in range(11)]
    s = [a ^ b for a, b in zip(pt, rk[0])]
    for r in range(1, 11):
        for i in range(16):
            boxes[16 * (r - 1) + i] = s[i]
        s = [SB[x] for x in s]
        s = [s[shift(i)] for i in range(16)]
        if r < 10:
            s = [gmul(2, s[i]) ^ gmul(3, s[i // 4 * 4 + (i + 1) % 4]) ^ s[i // 4 * 4 + (i + 2) % 4]
                 ^ s[i // 4 * 4 + (i + 3) % 4] for i in range(16)]
        s = [a ^ b for a, b in zip(s, rk[r])]
    return boxes


def simulate(gates, nw, vals, mask):
    v = vals + [0] * (nw - len(vals))
    for k, a, b, o in gates:
        v[o] = v[a] ^ v[b] if k == 0 else v[a] & v[b] if k == 1 else v[a] ^ mask
    return v


def claim_slots(nw, box, sig, rank, sigbits, sigmax):
    """Codes of the claims, and the dictionary of lists of signals."""
    dic, dl, slots = {}, [], []
    for w in range(nw):
        if w in box:
            b, n = box[w]
            c = n << 1 | b << 9
        else:
            key = tuple(sig[w])
            if key not in dic:
                assert len(key) <= sigmax
                dic[key] = len(dl)
                dl.append(sum((v + 1) << (sigbits * j) for j, v in enumerate(key)))
            c = dic[key] << 1 | 1
        slots.append(c | rank.get(w, 0) << 26)
    return slots, dl


def aes():
    import random
    text, lines, ng, nw, gates = load("aes_128")
    mods = text_modules("aes", "Aes", "aes_128", 72)
    mods.update(check_modules("aes", "Aes", ng, 72, 2304))
    RK = lambda r, i, k: r << 7 | i << 3 | k
    X = lambda r, i, k: 1 << 11 | RK(r, i, k)
    Y = lambda r, i, k: 2 << 11 | RK(r, i, k)
    KS = lambda r, i, k: 3 << 11 | RK(r, i, k)
    PT = lambda i, k: 4 << 11 | RK(0, i, k)
    ONE = 4 << 11 | 1 << 7
    # find the wires of the S-boxes by simulation on random inputs
    rnd = random.Random(1)
    runs = 256
    full = (1 << runs) - 1
    vals = [0] * 256
    ins, outs = {}, {}
    for t in range(runs):
        key = [rnd.randrange(256) for _ in range(16)]
        pt = [rnd.randrange(256) for _ in range(16)]
        for i in range(128):
            vals[i] |= (key[15 - i // 8] >> i % 8 & 1) << t
            vals[128 + i] |= (pt[15 - i // 8] >> i % 8 & 1) << t
        for b, x in aes_trace(key, pt).items():
            for k in range(8):
                ins[b, k] = ins.get((b, k), 0) | (x >> k & 1) << t
                outs[b, k] = outs.get((b, k), 0) | (SB[x] >> k & 1) << t
    wires = {}
    for w, v in enumerate(simulate(gates, nw, vals, full)):
        wires.setdefault(v, []).append(w)
    driver = {o: (k, a, b) for k, a, b, o in gates}
    rank = {o: q for q, (k, a, b, o) in enumerate(gates)}
    M = (1 << 256) - 1
    coord = [sum((x >> k & 1) << x for x in range(256)) for k in range(8)]
    sbox = [sum((SB[x] >> k & 1) << x for x in range(256)) for k in range(8)]
    tabs = sbox + [t ^ M for t in sbox] + coord
    idx = {t: n for n, t in enumerate(tabs)}
    box, outsig = {}, {}
    for b in range(200):
        tab = {wires[ins[b, k]][0]: coord[k] for k in range(8)}
        given = set(tab)

        def ev(w):
            if w not in tab:
                k, x, y = driver[w]
                tab[w] = ev(x) ^ ev(y) if k == 0 else ev(x) & ev(y) if k == 1 else ev(x) ^ M
            return tab[w]
        for k in range(8):
            v = Y(b // 16, b % 16, k) if b < 160 else KS((b - 160) // 4, b % 4, k)
            for w in wires.get(outs[b, k], []):
                assert ev(w) == sbox[k]
                outsig[w] = frozenset({v})
            for w in wires.get(outs[b, k] ^ full, []):
                assert ev(w) == sbox[k] ^ M
                outsig[w] = frozenset({v, ONE})
        for w, t in tab.items():
            if w not in given:
                assert w not in box
                if t not in idx:
                    idx[t] = len(tabs)
                    tabs.append(t)
                box[w] = (b, idx[t])
    # normal forms of the signals that are not base signals
    nf = {}

    def form(v):
        if v in nf:
            return nf[v]
        reg, r, i, k = v >> 11, v >> 7 & 15, v >> 3 & 15, v & 7
        s = []
        if reg == 0 and r > 0:
            if i < 4:
                s = [RK(r - 1, i, k), KS(r - 1, i, k)] + ([ONE] if i == 0 and RC[r - 1] >> k & 1 else [])
            else:
                s = [RK(r - 1, i, k), RK(r, i - 4, k)]
        elif reg == 1:
            if r == 0:
                s = [PT(i, k), RK(0, i, k)]
            elif r == 10:
                s = [Y(9, shift(i), k), RK(10, i, k)]
            else:
                s = [RK(r, i, k)]
                for d, m in enumerate((2, 3, 1, 1)):
                    j = shift(i // 4 * 4 + (i + d) % 4)
                    if m & 1:
                        s.append(Y(r - 1, j, k))
                    if m & 2:
                        if k > 0:
                            s.append(Y(r - 1, j, k - 1))
                        if 0x1b >> k & 1:
                            s.append(Y(r - 1, j, 7))
        f = frozenset({v}) if not s else frozenset()
        for x in s:
            f = f ^ form(x)
        nf[v] = f
        return f
    known = {}
    for r in range(11):
        for i in range(16):
            for k in range(8):
                known[form(RK(r, i, k))] = RK(r, i, k)
                known[form(X(r, i, k))] = X(r, i, k)
    sig, forms = {}, {}
    for w in range(256):
        sig[w] = [RK(0, 15 - w // 8, w % 8) if w < 128 else PT(31 - w // 8, w % 8)]
        forms[w] = frozenset(sig[w])
    for k, a, b, o in gates:
        if o in box:
            continue
        assert k != 1
        f, s = frozenset(), frozenset()
        for x in ((a, b) if k == 0 else (a,)):
            f = f ^ (forms[x] if x in forms else outsig[x])
            s = s ^ (frozenset(sig[x]) if x in sig else outsig[x])
        if k == 2:
            f, s = f ^ {ONE}, s ^ {ONE}
        if f in known:
            s = {known[f]}
        elif f ^ {ONE} in known:
            s = {known[f ^ {ONE}], ONE}
        forms[o], sig[o] = f, sorted(s)
    slots, dl = claim_slots(nw, box, sig, rank, 14, 8)
    mods.update(data_module("Aes", "Gates of `data/circ/aes_128.txt` and a certificate for them", [
        ("aesGateTree", "Gate codes: 56 bits each, 64 per leaf.", pack(gate_slots(gates), 56, 64)),
        ("aesWireTree", "Claims and ranks of the wires: 44 bits each, 64 per leaf.", pack(slots, 44, 64)),
        ("aesSigTree", "Lists of signals (up to 8 of 14 bits, one more than the signal): 32 per leaf.", pack(dl, 112, 32)),
        ("aesTableTree", "Truth tables: one per leaf.  The first eight are those of the S-box, then their complements, then the"
         " input bits.", tabs)]))
    return mods


# SHA-256

def sha_constants():
    """The first 32 bits of the fractional parts of the cube roots of the first 64 primes."""
    def icbrt(n):
        lo, hi = 0, 1 << 40
        while lo + 1 < hi:
            m = (lo + hi) // 2
            lo, hi = (m, hi) if m ** 3 <= n else (lo, m)
        return lo
    primes = [p for p in range(2, 312) if all(p % q for q in range(2, p))]
    return [icbrt(p << 96) & 0xffffffff for p in primes]


SHAK = sha_constants()


def sha_op(n):
    """How word 16 u + s of the computation is made (compare shaOp in lean/Verif/Sha.lean)."""
    u, s = divmod(n, 16)
    B = 16 * u
    if s == 0:
        return ("add", B + 1, B + 2) if 16 <= u < 64 else None
    if s == 1:
        if u < 4:
            return ("add", 16 * (3 - u) + 5, 16 * (67 - u) + 5)
        if u < 8:
            return ("add", 16 * (7 - u) + 6, 16 * (71 - u) + 6)
        return ("add", B - 256, B + 3) if 16 <= u < 64 else None
    if s == 2:
        return ("add", B - 112, B + 4) if 16 <= u < 64 else None
    if s == 3:
        return ("lin", B - 240, 7, 18, 3, True) if 16 <= u < 64 else None
    if s == 4:
        return ("lin", B - 32, 17, 19, 10, True) if 16 <= u < 64 else None
    if s == 5:
        return ("add", B - 52, B - 49) if 4 <= u < 68 else None
    if s == 6:
        return ("add", B - 59, B - 52) if 4 <= u < 68 else None
    if u >= 64:
        return None
    return {7: ("lin", B + 54, 6, 11, 25, False), 8: ("ch", B + 54, B + 38, B + 22), 9: ("add", B + 6, B),
            10: ("add", B + 7, B + 8), 11: ("add", B + 9, B + 10), 12: ("addk", B + 11, SHAK[u]),
            13: ("lin", B + 53, 2, 13, 22, False), 14: ("maj", B + 53, B + 37, B + 21),
            15: ("add", B + 13, B + 14)}[s]


def sha_lin(op, k):
    """Positions of the bits of which bit k of a linear word is the exclusive or."""
    r = [(k + op[2]) % 32, (k + op[3]) % 32]
    if not op[5] or k + op[4] < 32:
        r.append((k + op[4]) % 32)
    return r


def sha():
    import random
    text, lines, ng, nw, gates = load("sha256")
    mods = text_modules("sha", "Sha", "sha256", 96)
    mods.update(check_modules("sha", "Sha", ng, 96, 2048))
    rnd = random.Random(1)
    runs = 1 << 16
    full = (1 << runs) - 1
    vals = [rnd.getrandbits(runs) for _ in range(768)]
    col, car = {}, {}
    for t in range(16):
        for k in range(32):
            col[16 * t, k] = vals[32 * (15 - t) + k]
    for j in range(8):
        for k in range(32):
            col[16 * (3 - j) + 5 if j < 4 else 16 * (7 - j) + 6, k] = vals[512 + 32 * (7 - j) + k]

    def word(n):
        if (n, 0) in col:
            return [col[n, k] for k in range(32)]
        op = sha_op(n)
        r = []
        if op[0] == "lin":
            x = word(op[1])
            for k in range(32):
                y = 0
                for i in sha_lin(op, k):
                    y ^= x[i]
                r.append(y)
        elif op[0] in ("ch", "maj"):
            for x, y, z in zip(*map(word, op[1:])):
                r.append(z ^ x & (y ^ z) if op[0] == "ch" else x & y ^ x & z ^ y & z)
        else:
            x = word(op[1])
            y = word(op[2]) if op[0] == "add" else [full * (op[2] >> k & 1) for k in range(32)]
            c = 0
            for k in range(32):
                car[n, k] = c
                r.append(x[k] ^ y[k] ^ c)
                c = x[k] & y[k] | c & (x[k] | y[k])
        for k in range(32):
            col[n, k] = r[k]
        return r
    for n in range(1024):
        if sha_op(n):
            word(n)
    wires = {}
    for w, x in enumerate(simulate(gates, nw, vals, full)):
        wires.setdefault(x, []).append(w)
    driver = {o: (k, a, b) for k, a, b, o in gates}
    rank = {o: q for q, (k, a, b, o) in enumerate(gates)}
    CAR, ONE = 34816, 69632
    low = lambda u, k: SHAK[u] % (1 << k)
    box = {}
    for n in sorted({n for n, _ in col}):
        op = sha_op(n)
        if op is None or op[0] == "lin":
            continue
        for k in range(32):
            if op[0] == "add":
                ins = [(col[op[1], k], 0xAA), (col[op[2], k], 0xCC)] + ([(car[n, k], 0xF0)] if k else [])
            elif op[0] == "addk":
                if low(n // 16, k + 1) == 0:
                    continue
                ins = [(col[op[1], k], 0xAA)] + ([(car[n, k], 0xF0)] if low(n // 16, k) else [])
                if low(n // 16, k) == 1 << k - 1 if k else False:
                    ins.append((col[n, k - 1], 0x0F))
            else:
                ins = [(col[op[1], k], 0xAA), (col[op[2], k], 0xCC), (col[op[3], k], 0xF0)]
            tab = {w: t for c, t in ins for w in wires[c]}
            given = set(tab)

            def ev(w):
                if w not in tab:
                    q, x, y = driver[w]
                    tab[w] = ev(x) ^ ev(y) if q == 0 else ev(x) & ev(y) if q == 1 else ev(x) ^ 255
                return tab[w]
            for o in [col[n, k]] + ([car[n, k + 1]] if op[0] in ("add", "addk") and k < 31 else []):
                for w in wires[o]:
                    ev(w)
            for w in set(tab) - given:
                assert w not in box, (box[w], n, k, w)
                box[w] = (32 * n + k, tab[w])

    def out(b, t):
        n, k = divmod(b, 32)
        op = sha_op(n)
        if op[0] == "add":
            if t == (0x96 if k else 0x66):
                return n - n % 16 + 12 << 5 | k if n % 16 == 11 and low(n // 16, k + 1) == 0 else b
            if t == (0xE8 if k else 0x88) and k < 31:
                return CAR + b + 1
        elif op[0] == "addk":
            one, cin = op[2] >> k & 1, low(n // 16, k) != 0
            if t == ((0xA5 if one else 0x5A) if cin else 0x55):
                return b
            if t == (0xFA if one else 0xA0) and cin and k < 31:
                return CAR + b + 1
        elif t == (0xD8 if op[0] == "ch" else 0xE8):
            return b
        return None
    nf = {}

    def form(v):
        if v not in nf:
            op = sha_op(v // 32) if v < CAR else None
            nf[v] = frozenset({v}) if not op or op[0] != "lin" else \
                frozenset(32 * op[1] + i for i in sha_lin(op, v % 32))
        return nf[v]
    known = {form(32 * n + k): 32 * n + k for n in range(1024) if sha_op(n) and sha_op(n)[0] == "lin"
             for k in range(32)}
    sig = {}
    for w in range(768):
        j = 15 - w // 32 if w < 512 else 23 - w // 32
        sig[w] = [32 * (16 * j if w < 512 else 16 * (3 - j) + 5 if j < 4 else 16 * (7 - j) + 6) + w % 32]
    for k, a, b, o in gates:
        if o in box:
            continue
        assert k == 0
        s = frozenset()
        for x in (a, b):
            l = sig[x] if x in sig else [out(*box[x])]
            for v in l:
                s = s ^ form(v)
        sig[o] = [known[s]] if s in known else sorted(s)
    slots, dl = claim_slots(nw, box, sig, rank, 17, 2)
    mods.update(data_module("Sha", "Gates of `data/circ/sha256.txt` and a certificate for them", [
        ("shaGateTree", "Gate codes: 56 bits each, 64 per leaf.", pack(gate_slots(gates), 56, 64)),
        ("shaWireTree", "Claims and ranks of the wires: 44 bits each, 64 per leaf.", pack(slots, 44, 64)),
        ("shaSigTree", "Lists of signals (up to 2 of 17 bits, one more than the signal): 64 per leaf.", pack(dl, 34, 64)),
        ("shaKTree", "The constants: one per leaf.", SHAK)]))
    return mods


# The order in which the gates are packed (compare lean/Verif/NetSort.lean)

def sort_modules(prefix, cname, name, nin, top, step, per_module):
    """The certificate for the order of the gates, for every packing parameter below `top` the places of two gates of
    a last block which read the same wire, if there are any, and modules in which the kernel checks the certificate."""
    text, lines, ng, nw, gates = load(name)
    low = lambda i: ("xor", "and", "inv")[i]
    cls = [[q for q in range(ng) if gates[q][0] == i] for i in range(3)]
    pos, defs, order, bits = [0] * nw, [], [], max(2 * ng, 4 * ng).bit_length()
    for i in range(3):
        K = 2 if i < 2 else 1
        fan = [0] * nw
        for q in cls[i]:
            for k in range(K):
                fan[gates[q][1 + k]] += 1
        reads = sorted((2 * q + k for q in cls[i] for k in range(K)), key=lambda e: (gates[e // 2][1 + e % 2], e))
        order.append(sorted(cls[i], key=lambda q: (max((fan[w], w) for w in gates[q][1:1 + K]), q)))
        for r, q in enumerate(order[i]):
            pos[gates[q][3]] = 4 * r + i
        c = low(i).capitalize()
        defs.append((f"{prefix}{c}Reads", f"The inputs of the {low(i).upper()} gates by wires: {bits} bits each, 64 per leaf.",
                     pack(reads, bits, 64)))
        defs.append((f"{prefix}{c}Fan", f"How often the {low(i).upper()} gates read a wire: 4 bits each, 256 per leaf.",
                     pack(fan, 4, 256)))
        defs.append((f"{prefix}{c}Order", f"The {low(i).upper()} gates in the order in which they are packed: {bits} bits each, 64 per leaf.",
                     pack(order[i], bits, 64)))
    defs.append((f"{prefix}Pos", f"Class and place of the gate which drives a wire: {bits} bits each, 64 per leaf.", pack(pos, bits, 64)))
    full = lambda l, w: w < nin // l * l if w < nin else pos[w] // 4 < len(order[pos[w] % 4]) // l * l
    leaks = [0]
    for l in range(1, top):
        best = 0
        for i in (1, 0):
            for k in (0, 1):
                lo = len(order[i]) // l * l
                ws = [gates[q][1 + k] for q in order[i][lo:]]
                if len(set(ws)) < len(ws) and all(full(l, w) for w in ws) and (not best or best[0] < 2):
                    r1 = next(r for r, w in enumerate(ws) if w in ws[r + 1:])
                    best = (l - len(ws), i | k << 1 | lo + r1 << 2 | lo + ws.index(ws[r1], r1 + 1) << 22)
        leaks.append(best[1] if best else 0)
    defs.append((f"{prefix}LeakTree", "Class, input and places of two gates of a last block which read the same wire, by packing parameter:"
                 " 44 bits each, 16 per leaf.", pack(leaks, 44, 16)))
    s = "import Verif.NetSort\n\n/-!\n# The order in which the gates of `data/circ/" + name + ".txt` are packed\n\n"
    s += "Generated by `tools/gen_circuits.py`.\n-/\n\nnamespace Verif.Data\n\n"
    for d in defs:
        s += tree(*d)
    s += f"end Verif.Data\n\nnamespace Verif\n\nopen Data\n\n/-- The certificate for the order of the gates. -/\n"
    s += f"noncomputable def {prefix}Sort : SortCert where\n"
    for i in range(3):
        c = low(i).capitalize()
        s += f"  {low(i)} := ⟨{i}, {2 if i < 2 else 1}, {len(order[i])}, fun j => {prefix}{c}Reads.get {bits} 64 j, " \
             f"fun w => {prefix}{c}Fan.get 4 256 w, fun r => {prefix}{c}Order.get {bits} 64 r⟩\n"
    s += f"  pos w := {prefix}Pos.get {bits} 64 w\n\n"
    s += "/-- Class, input and places of two gates which read the same wire. -/\n"
    s += f"noncomputable def {prefix}Leak (l : Nat) : Nat := {prefix}LeakTree.get 44 16 l\n\nend Verif\n"
    mods = {cname + "SortData": s}
    pieces = []
    for i in range(3):
        for what, n in (("reads", len(order[i]) * (2 if i < 2 else 1)), ("order", len(order[i]))):
            pieces.append((low(i), what, n))
    cur, curlen, out = [], 0, []
    for kind, what, n in pieces:
        for lo in range(0, n, step * per_module):
            hi = min(lo + step * per_module, n)
            if curlen + hi - lo > step * per_module:
                out.append(cur)
                cur, curlen = [], 0
            cur.append((kind, what, lo, hi))
            curlen += hi - lo
    out.append(cur)
    last = {}
    for j, part in enumerate(out):
        s = f"import Verif.{cname}\nimport Verif.Data.{cname}SortData\nimport Verif.CutLemmas\n\n"
        s += f"/-!\n# Checks of the order of the gates of `data/circ/{name}.txt`, part {j + 1} of {len(out)}\n\n"
        s += "Generated by `tools/gen_circuits.py`.\n-/\n\nnamespace Verif\n\nopen Data\n\n"
        for kind, what, lo, hi in part:
            C = f"{prefix}Sort.{kind}"
            pred, goal = (f"({C}.readOk {prefix}Net)", f"{C}.readOk {prefix}Net j = true") if what == "reads" else \
                (f"({C}.orderOk {prefix}Net {prefix}Sort.pos)", f"{C}.orderOk {prefix}Net {prefix}Sort.pos j = true")
            cuts = list(range(lo, hi, step)) + [hi]
            th = f"{prefix}_{kind}_{what}{j:02d}"
            for x in range(len(cuts) - 1):
                s += f"theorem {th}_{x} : allFrom {pred} {cuts[x]} {cuts[x + 1] - cuts[x]} = true := by\n  decide +kernel\n\n"
            s += f"theorem {th} (j : Nat) (h1 : {lo} ≤ j) (h2 : j < {hi}) : {goal} := by\n"
            for x in range(len(cuts) - 2):
                s += f"  by_cases c{x} : j < {cuts[x + 1]}\n  · exact allFrom_iff {th}_{x} j (by omega) (by omega)\n"
            s += f"  exact allFrom_iff {th}_{len(cuts) - 2} j (by omega) (by omega)\n\n"
            last.setdefault((kind, what), []).append((th, hi, goal))
        s += "end Verif\n"
        mods[f"{cname}SortCheck{j:02d}"] = s
    s = "".join(f"import Verif.Data.{cname}SortCheck{j:02d}\n" for j in range(len(out)))
    s += f"\n/-!\n# Checks of the order of the gates of `data/circ/{name}.txt`\n\nGenerated by `tools/gen_circuits.py`.\n-/\n\nnamespace Verif\n\n"
    for (kind, what), ths in last.items():
        s += f"theorem {prefix}_{kind}_{what} (j : Nat) (h : j < {ths[-1][1]}) : {ths[0][2]} := by\n"
        for x, (th, hi, _) in enumerate(ths[:-1]):
            s += f"  by_cases c{x} : j < {hi}\n  · exact {th} j (by omega) (by omega)\n"
        s += f"  exact {ths[-1][0]} j (by omega) (by omega)\n\n"
    s += "end Verif\n"
    mods[f"{cname}SortCheck"] = s
    return mods


GEN = {"sub64": sub64, "aes": aes, "sha": sha,
       "sub64sort": lambda: sort_modules("sub64", "Sub64", "sub64", 128, 25, 512, 8),
       "aessort": lambda: sort_modules("aes", "Aes", "aes_128", 256, 193, 2048, 16),
       "shasort": lambda: sort_modules("sha", "Sha", "sha256", 768, 371, 2048, 24)}


def main():
    args = sys.argv[1:]
    check = "--check" in args
    names = [a for a in args if a != "--check"] or list(GEN)
    bad = 0
    for n in names:
        for mod, src in GEN[n]().items():
            path = os.path.join(OUT, mod + ".lean")
            if check:
                if not os.path.exists(path) or open(path).read() != src:
                    print("differs:", path)
                    bad = 1
            else:
                open(path, "w").write(src)
                print("wrote", path, len(src))
    if check and not bad:
        print("ok")
    sys.exit(bad)


if __name__ == "__main__":
    main()
