"""Random numbers with their shortest text (written out without an exponent) and a text that reads to them."""
import random, struct, sys
from decimal import Decimal
random.seed(1)
def bits(x): return struct.unpack("<Q", struct.pack("<d", x))[0]
def plain(x):
    if x != x: return "NaN"
    if x in (float("inf"), -float("inf")): return "inf" if x > 0 else "-inf"
    s = format(Decimal(repr(x)), "f")
    return s[:-2] if s.endswith(".0") else s
def variants(x):
    yield repr(x)
    yield "%.17g" % x
    yield format(Decimal(x), "f")
    yield "%.20E" % x
    s = "%.17e" % x
    yield s.replace("e", "00000e", 1)
with open(sys.argv[1], "w") as f:
    def put(x):
        for v in variants(x):
            f.write("%d\t%s\t%s\n" % (bits(x), plain(x), v))
    for k in range(400): put(struct.unpack("<d", struct.pack("<Q", random.getrandbits(64) & ~(1 << 62) ))[0])
    for k in range(400):
        x = struct.unpack("<d", struct.pack("<Q", random.getrandbits(64)))[0]
        if x == x and abs(x) != float("inf"): put(x)
    for k in range(400): put(random.uniform(-1, 1)); put(random.uniform(0, 3e6)); put(round(random.uniform(-1e4, 1e4), random.randrange(8)))
    for k in range(-1074, 1024, 3): put(2.0 ** k); put(3 * 2.0 ** k if k < 1000 else 1.0)
    for k in range(-323, 309): put(float("1e%d" % k))
    for x in [0.0, -0.0, 5e-324, 1.7976931348623157e308, 2.2250738585072014e-308, 2.225073858507201e-308, 9007199254740993.0, 5e22, 1e23]: put(x)
    for t, x in [("inf", "inf"), ("-Infinity", "-inf"), ("+iNF", "inf"), ("1e400", "inf"), ("-1e400", "-inf"), (".5", "0.5"), ("5.", "5"), ("1e-400", "0"), ("+1.e1", "10"), ("1e99999999999", "inf"), ("0e99999999999", "0"), ("1e-99999999999", "0")]:
        f.write("%d\t%s\t%s\n" % (bits(float(x)), x, t))
