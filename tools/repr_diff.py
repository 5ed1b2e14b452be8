"""Compares the model's float.__repr__ and json strings with this Python's own on random values.

Usage: python3 repr_diff.py N > /tmp/ReprDiff.lean, then `lake env lean /tmp/ReprDiff.lean` in lean/;
it prints the differences and the number of cases.
"""
import json, math, random, struct, sys
from fractions import Fraction

N = int(sys.argv[1])
random.seed(7)

def cases():
    for e in range(-1000, 1000):
        yield 2.0 ** e
        yield math.nextafter(2.0 ** e, 0)
        yield math.nextafter(2.0 ** e, math.inf)
    for e in range(-300, 300):
        x = float("1e%d" % e)
        yield x
        yield math.nextafter(x, 0)
        yield math.nextafter(x, math.inf)
    for _ in range(N):
        x = struct.unpack("<d", struct.pack("<Q", random.getrandbits(64)))[0]
        if math.isfinite(x) and abs(x) > 1e-300:
            yield x
    for _ in range(N):
        yield random.choice([1, -1]) * random.randrange(10 ** random.randrange(1, 8)) / 10 ** random.randrange(0, 5)
    for _ in range(N):
        yield random.randrange(20000) * random.choice([0.3048, 1852.0, 0.514444, 33.8639, 0.001, 1 / 16, 30.48, 3.28084])

print("import Verif.Model.Json\nopen Verif")
out = []
for x in cases():
    if x == 0:
        continue
    f = Fraction(x)
    out.append('(mkRat (%d) %d, "%s")' % (f.numerator, f.denominator, repr(x)))
chunks = [out[i:i + 500] for i in range(0, len(out), 500)]
for i, c in enumerate(chunks):
    print("def cases%d : List (Rat × String) := [\n%s]" % (i, ",\n".join(c)))
    print("#eval (cases%d.filter fun c => decide (String.ofList ((floatRepr ⟨c.1, false⟩).map Char.ofNat) ≠ c.2))" % i)
print("#eval %d" % len(out))
