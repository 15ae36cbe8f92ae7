"""Write the numbers of each table of /repo/crates/tofas/src/test_data.rs as one line per entry into the directory given."""
import re, sys, os
out = sys.argv[1]
os.makedirs(out, exist_ok=True)
text = open("/repo/crates/tofas/src/test_data.rs").read()
num = re.compile(r"[-+]?[0-9]+\.?[0-9]*(?:[eE][-+]?[0-9]+)?")
SIZE = {"POM00": 12, "NUT00B": 4, "NUMAT": 12, "BP00": 29, "ERA00": 3, "PR00": 4, "PNM00B": 11, "C2I00B": 11,
        "C2TCIO": 28, "S00": 5, "C2T00B": 17}
parts = re.split(r"pub const (\w+)_DATA", text)
for name, body in zip(parts[1::2], parts[2::2]):
    xs = num.findall(body[body.index("= &["):])
    k = SIZE[name]
    assert len(xs) % k == 0, (name, len(xs), k)
    with open(f"{out}/{name}.txt", "w") as f:
        for i in range(0, len(xs), k):
            f.write(" ".join(xs[i:i + k]) + "\n")
    print(name, len(xs) // k)
