#!/bin/sh
# Compare the model of reading and writing f64 as text with Python's.  Needs a finished `lake build`.
set -e
here=$(cd "$(dirname "$0")" && pwd)
tmp=$(mktemp -d)
python3 "$here/text.py" "$tmp/data"
cd "$here/../../lean"
cp "$here/Text.lean.txt" "$tmp/Text.lean"
lake env lean --run "$tmp/Text.lean" "$tmp/data"
