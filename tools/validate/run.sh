#!/bin/sh
# Run the model on the project's own test data.  Needs a finished `lake build`.
set -e
here=$(cd "$(dirname "$0")" && pwd)
tmp=$(mktemp -d)
python3 "$here/extract.py" "$tmp"
cd "$here/../../lean"
cp "$here/Validate.lean.txt" "$tmp/Validate.lean"
lake env lean --run "$tmp/Validate.lean" "$tmp" "$@"
