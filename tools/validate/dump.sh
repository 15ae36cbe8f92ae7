#!/bin/sh
# Run the model of the dump program and compare its output with epv00_data.rs, character by character after the first line.
# Needs a finished `lake build`.
set -e
here=$(cd "$(dirname "$0")" && pwd)
tmp=$(mktemp -d)
cp "$here/Dump.lean.txt" "$tmp/Dump.lean"
cd "$here/../../lean"
lake env lean --run "$tmp/Dump.lean" | tail -n +2 > "$tmp/model"
tail -n +2 /repo/crates/tofas/src/epv00_data.rs | cmp - "$tmp/model" && echo same
