#!/bin/sh
# Prints the axioms of every property theorem (run after `lake build` in lean/).
cd "$(dirname "$0")/../lean" || exit 1
t=$(mktemp -d)
echo 'import Verif' > "$t/a.lean"
grep -rhoE '^theorem C[0-9]+_[A-Za-z0-9_]+' Verif/Props | sed 's/theorem /#print axioms Verif./' >> "$t/a.lean"
lake env lean "$t/a.lean"
rm -rf "$t"
