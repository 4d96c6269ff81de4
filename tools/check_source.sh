#!/bin/sh
# Regenerate lean/Verif/Source from the Rust text and compare with what is committed.
set -e
here=$(cd "$(dirname "$0")" && pwd)
tmp=$(mktemp -d)
python3 "$here/rs2lean.py" "${1:-/repo}" "$tmp"
python3 "$here/rs2lean_cli.py" "${1:-/repo}" "$tmp"
for f in "$tmp"/*.lean; do cmp "$f" "$here/../lean/Verif/Source/$(basename "$f")"; done
rm -r "$tmp"
echo same
