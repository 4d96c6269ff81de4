#!/bin/sh
# Run every generator and see that nothing changes; then compare the translated source.
set -e
here=$(cd "$(dirname "$0")" && pwd)
cd "$here/.."
git diff --quiet -- lean || { echo "uncommitted changes under lean"; exit 2; }
for g in core errors tables eq copies marks spec_ops debug tells tells_instr depth steps target brief curt tests; do
  python3 "tools/gen_$g.py" > /dev/null || { echo "gen_$g.py failed"; exit 1; }
done
git diff --exit-code --stat -- lean
sh tools/check_source.sh
